import Verif.Props.Program
import Verif.Props.MainDocs
import Verif.Props.VicExample

/-!
# Runs of the program over files of either kind
-/

namespace Verif.Props

open Dataset ConfigRead Main Flt

/-- **C142 is not vacuous**: the program runs over a NetCDF file … -/
theorem ProgramExample.gridded (fs : Vic.Files) : ∃ fuel dir,
    Program.runIni (MainExample.world fun _ => true) fs fuel MainExample.opts MainExample.ini MainExample.chunks.reverse = .ok dir := by
  obtain ⟨fuel, h⟩ := MainExample.runs_ini (fun _ => true) rfl
  obtain ⟨dir, h⟩ := h 0
  exact ⟨_, dir, (C142_ini MainExample.doc_of).2 (.inl ⟨rfl, h⟩)⟩

/-- … and over files for single cells … -/
theorem ProgramExample.cells : ∃ fuel dir,
    Program.runIni (VicExample.world fun _ => true) VicExample.files fuel MainExample.opts VicExample.ini MainExample.chunks.reverse = .ok dir := by
  obtain ⟨fuel, h⟩ := VicExample.runs (fun _ => true) rfl
  obtain ⟨dir, h⟩ := h 0
  exact ⟨_, dir, (C142_ini VicExample.doc_of).2 (.inr ⟨.inl rfl, h⟩)⟩

/-- … and from a YAML file. -/
theorem ProgramExample.yaml (fs : Vic.Files) : ∃ fuel dir,
    Program.runYaml (MainExample.world fun _ => true) fs fuel MainExample.opts MainExample.yaml MainExample.chunks.reverse = .ok dir := by
  obtain ⟨fuel, dir, h⟩ := MainExample.runs_yaml
  refine ⟨fuel, dir, ?_⟩
  have h' := h
  unfold Main.runYaml at h'
  rw [bind_ok] at h'
  obtain ⟨conf, h1, h2⟩ := h'
  unfold Program.runYaml
  rw [bind_ok]
  refine ⟨conf, h1, ?_⟩
  have hu : use (MainExample.world fun _ => true).cfg Units.importAttrs ((classParams Params.importNames).update conf) = .ok MainExample.setup := by
    have := MainExample.from_yaml
    unfold fromYaml at this
    rw [bind_ok] at this
    obtain ⟨conf', k1, k2⟩ := this
    obtain rfl := Except.ok.inj (h1.symm.trans k1)
    exact k2
  exact (C142_format hu).2 (.inl ⟨rfl, h2⟩)

end Verif.Props
