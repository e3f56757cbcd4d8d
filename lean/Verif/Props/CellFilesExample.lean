import Verif.Props.CellFiles
import Verif.Props.FilesOverlapExample

/-!
# C140 is not vacuous
-/

namespace Verif.Props.MainExample

open Dataset ConfigRead Main Flt Verif.Props.FilesExample

theorem laid (dirs : String → Bool) {c : Run.Cell} (hc : Active domFile mask c) :
    Laid ["t_min", "t_max"] ⟨inputs, domFile, mask.dims, c⟩ where
  place := (plausible dirs c hc).place
  regular := ⟨fun v hv _ _ => (sourced dirs).forceShape v (by
    simp only [List.mem_cons, List.not_mem_nil, or_false] at hv ⊢
    rcases hv with rfl | rfl <;> simp), (plausible dirs c hc).stormDims⟩

/-- A cell is the same as itself. -/
theorem same_cell (dirs : String → Bool) (c : Run.Cell) : SameCell (sharedOf (world dirs) setup) ⟨inputs, domFile, mask.dims, c⟩
    ⟨inputs, domFile, mask.dims, c⟩ where
  start := rfl
  forcing := rfl
  names := rfl
  constants := rfl
  stateFile := rfl
  stateNames := rfl
  labels := fun _ _ => rfl
  place := fun v _ => place_alike sound (sourced dirs) (unequivocal dirs) ⟨rfl, rfl, rfl, rfl, rfl⟩ c v
  months := fun _ v _ _ => domTold_unique sound.domFile ((unequivocal dirs).names v) (unequivocal dirs).labels

/-- **C140 is not vacuous**: there are runs that have ended and a cell about which their files tell the same; it has the same temperatures on
every day, the first and the last included. -/
example : ∃ fuel dir os, runIni (world fun _ => true) fuel opts ini chunks.reverse = .ok dir ∧
    ∀ a < 2, SameOnDisk (world fun _ => true) (world fun _ => true) setup setup inputs inputs 2 2 none none os os dir dir [1, 0] [1, 0] "temp" a := by
  obtain ⟨fuel, h⟩ := runs_ini (fun _ => true) rfl
  obtain ⟨dir, hdir⟩ := h 0
  obtain ⟨p, os, ld, hready, hrun, -⟩ := C95_ini (w := world fun _ => true) doc_of from_ini (named _) sound (sourced _) (unsplit _)
    (plan _ _ renamed) sliced (List.reverse_perm _) (knows _) (fuel + 0)
  rw [hrun] at hdir
  have hl := Left.gridded p _ _ hready hdir
  refine ⟨_, dir, os, hrun.trans hdir, fun a ha => C140_elsewhere hl hl rfl (unequivocal _) active active (same_cell _ _) ?_ ?_ ?_ ha⟩
  · show "temp" ∈ setup.shared.outVars.keys
    decide
  · exact laid (fun _ => true) active
  · exact laid (fun _ => true) active

end Verif.Props.MainExample
