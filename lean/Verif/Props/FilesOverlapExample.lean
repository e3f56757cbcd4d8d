import Verif.Props.FilesOverlap
import Verif.Props.EndToEndExample

/-!
# C108 is not vacuous
-/

namespace Verif.Props.MainExample

open Dataset ConfigRead Main Flt Verif.Props.FilesExample

/-- These files are unequivocal. -/
theorem unequivocal (dirs : String → Bool) : Unequivocal (sharedOf (world dirs) setup) inputs where
  names := fun v u u' h h' => by
    have key : ∀ u, inputs.domNames.get? u = some v → u = v := by
      intro u h
      have h1 := Dict.mem_of_get? _ h
      simp only [FilesExample.inputs, List.mem_cons, List.not_mem_nil, or_false, Prod.mk.injEq] at h1
      rcases h1 with ⟨a, b⟩ | ⟨a, b⟩ | ⟨a, b⟩ | ⟨a, b⟩ <;> exact a.trans b.symm
    exact (key u h).trans (key u' h').symm
  labels := (sourced dirs).distinct
  constants := by show ["wind"].Nodup; decide
  storms := fun _ => by
    have : ∀ v, v ≠ "wind" → v ≠ "prec" → v ≠ "t_min" → v ≠ "t_max" → ¬ Provided inputs v := by
      rintro v h1 h2 h3 h4 (h | ⟨u, h⟩)
      · exact h1 (by have h : v ∈ ["wind"] := h; simpa using h)
      · rcases name_of h with ⟨-, h⟩ | ⟨-, h⟩ | ⟨-, h⟩
        exacts [h2 h, h3 h, h4 h]
    exact ⟨this _ (by decide) (by decide) (by decide) (by decide), this _ (by decide) (by decide) (by decide) (by decide)⟩

/-- **C108 is not vacuous**: there are runs that have ended with a day in common; the files they leave hold the same temperatures for it. -/
example : ∃ fuel dir os, runIni (world fun _ => true) fuel opts ini chunks.reverse = .ok dir ∧
    SameOnDisk (world fun _ => true) (world fun _ => true) setup setup inputs inputs 2 2 none none os os dir dir [1, 0] [1, 0] "temp" 0 := by
  obtain ⟨fuel, h⟩ := runs_ini (fun _ => true) rfl
  obtain ⟨dir, hdir⟩ := h 0
  obtain ⟨p, os, ld, hready, hrun, -⟩ := C95_ini (w := world fun _ => true) doc_of from_ini (named _) sound (sourced _) (unsplit _)
    (plan _ _ renamed) sliced (List.reverse_perm _) (knows _) (fuel + 0)
  have hsub : (sharedOf (world fun _ => true) setup).ts < 1440 := by show (360 : Nat) < 1440; norm_num
  rw [hrun] at hdir
  have hl := Left.gridded p _ _ hready hdir
  obtain ⟨hm, hsp, hcl⟩ | ⟨hm, -⟩ := sufficient (fun _ => true) [1, 0]
  · refine ⟨_, dir, os, hrun.trans hdir, C108_overlap_estimated hl hl rfl hsub rfl hm hsp hcl (unequivocal _)
      ⟨⟨rfl, rfl, rfl, rfl, rfl⟩, rfl, Or.inr ⟨rfl, rfl, rfl, rfl⟩, by norm_num, by norm_num⟩ active (plausible _ _ active) (plausible _ _ active)
      ?_ (by simp)⟩
    show "temp" ∈ setup.shared.outVars.keys
    decide
  · cases hm

end Verif.Props.MainExample
