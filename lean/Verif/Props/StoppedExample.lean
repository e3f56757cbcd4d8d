import Verif.Props.Stopped
import Verif.Props.MainExample

/-!
# C143 is not vacuous
-/

namespace Verif.Props.MainExample

open Dataset ConfigRead Main Flt Verif.Props.FilesExample

/-- **C143 is not vacuous**: a run with two chunks that stops after the first has the values of the complete run in the one cell, and nothing in
the other. -/
example : ∃ fuel dir dir' p os, simulate (world fun _ => true) fuel p (chunks.reverse.take 1) = .ok dir ∧
    simulate (world fun _ => true) fuel p chunks.reverse = .ok dir' ∧
    ∃ ld, ∃ st : Stamps (jobOfSetup (world fun _ => true) setup inputs ld 2 none os), st.files.flatten = st.axis ∧
      ∀ v ∈ setup.shared.outVars.keys, ∀ g ∈ st.files, ∃ name f f' ov ov' nm,
        Times.filename ((world fun _ => true).cfg.abspath setup.outDir).toList setup.outPrefix.toList g = .ok name ∧
        dir (String.ofList name) = some f ∧ dir' (String.ofList name) = some f' ∧ f.vars.get? nm = some ov ∧ f'.vars.get? nm = some ov' ∧
        ∀ k < g.length, stored (ov.data [k, 1, 0]) = stored (ov'.data [k, 1, 0]) ∧ stored (ov.data [k, 0, 0]) = nan := by
  obtain ⟨fuel, h⟩ := runs_ini (fun _ => true) rfl
  obtain ⟨dir', hdir'⟩ := h 0
  obtain ⟨p, os, -, hready, hrun, -⟩ := C95_ini (w := world fun _ => true) doc_of from_ini (named _) sound (sourced _) (unsplit _)
    (plan _ _ renamed) sliced (List.reverse_perm _) (knows _) (fuel + 0)
  rw [hrun] at hdir'
  have hpre : ∀ s ∈ chunks.reverse.take 1, s ∈ chunks.reverse := fun s hs => List.mem_of_mem_take hs
  obtain ⟨dir, hdir⟩ := C143_passes hready hpre hdir'
  refine ⟨_, dir, dir', p, os, hdir, hdir', ?_⟩
  obtain ⟨ld, hw, h⟩ := C143_final hready hpre hdir hdir'
  obtain ⟨ld', hw', e1, e2, -⟩ := C95_run hready 0
  obtain rfl : ld = ld' := Except.ok.inj (hw.symm.trans hw')
  obtain ⟨st, hst, h⟩ := h
  have hdone : ∀ c, (jobOfSetup (world fun _ => true) setup inputs ld 2 none os).Done (chunks.reverse.take 1) c ↔
      ∃ s ∈ chunks.reverse.take 1, c ∈ Chunk.product (Run.axes (maskDims domFile mask.dims) s) := by
    intro c
    unfold Job.Done
    rw [show (jobOfSetup (world fun _ => true) setup inputs ld 2 none os).dims = maskDims domFile mask.dims by
      show maskDims ld.dom ld.mask.dims = _
      rw [e1, e2]]
  refine ⟨ld, st, hst, fun v hv g hg => ?_⟩
  obtain ⟨name, f, f', ov, ov', a1, a2, a3, a4, a5, a6⟩ := h [1, 0] v hv g hg
  obtain ⟨name2, f2, f2', ov2, ov2', b1, b2, b3, b4, b5, b6⟩ := h [0, 0] v hv g hg
  obtain rfl := Except.ok.inj (a1.symm.trans b1)
  obtain rfl := Option.some.inj (a2.symm.trans b2)
  obtain rfl := Option.some.inj (a4.symm.trans b4)
  exact ⟨name, f, f', ov, ov', _, a1, a2, a3, a4, a5, fun k hk => ⟨(a6 k hk).1 ((hdone _).2 (by decide +kernel)),
    (b6 k hk).2 (fun hd => absurd ((hdone _).1 hd) (by decide +kernel))⟩⟩

end Verif.Props.MainExample
