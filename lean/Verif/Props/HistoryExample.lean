import Verif.Props.History
import Verif.Props.Stopped

/-!
# C149 is not vacuous
-/

namespace Verif.Props.MainExample

open Dataset ConfigRead Main Flt Verif.Props.FilesExample

/-- A call over one of the two chunks of the example, and one over both, both get there; so the second makes up for the first. -/
example (fs : Vic.Files) (old : Nc.Dir) : ∃ fuel d d', (⟨world fun _ => true, fs, fuel, opts, lines, chunks.reverse.take 1⟩ : Program.Call).alone = .ok d ∧
    (⟨world fun _ => true, fs, fuel, opts, lines, chunks.reverse⟩ : Program.Call).alone = .ok d' ∧
    Program.calls [⟨world fun _ => true, fs, fuel, opts, lines, chunks.reverse.take 1⟩,
      ⟨world fun _ => true, fs, fuel, opts, lines, chunks.reverse⟩] old =
    Program.calls [⟨world fun _ => true, fs, fuel, opts, lines, chunks.reverse⟩] old := by
  obtain ⟨fuel, h⟩ := runs_ini (fun _ => true) rfl
  obtain ⟨dir', hdir'⟩ := h 0
  obtain ⟨p, hp, hu, -, hrun⟩ := ini_params (w := world fun _ => true) doc_of from_ini
  obtain ⟨os, hos, e, hnm⟩ := ini_outs (w := world fun _ => true) doc_of from_ini
  have hready : Ready (world fun _ => true) p setup inputs domFile mask 2 none os chunks.reverse := by
    refine ⟨hp, hu, named _, sound, sourced _, unsplit _, hos, ?_, _, sliced, List.reverse_perm _⟩
    have : outputOf (world fun _ => true) setup none os = ⟨none, ((world fun _ => true).cfg.abspath setup.outDir).toList,
        setup.outPrefix.toList, fun v => ((doc.outVars.getD []).get? v).getD v⟩ := by
      rw [← hnm none]; rfl
    rw [this]
    exact plan _ _ renamed
  have hpre : ∀ s ∈ chunks.reverse.take 1, s ∈ chunks.reverse := fun s hs => List.mem_of_mem_take hs
  obtain ⟨dir, hdir⟩ := C143_passes (fuel := fuel + 0) hready hpre ((hrun _ _).symm.trans hdir')
  have text : ∀ {order d}, Main.runIni (world fun _ => true) (fuel + 0) opts ini order = .ok d →
      (⟨world fun _ => true, fs, fuel + 0, opts, lines, order⟩ : Program.Call).alone = .ok d := by
    intro order d h
    unfold Program.Call.alone Program.runText
    simp only [typed, read_lines]
    exact (C142_ini (fs := fs) doc_of).2 (.inl ⟨rfl, h⟩)
  have h1 := text ((hrun _ _).trans hdir)
  have h2 := text hdir'
  exact ⟨_, dir, dir', h1, h2, C149_resume _ _ rfl old _ _ h1 h2⟩

end Verif.Props.MainExample
