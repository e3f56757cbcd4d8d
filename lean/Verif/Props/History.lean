import Verif.Model.Reruns
import Verif.Props.Rerun
import Verif.Props.ProgramExample

/-!
# One call of the program after the other: C149
-/

namespace Verif.Props

open Main ConfigRead Dataset Rerun

theorem writeChunk_names {outs : List (String × String)} {axis : List ℚ} {groups : Nc.Groups} {slice : Dict String Chunk.Slice}
    {out : Run.Cell → Option Cell.Output} {d d' : Nc.Dir} (h : Nc.writeChunk outs axis groups slice out d = .ok d') (n : String) :
    (d' n).isSome = (d n).isSome := by
  unfold Nc.writeChunk at h
  split at h
  · cases h; rfl
  · rename_i ho
    clear ho
    induction groups generalizing d with
    | nil => rw [List.foldlM_nil] at h; cases h; rfl
    | cons g gs ih =>
      rw [List.foldlM_cons] at h
      cases hf : d g.1 with
      | none => simp only [bind, Except.bind, hf] at h; cases h
      | some f =>
        cases hw : Nc.writeBlocks outs slice g.2.length (Nc.blockOf axis g.2 out) f with
        | error e => simp only [bind, Except.bind, hf, hw] at h; cases h
        | ok f' =>
          simp only [bind, Except.bind, pure, Except.pure, hf, hw] at h
          rw [ih h]
          split
          · rename_i e; rw [e, hf]; rfl
          · rfl

theorem fold_names {step : Nc.Dir → Dict String Chunk.Slice → Except PyErr Nc.Dir}
    (hstep : ∀ d c d', step d c = .ok d' → ∀ n, (d' n).isSome = (d n).isSome) :
    ∀ {order : List (Dict String Chunk.Slice)} {d d' : Nc.Dir}, order.foldlM step d = .ok d' → ∀ n, (d' n).isSome = (d n).isSome := by
  intro order
  induction order with
  | nil => intro d d' h n; rw [List.foldlM_nil] at h; cases h; rfl
  | cons c cs ih =>
    intro d d' h n
    rw [List.foldlM_cons, bind_ok] at h
    obtain ⟨d1, h1, h2⟩ := h
    rw [ih h2, hstep _ _ _ h1]

theorem fold_over {step : Nc.Dir → Dict String Chunk.Slice → Except PyErr Nc.Dir} (old : Nc.Dir)
    (hstep : ∀ d c d', step d c = .ok d' → step (over old d) c = .ok (over old d')) :
    ∀ {order : List (Dict String Chunk.Slice)} {d d' : Nc.Dir}, order.foldlM step d = .ok d' →
      order.foldlM step (over old d) = .ok (over old d') := by
  intro order
  induction order with
  | nil => intro d d' h; rw [List.foldlM_nil] at h ⊢; cases h; rfl
  | cons c cs ih =>
    intro d d' h
    rw [List.foldlM_cons, bind_ok] at h ⊢
    obtain ⟨d1, h1, h2⟩ := h
    exact ⟨_, hstep _ _ _ h1, ih h2⟩

theorem main_names {w : World} {fuel : Nat} {p : Conf} {order order' : List (Dict String Chunk.Slice)} {d d' : Nc.Dir}
    (h : Main.simulate w fuel p order = .ok d) (h' : Main.simulate w fuel p order' = .ok d') (n : String) :
    (d n).isSome = (d' n).isSome := by
  have hw : ∀ su pa freq os (d : Nc.Dir) c d', Main.worker w fuel su pa freq os d c = .ok d' → ∀ n, (d' n).isSome = (d n).isSome := by
    intro su pa freq os d c d' h
    unfold Main.worker at h
    simp only [bind_ok] at h
    obtain ⟨i, h1, ld, h2, ag, h3, u, h4, out, h5, h6⟩ := h
    exact writeChunk_names h6
  unfold Main.simulate at h h'
  simp only [bind_ok] at h h'
  obtain ⟨su, h1, pa, h2, freq, h3, ag, h4, u, h5, os, h6, mask, h7, h8⟩ := h
  obtain ⟨su', g1, pa', g2, freq', g3, ag', g4, u', g5, os', g6, mask', g7, g8⟩ := h'
  obtain rfl := Except.ok.inj (h1.symm.trans g1)
  obtain rfl := Except.ok.inj (h2.symm.trans g2)
  obtain rfl := Except.ok.inj (h3.symm.trans g3)
  obtain rfl := Except.ok.inj (h4.symm.trans g4)
  obtain rfl := Except.ok.inj (h6.symm.trans g6)
  obtain rfl := Except.ok.inj (h7.symm.trans g7)
  by_cases hd : w.isDir (w.cfg.abspath su.outDir) = false
  · rw [if_pos hd] at h8
    simp only [bind_ok] at h8
    obtain ⟨_, h9, _⟩ := h8
    cases h9
  · rw [if_neg hd] at h8 g8
    simp only [bind_ok] at h8 g8
    obtain ⟨r, h9, h10⟩ := h8
    obtain ⟨r', g9, g10⟩ := g8
    obtain rfl := Except.ok.inj (h9.symm.trans g9)
    rw [fold_names (hw su pa freq os) h10, fold_names (hw su pa freq os) g10]

theorem vic_names {w : World} {fs : Vic.Files} {fuel : Nat} {p : Conf} {order order' : List (Dict String Chunk.Slice)} {d d' : Nc.Dir}
    (h : Vic.simulate w fs fuel p order = .ok d) (h' : Vic.simulate w fs fuel p order' = .ok d') (n : String) :
    (d n).isSome = (d' n).isSome := by
  have hw : ∀ su pa freq os (d : Nc.Dir) c d', Vic.worker w fs fuel su pa freq os d c = .ok d' → ∀ n, (d' n).isSome = (d n).isSome := by
    intro su pa freq os d c d' h
    unfold Vic.worker at h
    simp only [bind_ok] at h
    obtain ⟨i, h1, ld, h2, ag, h3, u, h4, out, h5, h6⟩ := h
    exact writeChunk_names h6
  unfold Vic.simulate at h h'
  simp only [bind_ok] at h h'
  obtain ⟨su, h1, pa, h2, freq, h3, ag, h4, u, h5, os, h6, mask, h7, h8⟩ := h
  obtain ⟨su', g1, pa', g2, freq', g3, ag', g4, u', g5, os', g6, mask', g7, g8⟩ := h'
  obtain rfl := Except.ok.inj (h1.symm.trans g1)
  obtain rfl := Except.ok.inj (h2.symm.trans g2)
  obtain rfl := Except.ok.inj (h3.symm.trans g3)
  obtain rfl := Except.ok.inj (h4.symm.trans g4)
  obtain rfl := Except.ok.inj (h6.symm.trans g6)
  obtain rfl := Except.ok.inj (h7.symm.trans g7)
  by_cases hd : w.isDir (w.cfg.abspath su.outDir) = false
  · rw [if_pos hd] at h8
    simp only [bind_ok] at h8
    obtain ⟨_, h9, _⟩ := h8
    cases h9
  · rw [if_neg hd] at h8 g8
    simp only [bind_ok] at h8 g8
    obtain ⟨r, h9, h10⟩ := h8
    obtain ⟨r', g9, g10⟩ := g8
    obtain rfl := Except.ok.inj (h9.symm.trans g9)
    rw [fold_names (hw su pa freq os) h10, fold_names (hw su pa freq os) g10]

theorem vic_over (old : Nc.Dir) {w : World} {fs : Vic.Files} {fuel : Nat} {p : Conf} {order : List (Dict String Chunk.Slice)} {d : Nc.Dir}
    (h : Vic.simulate w fs fuel p order = .ok d) : Vic.simulateIn old w fs fuel p order = .ok (over old d) := by
  unfold Vic.simulate at h
  unfold Vic.simulateIn
  simp only [bind_ok] at h ⊢
  obtain ⟨su, h1, pa, h2, freq, h3, ag, h4, u, h5, os, h6, mask, h7, h8⟩ := h
  refine ⟨su, h1, pa, h2, freq, h3, ag, h4, u, h5, os, h6, mask, h7, ?_⟩
  by_cases hd : w.isDir (w.cfg.abspath su.outDir) = false
  · rw [if_pos hd] at h8
    simp only [bind_ok] at h8
    obtain ⟨_, h9, _⟩ := h8
    cases h9
  · rw [if_neg hd] at h8 ⊢
    simp only [bind_ok] at h8 ⊢
    obtain ⟨r, h9, h10⟩ := h8
    refine ⟨(over old r.1, r.2), by rw [createIn_eq, h9]; rfl, fold_over old ?_ h10⟩
    intro d c d' h
    unfold Vic.worker at h ⊢
    simp only [bind_ok] at h ⊢
    obtain ⟨i, h1, ld, h2, ag, h3, u, h4, out, h5, h6⟩ := h
    exact ⟨i, h1, ld, h2, ag, h3, u, h4, out, h5, writeChunk_over old h6⟩

theorem main_over (old : Nc.Dir) {w : World} {fuel : Nat} {p : Conf} {order : List (Dict String Chunk.Slice)} {d : Nc.Dir}
    (h : Main.simulate w fuel p order = .ok d) : Main.simulateIn old w fuel p order = .ok (over old d) := by
  obtain ⟨d', h1, h2, h3⟩ := C131_ends old w fuel p order d h
  rw [h1]
  congr 1
  funext n
  cases hn : d n with
  | none => rw [h3 n hn]; simp [over, hn]
  | some f => rw [h2 n f hn, over_some hn]

theorem runText_params {w : World} {fs : Vic.Files} {fuel : Nat} {opts : Opts} {lines : List Txt.Str}
    {order : List (Dict String Chunk.Slice)} {d : Nc.Dir} :
    Program.runText w fs fuel opts lines order = .ok d ↔
      ∃ p, Program.paramsOf w opts lines = .ok p ∧ Program.simulate w fs fuel p order = .ok d := by
  unfold Program.runText Program.paramsOf
  cases hc : Config.checkConfigType lines
  · simp only [bind_ok, Program.runIni, pure_ok]
    constructor
    · rintro ⟨f, h1, r, h2, h3⟩
      exact ⟨_, ⟨f, h1, r, h2, rfl⟩, h3⟩
    · rintro ⟨p, ⟨f, h1, r, h2, rfl⟩, h3⟩
      exact ⟨f, h1, r, h2, h3⟩
  · simp only [bind_ok, Program.runYaml, pure_ok]
    constructor
    · rintro ⟨f, h1, r, h2, h3⟩
      exact ⟨_, ⟨f, h1, r, h2, rfl⟩, h3⟩
    · rintro ⟨p, ⟨f, h1, r, h2, rfl⟩, h3⟩
      exact ⟨f, h1, r, h2, h3⟩

theorem within_over (c : Program.Call) (old : Nc.Dir) {d : Nc.Dir} (h : c.alone = .ok d) : c.within old = .ok (over old d) := by
  obtain ⟨p, h1, h2⟩ := runText_params.1 h
  unfold Program.Call.within Program.runTextIn
  rw [bind_ok]
  refine ⟨p, h1, ?_⟩
  unfold Program.simulate at h2
  unfold Program.simulateIn
  rw [bind_ok] at h2 ⊢
  obtain ⟨su, h3, h4⟩ := h2
  refine ⟨su, h3, ?_⟩
  split
  · rename_i hf; rw [if_pos hf] at h4; exact vic_over old h4
  · rename_i hf; rw [if_neg hf] at h4; exact main_over old h4

/-- **C149**: a call of the program that ends in an empty directory ends in every directory, whatever the format of its forcing and of its
configuration; it leaves the same files and does not touch others. -/
theorem C149_call (c : Program.Call) (old d : Nc.Dir) (h : c.alone = .ok d) :
    ∃ d', c.within old = .ok d' ∧ (∀ n f, d n = some f → d' n = some f) ∧ ∀ n, d n = none → d' n = old n :=
  ⟨_, within_over c old h, fun _ _ hf => over_some hf, fun n hn => by simp [over, hn]⟩

/-- **C149**: after any number of calls in one directory, a file holds what the last of the calls that write it leaves in an empty
directory; files none of them writes are as they were. -/
theorem C149_history (l : List Program.Call) (d : Program.Call → Nc.Dir) (old : Nc.Dir) (h : ∀ c ∈ l, c.alone = .ok (d c)) :
    ∃ d', Program.calls l old = .ok d' ∧
      (∀ l₁ c l₂ n f, l = l₁ ++ c :: l₂ → d c n = some f → (∀ b ∈ l₂, d b n = none) → d' n = some f) ∧
      ∀ n, (∀ c ∈ l, d c n = none) → d' n = old n := by
  have none_of : ∀ {l : List Program.Call} {old d' : Nc.Dir}, (∀ c ∈ l, c.alone = .ok (d c)) → Program.calls l old = .ok d' →
      ∀ n, (∀ c ∈ l, d c n = none) → d' n = old n := by
    intro l
    induction l with
    | nil => intro old d' _ h n _; cases h; rfl
    | cons c cs ih =>
      intro old d' ha h n hn
      unfold Program.calls at h
      rw [List.foldlM_cons, within_over c old (ha c (by simp)), bind_ok] at h
      obtain ⟨d1, h1, h2⟩ := h
      obtain rfl := Except.ok.inj h1
      rw [ih (fun c hc => ha c (List.mem_cons_of_mem _ hc)) h2 n (fun c hc => hn c (List.mem_cons_of_mem _ hc))]
      simp [over, hn c (by simp)]
  induction l generalizing old with
  | nil => exact ⟨old, rfl, fun l₁ c l₂ n f e => by simp at e, fun _ _ => rfl⟩
  | cons c cs ih =>
    obtain ⟨d', h1, h2, h3⟩ := ih (over old (d c)) (fun c hc => h c (List.mem_cons_of_mem _ hc))
    have hall : Program.calls (c :: cs) old = .ok d' := by
      unfold Program.calls
      rw [List.foldlM_cons, within_over c old (h c (by simp)), bind_ok]
      exact ⟨_, rfl, h1⟩
    refine ⟨d', hall, fun l₁ c' l₂ n f e hf hb => ?_, none_of h hall⟩
    cases l₁ with
    | nil =>
      obtain ⟨rfl, rfl⟩ := List.cons.inj e
      rw [h3 n hb, over_some hf]
    | cons a l₁ =>
      obtain ⟨rfl, rfl⟩ := List.cons.inj e
      exact h2 l₁ c' l₂ n f rfl hf hb

/-- **C149**: a run that stopped after some of its chunks and is done again from the start leaves what it would have left at once, in the
same directory. -/
theorem C149_resume (c c' : Program.Call) (hc : c = { c' with order := c.order }) (old d d' : Nc.Dir) (h : c.alone = .ok d)
    (h' : c'.alone = .ok d') : Program.calls [c, c'] old = Program.calls [c'] old := by
  have names : ∀ n, (d n).isSome = (d' n).isSome := by
    obtain ⟨p, a1, a2⟩ := runText_params.1 h
    obtain ⟨p', b1, b2⟩ := runText_params.1 h'
    rw [hc] at a1 a2
    obtain rfl := Except.ok.inj (a1.symm.trans b1)
    unfold Program.simulate at a2 b2
    rw [bind_ok] at a2 b2
    obtain ⟨su, a3, a4⟩ := a2
    obtain ⟨su', b3, b4⟩ := b2
    obtain rfl := Except.ok.inj (a3.symm.trans b3)
    split at a4
    · rename_i hf
      rw [if_pos hf] at b4
      exact vic_names a4 b4
    · rename_i hf
      rw [if_neg hf] at b4
      exact main_names a4 b4
  have e : over (over old d) d' = over old d' := by
    funext n
    have := names n
    unfold over
    cases hd' : d' n with
    | some f => simp
    | none =>
      rw [hd'] at this
      cases hd : d n with
      | none => simp
      | some f => rw [hd] at this; cases this
  unfold Program.calls
  simp only [List.foldlM_cons, List.foldlM_nil, within_over c old h, within_over c' old h', bind, Except.bind, pure, Except.pure,
    within_over c' (over old d) h', e]

/-- **C149**: calls that write different files can be made in either order. -/
theorem C149_apart (c c' : Program.Call) (old d d' : Nc.Dir) (h : c.alone = .ok d) (h' : c'.alone = .ok d')
    (hn : ∀ n, d n = none ∨ d' n = none) : Program.calls [c, c'] old = Program.calls [c', c] old := by
  have e : over (over old d) d' = over (over old d') d := by
    funext n
    unfold over
    rcases hn n with e | e <;> rw [e] <;> simp
  unfold Program.calls
  simp only [List.foldlM_cons, List.foldlM_nil, within_over c old h, within_over c' old h', bind, Except.bind, pure, Except.pure,
    within_over c' (over old d) h', within_over c (over old d') h, e]

end Verif.Props
