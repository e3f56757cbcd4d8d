import Verif.Model.Locks
import Verif.Props.Workers

/-!
# The two locks of an output file: C130
-/

namespace Verif.Props.TwoLocks

open Locks Run

variable {ι π W : Type} [DecidableEq ι] [DecidableEq π]

/-! ## What the protocol with one lock per file sees -/

/-- A worker holds the file exactly while it holds the file's lock. -/
def seenW (g : Setting ι π) (i : ι) (w : Worker W) : Workers.Worker W :=
  match w.phase with
  | .idle => ⟨w.todo, .idle⟩
  | .half => ⟨w.todo, if g.order i (w.todo.headD "") then .idle else .locked⟩
  | .locked => ⟨w.todo, .locked⟩
  | .loaded buf => ⟨w.todo, .loaded buf⟩
  | .stored => ⟨w.todo, .stored⟩
  | .closing => if g.order i (w.todo.headD "") then ⟨w.todo, .stored⟩ else ⟨w.todo.tail, .idle⟩

def seen (g : Setting ι π) (s : St ι π W) : Workers.St ι W where
  files := s.files
  lock := fun f => s.lock (.file f)
  ws := fun i => seenW g i (s.ws i)

omit [DecidableEq π] in
theorem seen_ws (g : Setting ι π) (ws : ι → Worker W) (i : ι) (w : Worker W) :
    (fun j => seenW g j (setW ws i w j)) = Workers.setW (fun j => seenW g j (ws j)) i (seenW g i w) := by
  funext j
  unfold setW Workers.setW
  by_cases h : j = i
  · subst h; simp
  · simp [h]

omit [DecidableEq π] in
theorem seen_same (g : Setting ι π) (ws : ι → Worker W) (i : ι) (w : Worker W)
    (h : seenW g i w = seenW g i (ws i)) :
    (fun j => seenW g j (setW ws i w j)) = fun j => seenW g j (ws j) := by
  rw [seen_ws]
  funext j
  unfold Workers.setW
  by_cases hj : j = i
  · subst hj; simp [h]
  · simp [hj]

omit [DecidableEq ι] in
theorem lock_file (l : Key π → Option ι) (f : String) (v : Option ι) :
    (fun f' => setL l (.file f) v (.file f')) = Workers.setAt (fun f' => l (.file f')) f v := by
  funext f'
  unfold setL Workers.setAt
  by_cases h : f' = f
  · subst h; simp
  · simp [h]

omit [DecidableEq ι] in
theorem lock_lib (l : Key π → Option ι) (p : π) (v : Option ι) :
    (fun f' => setL l (.lib p) v (.file f')) = fun f' => l (.file f') := by
  funext f'; simp [setL]

/-- Every step is a step of the protocol with one lock per file, or none at all. -/
theorem seen_step (g : Setting ι π) (jobs : ι → Workers.Job W) (names : List String) {s s' : St ι π W}
    (hr : Workers.Reach (Workers.lockTable names) jobs names (seen g s)) (hd : Disjoint jobs)
    (hn : names.Nodup) (h : Step g jobs s s') :
    seen g s' = seen g s ∨ Workers.Step (Workers.lockTable names) jobs (seen g s) (seen g s') := by
  have hI := inv_reach jobs hd names hn hr
  have real : ∀ (i : ι) (f : String) (rest : List String), ((seen g s).ws i).todo = f :: rest →
      Workers.lockTable names f = true := by
    intro i f rest hf
    simp only [Workers.lockTable, decide_eq_true_eq]
    exact mem_todo hI (i := i) (by rw [hf]; simp)
  cases h with
  | take i f rest hw hl =>
    by_cases ho : g.order i f = true
    · left
      simp only [seen, Setting.first, ho, if_true, lock_lib]
      rw [seen_same g s.ws i _ (by rw [hw]; simp [seenW, ho])]
    · right
      simp only [Setting.first, ho, if_false, Bool.false_eq_true] at hl
      have ha : (seen g s).ws i = ⟨f :: rest, .idle⟩ := by simp [seen, seenW, hw]
      have st := Workers.Step.acquire (real := Workers.lockTable names) (jobs := jobs) (seen g s) i f rest
        ha (fun _ => hl)
      rw [if_pos (real i f rest (by rw [ha]))] at st
      convert st using 1
      simp only [seen, Setting.first, ho, if_false, Bool.false_eq_true, lock_file]
      rw [seen_ws]
      simp [seenW, ho]
  | both i f rest hw hl =>
    by_cases ho : g.order i f = true
    · right
      simp only [Setting.second, ho, if_true] at hl
      have ha : (seen g s).ws i = ⟨f :: rest, .idle⟩ := by simp [seen, seenW, hw, ho]
      have st := Workers.Step.acquire (real := Workers.lockTable names) (jobs := jobs) (seen g s) i f rest
        ha (fun _ => hl)
      rw [if_pos (real i f rest (by rw [ha]))] at st
      convert st using 1
      simp only [seen, Setting.second, ho, if_true, lock_file]
      rw [seen_ws]
      simp [seenW]
    · left
      simp only [seen, Setting.second, ho, if_false, Bool.false_eq_true, lock_lib]
      rw [seen_same g s.ws i _ (by rw [hw]; simp [seenW, ho])]
  | load i f rest hw =>
    right
    have ha : (seen g s).ws i = ⟨f :: rest, .locked⟩ := by simp [seen, seenW, hw]
    have st := Workers.Step.load (real := Workers.lockTable names) (jobs := jobs) (seen g s) i f rest ha
    convert st using 1
    simp only [seen]
    rw [seen_ws]
    simp [seenW]
  | store i f rest buf hw =>
    right
    have ha : (seen g s).ws i = ⟨f :: rest, .loaded buf⟩ := by simp [seen, seenW, hw]
    have st := Workers.Step.store (real := Workers.lockTable names) (jobs := jobs) (seen g s) i f rest buf ha
    convert st using 1
    simp only [seen]
    rw [seen_ws]
    simp [seenW]
  | drop i f rest hw =>
    by_cases ho : g.order i f = true
    · left
      simp only [seen, Setting.first, ho, if_true, lock_lib]
      rw [seen_same g s.ws i _ (by rw [hw]; simp [seenW, ho])]
    · right
      have ha : (seen g s).ws i = ⟨f :: rest, .stored⟩ := by simp [seen, seenW, hw]
      have st := Workers.Step.release (real := Workers.lockTable names) (jobs := jobs) (seen g s) i f rest ha
      rw [if_pos (real i f rest (by rw [ha]))] at st
      convert st using 1
      simp only [seen, Setting.first, ho, if_false, Bool.false_eq_true, lock_file]
      rw [seen_ws]
      simp [seenW, ho]
  | leave i f rest hw =>
    by_cases ho : g.order i f = true
    · right
      have ha : (seen g s).ws i = ⟨f :: rest, .stored⟩ := by simp [seen, seenW, hw, ho]
      have st := Workers.Step.release (real := Workers.lockTable names) (jobs := jobs) (seen g s) i f rest ha
      rw [if_pos (real i f rest (by rw [ha]))] at st
      convert st using 1
      simp only [seen, Setting.second, ho, if_true, lock_file]
      rw [seen_ws]
      simp [seenW]
    · left
      simp only [seen, Setting.second, ho, if_false, Bool.false_eq_true, lock_lib]
      rw [seen_same g s.ws i _ (by rw [hw]; simp [seenW, ho])]

theorem seen_reach (g : Setting ι π) (jobs : ι → Workers.Job W) (hd : Disjoint jobs) (names : List String)
    (hn : names.Nodup) {n : Nat} {s : St ι π W} (h : Reach g jobs names n s) :
    Workers.Reach (Workers.lockTable names) jobs names (seen g s) := by
  induction h with
  | start => exact .start
  | step _ st ih =>
    rcases seen_step g jobs names ih hd hn st with e | e
    · rw [e]; exact ih
    · exact ih.step e

/-! ## Who holds what -/

/-- The phases in which a worker holds lock `k` at file `f`. -/
def Holds (g : Setting ι π) (i : ι) (f : String) (ph : Phase W) (k : Key π) : Prop :=
  (k = g.first i f ∧ match ph with | .half | .locked | .loaded _ | .stored => True | _ => False) ∨
  (k = g.second i f ∧ match ph with | .locked | .loaded _ | .stored | .closing => True | _ => False)

/-- Every lock that is taken is held by a worker that is at a file of which it is one of the two. -/
def Held (g : Setting ι π) (s : St ι π W) : Prop :=
  ∀ k j, s.lock k = some j → ∃ f rest, (s.ws j).todo = f :: rest ∧ Holds g j f (s.ws j).phase k

omit [DecidableEq ι] [DecidableEq π] in
theorem first_ne_second (g : Setting ι π) (i : ι) (f : String) : g.first i f ≠ g.second i f := by
  unfold Setting.first Setting.second
  split <;> simp

theorem held_step (g : Setting ι π) (jobs : ι → Workers.Job W) {s s' : St ι π W} (hh : Held g s)
    (h : Step g jobs s s') : Held g s' := by
  -- a worker that takes or gives back one lock keeps the other
  have key : ∀ (i : ι) (w : Worker W) (l : Key π → Option ι),
      (∀ k j, j ≠ i → l k = some j → s.lock k = some j) →
      (∀ k, l k = some i → ∃ f rest, w.todo = f :: rest ∧ Holds g i f w.phase k) →
      ∀ k j, l k = some j → ∃ f rest, (setW s.ws i w j).todo = f :: rest ∧
        Holds g j f (setW s.ws i w j).phase k := by
    intro i w l h1 h2 k j hk
    by_cases hj : j = i
    · subst hj; simpa [setW] using h2 k hk
    · simpa [setW, hj] using hh k j (h1 k j hj hk)
  have other : ∀ (i : ι) (k : Key π) (v : Option ι), (v = none ∨ v = some i) →
      ∀ k' j, j ≠ i → setL s.lock k v k' = some j → s.lock k' = some j := by
    intro i k v hv k' j hj hk
    unfold setL at hk
    split at hk
    · rcases hv with rfl | rfl
      · simp at hk
      · exact absurd (Option.some.inj hk).symm hj
    · exact hk
  cases h with
  | take i f rest hw hl =>
    refine key i _ _ (other i _ _ (Or.inr rfl)) (fun k hk => ⟨f, rest, rfl, ?_⟩)
    dsimp only [setL] at hk
    split at hk
    · exact Or.inl ⟨by assumption, trivial⟩
    · obtain ⟨f', rest', h1, h2⟩ := hh k i hk
      rw [hw] at h1 h2
      rcases h2 with ⟨_, h2⟩ | ⟨_, h2⟩ <;> exact h2.elim
  | both i f rest hw hl =>
    refine key i _ _ (other i _ _ (Or.inr rfl)) (fun k hk => ⟨f, rest, rfl, ?_⟩)
    dsimp only [setL] at hk
    split at hk
    · exact Or.inr ⟨by assumption, trivial⟩
    · obtain ⟨f', rest', h1, h2⟩ := hh k i hk
      rw [hw] at h1 h2
      cases h1
      rcases h2 with ⟨h2, _⟩ | ⟨_, h2⟩
      · exact Or.inl ⟨h2, trivial⟩
      · exact h2.elim
  | load i f rest hw =>
    refine key i _ _ (fun k j _ hk => hk) (fun k hk => ⟨f, rest, rfl, ?_⟩)
    obtain ⟨f', rest', h1, h2⟩ := hh k i hk
    rw [hw] at h1 h2
    cases h1
    rcases h2 with ⟨h2, _⟩ | ⟨h2, _⟩
    · exact Or.inl ⟨h2, trivial⟩
    · exact Or.inr ⟨h2, trivial⟩
  | store i f rest buf hw =>
    refine key i _ _ (fun k j _ hk => hk) (fun k hk => ⟨f, rest, rfl, ?_⟩)
    obtain ⟨f', rest', h1, h2⟩ := hh k i hk
    rw [hw] at h1 h2
    cases h1
    rcases h2 with ⟨h2, _⟩ | ⟨h2, _⟩
    · exact Or.inl ⟨h2, trivial⟩
    · exact Or.inr ⟨h2, trivial⟩
  | drop i f rest hw =>
    refine key i _ _ (other i _ _ (Or.inl rfl)) (fun k hk => ⟨f, rest, rfl, ?_⟩)
    dsimp only [setL] at hk
    split at hk
    · cases hk
    · obtain ⟨f', rest', h1, h2⟩ := hh k i hk
      rw [hw] at h1 h2
      cases h1
      rcases h2 with ⟨h2, _⟩ | ⟨h2, _⟩
      · contradiction
      · exact Or.inr ⟨h2, trivial⟩
  | leave i f rest hw =>
    refine key i _ _ (other i _ _ (Or.inl rfl)) (fun k hk => ?_)
    exfalso
    dsimp only [setL] at hk
    split at hk
    · cases hk
    · obtain ⟨f', rest', h1, h2⟩ := hh k i hk
      rw [hw] at h1 h2
      cases h1
      rcases h2 with ⟨_, h2⟩ | ⟨h2, _⟩
      · exact h2.elim
      · contradiction

theorem held_reach (g : Setting ι π) (jobs : ι → Workers.Job W) (names : List String) {n : Nat}
    {s : St ι π W} (h : Reach g jobs names n s) : Held g s := by
  induction h with
  | start => intro k j hk; simp [init] at hk
  | step _ st ih => exact held_step g jobs ih st

theorem todo_nodup (g : Setting ι π) (jobs : ι → Workers.Job W) (names : List String)
    (hn : names.Nodup) {n : Nat} {s : St ι π W} (h : Reach g jobs names n s) (i : ι) :
    (s.ws i).todo.Nodup := by
  induction h with
  | start => exact hn
  | step _ st ih =>
    have key : ∀ (ws : ι → Worker W) (j : ι) (w : Worker W), (ws i).todo.Nodup →
        ((ws j).todo.Nodup → w.todo.Nodup) → (setW ws j w i).todo.Nodup := by
      intro ws j w h1 h2
      unfold setW
      split
      · rename_i e; subst e; exact h2 h1
      · exact h1
    cases st with
    | take j f rest hw _ => exact key _ j _ ih (by rw [hw]; exact id)
    | both j f rest hw _ => exact key _ j _ ih (by rw [hw]; exact id)
    | load j f rest hw => exact key _ j _ ih (by rw [hw]; exact id)
    | store j f rest buf hw => exact key _ j _ ih (by rw [hw]; exact id)
    | drop j f rest hw => exact key _ j _ ih (by rw [hw]; exact id)
    | leave j f rest hw => exact key _ j _ ih (by rw [hw]; exact fun e => (List.nodup_cons.1 e).2)

/-- Steps a worker still has to take. -/
def stepsLeft (w : Worker W) : Nat :=
  6 * w.todo.length - match w.phase with
    | .idle => 0
    | .half => 1
    | .locked => 2
    | .loaded _ => 3
    | .stored => 4
    | .closing => 5

theorem stepsLeft_step [Fintype ι] (g : Setting ι π) (jobs : ι → Workers.Job W) {s s' : St ι π W}
    (h : Step g jobs s s') : ∑ i, stepsLeft (s'.ws i) < ∑ i, stepsLeft (s.ws i) := by
  have key : ∀ (i : ι) (w : Worker W), s'.ws = setW s.ws i w → stepsLeft w < stepsLeft (s.ws i) →
      ∑ i, stepsLeft (s'.ws i) < ∑ i, stepsLeft (s.ws i) := by
    intro i w hw hlt
    apply Finset.sum_lt_sum
    · intro j _
      rw [hw]
      unfold setW
      by_cases hj : j = i
      · subst hj; simp [hlt.le]
      · simp [hj]
    · exact ⟨i, Finset.mem_univ i, by rw [hw]; simpa [setW] using hlt⟩
  cases h with
  | take i f rest hw _ => exact key i _ rfl (by rw [hw]; simp [stepsLeft])
  | both i f rest hw _ => exact key i _ rfl (by rw [hw]; simp [stepsLeft]; omega)
  | load i f rest hw => exact key i _ rfl (by rw [hw]; simp [stepsLeft]; omega)
  | store i f rest buf hw => exact key i _ rfl (by rw [hw]; simp [stepsLeft]; omega)
  | drop i f rest hw => exact key i _ rfl (by rw [hw]; simp [stepsLeft]; omega)
  | leave i f rest hw => exact key i _ rfl (by rw [hw]; simp [stepsLeft]; omega)

end Verif.Props.TwoLocks

namespace Verif.Props

open Locks Run TwoLocks

variable {ι π W : Type} [DecidableEq ι] [DecidableEq π]

/-- **C130**: whatever the processes and the orders of the pairs, when all workers have finished every
file holds every worker's region and nothing else. -/
theorem C130_no_lost_update (g : Setting ι π) (jobs : ι → Workers.Job W) (hd : Disjoint jobs)
    (names : List String) (hn : names.Nodup) (n : Nat) (s : St ι π W) (h : Reach g jobs names n s)
    (hdone : Done s) :
    ∀ f ∈ names, (∀ i c, (jobs i).region c = true → s.files f c = (jobs i).val f c) ∧
      ∀ c, (∀ i, (jobs i).region c = false) → s.files f c = none := by
  refine C08_no_lost_update jobs hd names hn (seen g s) (seen_reach g jobs hd names hn h) ?_
  intro i
  have := hdone i
  simp only [seen, seenW]
  cases (s.ws i).phase <;> simp [this] <;> split <;> simp

/-- **C130**: a file is never open in two workers at once, not even in two processes. -/
theorem C130_one_at_a_time (g : Setting ι π) (jobs : ι → Workers.Job W) (hd : Disjoint jobs)
    (names : List String) (hn : names.Nodup) (n : Nat) (s : St ι π W) (h : Reach g jobs names n s)
    (i j : ι) (f : String) (ri rj : List String) (bi bj : Cell → Option W)
    (hi : s.ws i = ⟨f :: ri, .loaded bi⟩) (hj : s.ws j = ⟨f :: rj, .loaded bj⟩) : i = j :=
  C08_mutual_exclusion jobs hd names hn (seen g s) (seen_reach g jobs hd names hn h) i j f ri rj
    (by simp [seen, seenW, hi]) (by simp [seen, seenW, hj]) (by simp [seen, seenW, hi]) (by simp [seen, seenW, hj])

/-- **C130**: workers that find the locks of a file in the same order never block each other for good,
even if the order is another one for another file. -/
theorem C130_no_deadlock (g : Setting ι π) (ha : g.Agreed) (jobs : ι → Workers.Job W)
    (names : List String) (n : Nat) (s : St ι π W) (h : Reach g jobs names n s) (hnd : ¬ Done s) :
    ∃ s', Step g jobs s s' := by
  have hh := held_reach g jobs names h
  have move : ∀ j f rest, (s.ws j).todo = f :: rest →
      (match (s.ws j).phase with | .locked | .loaded _ | .stored | .closing => True | _ => False) →
      ∃ s', Step g jobs s s' := by
    intro j f rest h1 h2
    cases hp : (s.ws j).phase with
    | idle => rw [hp] at h2; exact h2.elim
    | half => rw [hp] at h2; exact h2.elim
    | locked => exact ⟨_, .load s j f rest (by rw [← h1, ← hp])⟩
    | loaded buf => exact ⟨_, .store s j f rest buf (by rw [← h1, ← hp])⟩
    | stored => exact ⟨_, .drop s j f rest (by rw [← h1, ← hp])⟩
    | closing => exact ⟨_, .leave s j f rest (by rw [← h1, ← hp])⟩
  -- a worker that waits for the lock of a file, the library's in hand
  have lib : ∀ j f rest, (s.ws j).todo = f :: rest → (s.ws j).phase = .half → g.order j f = true →
      ∃ s', Step g jobs s s' := by
    intro j f rest h1 hp ho
    cases hl : s.lock (g.second j f) with
    | none => exact ⟨_, .both s j f rest (by rw [← h1, ← hp]) hl⟩
    | some l =>
      obtain ⟨f', rest', h2, h3⟩ := hh _ l hl
      rcases h3 with ⟨h3, _⟩ | ⟨_, h3⟩
      · exfalso
        rw [Setting.second, if_pos ho, Setting.first] at h3
        split at h3
        · cases h3
        · rename_i hne
          cases h3
          exact hne (by rw [ha l j, ho])
      · exact move l f' rest' h2 h3
  have half : ∀ j f rest, (s.ws j).todo = f :: rest → (s.ws j).phase = .half →
      ∃ s', Step g jobs s s' := by
    intro j f rest h1 hp
    by_cases ho : g.order j f = true
    · exact lib j f rest h1 hp ho
    · cases hl : s.lock (g.second j f) with
      | none => exact ⟨_, .both s j f rest (by rw [← h1, ← hp]) hl⟩
      | some l =>
        obtain ⟨f', rest', h2, h3⟩ := hh _ l hl
        rcases h3 with ⟨h3, h4⟩ | ⟨_, h3⟩
        · rw [Setting.second, if_neg ho, Setting.first] at h3
          split at h3
          · rename_i hl'
            cases hq : (s.ws l).phase with
            | half => exact lib l f' rest' h2 hq hl'
            | idle => rw [hq] at h4; exact h4.elim
            | closing => rw [hq] at h4; exact h4.elim
            | locked => exact move l f' rest' h2 (by rw [hq]; trivial)
            | loaded buf => exact move l f' rest' h2 (by rw [hq]; trivial)
            | stored => exact move l f' rest' h2 (by rw [hq]; trivial)
          · cases h3
        · exact move l f' rest' h2 h3
  have any : ∀ j f rest, (s.ws j).todo = f :: rest → (s.ws j).phase ≠ .idle → ∃ s', Step g jobs s s' := by
    intro j f rest h1 hp
    cases hq : (s.ws j).phase with
    | half => exact half j f rest h1 hq
    | idle => exact absurd hq hp
    | closing => exact move j f rest h1 (by rw [hq]; trivial)
    | locked => exact move j f rest h1 (by rw [hq]; trivial)
    | loaded buf => exact move j f rest h1 (by rw [hq]; trivial)
    | stored => exact move j f rest h1 (by rw [hq]; trivial)
  unfold Done at hnd
  push Not at hnd
  obtain ⟨i, hi⟩ := hnd
  obtain ⟨f, rest, h1⟩ := List.exists_cons_of_ne_nil hi
  by_cases hp : (s.ws i).phase = .idle
  · cases hl : s.lock (g.first i f) with
    | none => exact ⟨_, .take s i f rest (by rw [← h1, ← hp]) hl⟩
    | some j =>
      obtain ⟨f', rest', h2, h3⟩ := hh _ j hl
      refine any j f' rest' h2 (fun e => ?_)
      rw [e] at h3
      rcases h3 with ⟨_, h3⟩ | ⟨_, h3⟩ <;> exact h3.elim
  · exact any i f rest h1 hp

/-- **C130**: no execution is longer than six steps per worker and file. -/
theorem C130_bounded [Fintype ι] (g : Setting ι π) (jobs : ι → Workers.Job W) (names : List String)
    (n : Nat) (s : St ι π W) (h : Reach g jobs names n s) :
    n ≤ Fintype.card ι * (6 * names.length) := by
  suffices n + ∑ i, stepsLeft (s.ws i) ≤ Fintype.card ι * (6 * names.length) by omega
  induction h with
  | start => simp [init, stepsLeft]
  | step _ st ih => have := stepsLeft_step g jobs st; omega

/-- **C130**: an execution that cannot be continued has finished all workers. -/
theorem C130_completes (g : Setting ι π) (ha : g.Agreed) (jobs : ι → Workers.Job W)
    (names : List String) (n : Nat) (s : St ι π W) (h : Reach g jobs names n s)
    (hstop : ∀ s', ¬ Step g jobs s s') : Done s := by
  by_contra hnd
  obtain ⟨s', hs⟩ := C130_no_deadlock g ha jobs names n s h hnd
  exact hstop s' hs

/-- The worker has closed file `f`. -/
def Closed (s : St ι π W) (i : ι) (f : String) : Prop :=
  f ∉ (s.ws i).todo ∨ (s.ws i).todo.head? = some f ∧
    match (s.ws i).phase with | .stored | .closing => True | _ => False

/-- **C130**: if the run dies at any moment, the cells of a file hold the final value where their worker
had closed the file, and are missing everywhere else. -/
theorem C130_crash (g : Setting ι π) (jobs : ι → Workers.Job W) (hd : Disjoint jobs)
    (names : List String) (hn : names.Nodup) (n : Nat) (s : St ι π W) (h : Reach g jobs names n s)
    (f : String) (hf : f ∈ names) (c : Cell) :
    (∀ i, (jobs i).region c = true → (Closed s i f → s.files f c = (jobs i).val f c) ∧
      (¬ Closed s i f → s.files f c = none)) ∧
    ((∀ i, (jobs i).region c = false) → s.files f c = none) := by
  have hr := seen_reach g jobs hd names hn h
  have key := C09_crash jobs hd names hn (seen g s) hr f c
  refine ⟨fun i hi => ?_, key.2⟩
  have hs : Workers.Stored names (seen g s) i f ↔ Closed s i f := by
    have hnd := todo_nodup g jobs names hn h i
    unfold Workers.Stored Closed
    simp only [hf, true_and, seen, seenW]
    cases hp : (s.ws i).phase with
    | idle => simp
    | half => by_cases ho : g.order i ((s.ws i).todo.headD "") = true <;> simp only [ho, if_true, if_false, Bool.false_eq_true] <;> simp
    | locked => simp
    | loaded buf => simp
    | stored => simp
    | closing =>
      simp only
      split
      · simp
      · cases ht : (s.ws i).todo with
        | nil => simp
        | cons a l =>
          rw [ht] at hnd
          have ha := (List.nodup_cons.1 hnd).1
          simp only [List.tail_cons, List.mem_cons, List.head?_cons, Option.some.injEq, and_true]
          constructor
          · rintro (h1 | ⟨h1, _⟩)
            · by_cases e : f = a
              · exact Or.inr e.symm
              · exact Or.inl (by simp [e, h1])
            · simp at h1
          · rintro (h1 | rfl)
            · exact Or.inl (fun e => h1 (Or.inr e))
            · exact Or.inl ha
  rw [← hs]
  exact key.1 i hi

/-- Two workers of a process that find the locks of a file in different orders. -/
def crossed : Setting Bool Unit where
  proc := fun _ => ()
  order := fun b _ => b

/-- **C130**: workers that each put the pair together for themselves, in their own order, can block
each other for good. -/
theorem C130_own_order_deadlocks (jobs : Bool → Workers.Job W) : ∃ n s,
    Reach crossed jobs ["f"] n s ∧ ¬ Done s ∧ ∀ s', ¬ Step crossed jobs s s' := by
  have r0 : Reach crossed jobs ["f"] 0 (init ["f"]) := .start
  have r1 := r0.step (.take _ false "f" [] rfl rfl)
  have r2 := r1.step (.take _ true "f" [] rfl rfl)
  refine ⟨_, _, r2, fun hd => by simpa [setW, init] using hd true, ?_⟩
  intro s' st
  cases st with
  | take i f rest hw _ => cases i <;> simp [setW] at hw
  | both i f rest hw hl =>
    cases i
    · simp [setW] at hw; simp [setL, Setting.first, Setting.second, crossed] at hl
    · simp [setW] at hw
      obtain ⟨rfl, _⟩ := hw
      simp [setL, Setting.first, Setting.second, crossed] at hl
  | load i f rest hw => cases i <;> simp [setW] at hw
  | store i f rest buf hw => cases i <;> simp [setW] at hw
  | drop i f rest hw => cases i <;> simp [setW] at hw
  | leave i f rest hw => cases i <;> simp [setW] at hw

/-- Two processes with two workers each; the library's lock stands first for one file, last for the
other. -/
def fourWorkers : Setting (Bool × Bool) Bool where
  proc := Prod.fst
  order := fun _ f => f == "a"

example : fourWorkers.Agreed := fun _ _ _ => rfl

/-- An execution in which two processes are at one file at the same time, one of them waiting. -/
example (jobs : Bool × Bool → Workers.Job W) : ∃ s : St (Bool × Bool) Bool W,
    Reach fourWorkers jobs ["a", "b"] 3 s ∧ (s.ws (true, true)).phase = .half ∧
    s.lock (.file "a") = some (false, false) := by
  have r0 : Reach fourWorkers jobs ["a", "b"] 0 (init ["a", "b"]) := .start
  have r1 := r0.step (.take _ (false, false) "a" ["b"] rfl rfl)
  have r2 := r1.step (.both _ (false, false) "a" ["b"] rfl rfl)
  have r3 := r2.step (.take _ (true, true) "a" ["b"] rfl rfl)
  exact ⟨_, r3, rfl, rfl⟩

end Verif.Props
