import Verif.Model.Workers
import Verif.Props.Run
import Mathlib.Algebra.BigOperators.Group.Finset.Basic
import Mathlib.Algebra.Order.BigOperators.Group.Finset

/-!
# Concurrent writers: C08, C09
-/

namespace Verif.Props

open Workers Run Chunk

variable {ι W : Type} [DecidableEq ι]

/-- No two workers write the same cell. -/
def Disjoint (jobs : ι → Job W) : Prop :=
  ∀ i j c, (jobs i).region c = true → (jobs j).region c = true → i = j

/-- The invariant of the locked protocol. -/
structure Inv (jobs : ι → Job W) (names : List String) (s : St ι W) : Prop where
  suffix : ∀ i, ∃ pre, names = pre ++ (s.ws i).todo
  holds : ∀ i f rest, (s.ws i).todo = f :: rest → ((s.ws i).phase matches .idle) = false →
    s.lock f = some i
  held : ∀ f i, s.lock f = some i → (∃ rest, (s.ws i).todo = f :: rest) ∧
    ((s.ws i).phase matches .idle) = false
  fresh : ∀ i f rest buf, s.ws i = ⟨f :: rest, .loaded buf⟩ → buf = s.files f
  inside : ∀ i f c, (jobs i).region c = true →
    (Stored names s i f → s.files f c = (jobs i).val f c) ∧ (¬ Stored names s i f → s.files f c = none)
  outside : ∀ f c, (∀ i, (jobs i).region c = false) → s.files f c = none
  idleEmpty : ∀ i, (s.ws i).todo = [] → ((s.ws i).phase matches .idle) = true

omit [DecidableEq ι] in
theorem mem_todo {jobs : ι → Job W} {names : List String} {s : St ι W} (h : Inv jobs names s) {i : ι}
    {f : String} (hf : f ∈ (s.ws i).todo) : f ∈ names := by
  obtain ⟨pre, hp⟩ := h.suffix i
  rw [hp]; simp [hf]

theorem setW_self (ws : ι → Worker W) (i : ι) (w : Worker W) : setW ws i w i = w := by simp [setW]
theorem setW_ne (ws : ι → Worker W) {i j : ι} (w : Worker W) (h : j ≠ i) : setW ws i w j = ws j := by
  simp [setW, h]
theorem setAt_self {α : Type} (g : String → α) (f : String) (v : α) : setAt g f v f = v := by simp [setAt]
theorem setAt_ne {α : Type} (g : String → α) {f f' : String} (v : α) (h : f' ≠ f) :
    setAt g f v f' = g f' := by simp [setAt, h]

/-- Changing worker `i` without changing which files it has stored leaves `Stored` alone. -/
theorem stored_congr (names : List String) (s s' : St ι W) (i : ι) (w : Worker W)
    (hw : s'.ws = setW s.ws i w)
    (h : ∀ f, Stored names s i f ↔
      f ∈ names ∧ (f ∉ w.todo ∨ (w.phase matches .stored) = true ∧ w.todo.head? = some f))
    (j : ι) (f : String) : Stored names s' j f ↔ Stored names s j f := by
  unfold Stored
  rw [hw]
  by_cases hj : j = i
  · subst hj; rw [setW_self]; exact (h f).symm
  · rw [setW_ne _ _ hj]

omit [DecidableEq ι] in
theorem inv_init (jobs : ι → Job W) (names : List String) : Inv jobs names (init names : St ι W) where
  suffix := fun _ => ⟨[], rfl⟩
  holds := by intro i f rest _ h; simp [init] at h
  held := by intro f i h; simp [init] at h
  fresh := by intro i f rest buf h; simp [init] at h
  inside := by
    intro i f c _
    constructor
    · rintro ⟨h1, h2 | ⟨h2, -⟩⟩
      · exact absurd h1 h2
      · simp [init] at h2
    · intro _; rfl
  outside := fun _ _ _ => rfl
  idleEmpty := fun _ _ => rfl

theorem inv_step (jobs : ι → Job W) (hd : Disjoint jobs) (names : List String) (hn : names.Nodup)
    {s s' : St ι W} (h : Inv jobs names s) (st : Step (lockTable names) jobs s s') : Inv jobs names s' := by
  cases st with
  | acquire i f rest hw hl =>
    have hfn : f ∈ names := mem_todo h (i := i) (by simp [hw])
    have hreal : lockTable names f = true := by simp [lockTable, hfn]
    have hfree := hl hreal
    rw [hreal]
    simp only [if_true]
    have hst := stored_congr names s { s with lock := setAt s.lock f (some i), ws := setW s.ws i ⟨f :: rest, .locked⟩ }
      i ⟨f :: rest, .locked⟩ rfl (by intro f'; unfold Stored; rw [hw]; try simp)
    refine ⟨?_, ?_, ?_, ?_, ?_, ?_, ?_⟩
    · intro j
      by_cases hj : j = i
      · subst hj; simp only [setW_self]; have := h.suffix j; rwa [hw] at this
      · simp only [setW_ne _ _ hj]; exact h.suffix j
    · intro j f' rest' h1 h2
      by_cases hj : j = i
      · subst hj
        simp only [setW_self, List.cons.injEq] at h1
        rw [← h1.1]; simp [setAt_self]
      · simp only [setW_ne _ _ hj] at h1 h2
        have := h.holds j f' rest' h1 h2
        have hne : f' ≠ f := by rintro rfl; rw [hfree] at this; cases this
        simp only [setAt_ne _ _ hne]; exact this
    · intro f' j h1
      by_cases hf : f' = f
      · subst hf
        simp only [setAt_self, Option.some.injEq] at h1
        subst h1
        simp only [setW_self]
        exact ⟨⟨rest, rfl⟩, by simp⟩
      · simp only [setAt_ne _ _ hf] at h1
        obtain ⟨h2, h3⟩ := h.held f' j h1
        have hj : j ≠ i := by
          rintro rfl; rw [hw] at h3; simp at h3
        simp only [setW_ne _ _ hj]
        exact ⟨h2, h3⟩
    · intro j f' rest' buf h1
      by_cases hj : j = i
      · subst hj; simp [setW_self] at h1
      · simp only [setW_ne _ _ hj] at h1; exact h.fresh j f' rest' buf h1
    · intro j f' c hc
      rw [hst j f']
      exact h.inside j f' c hc
    · exact h.outside
    · intro j h1
      by_cases hj : j = i
      · subst hj; simp [setW_self] at h1
      · simp only [setW_ne _ _ hj] at h1 ⊢; exact h.idleEmpty j h1
  | load i f rest hw =>
    have hst := stored_congr names s { s with ws := setW s.ws i ⟨f :: rest, .loaded (s.files f)⟩ }
      i ⟨f :: rest, .loaded (s.files f)⟩ rfl (by intro f'; unfold Stored; rw [hw]; try simp)
    refine ⟨?_, ?_, ?_, ?_, ?_, ?_, ?_⟩
    · intro j
      by_cases hj : j = i
      · subst hj; simp only [setW_self]; have := h.suffix j; rwa [hw] at this
      · simp only [setW_ne _ _ hj]; exact h.suffix j
    · intro j f' rest' h1 h2
      by_cases hj : j = i
      · subst hj
        simp only [setW_self, List.cons.injEq] at h1
        exact h.holds j f' rest' (by rw [hw]; simp [h1]) (by rw [hw])
      · simp only [setW_ne _ _ hj] at h1 h2
        exact h.holds j f' rest' h1 h2
    · intro f' j h1
      obtain ⟨h2, h3⟩ := h.held f' j h1
      by_cases hj : j = i
      · subst hj; simp only [setW_self]; rw [hw] at h2; exact ⟨h2, by simp⟩
      · simp only [setW_ne _ _ hj]; exact ⟨h2, h3⟩
    · intro j f' rest' buf h1
      by_cases hj : j = i
      · subst hj
        simp only [setW_self, Worker.mk.injEq, List.cons.injEq, Phase.loaded.injEq] at h1
        obtain ⟨⟨rfl, rfl⟩, rfl⟩ := h1
        rfl
      · simp only [setW_ne _ _ hj] at h1; exact h.fresh j f' rest' buf h1
    · intro j f' c hc
      rw [hst j f']
      exact h.inside j f' c hc
    · exact h.outside
    · intro j h1
      by_cases hj : j = i
      · subst hj; simp [setW_self] at h1
      · simp only [setW_ne _ _ hj] at h1 ⊢; exact h.idleEmpty j h1
  | store i f rest buf hw =>
    have hfn : f ∈ names := mem_todo h (i := i) (by simp [hw])
    have hbuf := h.fresh i f rest buf hw
    have hlock : s.lock f = some i := h.holds i f rest (by rw [hw]) (by rw [hw])
    subst hbuf
    refine ⟨?_, ?_, ?_, ?_, ?_, ?_, ?_⟩
    · intro j
      by_cases hj : j = i
      · subst hj; simp only [setW_self]; have := h.suffix j; rwa [hw] at this
      · simp only [setW_ne _ _ hj]; exact h.suffix j
    · intro j f' rest' h1 h2
      by_cases hj : j = i
      · subst hj
        simp only [setW_self, List.cons.injEq] at h1
        exact h.holds j f' rest' (by rw [hw]; simp [h1]) (by rw [hw])
      · simp only [setW_ne _ _ hj] at h1 h2
        exact h.holds j f' rest' h1 h2
    · intro f' j h1
      obtain ⟨h2, h3⟩ := h.held f' j h1
      by_cases hj : j = i
      · subst hj; simp only [setW_self]; rw [hw] at h2; exact ⟨h2, by simp⟩
      · simp only [setW_ne _ _ hj]; exact ⟨h2, h3⟩
    · intro j f' rest' buf' h1
      by_cases hj : j = i
      · subst hj; simp [setW_self] at h1
      · simp only [setW_ne _ _ hj] at h1
        have h2 := h.fresh j f' rest' buf' h1
        have h3 := h.holds j f' rest' (by rw [h1]) (by rw [h1])
        have hne : f' ≠ f := by
          rintro rfl; rw [hlock] at h3; exact hj (Option.some.inj h3).symm
        simp only [setAt_ne _ _ hne]; exact h2
    · intro j f' c hc
      have hin := h.inside j f' c hc
      by_cases hf : f' = f
      · subst hf
        simp only [setAt_self]
        unfold Job.apply
        by_cases hj : j = i
        · subst hj
          rw [if_pos hc]
          refine ⟨fun _ => rfl, fun hns => absurd ?_ hns⟩
          exact ⟨hfn, Or.inr (by simp [setW_self])⟩
        · rw [if_neg (fun hci => hj (hd j i c hc hci))]
          have : Stored names { s with files := setAt s.files f' ((jobs i).apply f' (s.files f')), ws := setW s.ws i ⟨f' :: rest, .stored⟩ } j f' ↔ Stored names s j f' := by
            unfold Stored; simp only [setW_ne _ _ hj]
          unfold Job.apply at this
          rw [this]; exact hin
      · simp only [setAt_ne _ _ hf]
        have : Stored names { s with files := setAt s.files f ((jobs i).apply f (s.files f)), ws := setW s.ws i ⟨f :: rest, .stored⟩ } j f' ↔ Stored names s j f' := by
          unfold Stored
          by_cases hj : j = i
          · subst hj; simp only [setW_self, hw]; simp [Ne.symm hf]
          · simp only [setW_ne _ _ hj]
        rw [this]; exact hin
    · intro f' c hc
      by_cases hf : f' = f
      · subst hf
        simp only [setAt_self]
        unfold Job.apply
        rw [if_neg (by simp [hc i])]
        exact h.outside _ _ hc
      · simp only [setAt_ne _ _ hf]; exact h.outside _ _ hc
    · intro j h1
      by_cases hj : j = i
      · subst hj; simp [setW_self] at h1
      · simp only [setW_ne _ _ hj] at h1 ⊢; exact h.idleEmpty j h1
  | release i f rest hw =>
    have hfn : f ∈ names := mem_todo h (i := i) (by simp [hw])
    have hreal : lockTable names f = true := by simp [lockTable, hfn]
    rw [hreal]
    simp only [if_true]
    have hlock : s.lock f = some i := h.holds i f rest (by rw [hw]) (by rw [hw])
    have hfr : f ∉ rest := by
      obtain ⟨pre, hp⟩ := h.suffix i
      rw [hw] at hp; rw [hp] at hn
      have := (List.nodup_append.1 hn).2.1
      exact (List.nodup_cons.1 this).1
    have hst := stored_congr names s { s with lock := setAt s.lock f none, ws := setW s.ws i ⟨rest, .idle⟩ }
      i ⟨rest, .idle⟩ rfl (by
        intro f'; unfold Stored; rw [hw]
        simp only [List.mem_cons, List.head?_cons, Option.some.injEq, true_and, Bool.false_eq_true,
          false_and, or_false]
        refine and_congr_right fun _ => ?_
        constructor
        · rintro (h | rfl)
          · exact fun h' => h (Or.inr h')
          · exact hfr
        · intro h'
          by_cases e : f = f'
          · exact Or.inr e
          · left; rintro (rfl | h2)
            · exact e rfl
            · exact h' h2)
    refine ⟨?_, ?_, ?_, ?_, ?_, ?_, ?_⟩
    · intro j
      by_cases hj : j = i
      · subst hj
        simp only [setW_self]
        obtain ⟨pre, hp⟩ := h.suffix j
        rw [hw] at hp
        exact ⟨pre ++ [f], by simp [hp]⟩
      · simp only [setW_ne _ _ hj]; exact h.suffix j
    · intro j f' rest' h1 h2
      by_cases hj : j = i
      · subst hj; simp [setW_self] at h2
      · simp only [setW_ne _ _ hj] at h1 h2
        have h3 := h.holds j f' rest' h1 h2
        have hne : f' ≠ f := by
          rintro rfl; rw [hlock] at h3; exact hj (Option.some.inj h3).symm
        simp only [setAt_ne _ _ hne]; exact h3
    · intro f' j h1
      by_cases hf : f' = f
      · subst hf; simp [setAt_self] at h1
      · simp only [setAt_ne _ _ hf] at h1
        obtain ⟨⟨r, h2⟩, h3⟩ := h.held f' j h1
        have hj : j ≠ i := by
          rintro rfl; rw [hw] at h2; simp only [List.cons.injEq] at h2; exact hf h2.1.symm
        simp only [setW_ne _ _ hj]
        exact ⟨⟨r, h2⟩, h3⟩
    · intro j f' rest' buf' h1
      by_cases hj : j = i
      · subst hj; simp [setW_self] at h1
      · simp only [setW_ne _ _ hj] at h1; exact h.fresh j f' rest' buf' h1
    · intro j f' c hc
      rw [hst j f']
      exact h.inside j f' c hc
    · exact h.outside
    · intro j h1
      by_cases hj : j = i
      · subst hj; simp [setW_self]
      · simp only [setW_ne _ _ hj] at h1 ⊢; exact h.idleEmpty j h1

theorem inv_reach (jobs : ι → Job W) (hd : Disjoint jobs) (names : List String) (hn : names.Nodup)
    {s : St ι W} (h : Reach (lockTable names) jobs names s) : Inv jobs names s := by
  induction h with
  | start => exact inv_init jobs names
  | step _ st ih => exact inv_step jobs hd names hn ih st

/-! ## C08 -/
section C08

/-- **C08**: in every interleaving, when all workers have finished, every file contains every worker's
region (and nothing else). -/
theorem C08_no_lost_update (jobs : ι → Job W) (hd : Disjoint jobs) (names : List String)
    (hn : names.Nodup) (s : St ι W) (h : Reach (lockTable names) jobs names s) (hdone : Done s) :
    ∀ f ∈ names, (∀ i c, (jobs i).region c = true → s.files f c = (jobs i).val f c) ∧
      ∀ c, (∀ i, (jobs i).region c = false) → s.files f c = none := by
  have hI := inv_reach jobs hd names hn h
  intro f hf
  refine ⟨fun i c hc => (hI.inside i f c hc).1 ⟨hf, Or.inl (by rw [hdone i]; simp)⟩, fun c hc =>
    hI.outside f c hc⟩

/-- **C08**: two workers are never inside the same file at the same time. -/
theorem C08_mutual_exclusion (jobs : ι → Job W) (hd : Disjoint jobs) (names : List String)
    (hn : names.Nodup) (s : St ι W) (h : Reach (lockTable names) jobs names s) (i j : ι) (f : String)
    (ri rj : List String) (hi : (s.ws i).todo = f :: ri) (hj : (s.ws j).todo = f :: rj)
    (pi : ((s.ws i).phase matches .idle) = false) (pj : ((s.ws j).phase matches .idle) = false) : i = j := by
  have hI := inv_reach jobs hd names hn h
  have h1 := hI.holds i f ri hi pi
  have h2 := hI.holds j f rj hj pj
  rw [h1] at h2; exact Option.some.inj h2

/-- **C08**: the workers never block each other for good: in every reachable state that is not the
final one some worker can take a step. -/
theorem C08_no_deadlock (jobs : ι → Job W) (hd : Disjoint jobs) (names : List String)
    (hn : names.Nodup) (s : St ι W) (h : Reach (lockTable names) jobs names s) (hnd : ¬ Done s) :
    ∃ s', Step (lockTable names) jobs s s' := by
  have hI := inv_reach jobs hd names hn h
  have move : ∀ i f rest, (s.ws i).todo = f :: rest → ((s.ws i).phase matches .idle) = false →
      ∃ s', Step (lockTable names) jobs s s' := by
    intro i f rest h1 h2
    cases hp : (s.ws i).phase with
    | idle => rw [hp] at h2; simp at h2
    | locked => exact ⟨_, .load s i f rest (by rw [← h1, ← hp])⟩
    | loaded buf => exact ⟨_, .store s i f rest buf (by rw [← h1, ← hp])⟩
    | stored => exact ⟨_, .release s i f rest (by rw [← h1, ← hp])⟩
  unfold Done at hnd
  push Not at hnd
  obtain ⟨i, hi⟩ := hnd
  obtain ⟨f, rest, h1⟩ := List.exists_cons_of_ne_nil hi
  cases hp : (s.ws i).phase with
  | idle =>
    cases hl : s.lock f with
    | none => exact ⟨_, .acquire s i f rest (by rw [← h1, ← hp]) (fun _ => hl)⟩
    | some j =>
      obtain ⟨⟨r, h2⟩, h3⟩ := hI.held f j hl
      exact move j f r h2 h3
  | locked => exact move i f rest h1 (by rw [hp])
  | loaded buf => exact move i f rest h1 (by rw [hp])
  | stored => exact move i f rest h1 (by rw [hp])

/-- Steps a worker still has to take. -/
def remaining (w : Worker W) : Nat :=
  4 * w.todo.length - match w.phase with
    | .idle => 0
    | .locked => 1
    | .loaded _ => 2
    | .stored => 3

/-- **C08**: every execution ends: each step lowers the (finite) total number of steps left. -/
theorem C08_terminates [Fintype ι] (real : String → Bool) (jobs : ι → Job W) (s s' : St ι W)
    (h : Step real jobs s s') : ∑ i, remaining (s'.ws i) < ∑ i, remaining (s.ws i) := by
  have key : ∀ (i : ι) (w : Worker W), s'.ws = setW s.ws i w → remaining w < remaining (s.ws i) →
      ∑ i, remaining (s'.ws i) < ∑ i, remaining (s.ws i) := by
    intro i w hw hlt
    apply Finset.sum_lt_sum
    · intro j _
      rw [hw]
      by_cases hj : j = i
      · subst hj; rw [setW_self]; exact hlt.le
      · rw [setW_ne _ _ hj]
    · exact ⟨i, Finset.mem_univ i, by rw [hw, setW_self]; exact hlt⟩
  cases h with
  | acquire i f rest hw _ => exact key i _ rfl (by rw [hw]; simp [remaining])
  | load i f rest hw => exact key i _ rfl (by rw [hw]; simp [remaining]; omega)
  | store i f rest buf hw => exact key i _ rfl (by rw [hw]; simp [remaining]; omega)
  | release i f rest hw => exact key i _ rfl (by rw [hw]; simp [remaining]; omega)

/-- Two writers of one file, cells `[0]` and `[1]`. -/
def twoJobs : Bool → Job Nat := fun b =>
  { region := fun c => c == [if b then 1 else 0], val := fun _ _ => some 7 }

/-- **C08**: with `DummyLock` (no lock found for the file) there is an execution in which both workers
finish and one worker's slice is missing. -/
theorem C08_dummy_lock_loses : ∃ s : St Bool Nat, Reach (fun _ => false) twoJobs ["f"] s ∧ Done s ∧
    (twoJobs false).region [0] = true ∧ s.files "f" [0] = none := by
  have r0 : Reach (fun _ => false) twoJobs ["f"] (init ["f"]) := .start
  have r1 := r0.step (.acquire _ false "f" [] rfl (by simp))
  have r2 := r1.step (.acquire _ true "f" [] rfl (by simp))
  have r3 := r2.step (.load _ false "f" [] rfl)
  have r4 := r3.step (.load _ true "f" [] rfl)
  have r5 := r4.step (.store _ false "f" [] (fun _ => none) rfl)
  have r6 := r5.step (.store _ true "f" [] (fun _ => none) rfl)
  have r7 := r6.step (.release _ false "f" [] rfl)
  have r8 := r7.step (.release _ true "f" [] rfl)
  exact ⟨_, r8, by intro b; cases b <;> rfl, rfl, rfl⟩

end C08

/-! ## C09 -/
section C09

/-- **C09**: at whatever moment of whatever interleaving the run dies, each cell of a file holds either
its final value — exactly if the worker responsible for it had finished writing that file — or is
still missing. -/
theorem C09_crash (jobs : ι → Job W) (hd : Disjoint jobs) (names : List String)
    (hn : names.Nodup) (s : St ι W) (h : Reach (lockTable names) jobs names s) (f : String) (c : Cell) :
    (∀ i, (jobs i).region c = true → (Stored names s i f → s.files f c = (jobs i).val f c) ∧
      (¬ Stored names s i f → s.files f c = none)) ∧
    ((∀ i, (jobs i).region c = false) → s.files f c = none) :=
  have hI := inv_reach jobs hd names hn h
  ⟨fun i hc => hI.inside i f c hc, fun hc => hI.outside f c hc⟩

/-- The job of a chunk of a run: its region of the grid and its part of the cell-by-cell result. -/
def chunkJob {S D R K : Type} [Zero K] [LT K] [DecidableLT K] (body : Body S D R K)
    (mask : Cell → Flt K) (inp : Cell → CellIn D K) (p : Params S K) (dims : Dict String Nat)
    (groups : List (Group R W)) (s : Dict String Slice) : Job W where
  region := fun c => decide (c ∈ product (axes dims s))
  val := fun f c => match groups.find? (fun g => g.name == f) with
    | some g => (result body mask inp p.shared c).map g.part
    | none => none

/-- A chunk's job is what `write_chunk` assigns to the file. -/
theorem chunkJob_apply {S D R K : Type} [Zero K] [LT K] [DecidableLT K] (body : Body S D R K)
    (hk : KeepsShared body) (mask : Cell → Flt K) (inp : Cell → CellIn D K) (p : Params S K)
    (dims : Dict String Nat) (groups : List (Group R W)) (hgn : (groups.map Group.name).Nodup)
    (s : Dict String Slice) (out : Cell → Option R)
    (hout : runSlice body mask inp p (axes dims s) = .ok out) (g : Group R W) (hg : g ∈ groups)
    (buf : Cell → Option W) :
    writeRegion (axes dims s) g out buf = (chunkJob body mask inp p dims groups s).apply g.name buf := by
  have hC11 := C11_cell_independent body hk mask inp (axes dims s) p
  obtain ⟨out', h1, h2, -⟩ := runSlice_ok body hk mask inp (axes dims s) p (fun l hl ha => by
    obtain ⟨r, h1, -⟩ := hC11.2 out hout l hl ha; exact ⟨r, h1⟩)
  rw [hout] at h1; injection h1 with h1; subst h1
  have hfind : groups.find? (fun g' => g'.name == g.name) = some g := by
    clear hC11 h2 hout
    induction groups with
    | nil => simp at hg
    | cons g' gs ih =>
      simp only [List.map_cons, List.nodup_cons] at hgn
      rcases List.mem_cons.1 hg with rfl | hm
      · simp
      · have hne : g'.name ≠ g.name := by
          intro e; exact hgn.1 (by rw [e]; exact List.mem_map_of_mem hm)
        rw [List.find?_cons_of_neg (by simpa using hne)]
        exact ih hgn.2 hm
  funext c
  rw [writeRegion_eq _ _ _ (result body mask inp p.shared) h2]
  unfold Job.apply chunkJob
  simp only [decide_eq_true_eq, hfind]

/-- **C08/C09 for MetSim's own chunks**: the regions of the chunks of a domain are disjoint, and when
the workers, interleaved in any way, have finished, the files hold the cell-by-cell result. -/
theorem C08_chunks {S D R K : Type} [Zero K] [LT K] [DecidableLT K] (body : Body S D R K)
    (mask : Cell → Flt K) (inp : Cell → CellIn D K) (p : Params S K) (dims : Dict String Nat)
    (chunks : Dict String Int) (groups : List (Group R W)) (ss : List (Dict String Slice))
    (hdn : dims.keys.Nodup) (hcn : chunks.keys.Nodup) (hgn : (groups.map Group.name).Nodup)
    (hdp : ∀ p ∈ dims, 0 < p.2) (hcp : ∀ p ∈ chunks, 0 < p.2)
    (hsame : chunks = [] ∨ SameDims chunks dims) (hss : slices chunks dims = .ok ss)
    (s : St (Fin ss.length) W)
    (h : Reach (lockTable (groups.map Group.name))
      (fun i => chunkJob body mask inp p dims groups ss[i]) (groups.map Group.name) s) (hdone : Done s) :
    ∀ g ∈ groups, ∀ c ∈ gridCells dims,
      s.files g.name c = (result body mask inp p.shared c).map g.part := by
  have hsub : ∀ d ∈ chunks.keys, d ∈ dims.keys := by
    rcases hsame with rfl | h
    · simp [Dict.keys]
    · exact fun d hd => (h d).1 hd
  obtain ⟨ss1, e1, hone, -, hkeys⟩ := C06_partition chunks dims hcn hcp hdp hsub
  obtain ⟨ss2, e2, -, hcov⟩ := slices_cover dims chunks hdn hcn hdp hcp hsame
  rw [hss] at e1 e2; injection e1 with e1; injection e2 with e2; subst e1; subst e2
  have hk2 : ∀ s ∈ ss, s.keys.Nodup ∧ ∀ d, d ∈ s.keys ↔ d ∈ dims.keys := by
    intro s hs
    rw [hkeys s hs]
    by_cases hc : chunks = []
    · simp [hc, hdn]
    · rcases hsame with h | h
      · exact absurd h hc
      · simp only [hc, if_false]; exact ⟨hcn, h⟩
  have hdisj : Disjoint (fun i : Fin ss.length => chunkJob body mask inp p dims groups ss[i]) := by
    intro i j c hi hj
    simp only [chunkJob, decide_eq_true_eq] at hi hj
    have ki := hk2 ss[i] (List.getElem_mem _)
    have kj := hk2 ss[j] (List.getElem_mem _)
    obtain ⟨gi, ci⟩ := (mem_axes dims hdn _ ki.1 ki.2 c).1 hi
    obtain ⟨-, cj⟩ := (mem_axes dims hdn _ kj.1 kj.2 c).1 hj
    have h1 := hone (coord dims c) ((mem_gridCells dims hdn c).1 gi).2
    by_contra hne
    have hlt : ∀ (a b : Fin ss.length), a < b → covers dims (coord dims c) ss[a] = true →
        covers dims (coord dims c) ss[b] = true → False := by
      intro a b hab ha hb
      have h2 : ss = ss.take b ++ ss.drop b := (List.take_append_drop _ _).symm
      rw [h2, List.countP_append] at h1
      have p1 : 0 < (ss.take b).countP (covers dims (coord dims c)) := by
        rw [List.countP_pos_iff]
        refine ⟨ss[a], ?_, ha⟩
        rw [List.mem_take_iff_getElem]
        exact ⟨a, by have := b.2; have : (a : Nat) < b := hab; omega, rfl⟩
      have p2 : 0 < (ss.drop b).countP (covers dims (coord dims c)) := by
        rw [List.countP_pos_iff]
        refine ⟨ss[b], ?_, hb⟩
        rw [List.mem_drop_iff_getElem]
        exact ⟨0, by have := b.2; omega, by simp⟩
      omega
    rcases lt_or_gt_of_ne hne with hab | hab
    · exact hlt i j hab ci cj
    · exact hlt j i hab cj ci
  intro g hg c hc
  obtain ⟨s', hs', hcs⟩ := (hcov c).2 hc
  obtain ⟨k, hk, rfl⟩ := List.getElem_of_mem hs'
  have := (C08_no_lost_update _ hdisj (groups.map Group.name) hgn s h hdone g.name
    (List.mem_map_of_mem hg)).1 ⟨k, hk⟩ c (by simp only [chunkJob, decide_eq_true_eq]; exact hcs)
  rw [this]
  have hfind : groups.find? (fun g' => g'.name == g.name) = some g := by
    clear h this hdisj
    induction groups with
    | nil => simp at hg
    | cons g' gs ih =>
      simp only [List.map_cons, List.nodup_cons] at hgn
      rcases List.mem_cons.1 hg with rfl | hm
      · simp
      · have hne : g'.name ≠ g.name := by
          intro e; exact hgn.1 (by rw [e]; exact List.mem_map_of_mem hm)
        rw [List.find?_cons_of_neg (by simpa using hne)]
        exact ih hgn.2 hm
  simp only [chunkJob, hfind]

/-- Non-vacuity: a complete execution of the two writers under the lock exists; a crash after the first
one leaves the other cell missing. -/
example : ∃ s : St Bool Nat, Reach (lockTable ["f"]) twoJobs ["f"] s ∧
    s.files "f" [0] = some 7 ∧ s.files "f" [1] = none ∧ Stored ["f"] s false "f" := by
  have r0 : Reach (lockTable ["f"]) twoJobs ["f"] (init ["f"]) := .start
  have r1 := r0.step (.acquire _ false "f" [] rfl (fun _ => rfl))
  have r2 := r1.step (.load _ false "f" [] rfl)
  have r3 := r2.step (.store _ false "f" [] (fun _ => none) rfl)
  exact ⟨_, r3, rfl, rfl, by simp, Or.inr ⟨rfl, rfl⟩⟩

end C09
end Verif.Props
