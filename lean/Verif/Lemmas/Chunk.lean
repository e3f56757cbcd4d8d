import Verif.Model.Chunk
import Mathlib.Data.List.Count
import Mathlib.Data.List.Nodup
import Mathlib.Tactic.Linarith

namespace Verif.Chunk

/-- closed form of the slices of one dimension -/
theorem dimSlices_eq (c d : Nat) (hc : 0 < c) (hd : 0 < d) :
    dimSlices c d = .ok ((List.range ((d + c - 1) / c)).map fun k =>
      (some ((k * c : Nat), if k + 1 = (d + c - 1) / c then ((d : Int) + 1) else (((k + 1) * c : Nat) : Int)) : Slice)) := by
  have hc' : (0 : Int) < c := by exact_mod_cast hc
  set n := (d + c - 1) / c with hn
  have hlen : ∀ x : Int, x = -(d : Int) → (-(Int.fdiv x c)).toNat = n := by
    rintro x rfl
    rw [Int.fdiv_eq_ediv_of_nonneg _ hc'.le]
    have h1 : (d + c - 1) = c * n + (d + c - 1) % c := by rw [hn]; exact (Nat.div_add_mod _ _).symm
    have h2 : (d + c - 1) % c < c := Nat.mod_lt _ hc
    have h3 : (-(d : Int)) / c = -(n : Int) := by
      have h1' : ((d + c - 1 : Nat) : Int) = (c : Int) * n + ((d + c - 1) % c : Nat) := by
        exact_mod_cast h1
      refine ((Int.ediv_emod_unique hc' (r := (c : Int) * n - d)).2 ⟨by ring, ?_, ?_⟩).1
      all_goals omega
    rw [h3]; simp
  have hn0 : 0 < n := Nat.div_pos (by omega) hc
  unfold dimSlices left right Np.arange
  rw [if_neg (by omega)]
  simp only [bind, Except.bind, pure, Except.pure]
  rw [show (c : Int) - (d + c) = -(d : Int) by ring, show (0 : Int) - d = -(d : Int) by ring, hlen _ rfl,
    if_neg (by omega)]
  have hne : (List.map (fun (i : Nat) => (c : Int) + i * c) (List.range n)) ≠ [] := by
    simp; omega
  simp only [hne, if_false]
  congr 1
  apply List.ext_getElem
  · simp
  · intro i h1 h2
    simp at h1 h2 ⊢
    rw [List.getElem_set]
    simp
    have : (n - 1 = i) ↔ (i + 1 = n) := by omega
    simp only [this]
    split
    · rfl
    · ring

theorem countP_range_eq (n j : Nat) (hj : j < n) (p : Nat → Bool) (h : ∀ k < n, p k = true ↔ k = j) :
    (List.range n).countP p = 1 := by
  have : (List.range n).countP p = (List.range n).countP (fun k => k == j) := by
    apply List.countP_congr
    intro k hk
    rw [h k (List.mem_range.1 hk)]; simp
  rw [this]
  exact List.count_eq_one_of_mem List.nodup_range (List.mem_range.2 hj)

/-- every index of an axis is selected by exactly one of its slices -/
theorem dimSlices_count (c d : Nat) (hc : 0 < c) (hd : 0 < d) :
    ∃ ss, dimSlices c d = .ok ss ∧ (∀ i < d, ss.countP (fun s => s.selects d i) = 1) ∧
      (∀ s ∈ ss, ∃ i < d, s.selects d i = true) := by
  refine ⟨_, dimSlices_eq c d hc hd, ?_, ?_⟩
  · intro i hi
    rw [List.countP_map]
    have hdc : (d + c - 1) / c = (d - 1) / c + 1 := by
      rw [show d + c - 1 = (d - 1) + c by omega, Nat.add_div_right _ hc]
    set n := (d + c - 1) / c
    have hij : i / c < n := by
      rw [hdc]; exact Nat.lt_succ_of_le (Nat.div_le_div_right (by omega))
    apply countP_range_eq n (i / c) hij
    intro k hk
    have key : k = i / c ↔ k * c ≤ i ∧ i < (k + 1) * c := by
      constructor
      · rintro rfl
        exact ⟨Nat.div_mul_le_self i c, by rw [mul_comm]; exact Nat.lt_mul_div_succ i hc⟩
      · rintro ⟨h1, h2⟩
        exact (Nat.div_eq_of_lt_le h1 h2).symm
    have hlast : k + 1 = n → d ≤ (k + 1) * c := by
      intro h
      rw [h, hdc]
      have := Nat.lt_mul_div_succ (d - 1) hc
      rw [mul_comm] at this; omega
    rw [key]
    simp only [Slice.selects, Function.comp, Bool.and_eq_true, decide_eq_true_eq]
    unfold normBound
    have e1 : ¬ (((k * c : Nat) : Int) < 0) := by omega
    rw [if_neg e1]
    split_ifs with h1 h2 h2
    · omega
    · have := hlast h1; omega
    · omega
    · omega
  · intro s hs
    simp only [List.mem_map, List.mem_range] at hs
    obtain ⟨k, hk, rfl⟩ := hs
    have hkd : k * c < d := by
      have hdc : (d + c - 1) / c = (d - 1) / c + 1 := by
        rw [show d + c - 1 = (d - 1) + c by omega, Nat.add_div_right _ hc]
      have h1 : k ≤ (d - 1) / c := by omega
      have h2 := (Nat.le_div_iff_mul_le hc).1 h1
      omega
    refine ⟨k * c, hkd, ?_⟩
    simp only [Slice.selects, Bool.and_eq_true, decide_eq_true_eq]
    unfold normBound
    have e1 : ¬ (((k * c : Nat) : Int) < 0) := by omega
    rw [if_neg e1]
    have e3 : (k + 1) * c = k * c + c := by ring
    refine ⟨hkd, by omega, ?_⟩
    split_ifs with h1 h2 h2 <;> omega

/-- Counting in a product multiplies. -/
theorem countP_product {α : Type} (ls : List (List α)) (ps : List (α → Bool)) (h : ls.length = ps.length) :
    (product ls).countP (fun p => (ps.zip p).all fun (f, a) => f a) =
      (List.zipWith (fun l f => l.countP f) ls ps).prod := by
  induction ls generalizing ps with
  | nil => cases ps with
    | nil => simp [product]
    | cons _ _ => simp at h
  | cons l ls ih => cases ps with
    | nil => simp at h
    | cons f ps =>
      simp only [product, List.zipWith_cons_cons, List.prod_cons]
      rw [← ih ps (by simpa using h)]
      induction l with
      | nil => simp
      | cons a l ihl =>
        rw [List.flatMap_cons, List.countP_append, ihl (by simpa using h), List.countP_map, List.countP_cons]
        cases hfa : f a
        · simp [Function.comp_def, hfa]
        · simp [Function.comp_def, hfa]; ring

theorem mapM_ok_forall₂ {α β : Type} (f : α → Except PyErr β) (l : List α)
    (P : α → β → Prop) (h : ∀ a ∈ l, ∃ b, f a = .ok b ∧ P a b) :
    ∃ bs, l.mapM f = .ok bs ∧ List.Forall₂ P l bs := by
  induction l with
  | nil => exact ⟨[], rfl, .nil⟩
  | cons a l ih =>
    obtain ⟨b, hb, hP⟩ := h a (by simp)
    obtain ⟨bs, hbs, hPs⟩ := ih (fun a ha => h a (List.mem_cons_of_mem _ ha))
    refine ⟨b :: bs, ?_, .cons hP hPs⟩
    rw [List.mapM_cons, hb]
    show (List.mapM f l >>= _) = _
    rw [hbs]; rfl

theorem mem_product {α : Type} (ls : List (List α)) (p : List α) :
    p ∈ product ls ↔ List.Forall₂ (fun a l => a ∈ l) p ls := by
  induction ls generalizing p with
  | nil => cases p <;> simp [product]
  | cons l ls ih =>
    cases p with
    | nil => simp [product]
    | cons b p =>
      simp only [product, List.mem_flatMap, List.mem_map, List.cons.injEq, List.forall₂_cons, ih]
      constructor
      · rintro ⟨a, ha, q, hq, rfl, rfl⟩; exact ⟨ha, hq⟩
      · rintro ⟨ha, hq⟩; exact ⟨b, ha, p, hq, rfl, rfl⟩

end Verif.Chunk
