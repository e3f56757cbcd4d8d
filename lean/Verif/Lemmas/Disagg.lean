import Verif.Model.Disagg
import Verif.Lemmas.Except
import Mathlib.Data.List.Rotate
import Mathlib.Data.List.Nodup
import Mathlib.Algebra.BigOperators.Group.List.Basic
import Mathlib.Algebra.Order.BigOperators.Group.List

/-!
# Facts about the array operations used by the disaggregation
-/

set_option linter.unusedSectionVars false

namespace Verif

namespace Flt
variable {K : Type} [Field K] [LinearOrder K] [IsStrictOrderedRing K]

theorem add_assoc' (a b c : Flt K) : a + b + c = a + (b + c) := by
  cases a <;> cases b <;> cases c <;> simp [add_assoc]

theorem zero_add' (a : Flt K) : fin 0 + a = a := by cases a <;> simp

theorem sum_append (xs ys : List (Flt K)) : sum (xs ++ ys) = sum xs + sum ys := by
  induction xs with
  | nil => simp [zero_add']
  | cons x xs ih => simp [ih, add_assoc']

theorem sum_flatten (xss : List (List (Flt K))) : sum xss.flatten = sum (xss.map sum) := by
  induction xss with
  | nil => rfl
  | cons x xs ih => simp [sum_append, ih]

theorem sum_perm {xs ys : List (Flt K)} (h : xs.Perm ys) : sum xs = sum ys := by
  induction h with
  | nil => rfl
  | cons x _ ih => simp [ih]
  | swap x y l =>
    simp only [sum_cons]
    generalize sum l = s
    cases x <;> cases y <;> cases s <;> simp [add_left_comm]
  | trans _ _ h1 h2 => rw [h1, h2]

theorem sum_replicate (n : Nat) (x : K) : sum (List.replicate n (fin x)) = fin ((n : K) * x) := by
  rw [← List.map_replicate, sum_map_fin, List.sum_replicate, nsmul_eq_mul]

/-- A sum of non-negative numbers is a non-negative number. -/
theorem sum_nonneg (xs : List (Flt K)) (h : ∀ x ∈ xs, ∃ v, x = fin v ∧ 0 ≤ v) :
    ∃ v, sum xs = fin v ∧ 0 ≤ v := by
  induction xs with
  | nil => exact ⟨0, rfl, le_rfl⟩
  | cons x xs ih =>
    obtain ⟨v, hv, hv0⟩ := ih (fun y hy => h y (by simp [hy]))
    obtain ⟨a, rfl, ha⟩ := h x (by simp)
    exact ⟨a + v, by simp [hv], add_nonneg ha hv0⟩

theorem sum_zero (xs : List (Flt K)) (h : ∀ x ∈ xs, x = fin 0) : sum xs = fin 0 := by
  induction xs with
  | nil => rfl
  | cons x xs ih => rw [sum_cons, h x (by simp), ih (fun y hy => h y (by simp [hy]))]; simp

end Flt

namespace Np
variable {α β : Type}

theorem length_repeatEach (xs : List α) (n : Nat) : (repeatEach xs n).length = xs.length * n := by
  induction xs with
  | nil => simp [repeatEach]
  | cons x xs ih =>
    have : repeatEach (x :: xs) n = List.replicate n x ++ repeatEach xs n := rfl
    rw [this]; simp [ih, Nat.succ_mul, Nat.add_comm]

theorem repeatEach_cons (x : α) (xs : List α) (n : Nat) :
    repeatEach (x :: xs) n = List.replicate n x ++ repeatEach xs n := rfl

theorem getElem?_repeatEach (xs : List α) {n : Nat} (hn : 0 < n) (k : Nat) :
    (repeatEach xs n)[k]? = xs[k / n]? := by
  induction xs generalizing k with
  | nil => simp [repeatEach]
  | cons x xs ih =>
    rw [repeatEach_cons, List.getElem?_append]
    by_cases h : k < n
    · simp [h, Nat.div_eq_of_lt h]
    · rw [if_neg (by simpa using h), List.length_replicate, ih]
      have : k / n = (k - n) / n + 1 := by
        rw [Nat.div_eq_sub_div hn (by omega)]
      rw [this, List.getElem?_cons_succ]

theorem length_roll (xs : List α) (s : Int) : (roll xs s).length = xs.length := by simp [roll]

/-- `np.roll(xs, -off)[k] = xs[(k + off) mod n]`. -/
theorem getElem?_roll (xs : List α) (off : Int) {k : Nat} (hk : k < xs.length) :
    (roll xs (-off))[k]? = xs[(((k : Int) + off) % (xs.length : Int)).toNat]? := by
  have hn : (0 : Int) < xs.length := by omega
  unfold roll
  rw [neg_neg, List.getElem?_rotate hk]
  congr 1
  have h1 := Int.emod_nonneg off hn.ne'
  have h2 := Int.emod_nonneg ((k : Int) + off) hn.ne'
  zify
  rw [Int.toNat_of_nonneg h1, Int.toNat_of_nonneg h2, Int.add_emod_emod]

theorem roll_perm (xs : List α) (s : Int) : (roll xs s).Perm xs := List.rotate_perm _ _

theorem rows_eq_cons {xs : List α} {w : Nat} (hw : 0 < w) (h : w ≤ xs.length) :
    rows xs w = xs.take w :: rows (xs.drop w) w := by
  unfold rows
  have : xs.length / w = (xs.drop w).length / w + 1 := by
    rw [List.length_drop, Nat.div_eq_sub_div hw h]
  rw [this, List.range_succ_eq_map, List.map_cons, List.map_map]
  simp only [Nat.zero_mul, List.drop_zero, List.cons.injEq, true_and]
  apply List.map_congr_left
  intro i _
  simp only [Function.comp, List.drop_drop, Nat.succ_mul]
  congr 2
  omega

theorem length_rows (xs : List α) (w : Nat) : (rows xs w).length = xs.length / w := by simp [rows]

theorem getElem?_rows {xs : List α} {w i : Nat} (h : i < xs.length / w) :
    (rows xs w)[i]? = some ((xs.drop (i * w)).take w) := by
  simp [rows, h]

theorem rows_drop (xs : List α) (w a : Nat) :
    (rows xs w).drop a = rows (xs.drop (a * w)) w := by
  unfold rows
  apply List.ext_getElem?
  intro i
  simp only [List.getElem?_drop, List.getElem?_map, List.length_drop, List.drop_drop]
  have : (xs.length - a * w) / w = xs.length / w - a := by
    rw [Nat.mul_comm a w, Nat.sub_mul_div]
  rw [this]
  by_cases h : a + i < xs.length / w
  · have h' : i < xs.length / w - a := by omega
    rw [List.getElem?_range h, List.getElem?_range h']
    simp [Nat.add_mul]
  · have h' : ¬ i < xs.length / w - a := by omega
    simp [h, h']

theorem rows_take_flatten (w : Nat) (hw : 0 < w) : ∀ (b : Nat) (xs : List α), w ∣ xs.length →
    ((rows xs w).take b).flatten = xs.take (b * w) := by
  intro b
  induction b with
  | zero => simp
  | succ b ih =>
    intro xs hd
    by_cases h : w ≤ xs.length
    · rw [rows_eq_cons hw h, List.take_succ_cons, List.flatten_cons, ih _ (by
        rw [List.length_drop]; exact Nat.dvd_sub hd (dvd_refl w)), Nat.succ_mul, Nat.add_comm (b * w) w,
        List.take_add]
    · have h0 : xs.length = 0 := by
        rcases hd with ⟨c, hc⟩
        rcases Nat.eq_zero_or_pos c with rfl | hc0
        · simpa using hc
        · nlinarith
      have := List.eq_nil_of_length_eq_zero h0
      subst this
      simp [rows]

theorem rows_flatten {xs : List α} {w : Nat} (hw : 0 < w) (hd : w ∣ xs.length) :
    (rows xs w).flatten = xs := by
  have h := rows_take_flatten w hw (xs.length) xs hd
  rw [List.take_of_length_le (by rw [length_rows]; exact Nat.div_le_self _ _),
    List.take_of_length_le (Nat.le_mul_of_pos_right _ hw)] at h
  exact h

theorem reshape_ok {xs : List α} {w : Nat} {r : List (List α)} :
    reshape xs w = .ok r ↔ 0 < w ∧ w ∣ xs.length ∧ r = rows xs w := by
  unfold reshape
  by_cases h : w = 0 ∨ xs.length % w ≠ 0
  · rw [if_pos h]
    constructor
    · intro h'; cases h'
    · rintro ⟨h1, h2, _⟩
      have := Nat.mod_eq_zero_of_dvd h2
      omega
  · rw [if_neg h]
    push Not at h
    constructor
    · intro h'; cases h'
      exact ⟨by omega, Nat.dvd_of_mod_eq_zero h.2, rfl⟩
    · rintro ⟨_, _, rfl⟩; rfl

/-- Sums of consecutive groups of group sums. -/
theorem sum_rows_block {K : Type} [Field K] [LinearOrder K] [IsStrictOrderedRing K]
    (xs : List (Flt K)) {w : Nat} (hw : 0 < w) (hd : w ∣ xs.length) (a b : Nat) :
    Flt.sum ((((rows xs w).map Flt.sum).drop a).take b) = Flt.sum ((xs.drop (a * w)).take (b * w)) := by
  rw [← List.map_drop, ← List.map_take, ← Flt.sum_flatten, rows_drop, rows_take_flatten w hw]
  rw [List.length_drop]
  exact Nat.dvd_sub hd (Dvd.intro_left _ rfl)

/-- Blocks of a concatenation of blocks of equal length. -/
theorem flatten_block (n : Nat) : ∀ (xss : List (List α)), (∀ xs ∈ xss, xs.length = n) → ∀ {i : Nat} {xs},
    xss[i]? = some xs → (xss.flatten.drop (i * n)).take n = xs := by
  intro xss
  induction xss with
  | nil => intro _ i xs h; simp at h
  | cons y ys ih =>
    intro hl i xs h
    have hy := hl y (by simp)
    cases i with
    | zero =>
      simp only [List.getElem?_cons_zero, Option.some.injEq] at h
      subst h
      simp [← hy]
    | succ i =>
      rw [List.getElem?_cons_succ] at h
      rw [List.flatten_cons, Nat.succ_mul, Nat.add_comm (i * n) n, ← hy, List.drop_append, hy]
      have : List.drop (n + i * n) y = [] := by rw [List.drop_eq_nil_iff]; omega
      rw [this, List.nil_append, Nat.add_sub_cancel_left]
      exact ih (fun z hz => hl z (by simp [hz])) h

theorem length_flatten_const (n : Nat) (xss : List (List α)) (h : ∀ xs ∈ xss, xs.length = n) :
    xss.flatten.length = xss.length * n := by
  induction xss with
  | nil => simp
  | cons y ys ih =>
    rw [List.flatten_cons, List.length_append, ih (fun z hz => h z (by simp [hz])), h y (by simp),
      List.length_cons, Nat.succ_mul, Nat.add_comm]

theorem repeatEach_eq_flatten (xs : List α) (n : Nat) :
    repeatEach xs n = (xs.map (List.replicate n)).flatten := by
  simp [repeatEach, List.flatMap]

theorem repeatEach_block (xs : List α) (n : Nat) {i : Nat} {x : α} (h : xs[i]? = some x) :
    ((repeatEach xs n).drop (i * n)).take n = List.replicate n x := by
  rw [repeatEach_eq_flatten]
  apply flatten_block n
  · intro ys hy
    obtain ⟨z, _, rfl⟩ := List.mem_map.1 hy
    simp
  · simp [h]

theorem mem_repeatEach {xs : List α} {n : Nat} {x : α} (h : x ∈ repeatEach xs n) : x ∈ xs := by
  unfold repeatEach at h
  obtain ⟨y, hy, hx⟩ := List.mem_flatMap.1 h
  rw [List.eq_of_mem_replicate hx]; exact hy

theorem mem_of_mem_rows {xs r : List α} {w : Nat} {x : α} (hr : r ∈ rows xs w) (hx : x ∈ r) : x ∈ xs := by
  unfold rows at hr
  obtain ⟨i, _, rfl⟩ := List.mem_map.1 hr
  exact List.mem_of_mem_drop (List.mem_of_mem_take hx)

theorem length_of_mem_rows {xs r : List α} {w : Nat} (hr : r ∈ rows xs w) : r.length = w := by
  unfold rows at hr
  obtain ⟨i, hi, rfl⟩ := List.mem_map.1 hr
  rw [List.mem_range] at hi
  rw [List.length_take, List.length_drop]
  have : (i + 1) * w ≤ xs.length := (Nat.le_div_iff_mul_le (by
    rcases Nat.eq_zero_or_pos w with rfl | h
    · simp at hi
    · exact h)).1 hi
  rw [Nat.succ_mul] at this
  omega

/-! ### `assign` -/

theorem assign_nil (arr : List α) (vals : List α) : assign arr [] vals = arr := by simp [assign]

theorem assign_cons (arr : List α) (i : Nat) (idx : List Nat) (v : α) (vals : List α) :
    assign arr (i :: idx) (v :: vals) = assign (arr.set i v) idx vals := by simp [assign]

theorem length_assign (arr : List α) (idx : List Nat) (vals : List α) :
    (assign arr idx vals).length = arr.length := by
  induction idx generalizing arr vals with
  | nil => simp [assign]
  | cons i idx ih =>
    cases vals with
    | nil => simp [assign]
    | cons v vals => rw [assign_cons, ih]; simp

theorem assign_of_notMem (arr : List α) (idx : List Nat) (vals : List α) {j : Nat} (h : j ∉ idx) :
    (assign arr idx vals)[j]? = arr[j]? := by
  induction idx generalizing arr vals with
  | nil => simp [assign]
  | cons i idx ih =>
    cases vals with
    | nil => simp [assign]
    | cons v vals =>
      simp only [List.mem_cons, not_or] at h
      rw [assign_cons, ih _ _ h.2, List.getElem?_set_ne (Ne.symm h.1)]

theorem assign_at (arr : List α) (idx : List Nat) (vals : List α) (hn : idx.Nodup)
    {k j : Nat} {v : α} (hj : j < arr.length) (hk : idx[k]? = some j) (hv : vals[k]? = some v) :
    (assign arr idx vals)[j]? = some v := by
  induction idx generalizing arr vals k with
  | nil => simp at hk
  | cons i idx ih =>
    cases vals with
    | nil => simp at hv
    | cons w vals =>
      rw [assign_cons]
      cases k with
      | zero =>
        simp only [List.getElem?_cons_zero, Option.some.injEq] at hk hv
        subst hk; subst hv
        rw [assign_of_notMem _ _ _ (List.nodup_cons.1 hn).1, List.getElem?_set_self hj]
      | succ k =>
        rw [List.getElem?_cons_succ] at hk hv
        exact ih _ _ (List.nodup_cons.1 hn).2 (by simpa using hj) hk hv

theorem mem_assign (arr : List α) (idx : List Nat) (vals : List α) {x : α}
    (h : x ∈ assign arr idx vals) : x ∈ arr ∨ x ∈ vals := by
  induction idx generalizing arr vals with
  | nil => exact .inl (by simpa [assign] using h)
  | cons i idx ih =>
    cases vals with
    | nil => exact .inl (by simpa [assign] using h)
    | cons v vals =>
      rw [assign_cons] at h
      rcases ih _ _ h with h | h
      · rcases List.mem_or_eq_of_mem_set h with h | h
        · exact .inl h
        · exact .inr (by simp [h])
      · exact .inr (by simp [h])

/-! ### `linspace` -/

variable {K : Type} [Field K] [LinearOrder K] [IsStrictOrderedRing K]

theorem length_linspace (a b : K) (n : Nat) : (linspace a b n).length = n := by simp [linspace]

theorem getElem?_linspace (a b : K) {n k : Nat} (h : k < n) :
    (linspace a b n)[k]? = some (if n = 1 then a else a + (k : K) * ((b - a) / ((n : K) - 1))) := by
  simp [linspace, h]

theorem linspace_up {n k : Nat} (h : k < n) :
    (linspace (0 : K) 1 n)[k]? = some ((k : K) / ((n : K) - 1)) := by
  rw [getElem?_linspace _ _ h]
  by_cases h1 : n = 1
  · subst h1; have : k = 0 := by omega
    simp [this]
  · rw [if_neg h1]; congr 1; ring

theorem linspace_down {n k : Nat} (h : k < n) :
    (linspace (1 : K) 0 n)[k]? = some (1 - (k : K) / ((n : K) - 1)) := by
  rw [getElem?_linspace _ _ h]
  by_cases h1 : n = 1
  · subst h1; have : k = 0 := by omega
    simp [this]
  · rw [if_neg h1]; congr 1; ring

theorem ratio_bounds {n k : Nat} (h : k < n) : 0 ≤ (k : K) / ((n : K) - 1) ∧ (k : K) / ((n : K) - 1) ≤ 1 := by
  have hn : (1 : K) ≤ n := by exact_mod_cast (by omega : 1 ≤ n)
  have hk : (k : K) ≤ (n : K) - 1 := by
    have : (k : K) + 1 ≤ n := by exact_mod_cast h
    linarith
  refine ⟨div_nonneg (Nat.cast_nonneg k) (by linarith), ?_⟩
  exact div_le_one_of_le₀ hk (by linarith)

theorem mem_linspace_up {n : Nat} {x : K} (h : x ∈ linspace (0 : K) 1 n) : 0 ≤ x ∧ x ≤ 1 := by
  obtain ⟨k, hk, he⟩ := List.mem_iff_getElem.1 h
  rw [length_linspace] at hk
  have := linspace_up (K := K) hk
  rw [List.getElem?_eq_getElem (by rwa [length_linspace]), he, Option.some.injEq] at this
  rw [this]
  exact ratio_bounds hk

theorem mem_linspace_down {n : Nat} {x : K} (h : x ∈ linspace (1 : K) 0 n) : 0 ≤ x ∧ x ≤ 1 := by
  obtain ⟨k, hk, he⟩ := List.mem_iff_getElem.1 h
  rw [length_linspace] at hk
  have := linspace_down (K := K) hk
  rw [List.getElem?_eq_getElem (by rwa [length_linspace]), he, Option.some.injEq] at this
  rw [this]
  have := ratio_bounds (K := K) hk
  constructor <;> linarith [this.1, this.2]

end Np

namespace Disagg
open Np Flt
variable {K : Type} [Field K] [LinearOrder K] [IsStrictOrderedRing K] [FloorRing K]

/-- Minutes up to the peak. -/
def tPlus (tPk dur : K) : List Nat :=
  (List.range 1440).filter fun (m : Nat) => decide ((m : K) ≤ tPk) && decide (tPk - 0.5 * dur ≤ (m : K))
/-- Minutes from the peak. -/
def tMinus (tPk dur : K) : List Nat :=
  (List.range 1440).filter fun (m : Nat) => decide (tPk ≤ (m : K)) && decide ((m : K) ≤ tPk + 0.5 * dur)

theorem mem_tPlus {tPk dur : K} {m : Nat} :
    m ∈ tPlus tPk dur ↔ m < 1440 ∧ (m : K) ≤ tPk ∧ tPk - dur / 2 ≤ (m : K) := by
  have : (0.5 : K) * dur = dur / 2 := by ring
  simp [tPlus, this]

theorem mem_tMinus {tPk dur : K} {m : Nat} :
    m ∈ tMinus tPk dur ↔ m < 1440 ∧ tPk ≤ (m : K) ∧ (m : K) ≤ tPk + dur / 2 := by
  have : (0.5 : K) * dur = dur / 2 := by ring
  simp [tMinus, this]

theorem pairwise_tPlus (tPk dur : K) : (tPlus tPk dur).Pairwise (· < ·) :=
  List.Pairwise.filter _ List.pairwise_lt_range
theorem pairwise_tMinus (tPk dur : K) : (tMinus tPk dur).Pairwise (· < ·) :=
  List.Pairwise.filter _ List.pairwise_lt_range

theorem nodup_of_pairwise_lt {l : List Nat} (h : l.Pairwise (· < ·)) : l.Nodup :=
  h.imp (fun h => Nat.ne_of_lt h)

theorem index_lt {l : List Nat} (h : l.Pairwise (· < ·)) {i j a b : Nat} (hi : l[i]? = some a)
    (hj : l[j]? = some b) (hab : a < b) : i < j := by
  rw [List.pairwise_iff_getElem] at h
  obtain ⟨hi', rfl⟩ := List.getElem?_eq_some_iff.1 hi
  obtain ⟨hj', rfl⟩ := List.getElem?_eq_some_iff.1 hj
  by_contra hc
  rcases Nat.lt_or_ge j i with h1 | h1
  · have := h j i hj' hi' h1; omega
  · have : i = j := by omega
    subst this; omega

theorem triangleShape_eq (tPk dur : K) :
    triangleShape (fin tPk) (fin dur) =
      assign (assign (List.replicate 1440 0) (tPlus tPk dur) (linspace 0 1 (tPlus tPk dur).length))
        (tMinus tPk dur) (linspace 1 0 (tMinus tPk dur).length) := by
  rfl

theorem length_triangleShape (tPk dur : Flt K) : (triangleShape tPk dur).length = 1440 := by
  unfold triangleShape
  simp only [length_assign, List.length_replicate]
  rfl

theorem triangleShape_bounds (tPk dur : Flt K) {x : K} (h : x ∈ triangleShape tPk dur) : 0 ≤ x ∧ x ≤ 1 := by
  unfold triangleShape at h
  rcases mem_assign _ _ _ h with h | h
  · rcases mem_assign _ _ _ h with h | h
    · rw [List.eq_of_mem_replicate h]; exact ⟨le_rfl, zero_le_one⟩
    · exact mem_linspace_up h
  · exact mem_linspace_down h

theorem shape_minus {tPk dur : K} {k m : Nat} (h : (tMinus tPk dur)[k]? = some m) :
    (triangleShape (fin tPk) (fin dur))[m]? = some (1 - (k : K) / (((tMinus tPk dur).length : K) - 1)) := by
  have hm := mem_tMinus.1 (List.mem_of_getElem? h)
  have hk := (List.getElem?_eq_some_iff.1 h).1
  rw [triangleShape_eq]
  exact assign_at _ _ _ (nodup_of_pairwise_lt (pairwise_tMinus _ _))
    (by rw [length_assign, List.length_replicate]; exact hm.1) h (linspace_down hk)

theorem shape_plus {tPk dur : K} {k m : Nat} (h : (tPlus tPk dur)[k]? = some m) (hm' : m ∉ tMinus tPk dur) :
    (triangleShape (fin tPk) (fin dur))[m]? = some ((k : K) / (((tPlus tPk dur).length : K) - 1)) := by
  have hm := mem_tPlus.1 (List.mem_of_getElem? h)
  have hk := (List.getElem?_eq_some_iff.1 h).1
  rw [triangleShape_eq, assign_of_notMem _ _ _ hm']
  exact assign_at _ _ _ (nodup_of_pairwise_lt (pairwise_tPlus _ _))
    (by rw [List.length_replicate]; exact hm.1) h (linspace_up hk)

theorem shape_out {tPk dur : K} {m : Nat} (hm : m < 1440) (h1 : m ∉ tPlus tPk dur) (h2 : m ∉ tMinus tPk dur) :
    (triangleShape (fin tPk) (fin dur))[m]? = some 0 := by
  rw [triangleShape_eq, assign_of_notMem _ _ _ h2, assign_of_notMem _ _ _ h1]
  rw [List.getElem?_replicate, if_pos hm]

theorem sum_nonneg_eq_zero_iff (xs : List K) (h : ∀ x ∈ xs, 0 ≤ x) : xs.sum = 0 ↔ ∀ x ∈ xs, x = 0 := by
  induction xs with
  | nil => simp
  | cons x xs ih =>
    have hx := h x (by simp)
    have hs : 0 ≤ xs.sum := List.sum_nonneg fun y hy => h y (by simp [hy])
    rw [List.sum_cons, add_eq_zero_iff_of_nonneg hx hs, ih (fun y hy => h y (by simp [hy]))]
    simp

attribute [irreducible] tPlus tMinus

end Disagg
end Verif
