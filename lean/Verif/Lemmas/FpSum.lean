import Verif.Model.Rounded
import Verif.Lemmas.Disagg
import Mathlib.Tactic.GCongr

/-!
# Errors of sums of floating point numbers, in any order of addition
-/

namespace Verif.Rounded
open Verif Verif.Np Verif.Fp

section
variable {K : Type} [Field K] [LinearOrder K] [IsStrictOrderedRing K] [FloorRing K]

/-- The relative error of `k` roundings. -/
def gam (p k : Nat) : K := (1 + 2 ^ (-p : Int)) ^ k - 1

theorem unit_pos (p : Nat) : (0 : K) < 2 ^ (-p : Int) := zpow_pos (by norm_num) _

theorem gam_nonneg (p k : Nat) : (0 : K) ≤ gam p k := by
  unfold gam
  have := one_le_pow₀ (n := k) (by linarith [unit_pos (K := K) p] : (1 : K) ≤ 1 + 2 ^ (-p : Int))
  linarith

theorem gam_mono (p : Nat) {k l : Nat} (h : k ≤ l) : (gam p k : K) ≤ gam p l := by
  unfold gam
  have := pow_le_pow_right₀ (by linarith [unit_pos (K := K) p] : (1 : K) ≤ 1 + 2 ^ (-p : Int)) h
  linarith

theorem gam_zero (p : Nat) : (gam p 0 : K) = 0 := by simp [gam]

theorem gam_succ (p k : Nat) : (gam p (k + 1) : K) = gam p k + 2 ^ (-p : Int) * (1 + gam p k) := by
  unfold gam; rw [pow_succ]; ring

/-- Few roundings: the relative error is at most twice their number of units. -/
theorem gam_le (p k : Nat) (h : (2 * k : K) * 2 ^ (-p : Int) ≤ 1) : (gam p k : K) ≤ 2 * k * 2 ^ (-p : Int) := by
  set u : K := 2 ^ (-p : Int) with hu
  have u0 : 0 < u := unit_pos p
  induction k with
  | zero => simp [gam_zero]
  | succ k ih =>
    have hk : (2 * k : K) * u ≤ 1 := by
      refine le_trans ?_ h
      push_cast
      nlinarith
    have := ih hk
    rw [gam_succ, ← hu]
    push_cast
    nlinarith

/-- One more rounding. -/
theorem near_rnd {p k : Nat} {x y a : K} (h : |x - y| ≤ gam p k * a) (ha : |y| ≤ a) : |rnd p x - y| ≤ gam p (k + 1) * a := by
  have hx : |x| ≤ (1 + gam p k) * a := by
    have := abs_add_le (x - y) y
    rw [sub_add_cancel] at this
    linarith
  have h1 := rnd_rel p x
  have u0 := unit_pos (K := K) p
  have h2 : |x| * 2 ^ (-p : Int) ≤ (1 + gam p k) * a * 2 ^ (-p : Int) := mul_le_mul_of_nonneg_right hx u0.le
  have := abs_add_le (rnd p x - x) (x - y)
  rw [sub_add_sub_cancel] at this
  rw [gam_succ]
  linarith

theorem abs_sum_le (xs : List K) : |xs.sum| ≤ (xs.map abs).sum := by
  induction xs with
  | nil => simp
  | cons x xs ih => simp only [List.sum_cons, List.map_cons]; linarith [abs_add_le x xs.sum]

theorem sum_abs_nonneg (xs : List K) : 0 ≤ (xs.map abs).sum := (abs_nonneg _).trans (abs_sum_le xs)

theorem sum_take_drop (xs : List K) (n : Nat) (f : K → K) :
    ((xs.take n).map f).sum + ((xs.drop n).map f).sum = (xs.map f).sum := by
  rw [← List.sum_append, ← List.map_append, List.take_append_drop]

/-- The sum in any order of additions. -/
theorem order_sum_err (p : Nat) (o : Order) (xs : List K) (h : xs.length = o.size) :
    |o.sum p xs - xs.sum| ≤ gam p o.depth * (xs.map abs).sum := by
  induction o generalizing xs with
  | leaf =>
    match xs, h with
    | [x], _ => simp [Order.sum, Order.depth, gam_zero]
  | node l r ihl ihr =>
    have hl : (xs.take l.size).length = l.size := by rw [List.length_take, h]; simp [Order.size]
    have hr : (xs.drop l.size).length = r.size := by rw [List.length_drop, h]; simp [Order.size]
    have el := ihl _ hl
    have er := ihr _ hr
    have ml : (gam p l.depth : K) ≤ gam p (max l.depth r.depth) := gam_mono p (le_max_left _ _)
    have mr : (gam p r.depth : K) ≤ gam p (max l.depth r.depth) := gam_mono p (le_max_right _ _)
    have e1 : (xs.take l.size).sum + (xs.drop l.size).sum = xs.sum := by
      rw [← List.sum_append, List.take_append_drop]
    have e2 := sum_take_drop xs l.size abs
    have nl := mul_le_mul_of_nonneg_right ml (sum_abs_nonneg (xs.take l.size))
    have nr := mul_le_mul_of_nonneg_right mr (sum_abs_nonneg (xs.drop l.size))
    show |rnd p (l.sum p (xs.take l.size) + r.sum p (xs.drop l.size)) - xs.sum| ≤ gam p (max l.depth r.depth + 1) * (xs.map abs).sum
    refine near_rnd ?_ (abs_sum_le xs)
    rw [← e1, ← e2, mul_add]
    have := abs_add_le (l.sum p (xs.take l.size) - (xs.take l.size).sum) (r.sum p (xs.drop l.size) - (xs.drop l.size).sum)
    rw [show l.sum p (xs.take l.size) + r.sum p (xs.drop l.size) - ((xs.take l.size).sum + (xs.drop l.size).sum)
      = (l.sum p (xs.take l.size) - (xs.take l.size).sum) + (r.sum p (xs.drop l.size) - (xs.drop l.size).sum) by ring]
    linarith

/-- Sums keep bounds whose multiples have `p` digits. -/
theorem order_sum_bounds (p : Nat) (hp : 0 < p) (o : Order) (xs : List K) (h : xs.length = o.size) (c : K)
    (rep : ∀ k : Nat, k ≤ o.size → IsRep p ((k : K) * c)) :
    ((∀ x ∈ xs, x ≤ c) → o.sum p xs ≤ o.size * c) ∧ ((∀ x ∈ xs, c ≤ x) → o.size * c ≤ o.sum p xs) := by
  induction o generalizing xs with
  | leaf =>
    match xs, h with
    | [x], _ => simp [Order.sum, Order.size]
  | node l r ihl ihr =>
    have hl : (xs.take l.size).length = l.size := by rw [List.length_take, h]; simp [Order.size]
    have hr : (xs.drop l.size).length = r.size := by rw [List.length_drop, h]; simp [Order.size]
    have el := ihl _ hl (fun k hk => rep k (by simp only [Order.size]; omega))
    have er := ihr _ hr (fun k hk => rep k (by simp only [Order.size]; omega))
    have e : (((Order.node l r).size : Nat) : K) * c = l.size * c + r.size * c := by simp only [Order.size]; push_cast; ring
    have rp := rep (Order.node l r).size le_rfl
    constructor
    · intro hx
      refine rnd_le hp rp ?_
      rw [e]
      exact add_le_add (el.1 fun x h => hx x (List.mem_of_mem_take h)) (er.1 fun x h => hx x (List.mem_of_mem_drop h))
    · intro hx
      refine le_rnd hp rp ?_
      rw [e]
      exact add_le_add (el.2 fun x h => hx x (List.mem_of_mem_take h)) (er.2 fun x h => hx x (List.mem_of_mem_drop h))

theorem arrange_perm {n : Nat} (o : Adding n) (xs : List K) (h : xs.length = n) : (o.arrange xs).Perm xs := by
  unfold Adding.arrange
  refine (o.perm.map _).trans (List.Perm.of_eq ?_)
  subst h
  refine List.ext_getElem (by simp) fun i h1 h2 => ?_
  simp [List.getD_eq_getElem?_getD, List.getElem?_eq_getElem h2]

/-- The sum in any order of additions. -/
theorem adding_err {n : Nat} (p : Nat) (o : Adding n) (xs : List K) (h : xs.length = n) :
    |o.sum p xs - xs.sum| ≤ gam p o.tree.depth * (xs.map abs).sum := by
  have hp := arrange_perm o xs h
  have := order_sum_err p o.tree (o.arrange xs) (by rw [hp.length_eq, h, o.size_eq])
  rw [hp.sum_eq, (hp.map abs).sum_eq] at this
  exact this

theorem adding_bounds {n : Nat} (p : Nat) (hp : 0 < p) (o : Adding n) (xs : List K) (h : xs.length = n) (c : K)
    (rep : ∀ k : Nat, k ≤ n → IsRep p ((k : K) * c)) :
    ((∀ x ∈ xs, x ≤ c) → o.sum p xs ≤ n * c) ∧ ((∀ x ∈ xs, c ≤ x) → n * c ≤ o.sum p xs) := by
  have hq := arrange_perm o xs h
  have := order_sum_bounds p hp o.tree (o.arrange xs) (by rw [hq.length_eq, h, o.size_eq]) c (by rw [o.size_eq]; exact rep)
  rw [o.size_eq] at this
  exact ⟨fun hx => this.1 fun x h => hx x (hq.mem_iff.1 h), fun hx => this.2 fun x h => hx x (hq.mem_iff.1 h)⟩

theorem adding_const {n : Nat} (p : Nat) (hp : 0 < p) (o : Adding n) (xs : List K) (h : xs.length = n) (c : K)
    (rep : ∀ k : Nat, k ≤ n → IsRep p ((k : K) * c)) (hc : ∀ x ∈ xs, x = c) : o.sum p xs = n * c := by
  obtain ⟨h1, h2⟩ := adding_bounds p hp o xs h c rep
  exact le_antisymm (h1 fun x hx => (hc x hx).le) (h2 fun x hx => (hc x hx).ge)

/-- Multiples of numbers of few digits. -/
theorem rep_mul {a b : Nat} {x : K} (h : IsRep a x) {k : Nat} (hk : k ≤ 2 ^ b) : IsRep (a + b) ((k : K) * x) := by
  obtain ⟨m, e, hm, rfl⟩ := h
  refine ⟨k * m, e, ?_, by push_cast; ring⟩
  rw [abs_mul, Nat.abs_cast, pow_add, mul_comm]
  refine mul_le_mul hm (by exact_mod_cast hk) (by positivity) (by positivity)

omit [Field K] [LinearOrder K] [IsStrictOrderedRing K] [FloorRing K] in
theorem depth_lt_size (o : Order) : o.depth < o.size := by
  induction o with
  | leaf => simp [Order.depth, Order.size]
  | node l r ihl ihr => simp only [Order.depth, Order.size]; omega

theorem rep_mono {a b : Nat} (h : a ≤ b) {x : K} (hx : IsRep a x) : IsRep b x := by
  obtain ⟨m, e, hm, rfl⟩ := hx
  exact ⟨m, e, hm.trans (pow_le_pow_right₀ (by norm_num) h), rfl⟩

end

end Verif.Rounded
