import Mathlib.Data.Int.Log
import Mathlib.Algebra.Order.Floor.Ring
import Mathlib.Algebra.Order.Archimedean.Basic
import Mathlib.Data.Rat.Floor
import Mathlib.Tactic.Linarith
import Mathlib.Tactic.Ring
import Mathlib.Tactic.FieldSimp
import Mathlib.Tactic.NormNum
import Mathlib.Tactic.Positivity

/-!
# Binary floating point numbers (IEEE 754, round to nearest, ties to even)

Numbers are kept as elements of an ordered field; `rnd p x` is `x` rounded to `p` binary digits.  `p = 53` is `float64`, `p = 24`
is `float32` (`f4`).  Exponents are unbounded: no overflow, no subnormal numbers.
-/

namespace Verif.Fp

section
variable {K : Type} [Field K] [LinearOrder K] [IsStrictOrderedRing K] [FloorRing K]

/-- Nearest integer, ties to the even one. -/
def nearest (x : K) : Int :=
  if x - ⌊x⌋ < 1 / 2 then ⌊x⌋
  else if 1 / 2 < x - ⌊x⌋ then ⌊x⌋ + 1
  else if ⌊x⌋ % 2 = 0 then ⌊x⌋ else ⌊x⌋ + 1

/-- The unit of the last digit of a number with `p` digits. -/
def ulp (p : Nat) (x : K) : K := 2 ^ (Int.log 2 |x| - (p - 1 : Int))

/-- `x` rounded to `p` binary digits. -/
def rnd (p : Nat) (x : K) : K := (nearest (x / ulp p x) : K) * ulp p x

/-- A number with `p` binary digits. -/
def IsRep (p : Nat) (x : K) : Prop := ∃ m e : Int, |m| ≤ 2 ^ p ∧ x = (m : K) * 2 ^ e

theorem nearest_err (x : K) : |(nearest x : K) - x| ≤ 1 / 2 := by
  have h0 := Int.floor_le x
  have h1 := Int.lt_floor_add_one x
  unfold nearest
  rw [abs_le]
  split_ifs <;> push_cast <;> constructor <;> linarith

theorem nearest_int (n : Int) : nearest (n : K) = n := by
  unfold nearest
  rw [Int.floor_intCast, sub_self, if_pos (by norm_num)]

theorem nearest_mono {x y : K} (h : x ≤ y) : nearest x ≤ nearest y := by
  rcases (Int.floor_mono h).lt_or_eq with hlt | heq
  · have a : nearest x ≤ ⌊x⌋ + 1 := by unfold nearest; split_ifs <;> omega
    have b : ⌊y⌋ ≤ nearest y := by unfold nearest; split_ifs <;> omega
    omega
  · unfold nearest
    rw [← heq]
    have : x - ⌊x⌋ ≤ y - ⌊x⌋ := by linarith
    split_ifs <;> first | omega | (exfalso; linarith)

theorem nearest_neg (x : K) : nearest (-x) = -nearest x := by
  have h0 := Int.floor_le x
  have h1 := Int.lt_floor_add_one x
  by_cases hi : x = ⌊x⌋
  · have : -x = ((-⌊x⌋ : Int) : K) := by push_cast; rw [← hi]
    rw [this, nearest_int]
    conv_rhs => rw [hi, nearest_int]
  · have hf : ⌊-x⌋ = -⌊x⌋ - 1 := by
      rw [Int.floor_eq_iff]
      push_cast
      have : (⌊x⌋ : K) < x := lt_of_le_of_ne h0 (Ne.symm hi)
      constructor <;> linarith
    unfold nearest
    rw [hf]
    push_cast
    split_ifs <;> first | omega | (exfalso; linarith)

theorem ulp_pos (p : Nat) (x : K) : 0 < ulp p x := zpow_pos (by norm_num) _

theorem rnd_err (p : Nat) (x : K) : |rnd p x - x| ≤ ulp p x / 2 := by
  have hu := ulp_pos p x
  have h := nearest_err (x / ulp p x)
  have e : rnd p x - x = ((nearest (x / ulp p x) : K) - x / ulp p x) * ulp p x := by
    unfold rnd; field_simp
  rw [e, abs_mul, abs_of_pos hu]
  calc _ ≤ 1 / 2 * ulp p x := mul_le_mul_of_nonneg_right h hu.le
    _ = ulp p x / 2 := by ring

theorem rnd_zero (p : Nat) : rnd p (0 : K) = 0 := by
  unfold rnd
  rw [zero_div]
  have := nearest_int (K := K) 0
  rw [Int.cast_zero] at this
  rw [this]; simp

theorem ulp_le (p : Nat) {x : K} (h : x ≠ 0) : ulp p x ≤ |x| * 2 ^ (1 - p : Int) := by
  have h1 := Int.zpow_log_le_self (R := K) (b := 2) (by norm_num) (abs_pos.2 h)
  unfold ulp
  rw [show (Int.log 2 |x| - (p - 1 : Int)) = Int.log 2 |x| + (1 - p) by ring, zpow_add₀ (by norm_num)]
  exact mul_le_mul_of_nonneg_right (by simpa using h1) (zpow_nonneg (by norm_num) _)

/-- The relative error of a rounding. -/
theorem rnd_rel (p : Nat) (x : K) : |rnd p x - x| ≤ |x| * 2 ^ (-p : Int) := by
  by_cases h : x = 0
  · subst h; rw [rnd_zero]; simp
  · refine (rnd_err p x).trans ?_
    have := ulp_le p h
    have e : (2 : K) ^ (1 - p : Int) = 2 * 2 ^ (-p : Int) := by
      rw [show (1 - p : Int) = 1 + -p by ring, zpow_add₀ (by norm_num), zpow_one]
    rw [e] at this
    linarith

theorem rnd_neg (p : Nat) (x : K) : rnd p (-x) = -rnd p x := by
  unfold rnd
  have : ulp p (-x) = ulp p x := by unfold ulp; rw [abs_neg]
  rw [this, neg_div, nearest_neg]; push_cast; ring

/-- Numbers of `p` digits stay. -/
theorem rnd_rep {p : Nat} (hp : 0 < p) {x : K} (h : IsRep p x) : rnd p x = x := by
  have key : ∀ m e : Int, |m| < 2 ^ p → x = (m : K) * 2 ^ e → rnd p x = x := by
    intro m e hm hx
    by_cases h0 : x = 0
    · rw [h0, rnd_zero]
    have h1 := Int.zpow_log_le_self (R := K) (b := 2) (by norm_num) (abs_pos.2 h0)
    have h2 : |x| < 2 ^ ((p : Int) + e) := by
      rw [hx, abs_mul, abs_of_pos (zpow_pos (by norm_num : (0 : K) < 2) e), zpow_add₀ (by norm_num)]
      refine mul_lt_mul_of_pos_right ?_ (zpow_pos (by norm_num) _)
      have : ((|m| : Int) : K) < ((2 ^ p : Int) : K) := by exact_mod_cast hm
      push_cast at this
      rw [zpow_natCast]
      exact this
    have h3 : Int.log 2 |x| < p + e := (Int.lt_zpow_iff_log_lt (by norm_num) (abs_pos.2 h0)).1 (by simpa using h2)
    obtain ⟨k, hk⟩ : ∃ k : Nat, e = (Int.log 2 |x| - (p - 1 : Int)) + k :=
      ⟨(e - (Int.log 2 |x| - (p - 1 : Int))).toNat, by omega⟩
    have hq : x / ulp p x = ((m * 2 ^ k : Int) : K) := by
      rw [div_eq_iff (ulp_pos p x).ne']
      conv_lhs => rw [hx, hk, zpow_add₀ (by norm_num), zpow_natCast]
      unfold ulp
      push_cast
      ring
    unfold rnd
    rw [hq, nearest_int, ← hq, div_mul_cancel₀ _ (ulp_pos p x).ne']
  obtain ⟨m, e, hm, hx⟩ := h
  rcases hm.lt_or_eq with h | h
  · exact key m e h hx
  · have h1 : (1 : Int) < 2 ^ p := one_lt_pow₀ (by norm_num) (by omega)
    rcases abs_cases m with ⟨a, -⟩ | ⟨a, -⟩
    · refine key 1 (p + e) (by simpa using h1) ?_
      rw [hx, zpow_add₀ (by norm_num), zpow_natCast, show m = 2 ^ p by omega]; push_cast; ring
    · refine key (-1) (p + e) (by simpa using h1) ?_
      rw [hx, zpow_add₀ (by norm_num), zpow_natCast, show m = -2 ^ p by omega]; push_cast; ring

theorem ulp_mul (p : Nat) (x : K) : (2 : K) ^ p * ulp p x = 2 ^ (Int.log 2 |x| + 1) := by
  unfold ulp
  rw [← zpow_natCast, ← zpow_add₀ (by norm_num)]
  congr 1; ring

theorem ulp_mul' (p : Nat) (hp : 0 < p) (x : K) : (2 : K) ^ (p - 1) * ulp p x = 2 ^ (Int.log 2 |x|) := by
  unfold ulp
  rw [← zpow_natCast, ← zpow_add₀ (by norm_num)]
  congr 1
  rw [Nat.cast_sub hp]; ring

/-- A rounded number stays within its power of two. -/
theorem rnd_between (p : Nat) (hp : 0 < p) {x : K} (h : 0 < x) : 2 ^ (Int.log 2 x) ≤ rnd p x ∧ rnd p x ≤ 2 ^ (Int.log 2 x + 1) := by
  have hu := ulp_pos p x
  have h1 := Int.zpow_log_le_self (R := K) (b := 2) (by norm_num) h
  have h2 := Int.lt_zpow_succ_log_self (R := K) (b := 2) (by norm_num) x
  have e1 := ulp_mul p x
  have e2 := ulp_mul' p hp x
  rw [abs_of_pos h] at e1 e2
  push_cast at h1 h2
  constructor
  · rw [← e2] at h1 ⊢
    unfold rnd
    refine mul_le_mul_of_nonneg_right ?_ hu.le
    have := nearest_mono ((le_div_iff₀ hu).2 h1)
    have e : ((2 : K) ^ (p - 1)) = ((2 ^ (p - 1) : Int) : K) := by push_cast; rfl
    rw [e, nearest_int] at this
    rw [e]
    exact_mod_cast this
  · rw [← e1] at h2 ⊢
    unfold rnd
    refine mul_le_mul_of_nonneg_right ?_ hu.le
    have := nearest_mono ((div_le_iff₀ hu).2 h2.le)
    have e : ((2 : K) ^ p) = ((2 ^ p : Int) : K) := by push_cast; rfl
    rw [e, nearest_int] at this
    rw [e]
    exact_mod_cast this

theorem rnd_nonneg (p : Nat) {x : K} (h : 0 ≤ x) : 0 ≤ rnd p x := by
  unfold rnd
  refine mul_nonneg ?_ (ulp_pos p x).le
  have := nearest_mono (div_nonneg h (ulp_pos p x).le)
  have e := nearest_int (K := K) 0
  rw [Int.cast_zero] at e
  rw [e] at this
  exact_mod_cast this

theorem rnd_mono_pos (p : Nat) (hp : 0 < p) {x y : K} (h0 : 0 < x) (h : x ≤ y) : rnd p x ≤ rnd p y := by
  have hy := lt_of_lt_of_le h0 h
  rcases (Int.log_mono_right (b := 2) h0 h).lt_or_eq with hl | hl
  · calc rnd p x ≤ 2 ^ (Int.log 2 x + 1) := (rnd_between p hp h0).2
      _ ≤ 2 ^ (Int.log 2 y) := zpow_le_zpow_right₀ (by norm_num) hl
      _ ≤ rnd p y := (rnd_between p hp hy).1
  · have e : ulp p x = ulp p y := by unfold ulp; rw [abs_of_pos h0, abs_of_pos hy, hl]
    unfold rnd
    rw [e]
    refine mul_le_mul_of_nonneg_right ?_ (ulp_pos p y).le
    exact_mod_cast nearest_mono (div_le_div_of_nonneg_right h (ulp_pos p y).le)

/-- Rounding keeps the order. -/
theorem rnd_mono (p : Nat) (hp : 0 < p) {x y : K} (h : x ≤ y) : rnd p x ≤ rnd p y := by
  rcases lt_or_ge 0 x with hx | hx
  · exact rnd_mono_pos p hp hx h
  · rcases lt_or_ge y 0 with hy | hy
    · have := rnd_mono_pos p hp (neg_pos.2 hy) (neg_le_neg h)
      rw [rnd_neg, rnd_neg] at this
      linarith
    · have h1 := rnd_nonneg p (neg_nonneg.2 hx)
      rw [rnd_neg] at h1
      have h2 := rnd_nonneg p hy
      linarith

/-- The result of a rounding has `p` digits. -/
theorem isRep_rnd (p : Nat) (x : K) : IsRep p (rnd p x) := by
  refine ⟨nearest (x / ulp p x), Int.log 2 |x| - (p - 1 : Int), ?_, rfl⟩
  have hu := ulp_pos p x
  have h2 := Int.lt_zpow_succ_log_self (R := K) (b := 2) (by norm_num) |x|
  push_cast at h2
  rw [← ulp_mul p x] at h2
  obtain ⟨h3, h4⟩ := abs_lt.1 h2
  have e : ((2 : K) ^ p) = ((2 ^ p : Int) : K) := by push_cast; rfl
  rw [abs_le]
  constructor
  · have := nearest_mono ((le_div_iff₀ hu).2 (show ((-(2 ^ p) : Int) : K) * ulp p x ≤ x by push_cast; linarith))
    rwa [nearest_int] at this
  · have := nearest_mono ((div_le_iff₀ hu).2 h4.le)
    rwa [e, nearest_int] at this

/-- Bounds with `p` digits survive. -/
theorem le_rnd {p : Nat} (hp : 0 < p) {a x : K} (ha : IsRep p a) (h : a ≤ x) : a ≤ rnd p x := by
  rw [← rnd_rep hp ha]; exact rnd_mono p hp h

theorem rnd_le {p : Nat} (hp : 0 < p) {a x : K} (ha : IsRep p a) (h : x ≤ a) : rnd p x ≤ a := by
  rw [← rnd_rep hp ha]; exact rnd_mono p hp h

theorem rep_int {p : Nat} {n : Int} (h : |n| ≤ 2 ^ p) : IsRep p (n : K) := ⟨n, 0, h, by simp⟩

theorem rep_nat {p n : Nat} (h : n ≤ 2 ^ p) : IsRep p (n : K) := ⟨n, 0, by rw [Nat.abs_cast]; exact_mod_cast h, by simp⟩

theorem rep_neg {p : Nat} {x : K} (h : IsRep p x) : IsRep p (-x) := by
  obtain ⟨m, e, hm, rfl⟩ := h
  exact ⟨-m, e, by rwa [abs_neg], by push_cast; ring⟩

/-- Scaling by a power of two changes nothing but the exponent. -/
theorem rep_scale {p : Nat} {x : K} (h : IsRep p x) (k : Int) : IsRep p (x * 2 ^ k) := by
  obtain ⟨m, e, hm, rfl⟩ := h
  exact ⟨m, e + k, hm, by rw [zpow_add₀ (by norm_num)]; ring⟩

end

end Verif.Fp
