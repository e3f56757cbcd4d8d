import Verif.Model.Rounded
import Verif.Model.Disagg
import Mathlib.Order.Interval.Finset.Basic
import Mathlib.Data.Int.Interval

/-!
# The shift to UTC in floating point
-/

namespace Verif.Props
open Verif Verif.Np Verif.Fp

section
variable {K : Type} [Field K] [LinearOrder K] [IsStrictOrderedRing K] [FloorRing K]

theorem trunc_neg (x : K) : trunc (-x) = -trunc x := by
  unfold trunc
  rcases lt_trichotomy x 0 with h | h | h
  · rw [if_pos (by linarith), if_neg (by linarith), Int.floor_neg]
  · subst h; simp
  · rw [if_neg (by linarith), if_pos h.le, Int.ceil_neg]

theorem trunc_mono {x y : K} (h : x ≤ y) : trunc x ≤ trunc y := by
  unfold trunc
  split_ifs with a b b
  · exact Int.floor_mono h
  · linarith
  · exact (Int.ceil_nonpos.2 (by linarith : x ≤ 0)).trans (Int.floor_nonneg.2 b)
  · exact Int.ceil_mono h

/-- Numbers less than one apart are truncated to integers at most one apart. -/
theorem trunc_near {x y : K} (h : |x - y| < 1) : |trunc x - trunc y| ≤ 1 := by
  obtain ⟨h1, h2⟩ := abs_lt.1 h
  have fx := Int.floor_le x; have fx' := Int.lt_floor_add_one x
  have fy := Int.floor_le y; have fy' := Int.lt_floor_add_one y
  have cx := Int.le_ceil x; have cx' := Int.ceil_lt_add_one x
  have cy := Int.le_ceil y; have cy' := Int.ceil_lt_add_one y
  have key : ∀ a b : Int, (a : K) < b + 2 → a ≤ b + 1 := by
    intro a b h
    have : a < b + 2 := by exact_mod_cast h
    omega
  unfold trunc
  rw [abs_le]
  split_ifs with a b b
  · have := key ⌊x⌋ ⌊y⌋ (by linarith); have := key ⌊y⌋ ⌊x⌋ (by linarith); omega
  · have h3 : ⌊x⌋ ≤ 0 := by
      rw [← Int.lt_add_one_iff, zero_add, Int.floor_lt]; push_cast; linarith
    have h4 : 0 ≤ ⌊x⌋ := Int.floor_nonneg.2 a
    have h5 : 0 ≤ ⌈y⌉ := by
      rw [← Int.lt_add_one_iff, ← sub_lt_iff_lt_add, Int.lt_ceil]; push_cast; linarith
    have h6 : ⌈y⌉ ≤ 0 := Int.ceil_nonpos.2 (by linarith)
    omega
  · have h3 : ⌊y⌋ ≤ 0 := by
      rw [← Int.lt_add_one_iff, zero_add, Int.floor_lt]; push_cast; linarith
    have h4 : 0 ≤ ⌊y⌋ := Int.floor_nonneg.2 b
    have h5 : 0 ≤ ⌈x⌉ := by
      rw [← Int.lt_add_one_iff, ← sub_lt_iff_lt_add, Int.lt_ceil]; push_cast; linarith
    have h6 : ⌈x⌉ ≤ 0 := Int.ceil_nonpos.2 (by linarith)
    omega
  · have := key ⌈x⌉ ⌈y⌉ (by linarith); have := key ⌈y⌉ ⌈x⌉ (by linarith); omega

/-- Numbers with no integer but zero near are truncated alike. -/
theorem trunc_eq {x y : K} {d : K} (h : |x - y| ≤ d) (hd : d < 1) (far : ∀ n : Int, n ≠ 0 → d < |y - n|) : trunc x = trunc y := by
  obtain ⟨h1, h2⟩ := abs_le.1 h
  have d0 : 0 ≤ d := (abs_nonneg _).trans h
  wlog hy : 0 ≤ y generalizing x y
  · have := @this (-x) (-y) (by rw [← abs_neg]; convert h using 2; ring)
      (fun n hn => by have := far (-n) (by omega); rw [← abs_neg]; push_cast at this; convert this using 2; ring)
      (by linarith) (by linarith) (by linarith)
    rw [trunc_neg, trunc_neg] at this
    omega
  have f1 := Int.floor_le y
  have f2 := Int.lt_floor_add_one y
  have f0 : 0 ≤ ⌊y⌋ := Int.floor_nonneg.2 hy
  have g := far (⌊y⌋ + 1) (by omega)
  push_cast at g
  rw [abs_of_neg (by linarith)] at g
  rcases f0.lt_or_eq with f0 | f0
  · have g0 := far ⌊y⌋ (by omega)
    rw [abs_of_nonneg (by linarith)] at g0
    have : (1 : K) ≤ ⌊y⌋ := by exact_mod_cast f0
    unfold trunc
    rw [if_pos (by linarith), if_pos hy, Int.floor_eq_iff]
    constructor <;> linarith
  · rw [← f0] at g f1 f2
    push_cast at g f1 f2
    have e : trunc y = 0 := by unfold trunc; rw [if_pos hy, ← f0]
    rw [e]
    unfold trunc
    split_ifs with a
    · rw [Int.floor_eq_iff]; push_cast; constructor <;> linarith
    · rw [Int.ceil_eq_iff]; push_cast; constructor <;> linarith

/-- Two roundings, of the quotient and of the product. -/
theorem twice (p : Nat) (x y : K) (hy : 0 ≤ y) :
    |rnd p (rnd p x * y) - x * y| ≤ |x| * y * (2 * 2 ^ (-p : Int) + 2 ^ (-p : Int) * 2 ^ (-p : Int)) := by
  set u : K := 2 ^ (-p : Int) with hu
  have u0 : 0 ≤ u := zpow_nonneg (by norm_num) _
  have h1 := rnd_rel p x
  have h2 := rnd_rel p (rnd p x * y)
  rw [← hu] at h1 h2
  rw [abs_mul, abs_of_nonneg hy] at h2
  have h3 : |rnd p x| ≤ |x| + |x| * u := by
    have := abs_add_le (rnd p x - x) x
    rw [sub_add_cancel] at this
    linarith
  have h4 : |rnd p x * y - x * y| ≤ |x| * u * y := by
    rw [← sub_mul, abs_mul, abs_of_nonneg hy]
    exact mul_le_mul_of_nonneg_right h1 hy
  have h5 : |rnd p x| * y * u ≤ (|x| + |x| * u) * y * u := by gcongr
  have := abs_add_le (rnd p (rnd p x * y) - rnd p x * y) (rnd p x * y - x * y)
  rw [sub_add_sub_cancel] at this
  linarith

/-- The shift before its truncation, in `float64`. -/
theorem offset_err (per : Nat) (hper : per ≤ 2880) (lon : K) (hl : |lon| ≤ 180) :
    |rnd 53 (rnd 53 (lon / 360) * (per : K)) - lon / 360 * per| ≤ 2 ^ (-41 : Int) := by
  have h := twice 53 (lon / 360) (per : K) (Nat.cast_nonneg _)
  rw [Nat.cast_ofNat] at h
  refine h.trans ?_
  have e : |lon / 360| ≤ 1 / 2 := by
    rw [abs_div, abs_of_pos (by norm_num : (0 : K) < 360), div_le_iff₀ (by norm_num)]; linarith
  have hp : (per : K) ≤ 2880 := by exact_mod_cast hper
  have h1 : |lon / 360| * (per : K) ≤ 1 / 2 * 2880 := mul_le_mul e hp (Nat.cast_nonneg _) (by norm_num)
  calc _ ≤ 1 / 2 * 2880 * (2 * 2 ^ (-53 : Int) + 2 ^ (-53 : Int) * 2 ^ (-53 : Int) : K) :=
        mul_le_mul_of_nonneg_right h1 (by norm_num)
    _ ≤ 2 ^ (-41 : Int) := by norm_num

theorem offset_unfold (p per : Nat) (lon : K) : Rounded.offset p per lon = trunc (rnd p (rnd p (lon / 360) * (per : K))) := by
  unfold Rounded.offset Cnst.DEG_PER_REV
  norm_num

theorem trunc_whole {x : K} (n : Nat) (h : |x - n| < 1) : trunc x = n ∨ trunc x = n - 1 := by
  obtain ⟨h1, h2⟩ := abs_lt.1 h
  rcases Nat.eq_zero_or_pos n with rfl | hn
  · left
    push_cast at h1 h2
    unfold trunc
    split_ifs with a
    · rw [Int.floor_eq_iff]; push_cast; constructor <;> linarith
    · rw [Int.ceil_eq_iff]; push_cast; constructor <;> linarith
  · have : (1 : K) ≤ n := by exact_mod_cast hn
    have x0 : 0 ≤ x := by linarith
    have f1 := Int.floor_le x
    have f2 := Int.lt_floor_add_one x
    unfold trunc
    rw [if_pos x0]
    have a : ⌊x⌋ < n + 1 := by rw [Int.floor_lt]; push_cast; linarith
    have b : (n : Int) - 1 ≤ ⌊x⌋ := by rw [Int.le_floor]; push_cast; linarith
    omega

/-- C98, in full: with `float64` numbers the shift of a place is the whole part of the time its longitude stands for, in minutes
(`per = 1440`) and in slots of 30 seconds (`per = 2880`). -/
def C98_full : Prop :=
  ∀ lon : ℚ, IsRep 53 lon → |lon| ≤ 180 →
    Rounded.offset 53 1440 lon = trunc (4 * lon) ∧ Rounded.offset 53 2880 lon = trunc (8 * lon)

/-- C98, what holds: for every longitude the shift is at most one unit off; it is right unless the time is within `2^-41` of a whole
number of units other than zero; where the time is a whole number the shift is that number or the next one towards zero; and it is the shift
of the exact model where the quotient and the product have 53 digits. -/
theorem C98_shift_partial (per : Nat) (hper : per ≤ 2880) (lon : K) (hl : |lon| ≤ 180) :
    |Rounded.offset 53 per lon - trunc (lon / 360 * per)| ≤ 1
    ∧ ((∀ n : Int, n ≠ 0 → (2 : K) ^ (-41 : Int) < |lon / 360 * per - n|) → Rounded.offset 53 per lon = trunc (lon / 360 * per))
    ∧ (∀ n : Nat, lon / 360 * per = n → Rounded.offset 53 per lon = n ∨ Rounded.offset 53 per lon = n - 1)
    ∧ (∀ n : Nat, lon / 360 * per = -n → Rounded.offset 53 per lon = -n ∨ Rounded.offset 53 per lon = -(n - 1))
    ∧ (IsRep 53 (lon / 360) → IsRep 53 (lon / 360 * per) → Rounded.offset 53 per lon = trunc (lon / 360 * per)) := by
  have he := offset_err per hper lon hl
  have small : (2 : K) ^ (-41 : Int) < 1 := by norm_num
  have e : Rounded.offset 53 per lon = trunc (rnd 53 (rnd 53 (lon / 360) * (per : K))) := offset_unfold 53 per lon
  rw [e]
  refine ⟨trunc_near (he.trans_lt small), fun far => trunc_eq he small far, ?_, ?_, fun h1 h2 => ?_⟩
  · intro n hn
    have := trunc_whole n (by rw [← hn]; exact he.trans_lt small)
    exact this
  · intro n hn
    have := trunc_whole (x := -(rnd 53 (rnd 53 (lon / 360) * (per : K)))) n
      (by rw [← abs_neg]; rw [hn] at he; refine lt_of_le_of_lt ?_ small; convert he using 2; ring)
    rw [trunc_neg] at this
    omega
  · rw [rnd_rep (by norm_num) h1, rnd_rep (by norm_num) h2]

/-- West of a place the record is shifted no less; opposite longitudes are shifted oppositely; Greenwich not at all. -/
theorem C98_order (p : Nat) (hp : 0 < p) (per : Nat) (a b : K) :
    (a ≤ b → Rounded.offset p per a ≤ Rounded.offset p per b) ∧ Rounded.offset p per (-a) = -Rounded.offset p per a
    ∧ Rounded.offset p per (0 : K) = 0 := by
  have e : ∀ x : K, Rounded.offset p per x = trunc (rnd p (rnd p (x / 360) * (per : K))) := offset_unfold p per
  refine ⟨fun h => ?_, ?_, ?_⟩
  · rw [e, e]
    refine trunc_mono (rnd_mono p hp (mul_le_mul_of_nonneg_right (rnd_mono p hp ?_) (Nat.cast_nonneg _)))
    exact div_le_div_of_nonneg_right h (by norm_num)
  · rw [e, e, neg_div, rnd_neg, neg_mul, rnd_neg, trunc_neg]
  · rw [e, zero_div, rnd_zero, zero_mul, rnd_zero]; unfold trunc; simp

/-- Sunrise and sunset are shifted by the minutes of the rest of the record. -/
theorem C98_sunrise {p : Nat} (hp : 0 < p) {lon : K} (h : IsRep p lon) : Rounded.offsetTheta p lon 0 = Rounded.offset p 1440 lon := by
  unfold Rounded.offsetTheta
  rw [sub_zero, rnd_rep hp h]
  rfl

end

/-- At the meridians of the hours the shift is right: every time zone of whole hours. -/
theorem C98_hours (k : Int) (h : |k| ≤ 12) :
    Rounded.offset 53 1440 ((15 * k : Int) : ℚ) = 60 * k ∧ Rounded.offset 53 2880 ((15 * k : Int) : ℚ) = 120 * k := by
  obtain ⟨h1, h2⟩ := abs_le.1 h
  have : ∀ k ∈ Finset.Icc (-12 : Int) 12,
      Rounded.offset 53 1440 ((15 * k : Int) : ℚ) = 60 * k ∧ Rounded.offset 53 2880 ((15 * k : Int) : ℚ) = 120 * k := by
    decide +kernel
  exact this k (Finset.mem_Icc.2 ⟨h1, h2⟩)

/-- At 126 degrees West the time is 504 minutes, 1008 slots; the record is shifted by 503 minutes, the sunshine by 1007 slots. -/
theorem C98_refuted : ¬ C98_full := by
  intro h
  have := (h (-126) ⟨-126, 0, by norm_num, by norm_num⟩ (by norm_num)).1
  revert this
  decide +kernel

example : Rounded.offset 53 1440 (-126 : ℚ) = -503 ∧ Rounded.offset 53 2880 (-126 : ℚ) = -1007 := by decide +kernel
example : Disagg.offsetMin (-126 : ℚ) = -504 := by decide +kernel
/-- Places in the middle of a minute -/
example : Rounded.offset 53 1440 (-12590625 / 100000 : ℚ) = trunc (4 * (-12590625 / 100000 : ℚ)) := by decide +kernel

end Verif.Props
