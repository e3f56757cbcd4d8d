import Verif.Lemmas.Interp
import Verif.Spec.Curve

/-!
# The interpolant of the temperature as the curve of the textbook
-/

namespace Verif.Interp

open Flt Np

theorem inner_slope (h0 h1 m0 m1 : ℝ) : inner h0 h1 m0 m1 = Spec.slope h0 h1 m0 m1 := by
  unfold inner Spec.slope
  have e : 3 * (h0 + h1) = 2 * h1 + h0 + (h1 + 2 * h0) := by ring
  have gen : m0 * m1 > 0 → (if sgn m1 ≠ sgn m0 ∨ m1 = 0 ∨ m0 = 0 then 0 else
      let w1 := 2 * h1 + h0; let w2 := h1 + 2 * h0; 1 / ((w1 / m0 + w2 / m1) / (w1 + w2))) =
      3 * (h0 + h1) / ((2 * h1 + h0) / m0 + (h1 + 2 * h0) / m1) := by
    intro h
    rw [if_neg]
    · simp only
      rw [one_div_div, e]
    · push Not
      rcases pos_and_pos_or_neg_and_neg_of_mul_pos h with ⟨a, b⟩ | ⟨a, b⟩
      · exact ⟨by rw [sgn_pos a, sgn_pos b], b.ne', a.ne'⟩
      · exact ⟨by rw [sgn_neg a, sgn_neg b], b.ne, a.ne⟩
  by_cases h : m0 * m1 ≤ 0
  · rw [if_pos h, if_pos]
    by_contra hc
    push Not at hc
    obtain ⟨c1, c2, c3⟩ := hc
    rcases lt_or_gt_of_ne c3 with h0' | h0' <;> rcases lt_or_gt_of_ne c2 with h1' | h1'
    · nlinarith
    · rw [sgn_neg h0', sgn_pos h1'] at c1; cases c1
    · rw [sgn_pos h0', sgn_neg h1'] at c1; cases c1
    · nlinarith
  · rw [if_neg h]
    exact gen (not_le.1 h)

theorem deriv_slope {k : Knots ℝ} {m : Nat} (hm : m + 2 < k.n) :
    deriv k (m + 1) = Spec.slopeAt k.x k.y m := by
  unfold deriv
  rw [if_neg (by omega), if_neg (by omega), if_neg (by omega), Nat.add_sub_cancel,
    inner_slope]
  rfl

/-- Between inner points the interpolant is the curve. -/
theorem pchip_curve {k : Knots ℝ} (hk : k.Increasing) {m : Nat} (hm : m + 3 < k.n) {t : ℝ} (h0 : k.x (m + 1) ≤ t)
    (h1 : t ≤ k.x (m + 2)) : pchip k t = Spec.curve k.x k.y m t := by
  rw [pchip_eq hk (by omega) (show m + 1 + 1 < k.n by omega) h0 h1]
  have hh := h_pos hk (show m + 1 + 1 < k.n by omega)
  have hx : k.x (m + 1 + 1) - k.x (m + 1) ≠ 0 := hh.ne'
  unfold hermite Spec.curve Spec.hermite
  rw [deriv_slope (by omega), deriv_slope (by omega)]
  unfold Knots.m Knots.h
  simp only [show m + 2 = m + 1 + 1 from rfl]
  field_simp
  ring

theorem curve_congr {x y x' y' : ℕ → ℝ} {m : ℕ} (hx : ∀ a ≤ m + 3, x a = x' a) (hy : ∀ a ≤ m + 3, y a = y' a) (t : ℝ) :
    Spec.curve x y m t = Spec.curve x' y' m t := by
  unfold Spec.curve Spec.slopeAt Spec.chord
  simp only [Nat.add_assoc, Nat.reduceAdd]
  rw [hx m (by omega), hx (m + 1) (by omega), hx (m + 2) (by omega), hx (m + 3) le_rfl, hy m (by omega),
    hy (m + 1) (by omega), hy (m + 2) (by omega), hy (m + 3) le_rfl]

/-- Between two extremes the curve is the cubic that is flat at both. -/
theorem curve_flat {x y : ℕ → ℝ} {m : ℕ} (hx : x (m + 1) < x (m + 2)) (hx' : x m < x (m + 1)) (hx'' : x (m + 2) < x (m + 3))
    (h1 : (y (m + 1) - y m) * (y (m + 2) - y (m + 1)) ≤ 0) (h2 : (y (m + 2) - y (m + 1)) * (y (m + 3) - y (m + 2)) ≤ 0) (t : ℝ) :
    Spec.curve x y m t = y (m + 1) + (y (m + 2) - y (m + 1)) *
      (((t - x (m + 1)) / (x (m + 2) - x (m + 1))) ^ 2 * (3 - 2 * ((t - x (m + 1)) / (x (m + 2) - x (m + 1))))) := by
  have key : ∀ a b c d : ℝ, 0 < c → 0 < d → a * b ≤ 0 → a / c * (b / d) ≤ 0 := fun a b c d hc hd h => by
    rw [div_mul_div_comm]
    exact div_nonpos_of_nonpos_of_nonneg h (mul_pos hc hd).le
  have s1 : Spec.slopeAt x y m = 0 := by
    unfold Spec.slopeAt Spec.slope Spec.chord
    exact if_pos (key _ _ _ _ (sub_pos.2 hx') (sub_pos.2 hx) h1)
  have s2 : Spec.slopeAt x y (m + 1) = 0 := by
    unfold Spec.slopeAt Spec.slope Spec.chord
    exact if_pos (key _ _ _ _ (sub_pos.2 hx) (sub_pos.2 hx'') h2)
  unfold Spec.curve Spec.hermite
  rw [s1, s2]
  ring

end Verif.Interp
