import Verif.Model.Interp
import Mathlib.Tactic.FieldSimp
import Mathlib.Tactic.Positivity
import Mathlib.Tactic.LinearCombination
import Mathlib.Algebra.Order.Ring.Pow

/-!
# The monotone cubic interpolant
-/

set_option linter.unusedSectionVars false

namespace Verif.Interp

open Flt Np

variable {K : Type} [Field K] [LinearOrder K] [IsStrictOrderedRing K]

/-- Hermite basis for data slope 1 and end slopes `a`, `b` on the unit interval. -/
def phi (a b u : K) : K := u ^ 2 * (3 - 2 * u) + a * (u * (1 - u) ^ 2) - b * (u ^ 2 * (1 - u))

theorem phi_mix (a b u : K) : phi (3 * a) (3 * b) u =
    (1 - a) * (1 - b) * (u ^ 2 * (3 - 2 * u)) + a * (1 - b) * (1 - (1 - u) ^ 3) + (1 - a) * b * u ^ 3 +
      a * b * ((1 + (2 * u - 1) ^ 3) / 2) := by
  unfold phi
  ring

theorem cube_mono {u v : K} (h : u ≤ v) : u ^ 3 ≤ v ^ 3 := by
  nlinarith [sq_nonneg (u + v), sq_nonneg u, sq_nonneg v, mul_nonneg (sub_nonneg.2 h) (sq_nonneg (u + v)),
    mul_nonneg (sub_nonneg.2 h) (sq_nonneg u), mul_nonneg (sub_nonneg.2 h) (sq_nonneg v)]

theorem phi_mono {a b u v : K} (ha : 0 ≤ a) (ha3 : a ≤ 3) (hb : 0 ≤ b) (hb3 : b ≤ 3) (hu : 0 ≤ u) (huv : u ≤ v)
    (hv : v ≤ 1) : phi a b u ≤ phi a b v := by
  have e1 : a = 3 * (a / 3) := by ring
  have e2 : b = 3 * (b / 3) := by ring
  rw [e1, e2, phi_mix, phi_mix]
  have a0 : 0 ≤ a / 3 := by positivity
  have b0 : 0 ≤ b / 3 := by positivity
  have a1 : 0 ≤ 1 - a / 3 := by linarith
  have b1 : 0 ≤ 1 - b / 3 := by linarith
  have h1 : u ^ 2 * (3 - 2 * u) ≤ v ^ 2 * (3 - 2 * v) := by
    have : 0 ≤ (v - u) * (3 * (u + v) - 2 * (u ^ 2 + u * v + v ^ 2)) := by
      apply mul_nonneg (by linarith)
      nlinarith [mul_nonneg hu (by linarith : 0 ≤ 1 - u), mul_nonneg (by linarith : 0 ≤ v) (by linarith : 0 ≤ 1 - v),
        mul_nonneg hu (by linarith : 0 ≤ 1 - v), mul_nonneg (by linarith : 0 ≤ v) (by linarith : 0 ≤ 1 - u)]
    nlinarith
  have h2 : 1 - (1 - u) ^ 3 ≤ 1 - (1 - v) ^ 3 := by
    have := cube_mono (by linarith : 1 - v ≤ 1 - u); linarith
  have h3 := cube_mono huv
  have h4 : (1 + (2 * u - 1) ^ 3) / 2 ≤ (1 + (2 * v - 1) ^ 3) / 2 := by
    have := cube_mono (by linarith : 2 * u - 1 ≤ 2 * v - 1); linarith
  have k1 := mul_le_mul_of_nonneg_left h1 (mul_nonneg a1 b1)
  have k2 := mul_le_mul_of_nonneg_left h2 (mul_nonneg a0 b1)
  have k3 := mul_le_mul_of_nonneg_left h3 (mul_nonneg a1 b0)
  have k4 := mul_le_mul_of_nonneg_left h4 (mul_nonneg a0 b0)
  linarith

theorem phi_zero (a b : K) : phi a b 0 = 0 := by unfold phi; ring
theorem phi_one (a b : K) : phi a b 1 = 1 := by unfold phi; ring

/-! ### Signs and derivatives -/

theorem sgn_pos {x : K} (h : 0 < x) : sgn x = 1 := by simp [sgn, h]
theorem sgn_neg {x : K} (h : x < 0) : sgn x = -1 := by
  unfold sgn; rw [if_neg (by linarith), if_pos h]
theorem sgn_zero : sgn (0 : K) = 0 := by simp [sgn]

theorem sgn_eq_one {x : K} : sgn x = 1 ↔ 0 < x := by
  rcases lt_trichotomy x 0 with h | h | h
  · simp [sgn_neg h, h.le]
  · simp [h, sgn_zero]
  · simp [sgn_pos h, h]

theorem sgn_eq_neg_one {x : K} : sgn x = -1 ↔ x < 0 := by
  rcases lt_trichotomy x 0 with h | h | h
  · simp [sgn_neg h, h]
  · simp [h, sgn_zero]
  · simp [sgn_pos h, h.le]

theorem sgn_eq_zero {x : K} : sgn x = 0 ↔ x = 0 := by
  rcases lt_trichotomy x 0 with h | h | h
  · simp [sgn_neg h, h.ne]
  · simp [h, sgn_zero]
  · simp [sgn_pos h, h.ne']

/-- `d` is between 0 and three times the slope. -/
def Tame (d m : K) : Prop := ∃ a, 0 ≤ a ∧ a ≤ 3 ∧ d = a * m

theorem tame_zero (m : K) : Tame 0 m := ⟨0, le_rfl, by norm_num, by ring⟩

theorem tame_of_abs {d m : K} (hs : sgn d = sgn m) (h : |d| ≤ 3 * |m|) : Tame d m := by
  rcases lt_trichotomy m 0 with hm | hm | hm
  · have hd : d < 0 := sgn_eq_neg_one.1 (by rw [hs]; exact sgn_neg hm)
    rw [abs_of_neg hd, abs_of_neg hm] at h
    refine ⟨d / m, div_nonneg_of_nonpos hd.le hm.le, ?_, (div_mul_cancel₀ d hm.ne).symm⟩
    rw [div_le_iff_of_neg hm]; linarith
  · subst hm
    have hd : d = 0 := sgn_eq_zero.1 (by rw [hs]; exact sgn_zero)
    rw [hd]; exact tame_zero 0
  · have hd : 0 < d := sgn_eq_one.1 (by rw [hs]; exact sgn_pos hm)
    rw [abs_of_pos hd, abs_of_pos hm] at h
    refine ⟨d / m, div_nonneg hd.le hm.le, ?_, (div_mul_cancel₀ d hm.ne').symm⟩
    rw [div_le_iff₀ hm]; linarith

theorem tame_edge {h0 h1 m0 m1 : K} (p0 : 0 < h0) (p1 : 0 < h1) : Tame (edge h0 h1 m0 m1) m0 := by
  unfold edge
  simp only
  set d := ((2 * h0 + h1) * m0 - h0 * m1) / (h0 + h1) with hd
  by_cases hs : sgn d ≠ sgn m0
  · rw [if_pos hs]; exact tame_zero _
  rw [if_neg hs]
  push Not at hs
  by_cases hc : sgn m0 ≠ sgn m1 ∧ 3 * |m0| < |d|
  · rw [if_pos hc]
    exact ⟨3, by norm_num, le_rfl, rfl⟩
  rw [if_neg hc]
  refine tame_of_abs hs ?_
  by_cases hm : sgn m0 = sgn m1
  · have hsum : 0 < h0 + h1 := by linarith
    have hdm : d * (h0 + h1) = (2 * h0 + h1) * m0 - h0 * m1 := by rw [hd]; field_simp
    rcases lt_trichotomy m0 0 with h | h | h
    · have h' : m1 < 0 := sgn_eq_neg_one.1 (by rw [← hm]; exact sgn_neg h)
      have hdn : d < 0 := sgn_eq_neg_one.1 (by rw [hs]; exact sgn_neg h)
      rw [abs_of_neg hdn, abs_of_neg h]
      by_contra hcon
      push Not at hcon
      nlinarith [mul_pos hsum (by linarith : 0 < -d - 3 * -m0), mul_pos p0 (by linarith : 0 < -m1),
        mul_pos p0 (by linarith : 0 < -m0), mul_pos p1 (by linarith : 0 < -m0)]
    · have hd0 : d = 0 := sgn_eq_zero.1 (by rw [hs, h]; exact sgn_zero)
      rw [hd0, h]; simp
    · have h' : 0 < m1 := sgn_eq_one.1 (by rw [← hm]; exact sgn_pos h)
      have hdp : 0 < d := sgn_eq_one.1 (by rw [hs]; exact sgn_pos h)
      rw [abs_of_pos hdp, abs_of_pos h]
      by_contra hcon
      push Not at hcon
      nlinarith [mul_pos hsum (by linarith : 0 < d - 3 * m0), mul_pos p0 h', mul_pos p0 h, mul_pos p1 h]
  · by_contra hcon
    exact hc ⟨hm, by push Not at hcon; exact hcon⟩

theorem inner_pos {h0 h1 m0 m1 : K} (p0 : 0 < h0) (p1 : 0 < h1) (q0 : 0 < m0) (q1 : 0 < m1) :
    0 < inner h0 h1 m0 m1 ∧ inner h0 h1 m0 m1 ≤ 3 * m0 ∧ inner h0 h1 m0 m1 ≤ 3 * m1 := by
  unfold inner
  rw [if_neg (by rw [sgn_pos q0, sgn_pos q1]; push Not; exact ⟨rfl, q1.ne', q0.ne'⟩)]
  simp only
  have hw1 : 0 < 2 * h1 + h0 := by positivity
  have hw2 : 0 < h1 + 2 * h0 := by positivity
  have hden : 0 < ((2 * h1 + h0) / m0 + (h1 + 2 * h0) / m1) / (2 * h1 + h0 + (h1 + 2 * h0)) := by positivity
  refine ⟨by positivity, ?_, ?_⟩
  · rw [div_le_iff₀ hden]
    have : 3 * m0 * (((2 * h1 + h0) / m0 + (h1 + 2 * h0) / m1) / (2 * h1 + h0 + (h1 + 2 * h0))) =
      ((2 * h1 + h0) + (h1 + 2 * h0) * (m0 / m1)) / (h1 + h0) := by
      field_simp; ring
    rw [this, le_div_iff₀ (by positivity)]
    have : 0 < (h1 + 2 * h0) * (m0 / m1) := by positivity
    linarith
  · rw [div_le_iff₀ hden]
    have : 3 * m1 * (((2 * h1 + h0) / m0 + (h1 + 2 * h0) / m1) / (2 * h1 + h0 + (h1 + 2 * h0))) =
      ((2 * h1 + h0) * (m1 / m0) + (h1 + 2 * h0)) / (h1 + h0) := by
      field_simp; ring
    rw [this, le_div_iff₀ (by positivity)]
    have : 0 < (2 * h1 + h0) * (m1 / m0) := by positivity
    linarith

theorem inner_neg (h0 h1 m0 m1 : K) : inner h0 h1 (-m0) (-m1) = - inner h0 h1 m0 m1 := by
  have hsg : ∀ x : K, sgn (-x) = - sgn x := by
    intro x
    rcases lt_trichotomy x 0 with h | h | h
    · rw [sgn_neg h, sgn_pos (by linarith)]; rfl
    · subst h; simp [sgn_zero]
    · rw [sgn_pos h, sgn_neg (by linarith)]
  unfold inner
  rw [hsg, hsg]
  by_cases hc : sgn m1 ≠ sgn m0 ∨ m1 = 0 ∨ m0 = 0
  · rw [if_pos hc, if_pos (by simpa using hc), neg_zero]
  · rw [if_neg hc, if_neg (by simpa using hc)]
    simp only [div_neg, ← neg_add, neg_div, one_div]

theorem tame_inner {h0 h1 m0 m1 : K} (p0 : 0 < h0) (p1 : 0 < h1) :
    Tame (inner h0 h1 m0 m1) m0 ∧ Tame (inner h0 h1 m0 m1) m1 := by
  by_cases hc : sgn m1 ≠ sgn m0 ∨ m1 = 0 ∨ m0 = 0
  · have : inner h0 h1 m0 m1 = 0 := by unfold inner; rw [if_pos hc]
    rw [this]; exact ⟨tame_zero _, tame_zero _⟩
  · have hc' := hc
    push Not at hc
    obtain ⟨hs, n1, n0⟩ := hc
    rcases lt_or_gt_of_ne n0 with h | h
    · have h' : m1 < 0 := sgn_eq_neg_one.1 (by rw [hs]; exact sgn_neg h)
      obtain ⟨a, b, c⟩ := inner_pos p0 p1 (by linarith : 0 < -m0) (by linarith : 0 < -m1)
      rw [inner_neg] at a b c
      have hd : inner h0 h1 m0 m1 < 0 := by linarith
      refine ⟨tame_of_abs (by rw [sgn_neg hd, sgn_neg h]) ?_, tame_of_abs (by rw [sgn_neg hd, sgn_neg h']) ?_⟩
      · rw [abs_of_neg hd, abs_of_neg h]; exact b
      · rw [abs_of_neg hd, abs_of_neg h']; exact c
    · have h' : 0 < m1 := sgn_eq_one.1 (by rw [hs]; exact sgn_pos h)
      obtain ⟨a, b, c⟩ := inner_pos p0 p1 h h'
      refine ⟨tame_of_abs (by rw [sgn_pos a, sgn_pos h]) ?_, tame_of_abs (by rw [sgn_pos a, sgn_pos h']) ?_⟩
      · rw [abs_of_pos a, abs_of_pos h]; exact b
      · rw [abs_of_pos a, abs_of_pos h']; exact c

/-- The knots are in order. -/
def Knots.Increasing (k : Knots K) : Prop := ∀ i j, i < j → j < k.n → k.x i < k.x j

variable {k : Knots K}

theorem h_pos (hk : k.Increasing) {i : Nat} (hi : i + 1 < k.n) : 0 < k.h i :=
  sub_pos.2 (hk i (i + 1) (Nat.lt_succ_self i) hi)

/-- Derivatives at the two ends of a piece are tame. -/
theorem tame_deriv (hk : k.Increasing) (h2 : 2 ≤ k.n) {i : Nat} (hi : i + 1 < k.n) :
    Tame (deriv k i) (k.m i) ∧ Tame (deriv k (i + 1)) (k.m i) := by
  by_cases hn2 : k.n = 2
  · have hi0 : i = 0 := by omega
    subst hi0
    unfold deriv
    rw [if_pos hn2, if_pos hn2]
    exact ⟨⟨1, by norm_num, by norm_num, by ring⟩, ⟨1, by norm_num, by norm_num, by ring⟩⟩
  constructor
  · unfold deriv
    rw [if_neg hn2]
    by_cases h0 : i = 0
    · subst h0
      rw [if_pos rfl]
      exact tame_edge (h_pos hk hi) (h_pos hk (by omega))
    · rw [if_neg h0, if_neg (by omega)]
      exact (tame_inner (h_pos hk (by omega)) (h_pos hk hi)).2
  · unfold deriv
    rw [if_neg hn2, if_neg (by omega)]
    by_cases hl : i + 1 = k.n - 1
    · rw [if_pos hl]
      have : k.n - 2 = i := by omega
      rw [this]
      exact tame_edge (h_pos hk hi) (h_pos hk (by omega))
    · rw [if_neg hl, Nat.add_sub_cancel]
      exact (tame_inner (h_pos hk hi) (h_pos hk (by omega))).1

/-- A piece in normalised form. -/
theorem hermite_eq (hk : k.Increasing) (h2 : 2 ≤ k.n) {i : Nat} (hi : i + 1 < k.n) :
    ∃ a b, 0 ≤ a ∧ a ≤ 3 ∧ 0 ≤ b ∧ b ≤ 3 ∧ ∀ t, hermite k i t =
      k.y i + (k.y (i + 1) - k.y i) * phi a b ((t - k.x i) / k.h i) := by
  obtain ⟨⟨a, a0, a3, ha⟩, ⟨b, b0, b3, hb⟩⟩ := tame_deriv hk h2 hi
  refine ⟨a, b, a0, a3, b0, b3, fun t => ?_⟩
  have hp := (h_pos hk hi).ne'
  unfold hermite
  simp only
  rw [ha, hb]
  unfold Knots.m phi
  generalize k.h i = w at *
  generalize t - k.x i = s
  generalize k.y (i + 1) - k.y i = D
  field_simp
  ring

theorem hermite_left (hk : k.Increasing) (h2 : 2 ≤ k.n) {i : Nat} (hi : i + 1 < k.n) :
    hermite k i (k.x i) = k.y i := by
  obtain ⟨a, b, -, -, -, -, h⟩ := hermite_eq hk h2 hi
  rw [h, sub_self, zero_div, phi_zero]; ring

theorem hermite_right (hk : k.Increasing) (h2 : 2 ≤ k.n) {i : Nat} (hi : i + 1 < k.n) :
    hermite k i (k.x (i + 1)) = k.y (i + 1) := by
  obtain ⟨a, b, -, -, -, -, h⟩ := hermite_eq hk h2 hi
  rw [h]
  have : (k.x (i + 1) - k.x i) / k.h i = 1 := div_self (h_pos hk hi).ne'
  rw [this, phi_one]; ring

/-! ### The piece in use -/

theorem count_filter_le (p : Nat → Bool) (i : Nat) : ∀ n, (∀ j < n, (p j = true ↔ j < i)) →
    ((List.range n).filter p).length = min n i := by
  intro n
  induction n with
  | zero => simp
  | succ n ih =>
    intro h
    rw [List.range_succ, List.filter_append, List.length_append, ih (fun j hj => h j (by omega))]
    have hn := h n (by omega)
    by_cases hp : p n = true
    · have := hn.1 hp
      simp [List.filter, hp]; omega
    · have hp' : p n = false := by simpa using hp
      have : ¬ n < i := fun h => hp (hn.2 h)
      simp [List.filter, hp']; omega

/-- For a time in `[x i, x (i+1)]` the value is that of piece `i`. -/
theorem pchip_eq (hk : k.Increasing) (h2 : 2 ≤ k.n) {i : Nat} (hi : i + 1 < k.n) {t : K} (h0 : k.x i ≤ t)
    (h1 : t ≤ k.x (i + 1)) : pchip k t = hermite k i t := by
  have hlt : ∀ a b, a < b → b < k.n → k.x a < k.x b := hk
  rcases eq_or_lt_of_le h1 with he | hl
  · -- right end
    by_cases hlast : i + 2 < k.n
    · have hseg : segment k t = i + 1 := by
        unfold segment
        rw [count_filter_le _ (i + 1)]
        · omega
        · intro j hj
          rw [decide_eq_true_iff, he]
          constructor
          · intro h
            by_contra hc
            have := hlt (i + 1) (j + 1) (by omega) (by omega)
            linarith
          · intro h
            rcases Nat.lt_or_ge (j + 1) (i + 1) with h' | h'
            · exact (hlt _ _ h' (by omega)).le
            · have : j + 1 = i + 1 := by omega
              rw [this]
      unfold pchip
      rw [hseg, he, hermite_left hk h2 (by omega), hermite_right hk h2 hi]
    · have hseg : segment k t = i := by
        unfold segment
        rw [count_filter_le _ i]
        · omega
        · intro j hj
          rw [decide_eq_true_iff, he]
          constructor
          · intro _; omega
          · intro h; exact (hlt _ _ (by omega) (by omega)).le
      unfold pchip
      rw [hseg]
  · have hseg : segment k t = i := by
      unfold segment
      rw [count_filter_le _ i]
      · omega
      · intro j hj
        rw [decide_eq_true_iff]
        constructor
        · intro h
          by_contra hc
          rcases Nat.lt_or_ge (i + 1) (j + 1) with h' | h'
          · have := hlt _ _ h' (by omega); linarith
          · have : j + 1 = i + 1 := by omega
            rw [this] at h; linarith
        · intro h
          rcases Nat.lt_or_ge (j + 1) i with h' | h'
          · exact le_trans (hlt _ _ h' (by omega)).le h0
          · have : j + 1 = i := by omega
            rw [this]; exact h0
    unfold pchip
    rw [hseg]

theorem pchip_knot (hk : k.Increasing) (h2 : 2 ≤ k.n) {i : Nat} (hi : i < k.n) : pchip k (k.x i) = k.y i := by
  by_cases hl : i + 1 < k.n
  · rw [pchip_eq hk h2 hl le_rfl (hk i (i + 1) (Nat.lt_succ_self i) hl).le, hermite_left hk h2 hl]
  · obtain ⟨m, rfl⟩ : ∃ m, i = m + 1 := ⟨i - 1, by omega⟩
    rw [pchip_eq hk h2 hi (hk m (m + 1) (Nat.lt_succ_self m) hi).le le_rfl, hermite_right hk h2 hi]

/-- Between two knots the interpolant runs monotonically from one value to the other. -/
theorem pchip_mono (hk : k.Increasing) (h2 : 2 ≤ k.n) {i : Nat} (hi : i + 1 < k.n) {s t : K} (h0 : k.x i ≤ s)
    (hst : s ≤ t) (h1 : t ≤ k.x (i + 1)) :
    (k.y i ≤ k.y (i + 1) → pchip k s ≤ pchip k t) ∧ (k.y (i + 1) ≤ k.y i → pchip k t ≤ pchip k s) := by
  rw [pchip_eq hk h2 hi h0 (hst.trans h1), pchip_eq hk h2 hi (h0.trans hst) h1]
  obtain ⟨a, b, a0, a3, b0, b3, h⟩ := hermite_eq hk h2 hi
  have hp := h_pos hk hi
  have hm : phi a b ((s - k.x i) / k.h i) ≤ phi a b ((t - k.x i) / k.h i) := by
    refine phi_mono a0 a3 b0 b3 (div_nonneg (by linarith) hp.le) (by gcongr) ?_
    rw [div_le_one hp]; unfold Knots.h; linarith
  rw [h s, h t]
  constructor
  · intro hy
    have := mul_le_mul_of_nonneg_left hm (sub_nonneg.2 hy)
    linarith
  · intro hy
    have := mul_le_mul_of_nonpos_left hm (sub_nonpos.2 hy)
    linarith

theorem pchip_between (hk : k.Increasing) (h2 : 2 ≤ k.n) {i : Nat} (hi : i + 1 < k.n) {t : K} (h0 : k.x i ≤ t)
    (h1 : t ≤ k.x (i + 1)) :
    min (k.y i) (k.y (i + 1)) ≤ pchip k t ∧ pchip k t ≤ max (k.y i) (k.y (i + 1)) := by
  have e0 := pchip_knot hk h2 (Nat.lt_of_succ_lt hi)
  have e1 := pchip_knot hk h2 hi
  obtain ⟨a, b⟩ := pchip_mono hk h2 hi le_rfl h0 h1
  obtain ⟨c, d⟩ := pchip_mono hk h2 hi h0 h1 le_rfl
  rw [e0] at a b
  rw [e1] at c d
  rcases le_total (k.y i) (k.y (i + 1)) with hy | hy
  · exact ⟨(min_le_left _ _).trans (a hy), (c hy).trans (le_max_right _ _)⟩
  · exact ⟨(min_le_right _ _).trans (d hy), (b hy).trans (le_max_left _ _)⟩

theorem phi_lt_one {a b u : K} (ha : 0 ≤ a) (ha3 : a ≤ 3) (hb : 0 ≤ b) (hb3 : b ≤ 3) (hu : 0 ≤ u) (hu1 : u < 1) :
    phi a b u < 1 := by
  have e1 : a = 3 * (a / 3) := by ring
  have e2 : b = 3 * (b / 3) := by ring
  rw [e1, e2, phi_mix]
  have a0 : 0 ≤ a / 3 := by positivity
  have b0 : 0 ≤ b / 3 := by positivity
  have a1 : 0 ≤ 1 - a / 3 := by linarith
  have b1 : 0 ≤ 1 - b / 3 := by linarith
  have v0 : 0 < 1 - u := by linarith
  have h1 : u ^ 2 * (3 - 2 * u) ≤ 1 - (1 - u) ^ 3 := by
    have : 0 ≤ 3 * u * (1 - u) ^ 2 := by positivity
    nlinarith
  have h3 : u ^ 3 ≤ 1 - (1 - u) ^ 3 := by nlinarith [mul_nonneg hu v0.le]
  have h4 : (1 + (2 * u - 1) ^ 3) / 2 ≤ 1 - (1 - u) ^ 3 := by
    have : 0 ≤ 3 * u ^ 2 * (1 - u) := by positivity
    nlinarith
  have k1 := mul_le_mul_of_nonneg_left h1 (mul_nonneg a1 b1)
  have k3 := mul_le_mul_of_nonneg_left h3 (mul_nonneg a1 b0)
  have k4 := mul_le_mul_of_nonneg_left h4 (mul_nonneg a0 b0)
  have : 0 < (1 - u) ^ 3 := by positivity
  nlinarith

/-- Before the end of a rising piece the interpolant is below the value at the end. -/
theorem pchip_lt (hk : k.Increasing) (h2 : 2 ≤ k.n) {i : Nat} (hi : i + 1 < k.n) {t : K} (h0 : k.x i ≤ t)
    (h1 : t < k.x (i + 1)) (hy : k.y i < k.y (i + 1)) : pchip k t < k.y (i + 1) := by
  rw [pchip_eq hk h2 hi h0 h1.le]
  obtain ⟨a, b, a0, a3, b0, b3, h⟩ := hermite_eq hk h2 hi
  have hp := h_pos hk hi
  have hlt : phi a b ((t - k.x i) / k.h i) < 1 := by
    refine phi_lt_one a0 a3 b0 b3 (div_nonneg (by linarith) hp.le) ?_
    rw [div_lt_one hp]; unfold Knots.h; linarith
  rw [h t]
  have := mul_lt_mul_of_pos_left hlt (sub_pos.2 hy)
  linarith

/-! ### Piecewise linear interpolation -/

theorem knotBefore_eq {x : Nat → K} {n j : Nat} (hx : ∀ a b, a < b → b < n → x a < x b) (hj : j + 1 < n) {t : K}
    (h0 : x j ≤ t) (h1 : t < x (j + 1)) : knotBefore x n t = j := by
  unfold knotBefore
  rw [count_filter_le _ j]
  · omega
  · intro i hi
    rw [decide_eq_true_iff]
    constructor
    · intro h
      by_contra hc
      rcases Nat.lt_or_ge (j + 1) (i + 1) with h' | h'
      · have := hx _ _ h' (by omega); linarith
      · have : i + 1 = j + 1 := by omega
        rw [this] at h; linarith
    · intro h
      rcases Nat.lt_or_ge (i + 1) j with h' | h'
      · exact le_trans (hx _ _ h' (by omega)).le h0
      · have : i + 1 = j := by omega
        rw [this]; exact h0

theorem knotBefore_last {x : Nat → K} {n : Nat} (hx : ∀ a b, a < b → b < n → x a < x b) (hn : 0 < n) :
    knotBefore x n (x (n - 1)) = n - 1 := by
  unfold knotBefore
  rw [count_filter_le _ (n - 1)]
  · omega
  · intro i hi
    rw [decide_eq_true_iff]
    refine ⟨fun _ => hi, fun _ => ?_⟩
    rcases Nat.lt_or_ge (i + 1) (n - 1) with h' | h'
    · exact (hx _ _ h' (by omega)).le
    · have : i + 1 = n - 1 := by omega
      rw [this]

/-- Strictly between two knots, and at the left one, values present. -/
theorem linear_chord {x : Nat → K} {y : Nat → Flt K} {n j : Nat} (hx : ∀ a b, a < b → b < n → x a < x b)
    (hj : j + 1 < n) {t a b : K} (h0 : x j ≤ t) (h1 : t ≤ x (j + 1)) (ha : y j = fin a) (hb : y (j + 1) = fin b) :
    linear x y n t = fin (a + (b - a) * ((t - x j) / (x (j + 1) - x j))) := by
  have h0x : x 0 ≤ x j := by
    rcases Nat.eq_zero_or_pos j with h | h
    · rw [h]
    · exact (hx 0 j h (by omega)).le
  have hxl : x (j + 1) ≤ x (n - 1) := by
    rcases Nat.lt_or_ge (j + 1) (n - 1) with h | h
    · exact (hx _ _ h (by omega)).le
    · have : j + 1 = n - 1 := by omega
      rw [this]
  have hd : x (j + 1) - x j ≠ 0 := (sub_pos.2 (hx j (j + 1) (Nat.lt_succ_self j) hj)).ne'
  unfold linear
  rw [if_neg (by
    rintro (h | h | h)
    · omega
    · linarith
    · linarith)]
  simp only
  rcases eq_or_lt_of_le h1 with he | hl
  · have hkb : knotBefore x n t = j + 1 := by
      by_cases hlast : j + 2 < n
      · exact knotBefore_eq hx hlast he.ge (by rw [he]; exact hx _ _ (Nat.lt_succ_self _) hlast)
      · have : j + 1 = n - 1 := by omega
        rw [he, this]; exact knotBefore_last hx (by omega)
    rw [hkb, if_pos he, hb, he, div_self hd]
    congr 1; ring
  · rw [knotBefore_eq hx hj h0 hl]
    by_cases he : t = x j
    · rw [if_pos he, ha, he, sub_self, zero_div]; congr 1; ring
    · rw [if_neg he, ha, hb, sub_fin, div_fin_ne hd, mul_fin, add_fin]
      congr 1; field_simp; ring

theorem linear_outside {x : Nat → K} {y : Nat → Flt K} {n : Nat} {t : K} (h : t < x 0 ∨ x (n - 1) < t) :
    linear x y n t = nan := by
  unfold linear; rw [if_pos (Or.inr h)]

theorem linear_fin {x : Nat → K} {y : Nat → Flt K} {n : Nat} {t v : K} (h : linear x y n t = fin v) :
    0 < n ∧ x 0 ≤ t ∧ t ≤ x (n - 1) := by
  unfold linear at h
  split at h
  · cases h
  · rename_i hc
    push Not at hc
    exact ⟨by omega, hc.2.1, hc.2.2⟩

theorem mkPchip_ok {xs : List K} {ys : List (Flt K)} {k : Knots K} (h : mkPchip xs ys = .ok k) :
    xs.length = ys.length ∧ 2 ≤ xs.length ∧ k.n = xs.length ∧ k.Increasing ∧
      (∀ i < xs.length, xs[i]? = some (k.x i) ∧ ys[i]? = some (fin (k.y i))) := by
  unfold mkPchip at h
  split at h
  · cases h
  · rename_i hc
    push Not at hc
    obtain ⟨h1, h2, h3, h4⟩ := hc
    obtain rfl := Except.ok.inj h
    refine ⟨h1, h2, rfl, fun i j hij hj => ?_, fun i hi => ⟨?_, ?_⟩⟩
    · simp only at hj ⊢
      rw [List.getD_eq_getElem?_getD, List.getD_eq_getElem?_getD, List.getElem?_eq_getElem (by omega),
        List.getElem?_eq_getElem hj]
      exact List.pairwise_iff_getElem.1 h3 i j (by omega) hj hij
    · simp only
      rw [List.getD_eq_getElem?_getD, List.getElem?_eq_getElem hi]; rfl
    · simp only
      rw [List.getD_eq_getElem?_getD, List.getElem?_eq_getElem (by omega), Option.getD_some]
      obtain ⟨v, hv⟩ := (isFin_iff _).1 (h4 (ys[i]'(by omega)) (List.getElem_mem _))
      rw [hv]

end Verif.Interp
