import Verif.Lemmas.Coppel
import Verif.Lemmas.Physics
import Mathlib.Topology.Algebra.Order.Group
import Mathlib.Topology.Order.Lattice
import Mathlib.Tactic.Positivity

/-!
# One round of the dewpoint iteration, as a real function
-/

namespace Verif.Physics

open Filter

theorem svpR_eq (t : ℝ) : svpR t = waterR t * iceR (min t 0) * 1000 := by
  unfold svpR
  split
  · rename_i h; rw [min_eq_left h.le]
  · rename_i h
    rw [min_eq_right (not_lt.1 h)]
    simp [iceR]

theorem waterR_ratio {x y : ℝ} (hx : -237.3 < x) (h : x ≤ y) {c : ℝ} (hc : 17.269 * 237.3 ≤ c * ((237.3 + x) * (237.3 + x))) :
    waterR y * (1 - c * (y - x)) ≤ waterR x := by
  have hw : 0 < 237.3 + x := by linarith
  have hv : 0 < 237.3 + y := by linarith
  have hc0 : 0 ≤ c := by
    by_contra hn
    have : c * ((237.3 + x) * (237.3 + x)) < 0 := mul_neg_of_neg_of_pos (not_le.1 hn) (mul_pos hw hw)
    norm_num at hc
    linarith
  have e : 17.269 * x / (237.3 + x) = 17.269 * y / (237.3 + y) + -(17.269 * 237.3 * (y - x) / ((237.3 + x) * (237.3 + y))) := by
    field_simp
    ring
  have h1 : 17.269 * 237.3 * (y - x) / ((237.3 + x) * (237.3 + y)) ≤ c * (y - x) := by
    rw [div_le_iff₀ (mul_pos hw hv)]
    have h2 : c * ((237.3 + x) * (237.3 + x)) ≤ c * ((237.3 + x) * (237.3 + y)) :=
      mul_le_mul_of_nonneg_left (mul_le_mul_of_nonneg_left (by linarith) hw.le) hc0
    have h3 := mul_le_mul_of_nonneg_right (le_trans hc h2) (sub_nonneg.2 h)
    linarith
  have h2 := Real.add_one_le_exp (-(17.269 * 237.3 * (y - x) / ((237.3 + x) * (237.3 + y))))
  unfold waterR
  rw [e, Real.exp_add]
  have h3 : 1 - c * (y - x) ≤ Real.exp (-(17.269 * 237.3 * (y - x) / ((237.3 + x) * (237.3 + y)))) := by linarith
  have h4 := Real.exp_pos (17.269 * y / (237.3 + y))
  have := mul_le_mul_of_nonneg_left h3 h4.le
  linarith

/-- What is left of a clear sky's transmittance at two humidities: above freezing. -/
theorem drop_of_ratio {tt sx sy q : ℝ} (ht : tt ≤ 1) (hx : 0 ≤ sx) (hq : 0 ≤ q) (h : sy * (1 - q) ≤ sx) :
    max (tt - 6.1e-5 * sx) 0.0001 - max (tt - 6.1e-5 * sy) 0.0001 ≤ q := by
  rcases le_total (tt - 6.1e-5 * sx) 0.0001 with h1 | h1
  · rw [max_eq_right h1]
    have := le_max_right (tt - 6.1e-5 * sy) 0.0001
    linarith
  rw [max_eq_left h1]
  rcases le_total (0.0001) (tt - 6.1e-5 * sy) with h2 | h2
  · rw [max_eq_left h2]
    have : 6.1e-5 * sy ≤ 1 := by linarith
    have := mul_le_mul_of_nonneg_right this hq
    norm_num at *
    nlinarith
  · rw [max_eq_right h2]
    by_cases hq1 : 1 ≤ q
    · norm_num at *; linarith
    · push Not at hq1
      have h3 : (tt - 0.0001) * (1 - q) ≤ 6.1e-5 * sy * (1 - q) :=
        mul_le_mul_of_nonneg_right (by linarith) (by linarith)
      have h4 : 6.1e-5 * (sy * (1 - q)) ≤ 6.1e-5 * sx := mul_le_mul_of_nonneg_left h (by norm_num)
      have h5 : (tt - 0.0001) * q ≤ 1 * q := mul_le_mul_of_nonneg_right (by linarith) hq
      linarith

theorem drop_lipschitz {tt sx sy : ℝ} (h : sx ≤ sy) :
    max (tt - 6.1e-5 * sx) 0.0001 - max (tt - 6.1e-5 * sy) 0.0001 ≤ 6.1e-5 * (sy - sx) := by
  rcases le_total (tt - 6.1e-5 * sx) 0.0001 with h1 | h1
  · rw [max_eq_right h1]
    have := le_max_right (tt - 6.1e-5 * sy) 0.0001
    have : (0 : ℝ) ≤ 6.1e-5 * (sy - sx) := mul_nonneg (by norm_num) (by linarith)
    linarith
  · rw [max_eq_left h1]
    have := le_max_left (tt - 6.1e-5 * sy) 0.0001
    linarith

theorem svpR_zero : svpR 0 = 610.78 := by
  unfold svpR waterR
  norm_num

theorem svpR_le {s t : ℝ} (hs : -115.7 ≤ s) (h : s ≤ t) : svpR s ≤ svpR t := by
  rcases h.eq_or_lt with rfl | h
  · rfl
  · exact (svpR_lt hs h).le

theorem svpR_ratio_warm {x y : ℝ} (hx : 0 ≤ x) (h : x ≤ y) : svpR y * (1 - 0.0728 * (y - x)) ≤ svpR x := by
  have hr := waterR_ratio (x := x) (y := y) (c := 0.0728) (by linarith) h (by nlinarith)
  unfold svpR
  rw [if_neg (by linarith), if_neg (by linarith)]
  linarith

theorem svpR_diff_cold {x y : ℝ} (hx : -115 ≤ x) (hy : y ≤ 0) (h : x ≤ y) : svpR y - svpR x ≤ 200 * (y - x) := by
  have hr := waterR_ratio (x := x) (y := y) (c := 0.28) (by linarith) h (by nlinarith)
  have hi : iceR y - iceR x ≤ 0.00972 * (y - x) := by unfold iceR; nlinarith
  have hi1 : iceR y ≤ 1 := by
    have := iceR_le (s := y) (t := 0) (by linarith) hy
    simpa [iceR] using this
  have hix := iceR_pos x
  have hixy := iceR_le (s := x) (t := y) (by linarith) h
  have hwy := waterR_pos y
  have hwx := waterR_pos x
  have hw1 : waterR y ≤ 0.61078 := by
    rcases hy.eq_or_lt with rfl | hy
    · unfold waterR; norm_num
    · have := waterR_lt (s := y) (t := 0) (by linarith) hy
      unfold waterR at this ⊢
      norm_num at this ⊢
      linarith
  rw [svpR_eq, svpR_eq, min_eq_left hy, min_eq_left (le_trans h hy)]
  have hd : 0 ≤ y - x := by linarith
  -- water
  have a1 : waterR y - waterR x ≤ 0.61078 * (0.28 * (y - x)) := by
    have : waterR y * (0.28 * (y - x)) ≤ 0.61078 * (0.28 * (y - x)) := mul_le_mul_of_nonneg_right hw1 (by positivity)
    linarith
  have a2 : (waterR y - waterR x) * iceR x ≤ 0.61078 * (0.28 * (y - x)) := by
    have h1 : 0 ≤ 0.61078 * (0.28 * (y - x)) := by positivity
    calc (waterR y - waterR x) * iceR x ≤ 0.61078 * (0.28 * (y - x)) * iceR x := mul_le_mul_of_nonneg_right a1 hix.le
      _ ≤ 0.61078 * (0.28 * (y - x)) * 1 := mul_le_mul_of_nonneg_left (by linarith) h1
      _ = _ := by ring
  have a3 : waterR y * (iceR y - iceR x) ≤ 0.61078 * (0.00972 * (y - x)) := by
    calc waterR y * (iceR y - iceR x) ≤ waterR y * (0.00972 * (y - x)) := mul_le_mul_of_nonneg_left hi hwy.le
      _ ≤ 0.61078 * (0.00972 * (y - x)) := mul_le_mul_of_nonneg_right hw1 (by positivity)
  have e : waterR y * iceR y * 1000 - waterR x * iceR x * 1000
      = ((waterR y - waterR x) * iceR x + waterR y * (iceR y - iceR x)) * 1000 := by ring
  rw [e]
  linarith

/-- The transmittance of the humid sky falls by less than 7.3 % per degree of dewpoint. -/
theorem humid_drop {tt x y : ℝ} (ht : tt ≤ 1) (hx : -115 ≤ x) (h : x ≤ y) :
    max (tt - 6.1e-5 * svpR x) 0.0001 - max (tt - 6.1e-5 * svpR y) 0.0001 ≤ 0.0728 * (y - x) := by
  have warm : ∀ x y : ℝ, 0 ≤ x → x ≤ y →
      max (tt - 6.1e-5 * svpR x) 0.0001 - max (tt - 6.1e-5 * svpR y) 0.0001 ≤ 0.0728 * (y - x) := by
    intro x y hx h
    exact drop_of_ratio ht (svpR_pos x).le (by nlinarith) (svpR_ratio_warm hx h)
  have cold : ∀ x y : ℝ, -115 ≤ x → y ≤ 0 → x ≤ y →
      max (tt - 6.1e-5 * svpR x) 0.0001 - max (tt - 6.1e-5 * svpR y) 0.0001 ≤ 0.0728 * (y - x) := by
    intro x y hx hy h
    have h1 := drop_lipschitz (tt := tt) (svpR_le (s := x) (t := y) (by linarith) h)
    have h2 := svpR_diff_cold hx hy h
    have h3 := mul_le_mul_of_nonneg_left h2 (show (0 : ℝ) ≤ 6.1e-5 by norm_num)
    have h4 : (6.1e-5 : ℝ) * (200 * (y - x)) ≤ 0.0728 * (y - x) := by
      rw [← mul_assoc]
      exact mul_le_mul_of_nonneg_right (by norm_num) (by linarith)
    linarith
  rcases le_total 0 x with h0 | h0
  · exact warm x y h0 h
  · rcases le_total y 0 with h1 | h1
    · exact cold x y hx h1 h
    · have a := cold x 0 hx le_rfl h0
      have b := warm 0 y le_rfl h1
      linarith

/-- The cubic of the aridity correction. -/
noncomputable def aridity (r : ℝ) : ℝ := 1.003 - 1.444 * r + 12.312 * (r * r) - 32.766 * (r * r * r)

theorem aridity_rise {a b : ℝ} (h : b ≤ a) : aridity a - aridity b ≤ 0.0982 * (a - b) := by
  unfold aridity
  have e : (1.003 - 1.444 * a + 12.312 * (a * a) - 32.766 * (a * a * a)) - (1.003 - 1.444 * b + 12.312 * (b * b) - 32.766 * (b * b * b))
      = (a - b) * (-1.444 + 12.312 * (a + b) - 32.766 * (a * a + a * b + b * b)) := by ring
  rw [e]
  have h1 : -1.444 + 12.312 * (a + b) - 32.766 * (a * a + a * b + b * b) ≤ (0.0982 : ℝ) := by
    nlinarith [sq_nonneg (a - b), sq_nonneg (a + b - 0.2505)]
  have := mul_le_mul_of_nonneg_left h1 (sub_nonneg.2 h)
  linarith

theorem aridity_bounds {r : ℝ} (h0 : 0 ≤ r) (h1 : r ≤ 0.3) : 0.79 ≤ aridity r ∧ aridity r ≤ 1.01 := by
  unfold aridity
  constructor
  · nlinarith [mul_nonneg h0 (sub_nonneg.2 h1), mul_nonneg (mul_nonneg h0 h0) (sub_nonneg.2 h1), sq_nonneg (r - 0.15)]
  · nlinarith [mul_nonneg h0 (sub_nonneg.2 h1), mul_nonneg h0 (sq_nonneg (r - 0.188))]

/-- One round for one day: `A` the minimum temperature in kelvin, `B` the constant terms, `ρ` the ratio of potential
evaporation to yearly precipitation under a perfectly transparent sky. -/
noncomputable def roundR (A B ρ tt x : ℝ) : ℝ :=
  A * (B + 1.121 * aridity (ρ * max (tt - 6.1e-5 * svpR x) 0.0001)) - 273.15

structure RoundOk (A B ρ tt : ℝ) : Prop where
  A0 : 213.15 ≤ A
  A1 : A ≤ 333.15
  B0 : -0.127 ≤ B
  B1 : B ≤ 0
  ρ0 : 0 ≤ ρ
  ρ1 : ρ ≤ 0.3
  tt1 : tt ≤ 1

variable {A B ρ tt : ℝ}

theorem ratio_range (h : RoundOk A B ρ tt) (x : ℝ) : 0 ≤ ρ * max (tt - 6.1e-5 * svpR x) 0.0001 ∧
    ρ * max (tt - 6.1e-5 * svpR x) 0.0001 ≤ 0.3 := by
  have h1 := svpR_pos x
  have h2 : max (tt - 6.1e-5 * svpR x) 0.0001 ≤ 1 := by
    refine max_le ?_ (by norm_num)
    have := h.tt1
    have : (0 : ℝ) < 6.1e-5 * svpR x := by positivity
    linarith
  have h3 : 0 ≤ max (tt - 6.1e-5 * svpR x) 0.0001 := le_trans (by norm_num) (le_max_right _ _)
  refine ⟨mul_nonneg h.ρ0 h3, ?_⟩
  have := mul_le_mul_of_nonneg_left h2 h.ρ0
  linarith [h.ρ1]

theorem roundR_range (h : RoundOk A B ρ tt) (x : ℝ) : -115 ≤ roundR A B ρ tt x ∧ roundR A B ρ tt x ≤ 200 := by
  obtain ⟨h1, h2⟩ := ratio_range h x
  obtain ⟨h3, h4⟩ := aridity_bounds h1 h2
  unfold roundR
  generalize aridity (ρ * max (tt - 6.1e-5 * svpR x) 0.0001) = P at h3 h4
  have := h.A0
  have := h.A1
  have := h.B0
  have := h.B1
  constructor
  · have : 213.15 * (-0.127 + 1.121 * 0.79) ≤ A * (B + 1.121 * P) :=
      mul_le_mul (by linarith) (by linarith) (by norm_num) (by linarith)
    norm_num at this ⊢
    linarith
  · have : A * (B + 1.121 * P) ≤ 333.15 * (0 + 1.121 * 1.01) :=
      mul_le_mul (by linarith) (by linarith) (by linarith) (by norm_num)
    norm_num at this ⊢
    linarith

theorem roundR_falls (h : RoundOk A B ρ tt) {x y : ℝ} (hx : -115 ≤ x) (hxy : x < y) :
    roundR A B ρ tt x - roundR A B ρ tt y < y - x := by
  have hd := humid_drop h.tt1 hx hxy.le
  have hmono : max (tt - 6.1e-5 * svpR y) 0.0001 ≤ max (tt - 6.1e-5 * svpR x) 0.0001 := by
    refine max_le_max ?_ le_rfl
    have := svpR_le (s := x) (t := y) (by linarith) hxy.le
    have := mul_le_mul_of_nonneg_left this (show (0 : ℝ) ≤ 6.1e-5 by norm_num)
    linarith
  have hA := aridity_rise (mul_le_mul_of_nonneg_left hmono h.ρ0)
  unfold roundR
  set P := max (tt - 6.1e-5 * svpR x) 0.0001
  set Q := max (tt - 6.1e-5 * svpR y) 0.0001
  have h0 : 0 < y - x := by linarith
  have hA0 : 0 ≤ A := le_trans (by norm_num) h.A0
  have e : A * (B + 1.121 * aridity (ρ * P)) - 273.15 - (A * (B + 1.121 * aridity (ρ * Q)) - 273.15)
      = A * (1.121 * (aridity (ρ * P) - aridity (ρ * Q))) := by ring
  rw [e]
  have s1 : ρ * P - ρ * Q ≤ 0.3 * (0.0728 * (y - x)) := by
    rw [← mul_sub]
    exact mul_le_mul h.ρ1 hd (by linarith) (by norm_num)
  have s2 : 1.121 * (aridity (ρ * P) - aridity (ρ * Q)) ≤ 1.121 * (0.0982 * (0.3 * (0.0728 * (y - x)))) := by
    have := mul_le_mul_of_nonneg_left s1 (show (0 : ℝ) ≤ 0.0982 by norm_num)
    have : aridity (ρ * P) - aridity (ρ * Q) ≤ 0.0982 * (0.3 * (0.0728 * (y - x))) := by linarith
    exact mul_le_mul_of_nonneg_left this (by norm_num)
  have s3 : A * (1.121 * (aridity (ρ * P) - aridity (ρ * Q))) ≤ A * (1.121 * (0.0982 * (0.3 * (0.0728 * (y - x))))) :=
    mul_le_mul_of_nonneg_left s2 hA0
  have s4 : A * (1.121 * (0.0982 * (0.3 * (0.0728 * (y - x))))) ≤ 333.15 * (1.121 * (0.0982 * (0.3 * (0.0728 * (y - x))))) :=
    mul_le_mul_of_nonneg_right h.A1 (by positivity)
  have s5 : 333.15 * (1.121 * (0.0982 * (0.3 * (0.0728 * (y - x))))) < y - x := by
    norm_num
    nlinarith
  linarith

theorem continuous_waterR_clamped : Continuous fun x : ℝ => waterR (max (-115) x) := by
  unfold waterR
  refine continuous_const.mul (Real.continuous_exp.comp ?_)
  refine Continuous.div (by fun_prop) (by fun_prop) fun x => ?_
  have := le_max_left (-115 : ℝ) x
  linarith

theorem continuous_round : Continuous fun x => roundR A B ρ tt (max (-115) x) := by
  unfold roundR aridity
  simp only [svpR_eq]
  have h1 := continuous_waterR_clamped
  have h2 : Continuous fun x : ℝ => iceR (min (max (-115) x) 0) := by unfold iceR; fun_prop
  have h3 : Continuous fun x : ℝ => max (tt - 6.1e-5 * (waterR (max (-115) x) * iceR (min (max (-115) x) 0) * 1000)) 0.0001 := by
    fun_prop
  fun_prop

/-- The rounds converge. -/
theorem round_converges (h : RoundOk A B ρ tt) (x₀ : ℝ) (h0 : -115 ≤ x₀) {ε : ℝ} (he : 0 < ε) :
    ∀ᶠ k in atTop, |(roundR A B ρ tt)^[k + 1] x₀ - (roundR A B ρ tt)^[k] x₀| ≤ ε := by
  set g : ℝ → ℝ := fun x => roundR A B ρ tt (max (-115) x) with hg
  have hit : ∀ k, g^[k] x₀ = (roundR A B ρ tt)^[k] x₀ ∧ -115 ≤ (roundR A B ρ tt)^[k] x₀ := by
    intro k
    induction k with
    | zero => exact ⟨rfl, h0⟩
    | succ k ih =>
      rw [Function.iterate_succ_apply', Function.iterate_succ_apply', ih.1]
      refine ⟨?_, (roundR_range h _).1⟩
      show roundR A B ρ tt (max (-115) _) = _
      rw [max_eq_right ih.2]
  have hf : ∀ x y, x < y → g x - g y < y - x := by
    intro x y hxy
    show roundR A B ρ tt (max (-115) x) - roundR A B ρ tt (max (-115) y) < y - x
    rcases lt_or_ge (max (-115) x) (max (-115) y) with hlt | hge
    · have := roundR_falls h (le_max_left _ _) hlt
      have h2 : max (-115) y - max (-115) x ≤ y - x := by
        rcases le_total (-115) x with h3 | h3
        · rw [max_eq_right h3, max_eq_right (by linarith)]
        · rw [max_eq_left h3]
          rcases le_total (-115) y with h4 | h4
          · rw [max_eq_right h4]; linarith
          · rw [max_eq_left h4]; linarith
      linarith
    · have : max (-115) x = max (-115) y := le_antisymm (max_le_max le_rfl hxy.le) hge
      rw [this]
      linarith
  have hb : ∀ k, -115 ≤ g^[k] x₀ ∧ g^[k] x₀ ≤ max x₀ 200 := by
    intro k
    refine ⟨by rw [(hit k).1]; exact (hit k).2, ?_⟩
    cases k with
    | zero => exact le_max_left _ _
    | succ k =>
      rw [Function.iterate_succ_apply']
      exact le_trans (roundR_range h _).2 (le_max_right _ _)
  have := Coppel.differences (g := g) continuous_round hf x₀ (-115) (max x₀ 200) hb he
  filter_upwards [this] with k hk
  rwa [(hit k).1, (hit (k + 1)).1] at hk

end Verif.Physics
