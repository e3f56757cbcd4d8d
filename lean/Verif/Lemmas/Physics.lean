import Verif.Model.Physics
import Mathlib.Analysis.SpecialFunctions.ExpDeriv
import Mathlib.Analysis.Calculus.Deriv.Inv
import Mathlib.Analysis.Calculus.Deriv.Mul
import Mathlib.Analysis.Calculus.Deriv.Add

/-!
# Real-valued forms of the physics formulas
-/

namespace Verif.Physics

open Flt

/-- The correction below freezing. -/
noncomputable def iceR (t : ℝ) : ℝ := 1 + 0.00972 * t + 0.000042 * (t * t)
/-- Saturation pressure over water (kPa). -/
noncomputable def waterR (t : ℝ) : ℝ := 0.61078 * Real.exp (17.269 * t / (237.3 + t))
/-- `svp` on real numbers. -/
noncomputable def svpR (t : ℝ) : ℝ := (if t < 0 then waterR t * iceR t else waterR t) * 1000

theorem svp_fin {t : ℝ} (h : 237.3 + t ≠ 0) : svp (fin t) = fin (svpR t) := by
  unfold svp svpR waterR iceR
  simp only [mul_fin, add_fin, div_fin_ne h, exp_fin, lt_fin, decide_eq_true_eq]
  split <;> simp

theorem svpSlope_fin {t : ℝ} (h : 237.3 + t ≠ 0) :
    svpSlope (fin t) = fin (17.269 * 237.3 / ((237.3 + t) * (237.3 + t)) * svpR t) := by
  unfold svpSlope
  rw [svp_fin h]
  simp only [add_fin, mul_fin]
  rw [div_fin_ne (mul_ne_zero h h)]
  simp

theorem iceR_pos (t : ℝ) : 0 < iceR t := by
  unfold iceR; nlinarith [sq_nonneg (t + 115.7)]

theorem waterR_pos (t : ℝ) : 0 < waterR t := mul_pos (by norm_num) (Real.exp_pos _)

theorem svpR_pos (t : ℝ) : 0 < svpR t := by
  unfold svpR
  have := iceR_pos t
  have := waterR_pos t
  split <;> positivity

theorem waterR_lt {s t : ℝ} (hs : -237.3 < s) (h : s < t) : waterR s < waterR t := by
  unfold waterR
  refine mul_lt_mul_of_pos_left (Real.exp_lt_exp.2 ?_) (by norm_num)
  rw [div_lt_div_iff₀ (by linarith) (by linarith)]
  nlinarith

theorem iceR_le {s t : ℝ} (hs : -115.7 ≤ s) (h : s ≤ t) : iceR s ≤ iceR t := by
  unfold iceR; nlinarith

theorem svpR_lt {s t : ℝ} (hs : -115.7 ≤ s) (h : s < t) : svpR s < svpR t := by
  unfold svpR
  have hw := waterR_lt (by linarith) h
  refine mul_lt_mul_of_pos_right ?_ (by norm_num)
  by_cases h1 : s < 0
  · rw [if_pos h1]
    have hs1 := waterR_pos s
    have ht1 := waterR_pos t
    by_cases h2 : t < 0
    · rw [if_pos h2]
      have := iceR_le hs h.le
      have := iceR_pos s
      nlinarith
    · rw [if_neg h2]
      have : iceR s ≤ 1 := by
        have := iceR_le hs h1.le
        simpa [iceR] using this
      nlinarith [iceR_pos s]
  · rw [if_neg h1, if_neg (by linarith)]; exact hw

theorem hasDerivAt_waterR {t : ℝ} (h : -237.3 < t) :
    HasDerivAt waterR (17.269 * 237.3 / ((237.3 + t) * (237.3 + t)) * waterR t) t := by
  unfold waterR
  have hne : 237.3 + t ≠ 0 := by linarith
  have h1 : HasDerivAt (fun t : ℝ => 17.269 * t / (237.3 + t))
      (17.269 * 237.3 / ((237.3 + t) * (237.3 + t))) t := by
    have := HasDerivAt.div ((hasDerivAt_id' t).const_mul (17.269 : ℝ)) ((hasDerivAt_id' t).const_add (237.3 : ℝ)) hne
    refine this.congr_deriv ?_
    field_simp
    ring
  have h2 := HasDerivAt.const_mul (0.61078 : ℝ) (HasDerivAt.exp h1)
  refine h2.congr_deriv ?_
  ring

theorem hasDerivAt_iceR (t : ℝ) : HasDerivAt iceR (0.00972 + 0.000084 * t) t := by
  unfold iceR
  have h1 := HasDerivAt.const_add (1 : ℝ) (HasDerivAt.const_mul (0.00972 : ℝ) (hasDerivAt_id' t))
  have h2 := HasDerivAt.const_mul (0.000042 : ℝ) (HasDerivAt.mul (hasDerivAt_id' t) (hasDerivAt_id' t))
  refine (HasDerivAt.add h1 h2).congr_deriv ?_
  ring

/-- `calc_pet` on real numbers. -/
noncomputable def calcPetR (rad ta dayl pa : ℝ) : ℝ :=
  let lhvap := 2.5023e6 - 2430.54 * ta
  let gamma := Cnst.CP * pa / (lhvap * Cnst.EPS)
  let s := (svpR (ta + 0.2) - svpR (ta - 0.2)) / (ta + 0.2 - (ta - 0.2))
  1.26 * (s / (s + gamma)) * (rad * 0.72) * dayl / lhvap / 10

theorem slope_pos {ta : ℝ} (h : -115.5 ≤ ta) :
    0 < (svpR (ta + 0.2) - svpR (ta - 0.2)) / (ta + 0.2 - (ta - 0.2)) := by
  apply div_pos
  · have := svpR_lt (s := ta - 0.2) (t := ta + 0.2) (by linarith) (by linarith)
    linarith
  · linarith

theorem calcPet_fin {rad ta dayl pa : ℝ} (h1 : -115.5 ≤ ta) (h2 : ta ≤ 1029) (hpa : 0 < pa) :
    calcPet (fin rad) (fin ta) (fin dayl) (fin pa) = fin (calcPetR rad ta dayl pa) := by
  have hl : (0 : ℝ) < 2.5023e6 - 2430.54 * ta := by norm_num; linarith
  have hs := slope_pos h1
  have hE : (0 : ℝ) < (Cnst.EPS : ℝ) := by unfold Cnst.EPS; norm_num
  have hC : (0 : ℝ) < (Cnst.CP : ℝ) := by unfold Cnst.CP; norm_num
  have hg : 0 < Cnst.CP * pa / ((2.5023e6 - 2430.54 * ta) * Cnst.EPS) := by positivity
  have hsg := (add_pos hs hg).ne'
  unfold calcPet calcPetR
  simp only [mul_fin, sub_fin, add_fin]
  rw [div_fin_ne (mul_pos hl hE).ne', svp_fin (by linarith), svp_fin (by linarith)]
  simp only [sub_fin]
  rw [div_fin_ne (by linarith)]
  simp only [add_fin]
  rw [div_fin_ne hsg]
  simp only [mul_fin]
  rw [div_fin_ne hl.ne', div_fin_ne (by norm_num)]

theorem calcPetR_nonneg {rad ta dayl pa : ℝ} (h1 : -115.5 ≤ ta) (h2 : ta ≤ 1029) (hpa : 0 < pa)
    (hr : 0 ≤ rad) (hd : 0 ≤ dayl) : 0 ≤ calcPetR rad ta dayl pa := by
  have hl : (0 : ℝ) < 2.5023e6 - 2430.54 * ta := by norm_num; linarith
  have hs := slope_pos h1
  have hE : (0 : ℝ) < (Cnst.EPS : ℝ) := by unfold Cnst.EPS; norm_num
  have hC : (0 : ℝ) < (Cnst.CP : ℝ) := by unfold Cnst.CP; norm_num
  have hg : 0 < Cnst.CP * pa / ((2.5023e6 - 2430.54 * ta) * Cnst.EPS) := by positivity
  unfold calcPetR
  simp only
  have := div_nonneg hs.le (add_pos hs hg).le
  refine div_nonneg (div_nonneg ?_ hl.le) (by norm_num)
  positivity

end Verif.Physics
