import Verif.Lemmas.Physics
import Verif.Model.Methods
import Mathlib.Analysis.Calculus.Deriv.Basic

/-!
# Daily formulas: C36, C37, C38, C39, C40
-/

namespace Verif.Props

open Flt Physics Methods

/-! ## C36 -/
section C36

/-- **C36**: daylight temperature between the mean and the maximum. -/
theorem C36_t_day (p : MParams) (lo hi : ℝ) (h : lo ≤ hi) (h0 : 0 ≤ p.tdayCoef) (h1 : p.tdayCoef ≤ 1) :
    ∃ x, tDay (fin lo) (fin hi) p = fin x ∧ (lo + hi) / 2 ≤ x ∧ x ≤ hi := by
  refine ⟨(hi - (lo + hi) / 2) * p.tdayCoef + (lo + hi) / 2, ?_, ?_, ?_⟩
  · unfold tDay
    simp only [add_fin]
    rw [div_fin_ne (by norm_num)]
    simp
  · have : 0 ≤ (hi - (lo + hi) / 2) * p.tdayCoef := mul_nonneg (by linarith) h0
    linarith
  · have : (hi - (lo + hi) / 2) * p.tdayCoef ≤ hi - (lo + hi) / 2 :=
      mul_le_of_le_one_right (by linarith) h1
    linarith

/-- **C36**: the endpoints are reached: coefficient 0 gives the mean, 1 the maximum; and missing input
gives missing output. -/
theorem C36_endpoints (p : MParams) (lo hi : ℝ) :
    (p.tdayCoef = 0 → tDay (fin lo) (fin hi) p = fin ((lo + hi) / 2)) ∧
    (p.tdayCoef = 1 → tDay (fin lo) (fin hi) p = fin hi) ∧
    (∀ x, tDay nan x p = nan ∧ tDay x nan p = nan) := by
  have h2 : (2 : ℝ) ≠ 0 := by norm_num
  refine ⟨?_, ?_, ?_⟩
  · intro h; unfold tDay; rw [h]; simp [div_fin_ne h2]
  · intro h; unfold tDay; rw [h]; simp [div_fin_ne h2]
  · intro x; unfold tDay; cases x <;> simp

end C36

/-! ## C37 -/
section C37

/-- The transmittance before the rain correction lies in [0.1, 1). -/
theorem dry_bounds (dtr sm : ℝ) (h : 0 ≤ dtr) :
    ∃ x, fin 1 - fin 0.9 * Flt.exp (-(fin Cnst.B0 + fin Cnst.B1 * Flt.exp (fin (-Cnst.B2) * fin sm))
        * Flt.pow (fin dtr) (fin Cnst.C)) = fin x ∧ 0.1 ≤ x ∧ x < 1 := by
  have hC : (0 : ℝ) ≤ (Cnst.C : ℝ) := by unfold Cnst.C; norm_num
  rw [pow_fin_nonneg h hC]
  simp only [mul_fin, exp_fin, add_fin, neg_fin, sub_fin]
  refine ⟨_, rfl, ?_, ?_⟩
  · have hb : (0 : ℝ) ≤ Cnst.B0 + Cnst.B1 * Real.exp (-Cnst.B2 * sm) := by
      have h1 : (0 : ℝ) ≤ (Cnst.B0 : ℝ) := by unfold Cnst.B0; norm_num
      have h2 : (0 : ℝ) ≤ (Cnst.B1 : ℝ) := by unfold Cnst.B1; norm_num
      have := Real.exp_pos (-Cnst.B2 * sm)
      positivity
    have hp : 0 ≤ dtr ^ (Cnst.C : ℝ) := Real.rpow_nonneg h _
    have : Real.exp (-(Cnst.B0 + Cnst.B1 * Real.exp (-Cnst.B2 * sm)) * dtr ^ (Cnst.C : ℝ)) ≤ 1 := by
      rw [Real.exp_le_one_iff]
      have := mul_nonneg hb hp
      linarith
    linarith
  · have := Real.exp_pos (-(Cnst.B0 + Cnst.B1 * Real.exp (-Cnst.B2 * sm)) * dtr ^ (Cnst.C : ℝ))
    linarith

theorem tfmax_bounds (p : MParams) (dtr sm prec : ℝ) (h : 0 ≤ dtr) (h0 : 0 ≤ p.rainScalar)
    (h1 : p.rainScalar ≤ 1) : ∃ x, tfmax (fin dtr) (fin sm) (fin prec) p = fin x ∧ 0 ≤ x ∧ x < 1 ∧
      (prec ≤ p.swPrecThresh → 0.1 ≤ x) ∧ (p.swPrecThresh < prec → 0.1 * p.rainScalar ≤ x) := by
  obtain ⟨x, hx, hx0, hx1⟩ := dry_bounds dtr sm h
  unfold tfmax
  simp only
  rw [hx]
  by_cases hr : p.swPrecThresh < prec
  · rw [if_pos (by simpa using hr)]
    refine ⟨x * p.rainScalar, rfl, mul_nonneg (by linarith) h0, ?_, fun h => absurd hr (not_lt.2 h), fun _ => ?_⟩
    · nlinarith
    · nlinarith
  · rw [if_neg (by simpa using hr)]
    exact ⟨x, rfl, by linarith, hx1, fun _ => hx0, fun h => absurd h hr⟩

/-- Both parts of the claim for one parameterisation. -/
def FractionsOk (p : MParams) : Prop :=
  ∀ dtr sm prec : ℝ, 0 ≤ dtr →
    ∃ t c, tfmax (fin dtr) (fin sm) (fin prec) p = fin t ∧ 0 ≤ t ∧ t < 1 ∧
      tskc (fin t) p = fin c ∧ 0 ≤ c ∧ c ≤ 1

/-- **C37** as listed. -/
def C37_full : Prop := ∀ p : MParams, 0 ≤ p.rainScalar → p.rainScalar ≤ 1 → FractionsOk p

/-- **C37 (partial)**: the transmittance always, the cloud fraction with `cloud_deardorff`. -/
theorem C37_fractions_partial (p : MParams) (h0 : 0 ≤ p.rainScalar) (h1 : p.rainScalar ≤ 1)
    (hc : Lw.upperS p.lwCloud = "CLOUD_DEARDORFF") : FractionsOk p := by
  intro dtr sm prec h
  obtain ⟨x, hx, hx0, hx1, -⟩ := tfmax_bounds p dtr sm prec h h0 h1
  refine ⟨x, 1 - x, hx, hx0, hx1, ?_, by linarith, by linarith⟩
  unfold tskc
  rw [if_pos hc]; rfl

/-- **C37**: the transmittance is a fraction whatever the cloud option; at least 0.1 on dry days. -/
theorem C37_transmittance (p : MParams) (h0 : 0 ≤ p.rainScalar) (h1 : p.rainScalar ≤ 1)
    (dtr sm prec : ℝ) (h : 0 ≤ dtr) :
    ∃ t, tfmax (fin dtr) (fin sm) (fin prec) p = fin t ∧ 0 ≤ t ∧ t < 1 ∧
      (prec ≤ p.swPrecThresh → 0.1 ≤ t) := by
  obtain ⟨x, hx, hx0, hx1, h2, -⟩ := tfmax_bounds p dtr sm prec h h0 h1
  exact ⟨x, hx, hx0, hx1, h2⟩

/-- **C37**: rain lowers the transmittance by the rain scalar, and only above the threshold. -/
theorem C37_rain (p : MParams) (dtr sm prec dry : ℝ) (hd : dry ≤ p.swPrecThresh) :
    tfmax (fin dtr) (fin sm) (fin prec) p
      = if p.swPrecThresh < prec then tfmax (fin dtr) (fin sm) (fin dry) p * fin p.rainScalar
        else tfmax (fin dtr) (fin sm) (fin dry) p := by
  unfold tfmax
  simp only [lt_fin, decide_eq_true_eq, if_neg (not_lt.2 hd)]

/-- **C37**: a larger temperature range means a clearer sky. -/
theorem C37_monotone (p : MParams) (a b sm prec : ℝ) (ha : 0 ≤ a) (hab : a < b) (h0 : 0 < p.rainScalar) :
    ∃ x y, tfmax (fin a) (fin sm) (fin prec) p = fin x ∧ tfmax (fin b) (fin sm) (fin prec) p = fin y ∧
      x < y := by
  have hC : (0 : ℝ) < (Cnst.C : ℝ) := by unfold Cnst.C; norm_num
  have hb : (0 : ℝ) < Cnst.B0 + Cnst.B1 * Real.exp (-Cnst.B2 * sm) := by
    have h1 : (0 : ℝ) < (Cnst.B0 : ℝ) := by unfold Cnst.B0; norm_num
    have h2 : (0 : ℝ) < (Cnst.B1 : ℝ) := by unfold Cnst.B1; norm_num
    have := Real.exp_pos (-Cnst.B2 * sm)
    positivity
  have hpow : a ^ (Cnst.C : ℝ) < b ^ (Cnst.C : ℝ) := Real.rpow_lt_rpow ha hab hC
  have hexp : Real.exp (-(Cnst.B0 + Cnst.B1 * Real.exp (-Cnst.B2 * sm)) * b ^ (Cnst.C : ℝ))
      < Real.exp (-(Cnst.B0 + Cnst.B1 * Real.exp (-Cnst.B2 * sm)) * a ^ (Cnst.C : ℝ)) := by
    apply Real.exp_lt_exp.2
    have := mul_lt_mul_of_pos_left hpow hb
    linarith
  unfold tfmax
  simp only [pow_fin_nonneg ha hC.le, pow_fin_nonneg (ha.trans hab.le) hC.le, mul_fin, exp_fin,
    add_fin, neg_fin, sub_fin, lt_fin, decide_eq_true_eq]
  by_cases hr : p.swPrecThresh < prec
  · rw [if_pos hr, if_pos hr]
    refine ⟨_, _, rfl, rfl, ?_⟩
    refine mul_lt_mul_of_pos_right ?_ h0
    linarith
  · rw [if_neg hr, if_neg hr]
    refine ⟨_, _, rfl, rfl, ?_⟩
    linarith

/-- **C37**: with the default parameterisation the cloud fraction is at most one exactly if the
transmittance is at least 0.35; it never exceeds `sqrt (1/0.65)` (about 1.24). -/
theorem C37_default_cloud (p : MParams) (hc : Lw.upperS p.lwCloud ≠ "CLOUD_DEARDORFF") (t : ℝ)
    (h0 : 0 ≤ t) (h1 : t < 1) : ∃ c, tskc (fin t) p = fin c ∧ 0 ≤ c ∧ c ≤ Real.sqrt (1 / 0.65) ∧
      (c ≤ 1 ↔ 0.35 ≤ t) := by
  have hn : 0 ≤ (1 - t) / 0.65 := div_nonneg (by linarith) (by norm_num)
  refine ⟨Real.sqrt ((1 - t) / 0.65), ?_, Real.sqrt_nonneg _, ?_, ?_⟩
  · unfold tskc
    rw [if_neg hc, sub_fin, div_fin_ne (by norm_num), sqrt_fin hn]
  · apply Real.sqrt_le_sqrt
    apply div_le_div_of_nonneg_right <;> linarith
  · rw [show (1 : ℝ) = Real.sqrt 1 by simp, Real.sqrt_le_sqrt_iff (by norm_num), div_le_one (by norm_num)]
    constructor <;> intro h <;> norm_num at * <;> linarith

/-- A wet day without temperature range, default cloud option. -/
def badCloud : MParams := ⟨0.45, 0, 0.75, 0.0065, 1e-6, fin 0, "default"⟩

theorem C37_refuted : ¬ C37_full := by
  intro h
  obtain ⟨t, c, h1, h2, h3, h4, h5, h6⟩ := h badCloud (by simp [badCloud]; norm_num)
    (by simp [badCloud]; norm_num) 0 0 1 le_rfl
  have hC : (Cnst.C : ℝ) ≠ 0 := by unfold Cnst.C; norm_num
  have ht : t = 0.1 * 0.75 := by
    unfold tfmax at h1
    simp only [badCloud, pow_fin_nonneg le_rfl (show (0:ℝ) ≤ (Cnst.C : ℝ) by unfold Cnst.C; norm_num),
      mul_fin, exp_fin, add_fin, neg_fin, sub_fin, lt_fin, Real.zero_rpow hC, mul_zero, Real.exp_zero] at h1
    rw [if_pos (by simp)] at h1
    simp only [fin.injEq] at h1
    rw [← h1]; norm_num
  obtain ⟨c', hc', -, -, hiff⟩ := C37_default_cloud badCloud (by
    show Lw.upperS "default" ≠ _
    decide +kernel) t h2 h3
  rw [hc'] at h4
  injection h4 with h4
  subst h4
  have := hiff.1 h6
  rw [ht] at this
  norm_num at this

end C37

/-! ## C38 -/
section C38

/-- **C38**: positive above -237.3 C. -/
theorem C38_svp_pos (t : ℝ) (h : -237.3 < t) : ∃ x, svp (fin t) = fin x ∧ 0 < x :=
  ⟨svpR t, svp_fin (by linarith), svpR_pos t⟩

/-- **C38**: strictly increasing above -115 C, also across 0 C. -/
theorem C38_svp_increasing (s t : ℝ) (hs : -115 ≤ s) (h : s < t) :
    ∃ x y, svp (fin s) = fin x ∧ svp (fin t) = fin y ∧ x < y :=
  ⟨svpR s, svpR t, svp_fin (by linarith), svp_fin (by linarith), svpR_lt (by linarith) h⟩

/-- **C38**: 610.78 Pa at the freezing point. -/
theorem C38_svp_zero : svp (fin 0) = fin 610.78 := by
  rw [svp_fin (by norm_num)]
  unfold svpR waterR
  norm_num

/-- **C38**: missing stays missing. -/
theorem C38_svp_nan : svp nan = nan := by simp [svp]

end C38

/-! ## C39 -/
section C39

/-- The number in a float (0 for NaN). -/
def val : Flt ℝ → ℝ
  | fin x => x
  | nan => 0

/-- **C39** as listed. -/
def C39_full : Prop := ∀ t : ℝ, -237.3 < t → HasDerivAt (fun x => val (svp (fin x))) (val (svpSlope (fin t))) t

theorem svp_near {t : ℝ} (h : -237.3 < t) :
    (fun x => val (svp (fin x))) =ᶠ[nhds t] svpR := by
  filter_upwards [lt_mem_nhds h] with x hx
  rw [svp_fin (by linarith)]; rfl

/-- **C39 (partial)**: above freezing. -/
theorem C39_slope_partial (t : ℝ) (h : 0 < t) :
    HasDerivAt (fun x => val (svp (fin x))) (val (svpSlope (fin t))) t := by
  have h' : -237.3 < t := by linarith
  rw [svpSlope_fin (by linarith)]
  have h1 := (hasDerivAt_waterR h').mul_const (1000 : ℝ)
  have h2 : (fun x => val (svp (fin x))) =ᶠ[nhds t] fun x => waterR x * 1000 := by
    filter_upwards [svp_near h', lt_mem_nhds h] with x hx hx0
    rw [hx]; unfold svpR; rw [if_neg (not_lt.2 (le_of_lt hx0))]
  refine (h1.congr_of_eventuallyEq h2).congr_deriv ?_
  show _ = 17.269 * 237.3 / ((237.3 + t) * (237.3 + t)) * svpR t
  unfold svpR
  rw [if_neg (not_lt.2 h.le)]; ring

/-- **C39**: below freezing the derivative is `svp_slope` plus a term for the ice correction, which
the code omits. -/
theorem C39_below_freezing (t : ℝ) (h : -237.3 < t) (h0 : t < 0) :
    HasDerivAt (fun x => val (svp (fin x)))
      (val (svpSlope (fin t)) + 610.78 * Real.exp (17.269 * t / (237.3 + t)) * (0.00972 + 0.000084 * t)) t := by
  rw [svpSlope_fin (by linarith)]
  have h1 := ((hasDerivAt_waterR h).mul (hasDerivAt_iceR t)).mul_const (1000 : ℝ)
  have h2 : (fun x => val (svp (fin x))) =ᶠ[nhds t] fun x => (waterR * iceR) x * 1000 := by
    filter_upwards [svp_near h, gt_mem_nhds h0] with x hx hx0
    rw [hx]; unfold svpR; rw [if_pos hx0]; rfl
  refine (h1.congr_of_eventuallyEq h2).congr_deriv ?_
  show _ = 17.269 * 237.3 / ((237.3 + t) * (237.3 + t)) * svpR t + _
  unfold svpR
  rw [if_pos h0]
  unfold waterR
  ring

theorem C39_refuted : ¬ C39_full := by
  intro h
  have h1 := h (-1) (by norm_num)
  have h2 := C39_below_freezing (-1) (by norm_num) (by norm_num)
  have h3 := h1.unique h2
  have := Real.exp_pos (17.269 * (-1) / (237.3 + -1))
  have h4 : (0.00972 + 0.000084 * (-1) : ℝ) ≠ 0 := by norm_num
  have h5 : 610.78 * Real.exp (17.269 * (-1) / (237.3 + -1)) * (0.00972 + 0.000084 * (-1)) ≠ 0 :=
    mul_ne_zero (mul_ne_zero (by norm_num) this.ne') h4
  exact h5 (by linarith)

end C39

/-! ## C40 -/
section C40

/-- **C40**: potential evapotranspiration is finite, non-negative, and zero without radiation or
daylight. -/
theorem C40_calc_pet (rad ta dayl pa : ℝ) (hr : 0 ≤ rad) (hd : 0 ≤ dayl) (hpa : 0 < pa)
    (h1 : -115 ≤ ta) (h2 : ta ≤ 1000) : ∃ x, calcPet (fin rad) (fin ta) (fin dayl) (fin pa) = fin x ∧
      0 ≤ x ∧ (x = 0 ↔ rad = 0 ∨ dayl = 0) := by
  refine ⟨_, calcPet_fin (by linarith) (by linarith) hpa,
    calcPetR_nonneg (by linarith) (by linarith) hpa hr hd, ?_⟩
  have hl : (0 : ℝ) < 2.5023e6 - 2430.54 * ta := by norm_num; linarith
  have hs := slope_pos (ta := ta) (by linarith)
  have hE : (0 : ℝ) < (Cnst.EPS : ℝ) := by unfold Cnst.EPS; norm_num
  have hC : (0 : ℝ) < (Cnst.CP : ℝ) := by unfold Cnst.CP; norm_num
  have hg : 0 < Cnst.CP * pa / ((2.5023e6 - 2430.54 * ta) * Cnst.EPS) := by positivity
  unfold calcPetR
  simp only
  generalize (svpR (ta + 0.2) - svpR (ta - 0.2)) / (ta + 0.2 - (ta - 0.2)) = s at hs
  simp only [div_eq_zero_iff, mul_eq_zero, hl.ne', or_false]
  constructor
  · rintro ((((h | h) | h) | h) | h)
    · norm_num at h
    · rcases h with h | h
      · exact absurd h hs.ne'
      · exact absurd h (add_pos hs hg).ne'
    · rcases h with h | h
      · exact Or.inl h
      · norm_num at h
    · exact Or.inr h
    · norm_num at h
  · rintro (h | h)
    · exact Or.inl (Or.inl (Or.inr (Or.inl h)))
    · exact Or.inl (Or.inr h)

/-- **C40**: atmospheric pressure below the top of the standard atmosphere is positive, decreases with
elevation and is 101325 Pa at sea level. -/
theorem C40_atm_pres (elev lr : ℝ) (hl : 0 < lr) (h : lr * elev < 288.15) :
    ∃ x, atmPres (fin elev) lr = .ok (fin x) ∧ 0 < x ∧ (elev = 0 → x = 101325) ∧
      ∀ e', e' < elev → ∃ y, atmPres (fin e') lr = .ok (fin y) ∧ x < y := by
  have hT : (0 : ℝ) < (Cnst.T_STD : ℝ) := by unfold Cnst.T_STD; norm_num
  have hP : (0 : ℝ) < (Cnst.P_STD : ℝ) := by unfold Cnst.P_STD; norm_num
  have hex : (0 : ℝ) < Cnst.G_STD / (lr * (Cnst.R / Cnst.MA)) := by
    have h1 : (0 : ℝ) < (Cnst.G_STD : ℝ) := by unfold Cnst.G_STD; norm_num
    have h2 : (0 : ℝ) < (Cnst.R : ℝ) := by unfold Cnst.R; norm_num
    have h3 : (0 : ℝ) < (Cnst.MA : ℝ) := by unfold Cnst.MA; norm_num
    positivity
  have hval : ∀ e : ℝ, lr * e < 288.15 → 0 < 1 - lr * e / Cnst.T_STD ∧ atmPres (fin e) lr
      = .ok (fin (Cnst.P_STD * (1 - lr * e / Cnst.T_STD) ^ (Cnst.G_STD / (lr * (Cnst.R / Cnst.MA)) : ℝ))) := by
    intro e he
    have hb : 0 < 1 - lr * e / (Cnst.T_STD : ℝ) := by
      rw [sub_pos, div_lt_one hT]; unfold Cnst.T_STD; linarith
    refine ⟨hb, ?_⟩
    unfold atmPres
    simp only [if_neg hl.ne', mul_fin, div_fin_ne hT.ne', sub_fin, pow_fin hb]
  obtain ⟨hb, hv⟩ := hval elev h
  refine ⟨_, hv, by positivity, ?_, ?_⟩
  · rintro rfl
    simp only [mul_zero, zero_div, sub_zero, Real.one_rpow, mul_one]
    unfold Cnst.P_STD; norm_num
  · intro e' he
    have hlt : lr * e' < lr * elev := mul_lt_mul_of_pos_left he hl
    obtain ⟨hb', hv'⟩ := hval e' (by linarith)
    refine ⟨_, hv', ?_⟩
    refine mul_lt_mul_of_pos_left (Real.rpow_lt_rpow hb.le ?_ hex) hP
    have := div_lt_div_of_pos_right hlt hT
    linarith

/-- **C40** for `mtclim.pet` (mm/day): ten times `calc_pet` at the cell's pressure, so finite and
non-negative below the top of the standard atmosphere; a zero lapse rate raises. -/
theorem C40_pet (p : MParams) (elev : ℝ) (he : p.elev = fin elev) (hl : 0 < p.lapseRate)
    (h : p.lapseRate * elev < 288.15) (sw td dl : Col) :
    ∃ pa, 0 < pa ∧ ∃ out, pet sw td dl p = .ok out ∧
      (∀ i, out i = calcPet (sw i) (td i) (dl i) (fin pa) * fin 10) ∧
      ∀ i s t d, sw i = fin s → td i = fin t → dl i = fin d → 0 ≤ s → 0 ≤ d → -115 ≤ t → t ≤ 1000 →
        ∃ x, out i = fin x ∧ 0 ≤ x := by
  obtain ⟨pa, h1, h2, -⟩ := C40_atm_pres elev p.lapseRate hl h
  have hM : (Cnst.MM_PER_CM : ℝ) = 10 := by unfold Cnst.MM_PER_CM; norm_num
  refine ⟨pa, h2, fun i => calcPet (sw i) (td i) (dl i) (fin pa) * fin 10, ?_, fun _ => rfl, ?_⟩
  · unfold pet; rw [he, h1, hM]; rfl
  · intro i s t d e1 e2 e3 hs hd ht1 ht2
    obtain ⟨x, hx, hx0, -⟩ := C40_calc_pet s t d pa hs hd h2 ht1 ht2
    refine ⟨x * 10, ?_, by linarith⟩
    simp only [e1, e2, e3, hx]; rfl

/-- A zero lapse rate is a division by zero. -/
theorem C40_zero_lapse (p : MParams) (hl : p.lapseRate = 0) (sw td dl : Col) :
    pet sw td dl p = .error .zeroDivision := by
  unfold pet atmPres; simp [hl, bind, Except.bind]

end C40
end Verif.Props
