import Verif.Props.Physics
import Verif.Props.Insolation
import Verif.Spec.Physics
import Mathlib.Analysis.Calculus.Deriv.MeanValue

/-!
# The formulas against their sources: C37, C38, C40, C41, C74
-/

namespace Verif.Props

open Flt Physics Methods Solar

theorem saturation_eq (t : ℝ) : Spec.saturation t = svpR t := by
  unfold Spec.saturation Spec.overWater svpR waterR iceR
  split
  · norm_num; ring
  · norm_num; ring

/-- **C38**: the saturation pressure is the published one. -/
theorem C38_value (t : ℝ) (h : -237.3 < t) : svp (fin t) = fin (Spec.saturation t) := by
  rw [svp_fin (by linarith), saturation_eq]

/-- **C36**: the daylight temperature lies the given fraction of the way from the mean to the maximum. -/
theorem C36_value (p : MParams) (lo hi : ℝ) :
    tDay (fin lo) (fin hi) p = fin ((lo + hi) / 2 + p.tdayCoef * (hi - (lo + hi) / 2)) := by
  have h2 : (2 : ℝ) ≠ 0 := by norm_num
  unfold tDay
  simp only [add_fin, div_fin_ne h2, sub_fin, mul_fin]
  congr 1
  ring

/-- **C43**: daylight radiation is the potential one times the transmittance of the humid sky, at least 0.0001, times
that of the clouds. -/
theorem C43_value (cloud vp clear pot : ℝ) :
    shortwave (fin cloud) (fin vp) (fin clear) (fin pot) = fin (pot * max (clear - 6.1e-5 * vp) 0.0001 * cloud) := by
  unfold shortwave
  have hA : (Cnst.ABASE : ℝ) = -6.1e-5 := by unfold Cnst.ABASE; norm_num
  rw [hA]
  simp only [mul_fin, add_fin, max₂_fin]
  congr 4
  ring

/-- **C37**: the transmittance of a dry day is the published one. -/
theorem C37_value (p : MParams) (dtr sm prec : ℝ) (h : 0 ≤ dtr) (hd : prec ≤ p.swPrecThresh) :
    tfmax (fin dtr) (fin sm) (fin prec) p = fin (Spec.transmittance dtr sm) := by
  have hC : (0 : ℝ) ≤ (Cnst.C : ℝ) := by unfold Cnst.C; norm_num
  unfold tfmax Spec.transmittance
  simp only [lt_fin, decide_eq_true_eq, if_neg (not_lt.2 hd), pow_fin_nonneg h hC, mul_fin, exp_fin, add_fin,
    neg_fin, sub_fin]
  unfold Cnst.B0 Cnst.B1 Cnst.B2 Cnst.C
  norm_num

/-- **C40**: pressure is that of the standard atmosphere. -/
theorem C40_atm_pres_value (elev lr : ℝ) (hl : 0 < lr) (h : lr * elev < 288.15) :
    atmPres (fin elev) lr = .ok (fin (Spec.barometric elev lr)) := by
  have hT : (0 : ℝ) < (Cnst.T_STD : ℝ) := by unfold Cnst.T_STD; norm_num
  have hb : 0 < 1 - lr * elev / (Cnst.T_STD : ℝ) := by
    rw [sub_pos, div_lt_one hT]; unfold Cnst.T_STD; linarith
  unfold atmPres Spec.barometric
  simp only [if_neg hl.ne', mul_fin, div_fin_ne hT.ne', sub_fin, pow_fin hb]
  unfold Cnst.T_STD Cnst.P_STD Cnst.G_STD Cnst.R Cnst.MA
  rw [show (101325.0 : ℝ) = 101325 by norm_num]
  congr 4
  field_simp

/-- **C40**: evaporation is the published one, in cm. -/
theorem C40_calc_pet_value (rad ta dayl pa : ℝ) (hpa : 0 < pa) (h1 : -115 ≤ ta) (h2 : ta ≤ 1000) :
    calcPet (fin rad) (fin ta) (fin dayl) (fin pa) = fin (Spec.evaporation rad ta dayl pa / 10) := by
  rw [calcPet_fin (by linarith) (by linarith) hpa]
  congr 1
  have hl : (0 : ℝ) < 2502300 - 2430.54 * ta := by norm_num; linarith
  unfold calcPetR Spec.evaporation
  simp only [saturation_eq]
  rw [show ta + 0.2 - (ta - 0.2) = (0.4 : ℝ) by ring]
  generalize (svpR (ta + 0.2) - svpR (ta - 0.2)) / 0.4 = s
  rw [show (2.5023e6 : ℝ) = 2502300 by norm_num, show (Cnst.CP : ℝ) = 1010 by unfold Cnst.CP; norm_num,
    show (Cnst.EPS : ℝ) = 0.62196351 by unfold Cnst.EPS; norm_num, mul_comm (2502300 - 2430.54 * ta) 0.62196351]
  generalize s / (s + 1010 * pa / (0.62196351 * (2502300 - 2430.54 * ta))) = w
  norm_num
  ring

/-- **C40** for `mtclim.pet`: mm of water at the pressure of the cell's elevation. -/
theorem C40_pet_value (p : MParams) (elev : ℝ) (he : p.elev = fin elev) (hl : 0 < p.lapseRate)
    (h : p.lapseRate * elev < 288.15) (sw td dl : Col) : ∃ out, pet sw td dl p = .ok out ∧
      ∀ i s t d, sw i = fin s → td i = fin t → dl i = fin d → -115 ≤ t → t ≤ 1000 →
        out i = fin (Spec.evaporation s t d (Spec.barometric elev p.lapseRate)) := by
  have hp := C40_atm_pres_value elev p.lapseRate hl h
  have hpos : 0 < Spec.barometric elev p.lapseRate := by
    obtain ⟨x, h1, h2, -⟩ := C40_atm_pres elev p.lapseRate hl h
    rw [hp] at h1
    simp only [Except.ok.injEq, fin.injEq] at h1
    rw [h1]; exact h2
  refine ⟨_, by unfold pet; rw [he, hp]; rfl, ?_⟩
  intro i s t d e1 e2 e3 h1 h2
  show calcPet (sw i) (td i) (dl i) (fin (Spec.barometric elev p.lapseRate)) * fin Cnst.MM_PER_CM = _
  rw [e1, e2, e3, C40_calc_pet_value _ _ _ _ hpos h1 h2, mul_fin]
  unfold Cnst.MM_PER_CM
  congr 1
  norm_num

/-- **C40**: no more water evaporates than 1.26 times what the absorbed radiation can vaporise. -/
theorem C40_energy (rad t secs pa : ℝ) (hr : 0 ≤ rad) (hs : 0 ≤ secs) (hpa : 0 < pa) (h1 : -115 ≤ t)
    (h2 : t ≤ 1000) :
    Spec.evaporation rad t secs pa * (2502300 - 2430.54 * t) ≤ 1.26 * 0.72 * rad * secs := by
  have hl : (0 : ℝ) < 2502300 - 2430.54 * t := by norm_num; linarith
  have hs' := slope_pos (ta := t) (by linarith)
  rw [show t + 0.2 - (t - 0.2) = (0.4 : ℝ) by ring] at hs'
  unfold Spec.evaporation
  simp only [saturation_eq]
  generalize (svpR (t + 0.2) - svpR (t - 0.2)) / 0.4 = s at *
  rw [div_mul_cancel₀ _ hl.ne']
  have hg : 0 < 1010 * pa / (0.62196351 * (2502300 - 2430.54 * t)) := by positivity
  generalize 1010 * pa / (0.62196351 * (2502300 - 2430.54 * t)) = g at *
  have hw : s / (s + g) ≤ 1 := by rw [div_le_one (by linarith)]; linarith
  have hq : 0 ≤ rad * secs := mul_nonneg hr hs
  norm_num
  nlinarith [mul_le_mul_of_nonneg_right hw hq]

/-- **C41**: the dewpoint is the published function of the minimum temperature, of the ratio of evaporation to
rain, the rain being taken as at least 80 mm, and of the temperature range. -/
theorem C41_dewpoint_value (e tmin rain dtr : ℝ) :
    tdew (fin e) (fin tmin) (fin rain) (fin dtr) = fin (Spec.kimball tmin (e / max 80 rain) dtr) := by
  have hm : max 80 rain ≠ 0 := (lt_of_lt_of_le (by norm_num) (le_max_left _ _)).ne'
  have hc : clampPrec (fin rain) = fin (max 80 rain) := by
    unfold clampPrec
    simp only [lt_fin, decide_eq_true_eq]
    split
    · rename_i h; rw [max_eq_left h.le]
    · rename_i h; rw [max_eq_right (not_lt.1 h)]
  unfold tdew Spec.kimball
  simp only [hc, div_fin_ne hm, mul_fin, add_fin, sub_fin]
  unfold Cnst.KELVIN
  congr 1
  generalize e / max 80 rain = r
  ring

/-- **C41**: with little evaporation and a temperature range of at most 4 K, the dewpoint is below the minimum
temperature. -/
theorem C41_dewpoint_wet (e tmin rain dtr : ℝ) (h : -273.15 ≤ tmin) (h0 : 0 ≤ e) (hd : dtr ≤ 4)
    (he : 10 * e ≤ max 80 rain) :
    ∃ x, tdew (fin e) (fin tmin) (fin rain) (fin dtr) = fin x ∧ x ≤ tmin := by
  refine ⟨_, C41_dewpoint_value e tmin rain dtr, ?_⟩
  have hm : (0 : ℝ) < max 80 rain := lt_of_lt_of_le (by norm_num) (le_max_left _ _)
  have hr0 : 0 ≤ e / max 80 rain := div_nonneg h0 hm.le
  have hr1 : e / max 80 rain ≤ 0.1 := by rw [div_le_iff₀ hm]; linarith
  unfold Spec.kimball
  generalize e / max 80 rain = r at *
  have : -0.127 + 1.121 * (1.003 - 1.444 * r + 12.312 * r ^ 2 - 32.766 * r ^ 3) + 0.0006 * dtr ≤ 1 := by
    nlinarith [pow_nonneg hr0 3, mul_nonneg hr0 (sub_nonneg.2 hr1), pow_nonneg hr0 2]
  nlinarith

/-! ### Over ice -/

/-- Logarithm of the correction and of the two exponentials. -/
noncomputable def iceGap (t : ℝ) : ℝ :=
  Real.log (iceR t) + (17.269 * t / (237.3 + t) - 21.875 * t / (265.5 + t))

theorem hasDerivAt_frac (a c t : ℝ) (h : c + t ≠ 0) :
    HasDerivAt (fun x : ℝ => a * x / (c + x)) (a * c / (c + t) ^ 2) t := by
  have h1 : HasDerivAt (fun x : ℝ => a * x) (a * 1) t := (hasDerivAt_id t).const_mul a
  have h2 : HasDerivAt (fun x : ℝ => c + x) 1 t := (hasDerivAt_id t).const_add c
  refine (h1.div h2 h).congr_deriv ?_
  congr 1
  ring

theorem hasDerivAt_iceGap {t : ℝ} (h : -115 < t) : HasDerivAt iceGap
    ((0.00972 + 0.000084 * t) / iceR t +
      (17.269 * 237.3 / (237.3 + t) ^ 2 - 21.875 * 265.5 / (265.5 + t) ^ 2)) t := by
  have h1 := (hasDerivAt_iceR t).log (iceR_pos t).ne'
  have h2 := hasDerivAt_frac 17.269 237.3 t (by linarith)
  have h3 := hasDerivAt_frac 21.875 265.5 t (by linarith)
  exact h1.add (h2.sub h3)

theorem iceGap_rate {t : ℝ} (h : -50 ≤ t) (h0 : t ≤ 0) : 0 ≤ (0.00972 + 0.000084 * t) / iceR t +
      (17.269 * 237.3 / (237.3 + t) ^ 2 - 21.875 * 265.5 / (265.5 + t) ^ 2) := by
  have e1 : 0 < (237.3 + t) ^ 2 := by have : 0 < 237.3 + t := by linarith
                                      positivity
  have e2 : 0 < (265.5 + t) ^ 2 := by have : 0 < 265.5 + t := by linarith
                                      positivity
  have e3 := iceR_pos t
  have key : (21.875 * 265.5 * (237.3 + t) ^ 2 - 17.269 * 237.3 * (265.5 + t) ^ 2) * iceR t
      ≤ (0.00972 + 0.000084 * t) * ((237.3 + t) ^ 2 * (265.5 + t) ^ 2) := by
    unfold iceR
    have a : 0 ≤ -t := by linarith
    have b : 0 ≤ t + 50 := by linarith
    have b0 := pow_nonneg b 5
    have b1 := mul_nonneg a (pow_nonneg b 4)
    have b2 := mul_nonneg (pow_nonneg a 2) (pow_nonneg b 3)
    have b3 := mul_nonneg (pow_nonneg a 3) (pow_nonneg b 2)
    have b4 := mul_nonneg (pow_nonneg a 4) b
    have b5 := pow_nonneg a 5
    nlinarith only [b0, b1, b2, b3, b4, b5]
  have e : 17.269 * 237.3 / (237.3 + t) ^ 2 - 21.875 * 265.5 / (265.5 + t) ^ 2
      = -((21.875 * 265.5 * (237.3 + t) ^ 2 - 17.269 * 237.3 * (265.5 + t) ^ 2)
          / ((237.3 + t) ^ 2 * (265.5 + t) ^ 2)) := by
    rw [div_sub_div _ _ e1.ne' e2.ne', ← neg_div]
    congr 1
    ring
  rw [e, ← sub_eq_add_neg, sub_nonneg, div_le_div_iff₀ (by positivity) e3]
  exact key

theorem iceGap_mono {s t : ℝ} (h : -50 ≤ s) (h1 : s ≤ t) (h0 : t ≤ 0) : iceGap s ≤ iceGap t := by
  have hm : MonotoneOn iceGap (Set.Icc (-50) 0) := by
    apply monotoneOn_of_deriv_nonneg (convex_Icc _ _)
    · intro x hx
      exact (hasDerivAt_iceGap (by linarith [hx.1])).continuousAt.continuousWithinAt
    · intro x hx
      rw [interior_Icc] at hx
      exact (hasDerivAt_iceGap (by linarith [hx.1])).differentiableAt.differentiableWithinAt
    · intro x hx
      rw [interior_Icc] at hx
      rw [(hasDerivAt_iceGap (by linarith [hx.1])).deriv]
      exact iceGap_rate hx.1.le hx.2.le
  exact hm ⟨h, h1.trans h0⟩ ⟨h.trans h1, h0⟩ h1

theorem iceGap_ratio (t : ℝ) (h0 : t < 0) :
    svpR t = Spec.overIce t * Real.exp (iceGap t) := by
  unfold svpR Spec.overIce waterR iceGap
  rw [if_pos h0, Real.exp_add, Real.exp_log (iceR_pos t), Real.exp_sub]
  have := (Real.exp_pos (21.875 * t / (265.5 + t))).ne'
  field_simp
  ring

/-- **C38**: below freezing the saturation pressure is that over ice, from 1.5 % below it at -50 C to equality
at 0 C. -/
theorem C38_ice (t : ℝ) (h : -50 ≤ t) (h0 : t ≤ 0) :
    ∃ x, svp (fin t) = fin x ∧ 0.985 * Spec.overIce t ≤ x ∧ x ≤ Spec.overIce t := by
  refine ⟨svpR t, svp_fin (by linarith), ?_⟩
  have hp : 0 < Spec.overIce t := mul_pos (by norm_num) (Real.exp_pos _)
  rcases h0.lt_or_eq with h0 | rfl
  · rw [iceGap_ratio t h0]
    have u : iceGap t ≤ 0 := by
      have := iceGap_mono h h0.le le_rfl
      have z : iceGap 0 = 0 := by unfold iceGap iceR; norm_num
      rwa [z] at this
    have l := iceGap_mono le_rfl h h0.le
    have l' : 0.985 ≤ Real.exp (iceGap t) := by
      refine le_trans ?_ (Real.exp_le_exp.2 l)
      unfold iceGap
      rw [Real.exp_add, Real.exp_log (iceR_pos _)]
      have e : (0.465 : ℝ) ≤ 17.269 * -50 / (237.3 + -50) - 21.875 * -50 / (265.5 + -50) := by norm_num
      have f := Real.exp_le_exp.2 e
      have g : (1.5918 : ℝ) ≤ Real.exp 0.465 := by
        have := Real.sum_le_exp_of_nonneg (x := 0.465) (by norm_num) 5
        refine le_trans ?_ this
        simp [Finset.sum_range_succ, Nat.factorial]
        norm_num
      have i : iceR (-50) = 0.619 := by unfold iceR; norm_num
      rw [i]
      linarith
    constructor
    · nlinarith
    · have := Real.exp_le_one_iff.2 u
      nlinarith
  · unfold svpR waterR Spec.overIce
    norm_num

/-! ### Optical air mass -/

/-- **C74**: with the sun above 20 degrees the air mass is the secant of the zenith angle; lower, it is the
tabulated value of the next whole degree. -/
theorem C74_airmass (z : ℝ) (h0 : 0 < z) :
    (1 / (z + 1e-7) ≤ 2.9 → airmass z = 1 / (z + 1e-7)) ∧
    (2.9 < 1 / (z + 1e-7) → ∃ n : ℕ, n ≤ Real.arccos z / 0.01745329 ∧ Real.arccos z / 0.01745329 < n + 1 ∧
      69 ≤ n ∧ n ≤ 90 ∧ airmass z = Spec.opticalMass (n + 1)) := by
  have ha : airmass z = if 2.9 < 1 / (z + 0.0000001) then
      optam.getD (min (max (Np.trunc (Real.arccos z / Cnst.RAD_PER_DEG) - 69) 0) 20).toNat 0
      else 1 / (z + 0.0000001) := rfl
  have e7 : (1e-7 : ℝ) = 0.0000001 := by norm_num
  rw [e7, ha]
  refine ⟨fun h => if_neg (not_lt.2 h), fun h => ?_⟩
  rw [if_pos h]
  have hz : z < 0.34483 := by
    rw [lt_div_iff₀ (by linarith)] at h
    norm_num at h ⊢
    linarith
  have hlow : 69 * 0.01745329 ≤ Real.arccos z := by
    have hc : z ≤ Real.cos (69 * 0.01745329) := by
      rw [← Real.sin_pi_div_two_sub]
      have p1 := Real.pi_gt_d6
      have p2 := Real.pi_lt_d6
      have hy : (0.3665 : ℝ) ≤ Real.pi / 2 - 69 * 0.01745329 := by norm_num at *; linarith
      have hy' : Real.pi / 2 - 69 * 0.01745329 ≤ 0.3666 := by norm_num at *; linarith
      generalize Real.pi / 2 - 69 * 0.01745329 = y at *
      have := Real.sin_gt_sub_cube (x := y) (by linarith)
      have hy3 : y ^ 3 ≤ 0.3666 ^ 3 := pow_le_pow_left₀ (by linarith) hy' 3
      norm_num at *
      linarith
    have hle := Real.arccos_le_arccos hc
    rwa [Real.arccos_cos (by norm_num) (by have := Real.pi_gt_d6; norm_num at *; linarith)] at hle
  have hup : Real.arccos z / 0.01745329 < 91 := by
    rw [div_lt_iff₀ (by norm_num)]
    have ha' := Real.arccos_le_pi_div_two.2 h0.le
    have p2 := Real.pi_lt_d6
    refine ha'.trans_lt ?_
    norm_num at p2 ⊢
    linarith
  have hR : (Cnst.RAD_PER_DEG : ℝ) = 0.01745329 := rfl
  rw [hR]
  have hlow' : 69 ≤ Real.arccos z / 0.01745329 := by
    rw [le_div_iff₀ (by norm_num)]; exact hlow
  generalize Real.arccos z / 0.01745329 = q at *
  have hq0 : 0 ≤ q := by linarith
  have ht : Np.trunc q = (⌊q⌋₊ : ℤ) := by
    unfold Np.trunc
    rw [if_pos hq0]
    exact (Int.natCast_floor_eq_floor hq0).symm
  have n1 : 69 ≤ ⌊q⌋₊ := Nat.le_floor (by exact_mod_cast hlow')
  have n2 : ⌊q⌋₊ < 91 := (Nat.floor_lt hq0).2 (by exact_mod_cast hup)
  refine ⟨⌊q⌋₊, Nat.floor_le hq0, Nat.lt_floor_add_one q, n1, by omega, ?_⟩
  rw [ht]
  generalize ⌊q⌋₊ = n at *
  clear ht
  interval_cases n <;> simp [optam, Spec.opticalMass]

theorem opticalMass_mono {m n : ℕ} (hm : 70 ≤ m) (hn : n ≤ 91) (h : m ≤ n) :
    Spec.opticalMass m ≤ Spec.opticalMass n := by
  have step : ∀ k, 70 ≤ k → k ≤ 90 → Spec.opticalMass k ≤ Spec.opticalMass (k + 1) := by
    intro k h1 h2
    interval_cases k <;> simp only [Spec.opticalMass] <;> norm_num
  induction n, h using Nat.le_induction with
  | base => exact le_rfl
  | succ k hk ih => exact (ih (by omega)).trans (step k (by omega) (by omega))

/-- **C74**: the lower the sun, the larger the air mass. -/
theorem C74_airmass_antitone (z z' : ℝ) (h0 : 0 < z) (h : z ≤ z') : airmass z' ≤ airmass z := by
  obtain ⟨a1, a2⟩ := C74_airmass z h0
  obtain ⟨b1, b2⟩ := C74_airmass z' (h0.trans_le h)
  have hm : 1 / (z' + 1e-7) ≤ 1 / (z + 1e-7) := by
    apply one_div_le_one_div_of_le <;> linarith
  rcases le_or_gt (1 / (z + 1e-7)) 2.9 with ha | ha
  · rw [a1 ha, b1 (hm.trans ha)]; exact hm
  · obtain ⟨n, n1, n2, n3, n4, e⟩ := a2 ha
    rw [e]
    rcases le_or_gt (1 / (z' + 1e-7)) 2.9 with hb | hb
    · rw [b1 hb]
      refine hb.trans ?_
      have := opticalMass_mono (m := 70) (n := n + 1) le_rfl (by omega) (by omega)
      have e70 : Spec.opticalMass 70 = 2.90 := rfl
      rw [e70] at this
      norm_num at this ⊢
      exact this
    · obtain ⟨n', m1, m2, m3, m4, e'⟩ := b2 hb
      rw [e']
      apply opticalMass_mono (by omega) (by omega)
      have hc := Real.arccos_le_arccos h
      have hd : Real.arccos z' / 0.01745329 ≤ Real.arccos z / 0.01745329 :=
        div_le_div_of_nonneg_right hc (by norm_num)
      have : (n' : ℝ) < n + 1 := by linarith
      have : n' < n + 1 := by exact_mod_cast this
      omega

end Verif.Props
