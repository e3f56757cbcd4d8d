import Verif.Model.Humidity
import Verif.Lemmas.Physics
import Verif.Lemmas.Except

/-!
# Pressure, humidity, longwave radiation
-/

namespace Verif.Props

open Flt Np Verif.Humidity Verif.Physics Verif.Lw

/-! ### C57: relative humidity -/

/-- Saturation vapour pressure (kPa). -/
noncomputable def satKPa (t : ℝ) : ℝ := svpR t / 1000

theorem satKPa_pos (t : ℝ) : 0 < satKPa t := div_pos (svpR_pos t) (by norm_num)

theorem relativeHumidity_eq {t : ℝ} (ht : -237.3 < t) (vp : ℝ) :
    relativeHumidity (fin vp) (fin t) = fin (min 100 (100 * (vp / satKPa t))) := by
  unfold relativeHumidity satKPa
  have hs := svpR_pos t
  simp only
  rw [svp_fin (by linarith), div_fin_ne hs.ne', mul_fin, lt_fin]
  have e : (Cnst.MAX_PERCENT * Cnst.MBAR_PER_BAR : ℝ) * (vp / svpR t) = 100 * (vp / (svpR t / 1000)) := by
    unfold Cnst.MAX_PERCENT Cnst.MBAR_PER_BAR; norm_num; field_simp; ring
  have e2 : (Cnst.MAX_PERCENT : ℝ) = 100 := by unfold Cnst.MAX_PERCENT; norm_num
  rw [e, e2]
  by_cases h : 100 < 100 * (vp / (svpR t / 1000))
  · rw [if_pos (by simpa using h), min_eq_left h.le]
  · rw [if_neg (by simpa using h), min_eq_right (not_lt.1 h)]

/-- **C57**: a percentage, and 100 exactly at or above saturation. -/
theorem C57_percentage (vp t : ℝ) (hv : 0 ≤ vp) (ht : -237.3 < t) :
    ∃ rh, relativeHumidity (fin vp) (fin t) = fin rh ∧ 0 ≤ rh ∧ rh ≤ 100 ∧
      (rh = 100 ↔ ∃ s, svp (fin t) = fin s ∧ s ≤ vp * 1000) := by
  have hs := satKPa_pos t
  refine ⟨_, relativeHumidity_eq ht vp, le_min (by norm_num) (by positivity), min_le_left _ _, ?_⟩
  rw [svp_fin (by linarith)]
  constructor
  · intro h
    refine ⟨_, rfl, ?_⟩
    have := min_eq_left_iff.1 h
    have h1 : 1 ≤ vp / satKPa t := by linarith
    rw [le_div_iff₀ hs] at h1
    unfold satKPa at h1
    linarith
  · rintro ⟨s, he, h⟩
    obtain rfl := Flt.fin.inj he
    refine min_eq_left ?_
    have : 1 ≤ vp / satKPa t := by
      rw [le_div_iff₀ hs]; unfold satKPa; linarith
    linarith

/-- **C57**: up to saturation it is the ratio to saturation, in percent. -/
theorem C57_ratio (vp t : ℝ) (ht : -237.3 < t) (s : ℝ) (hs : svp (fin t) = fin s) (h : vp * 1000 ≤ s) :
    relativeHumidity (fin vp) (fin t) = fin (100 * (vp * 1000) / s) := by
  rw [svp_fin (by linarith)] at hs
  obtain rfl := Flt.fin.inj hs
  have hp := svpR_pos t
  rw [relativeHumidity_eq ht, min_eq_right]
  · unfold satKPa; congr 1; field_simp
  · have : vp / satKPa t ≤ 1 := by
      rw [div_le_one (satKPa_pos t)]; unfold satKPa; linarith
    linarith

/-- **C57**: missing stays missing. -/
theorem C57_missing (x : Flt ℝ) : relativeHumidity nan x = nan ∧ relativeHumidity x nan = nan := by
  constructor
  · simp [relativeHumidity]
  · simp [relativeHumidity, svp]

/-! ### C58: specific humidity -/

theorem eps_pos : (0 : ℝ) < Cnst.EPS := by unfold Cnst.EPS; norm_num

/-- **C58**: the mass of vapour over the mass of moist air, masses being proportional to partial pressure times
molecular weight. -/
theorem C58_value (vp p : ℝ) (h0 : 0 ≤ vp) (h1 : vp < p) :
    specificHumidity (fin vp) (fin p) = fin (0.62196351 * vp / (0.62196351 * vp + (p - vp))) := by
  have hE : (Cnst.EPS : ℝ) = 0.62196351 := rfl
  unfold specificHumidity
  have hd : (0 : ℝ) < p - vp := by linarith
  have hm : 0 ≤ 0.62196351 * vp / (p - vp) := by positivity
  simp only [hE, mul_fin, sub_fin]
  rw [div_fin_ne hd.ne', add_fin, div_fin_ne (by positivity)]
  congr 1
  have : 0.62196351 * vp + (p - vp) ≠ 0 := by positivity
  field_simp
  ring

/-- **C58**: a mass fraction. -/
theorem C58_fraction (vp p : ℝ) (h0 : 0 ≤ vp) (h1 : vp < p) :
    ∃ q, specificHumidity (fin vp) (fin p) = fin q ∧ 0 ≤ q ∧ q < 1 ∧ (q = 0 ↔ vp = 0) := by
  refine ⟨_, C58_value vp p h0 h1, ?_, ?_, ?_⟩
  · have : 0 < p - vp := by linarith
    positivity
  · rw [div_lt_one (by nlinarith)]
    linarith
  · have : (0.62196351 : ℝ) * vp + (p - vp) ≠ 0 := by nlinarith
    rw [div_eq_zero_iff]
    constructor
    · rintro (h | h)
      · linarith
      · exact absurd h this
    · intro h; left; rw [h]; norm_num

/-- **C58**: increases with vapour pressure. -/
theorem C58_increasing (v w p : ℝ) (h0 : 0 ≤ v) (hvw : v < w) (h1 : w < p) :
    ∃ a b, specificHumidity (fin v) (fin p) = fin a ∧ specificHumidity (fin w) (fin p) = fin b ∧ a < b := by
  refine ⟨_, _, C58_value v p h0 (by linarith), C58_value w p (by linarith) h1, ?_⟩
  rw [div_lt_div_iff₀ (by nlinarith) (by nlinarith)]
  have : 0 < p := by linarith
  nlinarith [mul_pos this (sub_pos.2 hvw)]

/-! ### C59: air pressure -/

/-- **C59**: the barometric formula with the mean temperature of the air column. -/
theorem C59_value (t elev lr : ℝ) (h : 0 < t + 273.15 - lr * elev / 2) :
    pressure (fin t) elev lr =
      fin (101.325 * Real.exp (-(9.80665 * elev) / (287 * (t + 273.15 - lr * elev / 2)))) := by
  unfold pressure
  have e1 : (Cnst.KELVIN : ℝ) + t + 0.5 * elev * -lr = t + 273.15 - lr * elev / 2 := by
    unfold Cnst.KELVIN; ring
  have e2 : (Cnst.R_DRY : ℝ) = 287 := rfl
  have e3 : (Cnst.G_STD : ℝ) = 9.80665 := rfl
  have e4 : (Cnst.P_STD : ℝ) = 101325.0 := rfl
  have e5 : (Cnst.MBAR_PER_BAR : ℝ) = 1000.0 := rfl
  simp only [add_fin, e1, e2, e3, e4, e5, mul_fin]
  rw [div_fin_ne (by positivity), exp_fin, mul_fin, div_fin_ne (by norm_num)]
  congr 1
  rw [show -(elev * 9.80665) = -(9.80665 * elev) by ring]
  generalize Real.exp _ = x
  norm_num
  ring

/-- **C59**: finite and positive, standard at sea level. -/
theorem C59_positive (t elev lr : ℝ) (h : 0 < t + 273.15 - lr * elev / 2) :
    ∃ p, pressure (fin t) elev lr = fin p ∧ 0 < p ∧ (elev = 0 → p = 101.325) ∧ (0 ≤ elev → p ≤ 101.325) := by
  refine ⟨_, C59_value t elev lr h, by positivity, fun he => ?_, fun he => ?_⟩
  · rw [he]; simp
  · have : Real.exp (-(9.80665 * elev) / (287 * (t + 273.15 - lr * elev / 2))) ≤ 1 := by
      rw [Real.exp_le_one_iff]
      exact div_nonpos_of_nonpos_of_nonneg (by linarith) (by positivity)
    linarith

/-- **C59**: strictly decreasing in elevation. -/
theorem C59_decreasing (t lr e1 e2 : ℝ) (ht : -273.15 < t) (h1 : 0 < t + 273.15 - lr * e1 / 2)
    (h2 : 0 < t + 273.15 - lr * e2 / 2) (he : e1 < e2) :
    ∃ a b, pressure (fin t) e1 lr = fin a ∧ pressure (fin t) e2 lr = fin b ∧ b < a := by
  refine ⟨_, _, C59_value t e1 lr h1, C59_value t e2 lr h2, ?_⟩
  have : Real.exp (-(9.80665 * e2) / (287 * (t + 273.15 - lr * e2 / 2))) <
      Real.exp (-(9.80665 * e1) / (287 * (t + 273.15 - lr * e1 / 2))) := by
    rw [Real.exp_lt_exp, div_lt_div_iff₀ (by positivity) (by positivity)]
    nlinarith [mul_pos (sub_pos.2 he) (by linarith : 0 < t + 273.15)]
  linarith

/-! ### C60: longwave radiation -/

/-- Published clear-sky emissivities; `e` vapour pressure in hPa, `t` temperature in K. -/
noncomputable def clearSky : LwType → ℝ → ℝ → ℝ
  | .tva, e, _ => 0.74 + 0.0049 * e
  | .anderson, e, _ => 0.68 + 0.036 * Real.sqrt e
  | .brutsaert, e, t => 1.24 * (e / t) ^ (0.14285714 : ℝ)
  | .satterlund, e, t => 1.08 * (1 - Real.exp (-(e ^ (t / 2016))))
  | .idso, e, t => 0.7 + 0.0000595 * e * Real.exp (1500 / t)
  | .prata, e, t => 1 - (1 + 46.5 * (e / t)) * Real.exp (-Real.sqrt (1.2 + 3 * (46.5 * (e / t))))

/-- Effect of clouds on emissivity. -/
noncomputable def withCloud : Cloud → ℝ → ℝ → ℝ
  | .tva, e, c => (1 + 0.17 * c ^ 2) * e
  | .deardorff, e, c => c + (1 - c) * e

theorem emissivity_eq (ty : LwType) {e t : ℝ} (he : 0 ≤ e) (ht : 0 < t) :
    emissivity ty (fin e) (fin t) = fin (clearSky ty e t) := by
  cases ty with
  | tva => simp [emissivity, clearSky]
  | anderson =>
    simp only [emissivity, clearSky]
    rw [pow_fin_nonneg he (by norm_num), mul_fin, add_fin, Real.sqrt_eq_rpow]
    norm_num
  | brutsaert =>
    simp only [emissivity, clearSky]
    rw [div_fin_ne ht.ne', pow_fin_nonneg (div_nonneg he ht.le) (by norm_num), mul_fin]
  | satterlund =>
    simp only [emissivity, clearSky]
    rw [div_fin_ne (by norm_num), pow_fin_nonneg he (by positivity), mul_fin, exp_fin, sub_fin, mul_fin]
    congr 3
    ring_nf
  | idso =>
    simp only [emissivity, clearSky]
    rw [div_fin_ne ht.ne', exp_fin, mul_fin, mul_fin, add_fin]
  | prata =>
    simp only [emissivity, clearSky]
    have h0 : 0 ≤ e / t := div_nonneg he ht.le
    rw [mul_fin, div_fin_ne ht.ne', mul_fin, add_fin, add_fin, mul_div_assoc, sqrt_fin (by positivity), mul_fin, exp_fin,
      mul_fin, sub_fin]
    congr 3
    ring_nf

theorem cloudy_eq (cl : Cloud) (e c : ℝ) : cloudy cl (fin e) (fin c) = fin (withCloud cl e c) := by
  cases cl with
  | tva => simp only [cloudy, withCloud, mul_fin, add_fin]; rw [pow_two]
  | deardorff => simp [cloudy, withCloud]

theorem lwElem_eq (ty : LwType) (cl : Cloud) {t vp : ℝ} (c : ℝ) (hv : 0 ≤ vp) (ht : -273.15 < t) :
    lwElem ty cl (fin t) (fin vp) (fin c) =
      fin (withCloud cl (clearSky ty (10 * vp) (t + 273.15)) c * (5.669e-8 * (t + 273.15) ^ 4)) := by
  have e1 : (Cnst.KELVIN : ℝ) = 273.15 := rfl
  have e2 : (Cnst.STEFAN_B : ℝ) = 5.669e-8 := rfl
  unfold lwElem
  simp only [e1, e2, add_fin, mul_fin]
  rw [emissivity_eq ty (by positivity) (by linarith), cloudy_eq, mul_fin, mul_fin, mul_comm vp 10]
  congr 1
  ring

theorem prata_bounds {e t : ℝ} (he : 0 ≤ e) (ht : 0 < t) : 0 < clearSky .prata e t ∧ clearSky .prata e t < 1 := by
  simp only [clearSky]
  have hw : 0 ≤ 46.5 * (e / t) := by positivity
  generalize 46.5 * (e / t) = w at *
  have hs0 : 0 ≤ 1.2 + 3 * w := by positivity
  have hs2 := Real.sq_sqrt hs0
  have hsn := Real.sqrt_nonneg (1.2 + 3 * w)
  generalize Real.sqrt (1.2 + 3 * w) = s at *
  have hexp := Real.quadratic_le_exp_of_nonneg hsn
  have hp := Real.exp_pos s
  rw [Real.exp_neg]
  have hlt : 1 + w < Real.exp s := by nlinarith
  constructor
  · have : (1 + w) * (Real.exp s)⁻¹ < 1 := by
      rw [← div_eq_mul_inv, div_lt_one hp]; exact hlt
    linarith
  · have : 0 < (1 + w) * (Real.exp s)⁻¹ := by positivity
    linarith

/-- **C60**: every parameterisation is its published formula, with Stefan's law. -/
theorem C60_value (ty : LwType) (cl : Cloud) (t vp c : ℝ) (hv : 0 ≤ vp) (ht : -273.15 < t) :
    lwElem ty cl (fin t) (fin vp) (fin c) =
      fin (withCloud cl (clearSky ty (10 * vp) (t + 273.15)) c * (5.669e-8 * (t + 273.15) ^ 4)) :=
  lwElem_eq ty cl c hv ht

/-- **C60**: Prata with Deardorff: positive and at most black-body radiation. -/
theorem C60_default (t vp c : ℝ) (hv : 0 ≤ vp) (hc : 0 ≤ c) (hc1 : c ≤ 1) (ht : -273.15 < t) :
    ∃ x, lwElem .prata .deardorff (fin t) (fin vp) (fin c) = fin x ∧ 0 < x ∧ x ≤ 5.669e-8 * (t + 273.15) ^ 4 ∧
      (x = 5.669e-8 * (t + 273.15) ^ 4 ↔ c = 1) := by
  have hT : 0 < t + 273.15 := by linarith
  refine ⟨_, lwElem_eq .prata .deardorff c hv ht, ?_⟩
  obtain ⟨h0, h1⟩ := prata_bounds (e := 10 * vp) (t := t + 273.15) (by positivity) hT
  generalize clearSky .prata (10 * vp) (t + 273.15) = e at *
  have hB : 0 < 5.669e-8 * (t + 273.15) ^ 4 := by positivity
  generalize 5.669e-8 * (t + 273.15) ^ 4 = B at *
  simp only [withCloud]
  have hm : 0 < c + (1 - c) * e := by
    rcases eq_or_lt_of_le hc with h | h
    · rw [← h]; simpa using h0
    · have : 0 ≤ (1 - c) * e := mul_nonneg (by linarith) h0.le
      linarith
  have hm1 : c + (1 - c) * e ≤ 1 := by nlinarith
  refine ⟨by positivity, by nlinarith, ?_⟩
  constructor
  · intro h
    have h2 : c + (1 - c) * e = 1 := by
      have := mul_right_cancel₀ hB.ne' (h.trans (one_mul B).symm)
      exact this
    have h3 : (1 - c) * (1 - e) = 0 := by linarith
    rcases mul_eq_zero.1 h3 with h4 | h4 <;> linarith
  · intro h; rw [h]; ring

/-- **C60**: every parameterisation: finite and not negative. -/
theorem C60_nonneg (ty : LwType) (cl : Cloud) (t vp c : ℝ) (hv : 0 ≤ vp) (hc : 0 ≤ c) (hc1 : c ≤ 1)
    (ht : -273.15 < t) : ∃ x, lwElem ty cl (fin t) (fin vp) (fin c) = fin x ∧ 0 ≤ x := by
  have hT : 0 < t + 273.15 := by linarith
  refine ⟨_, lwElem_eq ty cl c hv ht, mul_nonneg ?_ (by positivity)⟩
  have he : 0 ≤ clearSky ty (10 * vp) (t + 273.15) := by
    have hv' : 0 ≤ 10 * vp := by positivity
    generalize 10 * vp = e at *
    generalize t + 273.15 = T at *
    cases ty with
    | tva => simp only [clearSky]; positivity
    | anderson => simp only [clearSky]; positivity
    | brutsaert => simp only [clearSky]; positivity
    | satterlund =>
      simp only [clearSky]
      have : Real.exp (-(e ^ (T / 2016))) ≤ 1 := by
        rw [Real.exp_le_one_iff]; have : 0 ≤ e ^ (T / 2016) := by positivity
        linarith
      have : 0 ≤ 1 - Real.exp (-(e ^ (T / 2016))) := by linarith
      positivity
    | idso => simp only [clearSky]; positivity
    | prata => exact (prata_bounds hv' hT).1.le
  generalize clearSky ty (10 * vp) (t + 273.15) = e at *
  cases cl with
  | tva => simp only [withCloud]; positivity
  | deardorff =>
    simp only [withCloud]
    exact add_nonneg hc (mul_nonneg (by linarith) he)

/-- **C60**: the series: each step by its own temperature, vapour pressure and cloud; `KeyError` for a name that is not
in the tables. -/
theorem C60_series (temp vp tskc : List (Flt ℝ)) (lwType lwCloud : String) (ts : Nat) (ty : LwType) (cl : Cloud)
    (h1 : lwTypeOf lwType = .ok ty) (h2 : cloudOf lwCloud = .ok cl) (hl : temp.length = vp.length)
    (hl' : temp.length = tskc.length) :
    ∃ lw, longwave temp vp tskc lwType lwCloud ts none = .ok lw ∧ lw.length = temp.length ∧
      ∀ (i : Nat) (t v c : Flt ℝ), temp[i]? = some t → vp[i]? = some v → tskc[i]? = some c →
        lw[i]? = some (lwElem ty cl t v c) := by
  unfold longwave
  rw [h1, h2]
  simp only [bind, Except.bind, pure, Except.pure]
  rw [if_neg (by push Not; exact ⟨hl, hl'⟩)]
  refine ⟨_, rfl, ?_, fun i t v c ht hv hc => ?_⟩
  · rw [List.length_zipWith, List.length_zip, ← hl, ← hl', Nat.min_self, Nat.min_self]
  · rw [List.getElem?_zipWith, List.getElem?_zip_eq_some (z := (t, v)) |>.2 ⟨ht, hv⟩, hc]

theorem C60_unknown (temp vp tskc : List (Flt ℝ)) (lwType lwCloud : String) (ts : Nat) (d : Option (List (Flt ℝ))) :
    (lwTypeOf lwType = .error .keyError ∨ cloudOf lwCloud = .error .keyError) →
    longwave temp vp tskc lwType lwCloud ts d = .error .keyError := by
  intro h
  unfold longwave
  cases h1 : lwTypeOf lwType with
  | error e =>
    have : e = .keyError := by
      unfold lwTypeOf Dict.get at h1
      split at h1
      · cases h1
      · injection h1 with h1; exact h1.symm
    rw [this]; rfl
  | ok ty =>
    rcases h with h | h
    · rw [h1] at h; cases h
    · rw [h]; rfl

end Verif.Props
