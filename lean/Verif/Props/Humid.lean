import Verif.Props.Settle
import Mathlib.Topology.MetricSpace.Contracting

/-!
# The humidity of a day does not hang on the other days: C147
-/

namespace Verif.Props

open Flt Physics Methods Cell Np

theorem aridity_gap {a b : ℝ} (ha : 0 ≤ a) (ha' : a ≤ 1 / 40) (hb : 0 ≤ b) (hb' : b ≤ 1 / 40) :
    |aridity a - aridity b| ≤ 1.444 * |a - b| := by
  have e : aridity a - aridity b = (a - b) * (-1.444 + 12.312 * (a + b) - 32.766 * (a * a + a * b + b * b)) := by
    unfold aridity
    ring
  rw [e, abs_mul, mul_comm]
  refine mul_le_mul_of_nonneg_right (abs_le.2 ⟨?_, ?_⟩) (abs_nonneg _)
  · have h1 : a * a ≤ 1 / 40 * a := mul_le_mul_of_nonneg_right ha' ha
    have h2 : a * b ≤ 1 / 40 * b := mul_le_mul_of_nonneg_right ha' hb
    have h3 : b * b ≤ 1 / 40 * b := mul_le_mul_of_nonneg_right hb' hb
    norm_num at *
    linarith
  · have h1 := mul_nonneg ha ha
    have h2 := mul_nonneg ha hb
    have h3 := mul_nonneg hb hb
    norm_num at *
    linarith

theorem humid_gap {tt x y : ℝ} (ht : tt ≤ 1) (hx : -115 ≤ x) (hy : -115 ≤ y) :
    |max (tt - 6.1e-5 * svpR x) 0.0001 - max (tt - 6.1e-5 * svpR y) 0.0001| ≤ 0.0728 * |x - y| := by
  have one : ∀ x y : ℝ, -115 ≤ x → x ≤ y →
      |max (tt - 6.1e-5 * svpR x) 0.0001 - max (tt - 6.1e-5 * svpR y) 0.0001| ≤ 0.0728 * |x - y| := by
    intro x y hx h
    have hd := humid_drop ht hx h
    have hmono : max (tt - 6.1e-5 * svpR y) 0.0001 ≤ max (tt - 6.1e-5 * svpR x) 0.0001 := by
      refine max_le_max ?_ le_rfl
      have := mul_le_mul_of_nonneg_left (svpR_le (s := x) (t := y) (by linarith) h) (show (0 : ℝ) ≤ 6.1e-5 by norm_num)
      linarith
    rw [abs_of_nonneg (by linarith), abs_of_nonpos (by linarith : x - y ≤ 0)]
    linarith
  rcases le_total x y with h | h
  · exact one x y hx h
  · rw [abs_sub_comm, abs_sub_comm x y]
    exact one y x hy h

/-- Evaporation of the day under a perfectly transparent sky, as a part of the rain of the season (of 80 mm at least). -/
noncomputable def DayRecord.demand (r : DayRecord) (s : Shared) (elev : ℝ) (g : Solar.DayGeom) : ℝ :=
  Spec.evaporation (g.potrad * skyOf s r.range r.mean r.rain) (r.daylight s) g.daylength (Spec.barometric elev s.lapseRate) /
    max 80 r.season

theorem dewpoint_eq (r : DayRecord) (s : Shared) (elev : ℝ) (g : Solar.DayGeom) (tt x : ℝ) :
    r.dewpoint s elev g tt x = (r.tmin + 273.15) * (-0.127 + 0.0006 * r.range +
      1.121 * aridity (r.demand s elev g * max (tt - 6.1e-5 * svpR x) 0.0001)) - 273.15 := by
  have h : Spec.evaporation (r.radiation s g tt x) (r.daylight s) g.daylength (Spec.barometric elev s.lapseRate) / max 80 r.season =
      r.demand s elev g * max (tt - 6.1e-5 * svpR x) 0.0001 := by
    unfold DayRecord.demand DayRecord.radiation Spec.evaporation
    rw [saturation_eq x]
    simp only
    ring
  unfold DayRecord.dewpoint
  rw [h]
  unfold Spec.kimball aridity
  ring

/-- A likely day, at a place with air, with the sun of the day. -/
structure HumidDay (r : DayRecord) (s : Shared) (elev : ℝ) (g : Solar.DayGeom) (tt q : ℝ) : Prop where
  likely : r.Likely
  tt : tt ≤ 1
  demand : 0 ≤ r.demand s elev g
  humid : 40 * r.demand s elev g ≤ q
  one : q < 1

variable {r : DayRecord} {s : Shared} {elev : ℝ} {g : Solar.DayGeom} {tt q : ℝ}

theorem HumidDay.ratio (h : HumidDay r s elev g tt q) (x : ℝ) :
    0 ≤ r.demand s elev g * max (tt - 6.1e-5 * svpR x) 0.0001 ∧
      r.demand s elev g * max (tt - 6.1e-5 * svpR x) 0.0001 ≤ 1 / 40 := by
  have h1 := svpR_pos x
  have h2 : max (tt - 6.1e-5 * svpR x) 0.0001 ≤ 1 := by
    refine max_le ?_ (by norm_num)
    have := h.tt
    have : (0 : ℝ) < 6.1e-5 * svpR x := by positivity
    linarith
  have h3 : 0 ≤ max (tt - 6.1e-5 * svpR x) 0.0001 := le_trans (by norm_num) (le_max_right _ _)
  refine ⟨mul_nonneg h.demand h3, ?_⟩
  have := mul_le_mul_of_nonneg_left h2 h.demand
  linarith [h.humid, h.one]

theorem HumidDay.range (h : HumidDay r s elev g tt q) (x : ℝ) : -115 ≤ r.dewpoint s elev g tt x := by
  obtain ⟨h1, h2⟩ := h.ratio x
  obtain ⟨h3, -⟩ := aridity_bounds h1 (by norm_num at *; linarith)
  rw [dewpoint_eq]
  generalize aridity _ = P at h3
  have := h.likely.tmin
  have := h.likely.range
  have : 213.15 * (-0.127 + 1.121 * 0.79) ≤ (r.tmin + 273.15) * (-0.127 + 0.0006 * r.range + 1.121 * P) :=
    mul_le_mul (by linarith) (by linarith) (by norm_num) (by linarith)
  norm_num at this ⊢
  linarith

theorem HumidDay.first (h : HumidDay r s elev g tt q) : |r.dewpoint s elev g tt r.tmin - r.tmin| ≤ 175 := by
  obtain ⟨h1, h2⟩ := h.ratio r.tmin
  obtain ⟨-, h4⟩ := aridity_bounds h1 (by norm_num at *; linarith)
  have hl := h.range r.tmin
  have := h.likely.tmin
  have := h.likely.range
  refine abs_le.2 ⟨by linarith, ?_⟩
  rw [dewpoint_eq]
  generalize aridity _ = P at h4
  have : (r.tmin + 273.15) * (-0.127 + 0.0006 * r.range + 1.121 * P) ≤ (r.tmin + 273.15) * (-0.127 + 0.12 + 1.121 * 1.01) :=
    mul_le_mul_of_nonneg_left (by linarith) (by linarith)
  norm_num at this ⊢
  linarith

theorem HumidDay.gap (h : HumidDay r s elev g tt q) {x y : ℝ} (hx : -115 ≤ x) (hy : -115 ≤ y) :
    |r.dewpoint s elev g tt x - r.dewpoint s elev g tt y| ≤ q * |x - y| := by
  have hx' := h.ratio x
  have hy' := h.ratio y
  have k1 := aridity_gap hx'.1 hx'.2 hy'.1 hy'.2
  have k2 := humid_gap h.tt hx hy
  rw [dewpoint_eq, dewpoint_eq]
  set P := max (tt - 6.1e-5 * svpR x) 0.0001
  set Q := max (tt - 6.1e-5 * svpR y) 0.0001
  set D := r.demand s elev g with hD
  have e : (r.tmin + 273.15) * (-0.127 + 0.0006 * r.range + 1.121 * aridity (D * P)) - 273.15 -
      ((r.tmin + 273.15) * (-0.127 + 0.0006 * r.range + 1.121 * aridity (D * Q)) - 273.15) =
      (r.tmin + 273.15) * (1.121 * (aridity (D * P) - aridity (D * Q))) := by ring
  have hA0 : 0 ≤ r.tmin + 273.15 := by linarith [h.likely.tmin.1]
  rw [e, abs_mul, abs_mul, abs_of_nonneg hA0, abs_of_nonneg (show (0 : ℝ) ≤ 1.121 by norm_num)]
  rw [← mul_sub, abs_mul, abs_of_nonneg h.demand] at k1
  have k3 : |aridity (D * P) - aridity (D * Q)| ≤ 1.444 * (D * (0.0728 * |x - y|)) :=
    k1.trans (mul_le_mul_of_nonneg_left (mul_le_mul_of_nonneg_left k2 h.demand) (by norm_num))
  have k4 : 0 ≤ D * |x - y| := mul_nonneg h.demand (abs_nonneg _)
  calc (r.tmin + 273.15) * (1.121 * |aridity (D * P) - aridity (D * Q)|)
      ≤ (r.tmin + 273.15) * (1.121 * (1.444 * (D * (0.0728 * |x - y|)))) :=
        mul_le_mul_of_nonneg_left (mul_le_mul_of_nonneg_left k3 (by norm_num)) hA0
    _ ≤ 333.15 * (1.121 * (1.444 * (D * (0.0728 * |x - y|)))) :=
        mul_le_mul_of_nonneg_right (by linarith [h.likely.tmin.2]) (by nlinarith)
    _ ≤ 40 * (D * |x - y|) := by nlinarith
    _ ≤ q * |x - y| := by
        rw [← mul_assoc]
        exact mul_le_mul_of_nonneg_right h.humid (abs_nonneg _)

/-- In a humid climate a day has one dewpoint that is its own estimate, and the rounds close in on it. -/
theorem HumidDay.settles (h : HumidDay r s elev g tt q) : ∃ t, -115 ≤ t ∧ r.dewpoint s elev g tt t = t ∧
    (∀ y, -115 ≤ y → r.dewpoint s elev g tt y = y → y = t) ∧
    ∀ x, -115 ≤ x → |r.dewpoint s elev g tt x - t| ≤ q / (1 - q) * |r.dewpoint s elev g tt x - x| := by
  have hq0 : 0 ≤ q := by linarith [h.humid, h.demand]
  set f : ℝ → ℝ := fun x => r.dewpoint s elev g tt (max (-115) x) with hf
  have hlip : LipschitzWith ⟨q, hq0⟩ f := LipschitzWith.of_dist_le_mul fun x y => by
    rw [Real.dist_eq, Real.dist_eq]
    refine (h.gap (le_max_left _ x) (le_max_left _ y)).trans (mul_le_mul_of_nonneg_left ?_ hq0)
    rw [max_comm, max_comm _ y]
    exact abs_max_sub_max_le_abs x y (-115)
  have hc : ContractingWith ⟨q, hq0⟩ f := ⟨by exact_mod_cast h.one, hlip⟩
  have hfx := hc.fixedPoint_isFixedPt
  set t := ContractingWith.fixedPoint f hc
  have ht : -115 ≤ t := by
    have := h.range (max (-115) t)
    rw [show r.dewpoint s elev g tt (max (-115) t) = t from hfx] at this
    exact this
  have hfe : ∀ x, -115 ≤ x → f x = r.dewpoint s elev g tt x := fun x hx => by simp only [hf, max_eq_right hx]
  refine ⟨t, ht, (hfe t ht).symm.trans hfx, fun y hy hy' => ?_, fun x hx => ?_⟩
  · exact hc.fixedPoint_unique (show f y = y by rw [hfe y hy, hy'])
  · have h1 := hc.dist_fixedPoint_le (r.dewpoint s elev g tt x)
    rw [Real.dist_eq, Real.dist_eq, hfe _ (h.range x)] at h1
    have h2 := h.gap (h.range x) hx
    have h3 : (0 : ℝ) < 1 - q := by linarith [h.one]
    rw [abs_sub_comm (r.dewpoint s elev g tt x) (r.dewpoint s elev g tt (r.dewpoint s elev g tt x))] at h1
    refine h1.trans ?_
    rw [div_mul_eq_mul_div]
    exact div_le_div_of_nonneg_right h2 h3.le

theorem rms_one {n : Nat} {a b : ℕ → ℝ} {i : ℕ} (hi : i < n) : |a i - b i| ≤ Real.sqrt n * rms n a b := by
  have hn : (0 : ℝ) < n := by exact_mod_cast Nat.lt_of_le_of_lt (Nat.zero_le _) hi
  unfold rms
  rw [← Real.sqrt_mul hn.le, mul_div_cancel₀ _ hn.ne', ← Real.sqrt_sq_eq_abs]
  refine Real.sqrt_le_sqrt ?_
  exact List.single_le_sum (by
    intro z hz
    obtain ⟨i, -, rfl⟩ := List.mem_map.1 hz
    exact sq_nonneg _) _ (List.mem_map.2 ⟨i, List.mem_range.2 hi, rfl⟩)

theorem HumidDay.moves (h : HumidDay r s elev g tt q) (m : ℕ) :
    |(r.dewpoint s elev g tt)^[m + 1] r.tmin - (r.dewpoint s elev g tt)^[m] r.tmin| ≤ q ^ m * 175 := by
  have hq0 : 0 ≤ q := by linarith [h.humid, h.demand]
  have hlow : ∀ m, -115 ≤ (r.dewpoint s elev g tt)^[m] r.tmin := by
    intro m
    cases m with
    | zero => exact (by linarith [h.likely.tmin.1] : -115 ≤ r.tmin)
    | succ m => rw [Function.iterate_succ_apply']; exact h.range _
  induction m with
  | zero => simpa using h.first
  | succ m ih =>
    rw [Function.iterate_succ_apply' _ (m + 1)]
    conv_lhs => rw [Function.iterate_succ_apply' _ m]
    have := h.gap (hlow (m + 1)) (hlow m)
    rw [Function.iterate_succ_apply' _ m] at this ih
    refine this.trans ?_
    rw [pow_succ']
    calc _ ≤ q * (q ^ m * 175) := mul_le_mul_of_nonneg_left ih hq0
      _ = _ := by ring

theorem rms_le {n : Nat} {a b : ℕ → ℝ} {B : ℝ} (hB : 0 ≤ B) (h : ∀ i < n, |a i - b i| ≤ B) : rms n a b ≤ B := by
  unfold rms
  rw [Real.sqrt_le_left hB]
  rcases n.eq_zero_or_pos with rfl | hn
  · simp; positivity
  have hn' : (0 : ℝ) < n := by exact_mod_cast hn
  rw [div_le_iff₀ hn']
  have := List.sum_le_card_nsmul ((List.range n).map fun i => (a i - b i) ^ 2) (B ^ 2) (by
    intro z hz
    obtain ⟨i, hi, rfl⟩ := List.mem_map.1 hz
    exact sq_le_sq' (abs_le.1 (h i (List.mem_range.1 hi))).1 (abs_le.1 (h i (List.mem_range.1 hi))).2)
  rw [List.length_map, List.length_range, nsmul_eq_mul] at this
  linarith

theorem demand_nonneg (hs : SaneParams s) (hl : 0 < s.lapseRate) (hle : s.lapseRate * elev < 288.15) (hp : r.Likely)
    (h1 : 0 ≤ g.potrad) (h2 : 0 ≤ g.daylength) : 0 ≤ r.demand s elev g := by
  have hta := tDay_within (p := s.daily elev) hs.coef.1 hs.coef.2 (a := fin r.tmin) (b := fin r.tmax)
    (fun r h => by rw [← Flt.fin.inj h]; exact hp.tmin) (fun r h => by rw [← Flt.fin.inj h]; exact hp.tmax)
    _ (C36_value _ _ _)
  replace hta : -60 ≤ r.daylight s ∧ r.daylight s ≤ 60 := hta
  obtain ⟨f, hf, f0, -⟩ := tfmax_bounds (s.daily elev) r.range r.mean r.rain hp.range.1 hs.rain.1 hs.rain.2
  rw [tfmax_sky s elev hp.range.1] at hf
  obtain rfl := Flt.fin.inj hf
  obtain ⟨pa, hpa, hpa0, -⟩ := C40_atm_pres elev s.lapseRate hl hle
  rw [C40_atm_pres_value elev s.lapseRate hl hle] at hpa
  obtain rfl := Flt.fin.inj (Except.ok.inj hpa)
  have hslope := svpR_lt (s := r.daylight s - 0.2) (t := r.daylight s + 0.2) (by linarith) (by linarith)
  unfold DayRecord.demand Spec.evaporation
  simp only [saturation_eq]
  generalize r.daylight s = T at *
  have a1 : 0 < 2502300 - 2430.54 * T := by norm_num; linarith
  have a2 : 0 < (svpR (T + 0.2) - svpR (T - 0.2)) / 0.4 := div_pos (by linarith) (by norm_num)
  have a3 : 0 < (0.62196351 : ℝ) * (2502300 - 2430.54 * T) := mul_pos (by norm_num) a1
  have a4 : 0 ≤ 1010 * Spec.barometric elev s.lapseRate / (0.62196351 * (2502300 - 2430.54 * T)) := by positivity
  have a5 : (0 : ℝ) < max 80 r.season := lt_of_lt_of_le (by norm_num) (le_max_left _ _)
  have a6 : (0 : ℝ) ≤ (1 - 0.2) * (1 - 0.1) * (g.potrad * skyOf s r.range r.mean r.rain) * g.daylength :=
    mul_nonneg (mul_nonneg (by norm_num) (mul_nonneg h1 f0)) h2
  exact div_nonneg (div_nonneg (mul_nonneg (mul_nonneg (by norm_num) (div_nonneg a2.le (by linarith))) a6) a1.le) a5.le

/-- In 1900 mm of rain no sun on earth makes the evaporation large. -/
theorem demand_wet (hs : SaneParams s) (hl : 0 < s.lapseRate) (hle : s.lapseRate * elev < 288.15) (hp : r.Likely)
    (h1 : 0 ≤ g.potrad) (h2 : 0 ≤ g.daylength) (h3 : g.potrad * g.daylength ≤ 6.15e7) (hwet : 1900 ≤ r.season) :
    40 * r.demand s elev g ≤ 1 / 2 := by
  have hta := tDay_within (p := s.daily elev) hs.coef.1 hs.coef.2 (a := fin r.tmin) (b := fin r.tmax)
    (fun r h => by rw [← Flt.fin.inj h]; exact hp.tmin) (fun r h => by rw [← Flt.fin.inj h]; exact hp.tmax)
    _ (C36_value _ _ _)
  replace hta : -60 ≤ r.daylight s ∧ r.daylight s ≤ 60 := hta
  obtain ⟨f, hf, f0, f1, -⟩ := tfmax_bounds (s.daily elev) r.range r.mean r.rain hp.range.1 hs.rain.1 hs.rain.2
  rw [tfmax_sky s elev hp.range.1] at hf
  obtain rfl := Flt.fin.inj hf
  obtain ⟨pa, hpa, hpa0, -⟩ := C40_atm_pres elev s.lapseRate hl hle
  rw [C40_atm_pres_value elev s.lapseRate hl hle] at hpa
  obtain rfl := Flt.fin.inj (Except.ok.inj hpa)
  have hslope := svpR_lt (s := r.daylight s - 0.2) (t := r.daylight s + 0.2) (by linarith) (by linarith)
  unfold DayRecord.demand Spec.evaporation
  simp only [saturation_eq]
  generalize r.daylight s = T at *
  have a1 : 2356467 ≤ 2502300 - 2430.54 * T := by norm_num; linarith
  have a1' : 0 < 2502300 - 2430.54 * T := by linarith
  have a2 : 0 < (svpR (T + 0.2) - svpR (T - 0.2)) / 0.4 := div_pos (by linarith) (by norm_num)
  have a3 : 0 < (0.62196351 : ℝ) * (2502300 - 2430.54 * T) := mul_pos (by norm_num) a1'
  have a4 : 0 ≤ 1010 * Spec.barometric elev s.lapseRate / (0.62196351 * (2502300 - 2430.54 * T)) := by positivity
  have a5 : (1900 : ℝ) ≤ max 80 r.season := hwet.trans (le_max_right _ _)
  generalize (svpR (T + 0.2) - svpR (T - 0.2)) / 0.4 = S at *
  generalize 1010 * Spec.barometric elev s.lapseRate / (0.62196351 * (2502300 - 2430.54 * T)) = G at *
  generalize 2502300 - 2430.54 * T = L at *
  generalize skyOf s r.range r.mean r.rain = F at *
  generalize max 80 r.season = M at *
  have b1 : S / (S + G) ≤ 1 := by rw [div_le_one (by linarith)]; linarith
  have b1' : 0 ≤ S / (S + G) := div_nonneg a2.le (by linarith)
  have b2 : g.potrad * F * g.daylength ≤ 6.15e7 := by
    have : g.potrad * g.daylength * F ≤ g.potrad * g.daylength * 1 :=
      mul_le_mul_of_nonneg_left f1.le (mul_nonneg h1 h2)
    linarith
  have b2' : 0 ≤ g.potrad * F * g.daylength := mul_nonneg (mul_nonneg h1 f0) h2
  generalize S / (S + G) = Z at *
  have b3 : Z * (g.potrad * F * g.daylength) ≤ 1 * 6.15e7 := mul_le_mul b1 b2 b2' (by norm_num)
  have b4 : 1.26 * Z * ((1 - 0.2) * (1 - 0.1) * (g.potrad * F) * g.daylength) ≤ 55793000 := by
    norm_num at *
    linarith
  have b5 : 1.26 * Z * ((1 - 0.2) * (1 - 0.1) * (g.potrad * F) * g.daylength) / L ≤ 23.7 := by
    rw [div_le_iff₀ a1']
    norm_num at *
    linarith
  rw [← mul_div_assoc, div_le_iff₀ (by linarith)]
  norm_num at *
  linarith

/-- What a daily run that estimates the humidity starts from, at one cell: C84. -/
structure Estimates (j : Job) (c : Run.Cell) (elev lat : ℝ) (rec : ℕ → DayRecord) (g : ℕ → Solar.DayGeom) (tt : ℕ → ℝ) : Prop where
  sane : j.Sane
  unit : ∃ u, j.shared.outVars.get? "vapor_pressure" = some u
  daily : j.shared.ts = 1440
  method : j.shared.method = .mtclim
  params : SaneParams j.shared
  lapse : 0 < j.shared.lapseRate
  height : (j.inp c).elev = fin elev
  place : (j.inp c).lat = fin lat
  low : j.shared.lapseRate * elev < 288.15
  globe : |lat| ≤ 90
  holds : HoldsRecord j.n (j.inp c).data.frame rec
  likely : ∀ i < j.n, (rec i).Likely
  sun : ∃ geom, Solar.solarGeom elev lat j.shared.lapseRate = .ok geom ∧
    ∀ i < j.n, geom[doy (j.d0 + i) - 1]? = some (g i) ∧ (g i).ttMax = fin (tt i)

section C147

variable (j : Job) (fuel : Nat) (order : List (Dict String Chunk.Slice)) (ho : j.Schedule order)
  (files : Run.Files Output) (hrun : j.run fuel order = .ok files) (c : Run.Cell) (hc : j.Computed c)
  (elev lat : ℝ) (rec : ℕ → DayRecord) (g : ℕ → Solar.DayGeom) (tt : ℕ → ℝ) (he : Estimates j c elev lat rec g tt)

include ho hrun hc he

/-- **C147**: where the evaporation of a day is small against the rain of the season, the day has exactly one dewpoint that is
its own estimate, whatever the other days are, and the vapour pressure written is saturation at that dewpoint up to the tolerance. -/
theorem C147_own (k : ℕ) (hk : k < j.n) (q : ℝ) (hq : q < 1) (hd : 40 * (rec k).demand j.shared elev (g k) ≤ q) :
    ∃ t, -115 ≤ t ∧ (rec k).dewpoint j.shared elev (g k) (tt k) t = t ∧
      (∀ y, -115 ≤ y → (rec k).dewpoint j.shared elev (g k) (tt k) y = y → y = t) ∧
      ∃ x, Reads j files c "vapor_pressure" k 0 (Spec.saturation x) ∧
        |x - t| ≤ q / (1 - q) * (Real.sqrt j.n * j.shared.tdewTol) := by
  obtain ⟨geom, hg, hgi⟩ := he.sun
  obtain ⟨u, hu⟩ := he.unit
  obtain ⟨N, h1, h2, -⟩ := C84_daily j he.sane fuel order ho files hrun c hc u hu he.method he.params he.lapse elev lat he.height
    he.place he.low he.globe rec he.holds he.likely geom hg g tt hgi he.daily
  obtain ⟨w2, w3⟩ := hgi k hk
  obtain ⟨-, hb⟩ := C45_bounds_partial elev lat j.shared.lapseRate he.lapse he.low geom hg
  obtain ⟨o1, -, o3, tt', o4, -, o5⟩ := hb _ (List.mem_of_getElem? w2)
  rw [w3] at o4
  obtain rfl := Flt.fin.inj o4
  have hh : HumidDay (rec k) j.shared elev (g k) (tt k) q :=
    ⟨he.likely k hk, o5.le, demand_nonneg he.params he.lapse he.low (he.likely k hk) o3
      o1, hd, hq⟩
  obtain ⟨t, t1, t2, t3, t4⟩ := hh.settles
  refine ⟨t, t1, t2, t3, _, h1 k hk, ?_⟩
  have hlow : ∀ m, -115 ≤ ((rec k).dewpoint j.shared elev (g k) (tt k))^[m] (rec k).tmin := by
    intro m
    cases m with
    | zero => exact (by linarith [(he.likely k hk).tmin.1] : -115 ≤ (rec k).tmin)
    | succ m => rw [Function.iterate_succ_apply']; exact hh.range _
  have h3 := rms_one (a := fun i => ((rec i).dewpoint j.shared elev (g i) (tt i))^[N + 1] (rec i).tmin)
    (b := fun i => ((rec i).dewpoint j.shared elev (g i) (tt i))^[N] (rec i).tmin) hk
  replace h3 := h3.trans (mul_le_mul_of_nonneg_left h2 (Real.sqrt_nonneg _))
  simp only [Function.iterate_succ_apply'] at h3 ⊢
  have hq0 : 0 ≤ q := by linarith [hh.humid, hh.demand]
  exact (t4 _ (hlow N)).trans (mul_le_mul_of_nonneg_left h3 (div_nonneg hq0 (by linarith)))

/-- **C147**: and the rounds are few. -/
theorem C147_rounds (q : ℝ) (hq : q < 1) (hd : ∀ k < j.n, 40 * (rec k).demand j.shared elev (g k) ≤ q) (M : ℕ)
    (hM : q ^ M * 175 ≤ j.shared.tdewTol) : ∃ N ≤ M, ∀ k < j.n, Reads j files c "vapor_pressure" k 0
      (Spec.saturation (((rec k).dewpoint j.shared elev (g k) (tt k))^[N + 1] (rec k).tmin)) := by
  obtain ⟨geom, hg, hgi⟩ := he.sun
  obtain ⟨u, hu⟩ := he.unit
  obtain ⟨N, h1, -, h2⟩ := C84_daily j he.sane fuel order ho files hrun c hc u hu he.method he.params he.lapse elev lat he.height
    he.place he.low he.globe rec he.holds he.likely geom hg g tt hgi he.daily
  refine ⟨N, not_lt.1 fun hlt => ?_, h1⟩
  have hh : ∀ k < j.n, HumidDay (rec k) j.shared elev (g k) (tt k) q := by
    intro k hk
    obtain ⟨w2, w3⟩ := hgi k hk
    obtain ⟨-, hb⟩ := C45_bounds_partial elev lat j.shared.lapseRate he.lapse he.low geom hg
    obtain ⟨o1, -, o3, tt', o4, -, o5⟩ := hb _ (List.mem_of_getElem? w2)
    rw [w3] at o4
    obtain rfl := Flt.fin.inj o4
    exact ⟨he.likely k hk, o5.le, demand_nonneg he.params he.lapse he.low (he.likely k hk) o3 o1, hd k hk, hq⟩
  have hq0 : 0 ≤ q := by
    have := hh 0 he.sane.pos
    linarith [this.humid, this.demand]
  have h3 := h2 M hlt
  have h4 := rms_le (n := j.n) (a := fun i => ((rec i).dewpoint j.shared elev (g i) (tt i))^[M + 1] (rec i).tmin)
    (b := fun i => ((rec i).dewpoint j.shared elev (g i) (tt i))^[M] (rec i).tmin) (B := q ^ M * 175) (by positivity)
    (fun i hi => (hh i hi).moves M)
  linarith

/-- **C147**: so two runs over different days, which agree about one of them, estimate its dewpoint to within the tolerance. -/
theorem C147_two (j' : Job) (fuel' : Nat) (order' : List (Dict String Chunk.Slice)) (ho' : j'.Schedule order')
    (files' : Run.Files Output) (hrun' : j'.run fuel' order' = .ok files') (c' : Run.Cell) (hc' : j'.Computed c')
    (lat' : ℝ) (rec' : ℕ → DayRecord) (g' : ℕ → Solar.DayGeom) (tt' : ℕ → ℝ) (he' : Estimates j' c' elev lat' rec' g' tt')
    (hsh : j'.shared = j.shared) (k k' : ℕ) (hk : k < j.n) (hk' : k' < j'.n) (hrec : rec' k' = rec k) (hg : g' k' = g k)
    (htt : tt' k' = tt k) (q : ℝ) (hq : q < 1) (hd : 40 * (rec k).demand j.shared elev (g k) ≤ q) :
    ∃ x x', Reads j files c "vapor_pressure" k 0 (Spec.saturation x) ∧
      Reads j' files' c' "vapor_pressure" k' 0 (Spec.saturation x') ∧
      |x - x'| ≤ q / (1 - q) * ((Real.sqrt j.n + Real.sqrt j'.n) * j.shared.tdewTol) := by
  obtain ⟨t, a1, a2, a3, x, a4, a5⟩ := C147_own j fuel order ho files hrun c hc elev lat rec g tt he k hk q hq hd
  obtain ⟨t', b1, b2, -, x', b4, b5⟩ := C147_own j' fuel' order' ho' files' hrun' c' hc' elev lat' rec' g' tt' he' k' hk' q hq
    (by rw [hrec, hg, hsh]; exact hd)
  rw [hrec, hg, hsh, htt] at b2
  obtain rfl := a3 t' b1 b2
  refine ⟨x, x', a4, b4, ?_⟩
  rw [hsh, abs_sub_comm] at b5
  have := abs_sub_le x t' x'
  calc |x - x'| ≤ _ := this
    _ ≤ _ := add_le_add a5 b5
    _ = _ := by ring

/-- **C147**: where 1900 mm fall in a season every day is such a day, and the dewpoint is that of the day alone to within the
tolerance times the root of the number of days. -/
theorem C147_wet (k : ℕ) (hk : k < j.n) (hwet : 1900 ≤ (rec k).season) :
    ∃ t, -115 ≤ t ∧ (rec k).dewpoint j.shared elev (g k) (tt k) t = t ∧
      (∀ y, -115 ≤ y → (rec k).dewpoint j.shared elev (g k) (tt k) y = y → y = t) ∧
      ∃ x, Reads j files c "vapor_pressure" k 0 (Spec.saturation x) ∧ |x - t| ≤ Real.sqrt j.n * j.shared.tdewTol := by
  obtain ⟨geom, hg, hgi⟩ := he.sun
  have hmem := List.mem_of_getElem? (hgi k hk).1
  obtain ⟨-, hb⟩ := C45_bounds_partial elev lat j.shared.lapseRate he.lapse he.low geom hg
  obtain ⟨o1, -, o3, -⟩ := hb _ hmem
  have o6 : (g k).potrad * (g k).daylength ≤ 6.15e7 := by
    obtain ⟨tr, -, -, h2⟩ := solarGeom_ok hg
    obtain ⟨i', -, hi'⟩ := h2 _ hmem
    exact Solar.potrad_le (latRad_lt he.globe) hi'
  obtain ⟨t, t1, t2, t3, x, t4, t5⟩ := C147_own j fuel order ho files hrun c hc elev lat rec g tt he k hk (1 / 2) (by norm_num)
    (demand_wet he.params he.lapse he.low (he.likely k hk) o3 o1 o6 hwet)
  refine ⟨t, t1, t2, t3, x, t4, ?_⟩
  norm_num at t5
  exact t5

/-- **C147**: with the tolerance of a millionth of a degree, at most 28 rounds follow the first. -/
theorem C147_default (hwet : ∀ k < j.n, 1900 ≤ (rec k).season) (htol : j.shared.tdewTol = 1e-6) :
    ∃ N ≤ 28, ∀ k < j.n, Reads j files c "vapor_pressure" k 0
      (Spec.saturation (((rec k).dewpoint j.shared elev (g k) (tt k))^[N + 1] (rec k).tmin)) := by
  obtain ⟨geom, hg, hgi⟩ := he.sun
  refine C147_rounds j fuel order ho files hrun c hc elev lat rec g tt he (1 / 2) (by norm_num) (fun k hk => ?_) 28
    (by rw [htol]; norm_num)
  have hmem := List.mem_of_getElem? (hgi k hk).1
  obtain ⟨-, hb⟩ := C45_bounds_partial elev lat j.shared.lapseRate he.lapse he.low geom hg
  obtain ⟨o1, -, o3, -⟩ := hb _ hmem
  have o6 : (g k).potrad * (g k).daylength ≤ 6.15e7 := by
    obtain ⟨tr, -, -, h2⟩ := solarGeom_ok hg
    obtain ⟨i', -, hi'⟩ := h2 _ hmem
    exact Solar.potrad_le (latRad_lt he.globe) hi'
  exact demand_wet he.params he.lapse he.low (he.likely k hk) o3 o1 o6 (hwet k hk)

end C147

/-- A daily run in a wet climate. -/
noncomputable def soaked : Job :=
  { yearly with
    inp := fun _ => ⟨fin 100, fin 45, fin (-120), ⟨consecutive 0 2,
      [("t_min", fun _ => fin 5), ("t_max", fun _ => fin 15), ("prec", fun _ => fin 24), ("dtr", fun _ => fin 10),
       ("smoothed_dtr", fun _ => fin 10), ("seasonal_prec", fun _ => fin 2000), ("shortwave", fun _ => fin 200)], (fin 4, fin 14)⟩⟩ }

theorem soaked_sane : soaked.Sane := { yearly_sane with data := fun _ => rfl }

theorem soaked_complete (c : Run.Cell) : CompleteCell soaked.shared 2 (soaked.inp c) :=
  { demo_complete .mtclim c with
    columns := by
      intro k hk
      simp only [List.mem_cons, List.not_mem_nil, or_false] at hk
      rcases hk with rfl | rfl | rfl | rfl | rfl | rfl <;> simp [soaked, Dict.get?_cons]
    radiation := fun _ => by simp [soaked, Dict.get?_cons]
    storm := by
      have h : ¬ (Lw.upperS "uniform" = "TRIANGLE" ∨ Lw.upperS "uniform" = "MIX") := by decide
      exact fun h' => absurd h' h }

theorem soaked_runs : ∃ order fuel files, soaked.Schedule order ∧ soaked.run fuel order = .ok files := by
  refine ⟨[[("lat", none), ("lon", none)]], ?_⟩
  obtain ⟨fuel, h⟩ := C72_run soaked soaked_sane [[("lat", none), ("lon", none)]] ⟨_, rfl, List.Perm.refl _⟩
    { demo_params with } (fun c _ => soaked_complete c) (fun c _ => { demo_plausible c with })
  obtain ⟨files, hf⟩ := (h 0).2 (fun c _ q hq => by
    have hq : q ∈ [("tskc", "fraction"), ("shortwave", "W m-2"), ("daylength", "s"), ("pet", "mm s-1"),
      ("vapor_pressure", "hPa")] := hq
    unfold Offers
    rw [if_neg (show ¬ (soaked.shared.ts < 1440) from lt_irrefl 1440)]
    simp only [List.mem_cons, List.not_mem_nil, or_false] at hq
    rcases hq with rfl | rfl | rfl | rfl | rfl <;> exact ⟨Or.inl (by decide), _, _, rfl, rfl⟩)
  exact ⟨fuel, files, ⟨_, rfl, List.Perm.refl _⟩, hf⟩

/-- **C147**: there are such runs. -/
example : ∃ g tt, Estimates soaked [0, 0] 100 45 (fun _ => ⟨5, 15, 10, 10, 24, 2000⟩) g tt ∧ soaked.Computed [0, 0] ∧
    ∃ order fuel files, soaked.Schedule order ∧ soaked.run fuel order = .ok files := by
  obtain ⟨geom, g, tt, h1, h2⟩ := mild_rows
  exact ⟨g, tt, { sane := soaked_sane, unit := ⟨_, rfl⟩, daily := rfl, method := rfl, params := { demo_params with },
                  lapse := (soaked_complete [0, 0]).lapse, height := rfl, place := rfl,
                  low := by show (0.0065 : ℝ) * 100 < 288.15; norm_num, globe := by norm_num,
                  holds := ⟨⟨_, rfl, fun _ _ => rfl⟩, ⟨_, rfl, fun _ _ => rfl⟩, ⟨_, rfl, fun _ _ => rfl⟩,
                    ⟨_, rfl, fun _ _ => rfl⟩, ⟨_, rfl, fun _ _ => rfl⟩, ⟨_, rfl, fun _ _ => rfl⟩⟩,
                  likely := fun _ _ => ⟨by norm_num, by norm_num, by norm_num⟩, sun := ⟨geom, h1, h2⟩ },
    ⟨by decide, 1, rfl, one_pos⟩, soaked_runs⟩

end Verif.Props
