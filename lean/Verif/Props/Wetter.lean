import Verif.Props.Humid

/-!
# A rainier season never makes a day drier, where it rains enough: C148
-/

namespace Verif.Props

open Flt Physics Methods Cell Np

theorem aridity_anti {a b : ℝ} (ha : 0 ≤ a) (h : a ≤ b) (hb : b ≤ 0.09) : aridity b ≤ aridity a := by
  have e : aridity a - aridity b = (b - a) * (1.444 - 12.312 * (a + b) + 32.766 * (a * a + a * b + b * b)) := by
    unfold aridity
    ring
  have : 0 ≤ 1.444 - 12.312 * (a + b) + 32.766 * (a * a + a * b + b * b) := by
    norm_num at hb ⊢
    nlinarith [sq_nonneg (a - b), mul_nonneg (sub_nonneg.2 hb) (sub_nonneg.2 (h.trans hb)), mul_nonneg ha (ha.trans h)]
  have := mul_nonneg (sub_nonneg.2 h) this
  linarith

/-- More rain in the season never lowers the dewpoint the estimate gives for the same evaporation. -/
def C148_full : Prop := ∀ e tmin range rain rain' x x' : ℝ, 0 ≤ e → -60 ≤ tmin → tmin ≤ 60 → 0 ≤ range → rain ≤ rain' →
  tdew (fin e) (fin tmin) (fin rain) (fin range) = fin x → tdew (fin e) (fin tmin) (fin rain') (fin range) = fin x' → x ≤ x'

/-- **C148**: so it is if the evaporation of the day is at most nine hundredths of the rain (of 80 mm at least). -/
theorem C148_estimate_partial (e tmin range rain rain' x x' : ℝ) (he : 0 ≤ e) (ht : -60 ≤ tmin) (hr : rain ≤ rain')
    (hwet : e ≤ 0.09 * max 80 rain) (hx : tdew (fin e) (fin tmin) (fin rain) (fin range) = fin x)
    (hx' : tdew (fin e) (fin tmin) (fin rain') (fin range) = fin x') : x ≤ x' := by
  rw [C41_dewpoint_value] at hx hx'
  obtain rfl := Flt.fin.inj hx
  obtain rfl := Flt.fin.inj hx'
  have h0 : (0 : ℝ) < max 80 rain := lt_of_lt_of_le (by norm_num) (le_max_left _ _)
  have hm : max 80 rain ≤ max 80 rain' := max_le_max le_rfl hr
  have h1 : e / max 80 rain' ≤ e / max 80 rain := div_le_div_of_nonneg_left he h0 hm
  have h2 : e / max 80 rain ≤ 0.09 := by rwa [div_le_iff₀ h0]
  have h3 := aridity_anti (div_nonneg he (h0.le.trans hm)) h1 h2
  have h4 := mul_le_mul_of_nonneg_left h3 (show 0 ≤ (tmin + 273.15) * 1.121 by norm_num; linarith)
  unfold Spec.kimball
  unfold aridity at h4
  linarith

/-- **C148**: on a day with 10 mm of evaporation, 125 mm of rain in the season give a lower dewpoint than 80 mm: the cubic of the
estimate rises between 0.094 and 0.157. -/
theorem C148_refuted : ¬ C148_full := by
  intro h
  have := h 10 10 10 80 125 _ _ (by norm_num) (by norm_num) (by norm_num) (by norm_num) (by norm_num)
    (C41_dewpoint_value 10 10 80 10) (C41_dewpoint_value 10 10 125 10)
  unfold Spec.kimball at this
  rw [max_eq_left (le_refl (80 : ℝ)), max_eq_right (by norm_num : (80 : ℝ) ≤ 125)] at this
  norm_num at this

variable {r r' : DayRecord} {s s' : Shared} {elev elev' : ℝ} {g g' : Solar.DayGeom} {tt tt' q : ℝ}

/-- Where evaporation is small against the rain, a round started warmer ends no colder. -/
theorem HumidDay.mono (h : HumidDay r s elev g tt q) {x y : ℝ} (hx : -115 ≤ x) (hxy : x ≤ y) :
    r.dewpoint s elev g tt x ≤ r.dewpoint s elev g tt y := by
  rw [dewpoint_eq, dewpoint_eq]
  have hm : max (tt - 6.1e-5 * svpR y) 0.0001 ≤ max (tt - 6.1e-5 * svpR x) 0.0001 := by
    refine max_le_max ?_ le_rfl
    have := mul_le_mul_of_nonneg_left (svpR_le (s := x) (t := y) (by linarith) hxy) (show (0 : ℝ) ≤ 6.1e-5 by norm_num)
    linarith
  have := aridity_anti (h.ratio y).1 (mul_le_mul_of_nonneg_left hm h.demand)
    ((h.ratio x).2.trans (by norm_num))
  have := mul_le_mul_of_nonneg_left this (show 0 ≤ (r.tmin + 273.15) * 1.121 by norm_num; linarith [h.likely.tmin.1])
  linarith

/-- Less evaporation, or more rain, at the same minimum and range of temperature: the estimate is no lower. -/
theorem HumidDay.less (h : HumidDay r s elev g tt q) (h' : HumidDay r' s' elev' g' tt' q) (h1 : r'.tmin = r.tmin)
    (h2 : r'.range = r.range) (h3 : tt' ≤ tt) (h4 : r'.demand s' elev' g' ≤ r.demand s elev g) (x : ℝ) :
    r.dewpoint s elev g tt x ≤ r'.dewpoint s' elev' g' tt' x := by
  rw [dewpoint_eq, dewpoint_eq, h1, h2]
  have hm : max (tt' - 6.1e-5 * svpR x) 0.0001 ≤ max (tt - 6.1e-5 * svpR x) 0.0001 := max_le_max (by linarith) le_rfl
  have h0 : 0 ≤ max (tt' - 6.1e-5 * svpR x) 0.0001 := le_trans (by norm_num) (le_max_right _ _)
  have := aridity_anti (h'.ratio x).1 (mul_le_mul h4 hm h0 h.demand) ((h.ratio x).2.trans (by norm_num))
  have := mul_le_mul_of_nonneg_left this (show 0 ≤ (r.tmin + 273.15) * 1.121 by norm_num; linarith [h.likely.tmin.1])
  linarith

/-- Then the day's own dewpoint is no lower. -/
theorem HumidDay.own_le (h : HumidDay r s elev g tt q) (h' : HumidDay r' s' elev' g' tt' q) (h1 : r'.tmin = r.tmin)
    (h2 : r'.range = r.range) (h3 : tt' ≤ tt) (h4 : r'.demand s' elev' g' ≤ r.demand s elev g) {t t' : ℝ} (ht : -115 ≤ t)
    (ht' : -115 ≤ t') (e : r.dewpoint s elev g tt t = t) (e' : r'.dewpoint s' elev' g' tt' t' = t') : t ≤ t' := by
  by_contra hlt
  push Not at hlt
  have k1 := h.less h' h1 h2 h3 h4 t'
  have k2 := h.gap ht ht'
  rw [e] at k2
  rw [e'] at k1
  have k3 := le_abs_self (t - r.dewpoint s elev g tt t')
  rw [abs_of_pos (sub_pos.2 hlt)] at k2
  nlinarith [h.one]

theorem Estimates.humidDay {j : Job} {c : Run.Cell} {elev lat : ℝ} {rec : ℕ → DayRecord} {g : ℕ → Solar.DayGeom} {tt : ℕ → ℝ}
    (he : Estimates j c elev lat rec g tt) {k : ℕ} (hk : k < j.n) (hq : q < 1)
    (hd : 40 * (rec k).demand j.shared elev (g k) ≤ q) : HumidDay (rec k) j.shared elev (g k) (tt k) q := by
  obtain ⟨geom, hg, hgi⟩ := he.sun
  obtain ⟨w2, w3⟩ := hgi k hk
  obtain ⟨-, hb⟩ := C45_bounds_partial elev lat j.shared.lapseRate he.lapse he.low geom hg
  obtain ⟨o1, -, o3, tt', o4, -, o5⟩ := hb _ (List.mem_of_getElem? w2)
  rw [w3] at o4
  obtain rfl := Flt.fin.inj o4
  exact ⟨he.likely k hk, o5.le, demand_nonneg he.params he.lapse he.low (he.likely k hk) o3 o1, hd, hq⟩

section C148

variable (j : Job) (fuel : Nat) (order : List (Dict String Chunk.Slice)) (ho : j.Schedule order)
  (files : Run.Files Output) (hrun : j.run fuel order = .ok files) (c : Run.Cell) (hc : j.Computed c)
  (elev lat : ℝ) (rec : ℕ → DayRecord) (g : ℕ → Solar.DayGeom) (tt : ℕ → ℝ) (he : Estimates j c elev lat rec g tt)
  (j' : Job) (fuel' : Nat) (order' : List (Dict String Chunk.Slice)) (ho' : j'.Schedule order')
  (files' : Run.Files Output) (hrun' : j'.run fuel' order' = .ok files') (c' : Run.Cell) (hc' : j'.Computed c')
  (elev' lat' : ℝ) (rec' : ℕ → DayRecord) (g' : ℕ → Solar.DayGeom) (tt' : ℕ → ℝ) (he' : Estimates j' c' elev' lat' rec' g' tt')

include ho hrun hc he ho' hrun' hc' he'

/-- **C148**: of two days with the same minimum and range of temperature, in any two runs, the one with less evaporation for the rain of
its season gets a vapour pressure no lower than the other, up to the tolerances. -/
theorem C148_wetter (k k' : ℕ) (hk : k < j.n) (hk' : k' < j'.n) (h1 : (rec' k').tmin = (rec k).tmin)
    (h2 : (rec' k').range = (rec k).range) (h3 : tt' k' ≤ tt k) (q : ℝ) (hq : q < 1)
    (hd : 40 * (rec k).demand j.shared elev (g k) ≤ q)
    (h4 : (rec' k').demand j'.shared elev' (g' k') ≤ (rec k).demand j.shared elev (g k)) :
    ∃ x x', Reads j files c "vapor_pressure" k 0 (Spec.saturation x) ∧
      Reads j' files' c' "vapor_pressure" k' 0 (Spec.saturation x') ∧
      x ≤ x' + q / (1 - q) * (Real.sqrt j.n * j.shared.tdewTol + Real.sqrt j'.n * j'.shared.tdewTol) := by
  obtain ⟨t, a1, a2, -, x, a4, a5⟩ := C147_own j fuel order ho files hrun c hc elev lat rec g tt he k hk q hq hd
  obtain ⟨t', b1, b2, -, x', b4, b5⟩ := C147_own j' fuel' order' ho' files' hrun' c' hc' elev' lat' rec' g' tt' he' k' hk' q hq
    (by linarith)
  have := (he.humidDay hk hq hd).own_le (he'.humidDay hk' hq (by linarith)) h1 h2 h3 h4 a1 b1 a2 b2
  refine ⟨x, x', a4, b4, ?_⟩
  have p1 := (abs_le.1 a5).2
  have p2 := (abs_le.1 b5).1
  rw [mul_add]
  linarith

/-- **C148**: in particular the same day at the same place in a rainier season. -/
theorem C148_rain (hsh : j'.shared = j.shared) (hel : elev' = elev) (k k' : ℕ) (hk : k < j.n) (hk' : k' < j'.n)
    (hrec : rec' k' = { rec k with season := (rec' k').season }) (hs : (rec k).season ≤ (rec' k').season) (hg : g' k' = g k)
    (htt : tt' k' = tt k) (hwet : 1900 ≤ (rec k).season) :
    ∃ x x', Reads j files c "vapor_pressure" k 0 (Spec.saturation x) ∧
      Reads j' files' c' "vapor_pressure" k' 0 (Spec.saturation x') ∧
      x ≤ x' + (Real.sqrt j.n + Real.sqrt j'.n) * j.shared.tdewTol := by
  obtain ⟨geom, hgeo, hgi⟩ := he.sun
  have hmem := List.mem_of_getElem? (hgi k hk).1
  obtain ⟨-, hb⟩ := C45_bounds_partial elev lat j.shared.lapseRate he.lapse he.low geom hgeo
  obtain ⟨o1, -, o3, -⟩ := hb _ hmem
  have o6 : (g k).potrad * (g k).daylength ≤ 6.15e7 := by
    obtain ⟨tr, -, -, h2⟩ := solarGeom_ok hgeo
    obtain ⟨i', -, hi'⟩ := h2 _ hmem
    exact Solar.potrad_le (latRad_lt he.globe) hi'
  have hd := demand_wet he.params he.lapse he.low (he.likely k hk) o3 o1 o6 hwet
  have hd0 := demand_nonneg he.params he.lapse he.low (he.likely k hk) o3 o1
  have hdem : (rec' k').demand j'.shared elev' (g' k') ≤ (rec k).demand j.shared elev (g k) := by
    have hm : (0 : ℝ) < max 80 (rec k).season := lt_of_lt_of_le (by norm_num) (le_max_left _ _)
    rw [hsh, hel, hg]
    unfold DayRecord.demand at hd0 ⊢
    have e1 : (rec' k').daylight j.shared = (rec k).daylight j.shared := by rw [hrec]; rfl
    have e2 : skyOf j.shared (rec' k').range (rec' k').mean (rec' k').rain =
        skyOf j.shared (rec k).range (rec k).mean (rec k).rain := by rw [hrec]
    rw [e1, e2]
    refine div_le_div_of_nonneg_left ?_ hm (max_le_max le_rfl hs)
    by_contra hneg
    push Not at hneg
    exact absurd hd0 (not_le.2 (div_neg_of_neg_of_pos hneg hm))
  obtain ⟨x, x', p1, p2, p3⟩ := C148_wetter j fuel order ho files hrun c hc elev lat rec g tt he j' fuel' order' ho' files' hrun' c' hc'
    elev' lat' rec' g' tt' he' k k' hk hk' (by rw [hrec]) (by rw [hrec]) htt.le (1 / 2) (by norm_num) hd hdem
  refine ⟨x, x', p1, p2, ?_⟩
  rw [hsh] at p3
  norm_num at p3
  linarith

end C148

end Verif.Props
