import Verif.Props.Consistent

/-!
# What a daily run writes: C81
-/

namespace Verif.Props

open Flt Physics Methods Cell Np

/-- The files of a daily run, read against the frame of the method. -/
theorem readout_daily (j : Job) (hj : j.Sane) {fuel : Nat} {order : List (Dict String Chunk.Slice)} (ho : j.Schedule order)
    {files : Run.Files Output} (hrun : j.run fuel order = .ok files) (hday : j.shared.ts = 1440) {c : Run.Cell}
    (hc : j.Computed c) :
    ∃ elev lat lon, (j.inp c).elev = fin elev ∧ (j.inp c).lat = fin lat ∧ (j.inp c).lon = fin lon ∧
    ∃ (q : Common fuel j.shared elev lat lon (j.inp c).data) (rep : Frame), dailyShortwave q.base = .ok rep ∧
      ∀ v u dflt kd, j.shared.outVars.get? v = some u → Units.importAttrs.get? v = some dflt → Spec.kindOf v = some kd →
        ¬ (v = "air_pressure" ∧ u = "hPa") → ∃ col, Dict.get? rep v = some col ∧ ∀ k < j.n,
          (∀ x s, col k = fin x → Spec.si dflt (j.shared.ts : ℝ) x = some (kd, s) → Reads j files c v k 0 s) ∧
          (∀ s, Reads j files c v k 0 s → ∃ x, col k = fin x ∧ Spec.si dflt (j.shared.ts : ℝ) x = some (kd, s)) := by
  obtain ⟨elev, lat, lon, h1, h2, h3, q, rep, hr, hcol⟩ := written_daily j hj ho hrun hday hc
  refine ⟨elev, lat, lon, h1, h2, h3, q, rep, hr, ?_⟩
  intro v u dflt kd hu hdf hkd hbug
  obtain ⟨col, val, a1, a2, a3⟩ := hcol v u hu
  refine ⟨col, a1, fun k hk => ⟨?_, ?_⟩⟩
  · intro x s hx hs
    have hw := a3 k hk
    rw [hx] at hw
    obtain ⟨y, s', kd', b1, b2, b3, b4⟩ := convert_si hbug hdf hj.step.1 hw
    rw [hs] at b4
    obtain ⟨rfl, rfl⟩ := Prod.mk.inj (Option.some.inj b4)
    exact ⟨u, val, y, kd, hu, a2, b1, hkd, b3⟩
  · rintro s ⟨u', val', y, kd', c1, c2, c3, c4, c5⟩
    obtain rfl := Option.some.inj (hu.symm.trans c1)
    obtain rfl := Option.some.inj (hkd.symm.trans c4)
    have hv := recorded_unique j hj c2 a2 hk (i := 0) hj.step.pos
    rw [c3] at hv
    have hw := a3 k hk
    rw [← hv] at hw
    cases hx : col k with
    | nan =>
      rw [hx] at hw
      exact absurd (C01_missing _ _ _ _ hw) (by simp)
    | fin x =>
      rw [hx] at hw
      obtain ⟨y', s', kd', b1, b2, b3, b4⟩ := convert_si hbug hdf hj.step.1 hw
      obtain rfl := Flt.fin.inj b1
      rw [c5] at b3
      rw [← Option.some.inj b3] at b4
      exact ⟨x, rfl, b4⟩

/-- Transmittance of a day: the published one, lowered by the rain scalar if the rain exceeds the threshold. -/
noncomputable def skyOf (s : Shared) (dtr mean rain : ℝ) : ℝ :=
  Spec.transmittance dtr mean * if s.swPrecThresh < rain then s.rainScalar else 1

theorem tfmax_sky (s : Shared) (elev : ℝ) {dtr sm prec : ℝ} (h : 0 ≤ dtr) :
    tfmax (fin dtr) (fin sm) (fin prec) (s.daily elev) = fin (skyOf s dtr sm prec) := by
  rw [C37_rain (s.daily elev) dtr sm prec s.swPrecThresh (le_refl _), C37_value (s.daily elev) dtr sm s.swPrecThresh h (le_refl _)]
  unfold skyOf
  show (if s.swPrecThresh < prec then _ else _) = _
  split
  · rfl
  · rw [mul_one]

/-- The columns of the estimating method. -/
theorem mtclim_columns {fuel : Nat} {s : Shared} {elev lat lon : ℝ} {d : Data} (q : Common fuel s elev lat lon d)
    (hm : s.method = .mtclim) {tMin tMax dtr sm prec sp : Col}
    (g1 : Dict.get? d.frame "t_min" = some tMin) (g2 : Dict.get? d.frame "t_max" = some tMax)
    (g3 : Dict.get? d.frame "dtr" = some dtr) (g4 : Dict.get? d.frame "smoothed_dtr" = some sm)
    (g5 : Dict.get? d.frame "prec" = some prec) (g9 : Dict.get? d.frame "seasonal_prec" = some sp) :
    ∃ dew : Col, Dict.get? q.base "vapor_pressure" = some (fun i => vaporPressure (dew i)) ∧
      Dict.get? q.base "tskc" = some (fun i => tskc (tfmax (dtr i) (sm i) (prec i) (s.daily elev)) (s.daily elev)) ∧
      Dict.get? q.base "shortwave" = some (fun i => shortwave (tfmax (dtr i) (sm i) (prec i) (s.daily elev))
        (vaporPressure (dew i)) (colOf (q.rows.map (·.ttMax)) i) (colOf (q.rows.map fun g => fin g.potrad) i)) ∧
      Dict.get? q.base "daylength" = some (colOf (q.rows.map fun g => fin g.daylength)) ∧
      ∃ e, pet (fun i => shortwave (tfmax (dtr i) (sm i) (prec i) (s.daily elev))
        (vaporPressure (dew i)) (colOf (q.rows.map (·.ttMax)) i) (colOf (q.rows.map fun g => fin g.potrad) i))
        (fun i => tDay (tMin i) (tMax i) (s.daily elev)) (colOf (q.rows.map fun g => fin g.daylength)) (s.daily elev) = .ok e ∧
        Dict.get? q.base "pet" = some e := by
  have hrun : mtclimRun d.days.length fuel (withGeom q.rows d.frame) (s.daily elev) = .ok (some q.base) := by
    have h := q.h_base
    rw [hm] at h
    unfold runMethod at h
    simp only [bind_ok] at h
    obtain ⟨r, h1, h2⟩ := h
    cases r with
    | none => cases h2
    | some b =>
      have : b = q.base := Except.ok.inj h2
      rw [h1, this]
  obtain ⟨dew, -, v1, v2, v3, e, v4, v5⟩ := mtclimRun_dew hrun (P := fun _ => True)
    (tMin := tMin) (tMax := tMax) (dtr := dtr) (sm := sm) (prec := prec) (tt := colOf (q.rows.map (·.ttMax)))
    (pot := colOf (q.rows.map fun g => fin g.potrad)) (dl := colOf (q.rows.map fun g => fin g.daylength)) (sp := sp)
    (by rw [withGeom_keeps _ _ (by decide), g1]) (by rw [withGeom_keeps _ _ (by decide), g2])
    (by rw [withGeom_keeps _ _ (by decide), g3]) (by rw [withGeom_keeps _ _ (by decide), g4])
    (by rw [withGeom_keeps _ _ (by decide), g5])
    (by unfold withGeom; simp (decide := true) only [Dict.get?_set, if_true, if_false])
    (by unfold withGeom; simp (decide := true) only [Dict.get?_set, if_true, if_false])
    (by unfold withGeom; simp (decide := true) only [Dict.get?_set, if_true, if_false])
    (by rw [withGeom_keeps _ _ (by decide), g9]) trivial (fun _ _ _ _ => trivial)
  refine ⟨dew, v1, v2, v3, ?_, e, v4, v5⟩
  rw [runMethod_keeps q.h_base (by decide)]
  unfold withGeom
  simp (decide := true) only [Dict.get?_set, if_true, if_false]

/-- The row of the geometry of a day of the record. -/
theorem row_of {fuel : Nat} {s : Shared} {elev lat lon : ℝ} {d : Data} (q : Common fuel s elev lat lon d)
    {geom : List Solar.DayGeom} (hg : Solar.solarGeom elev lat s.lapseRate = .ok geom) {k : Nat} {day : Int}
    (hd : d.days[k]? = some day) {g : Solar.DayGeom} (h : geom[doy day - 1]? = some g) (f : Solar.DayGeom → Flt ℝ) :
    colOf (q.rows.map f) k = f g := by
  have e : q.geom = geom := Except.ok.inj (q.h_geom.symm.trans hg)
  obtain ⟨hl, hr⟩ := mapM_getElem q.h_rows
  have hk' : k < q.rows.length := by rw [hl]; exact (List.getElem?_eq_some_iff.1 hd).1
  have h1 := hr k day _ hd (List.getElem?_eq_getElem hk')
  rw [e, h] at h1
  rw [colOf_rows hk', ← Except.ok.inj h1]

theorem daily_back {out rep : Frame} (h : dailyShortwave out = .ok rep) {sw r : Col}
    (h1 : Dict.get? out "shortwave" = some sw) (h2 : Dict.get? rep "shortwave" = some r) {i : Nat} {x : ℝ}
    (hx : r i = fin x) : ∃ y, sw i = fin y := by
  unfold dailyShortwave at h
  simp only [bind_ok, pure_ok, Dict.get_ok] at h
  obtain ⟨sw', e1, dl, -, rfl⟩ := h
  rw [h1] at e1
  obtain rfl := Option.some.inj e1
  rw [Dict.get?_set_self] at h2
  rw [← Option.some.inj h2] at hx
  cases hs : sw i with
  | fin y => exact ⟨y, rfl⟩
  | nan =>
    simp only [hs] at hx
    cases hx

section C81

variable (j : Job) (hj : j.Sane) (fuel : Nat) (order : List (Dict String Chunk.Slice)) (ho : j.Schedule order)
  (files : Run.Files Output) (hrun : j.run fuel order = .ok files) (hday : j.shared.ts = 1440)
  (hm : j.shared.method = .mtclim) (c : Run.Cell) (hc : j.Computed c)
  (tMin tMax dtr sm prec sp : Col)
  (g1 : Dict.get? (j.inp c).data.frame "t_min" = some tMin) (g2 : Dict.get? (j.inp c).data.frame "t_max" = some tMax)
  (g3 : Dict.get? (j.inp c).data.frame "dtr" = some dtr) (g4 : Dict.get? (j.inp c).data.frame "smoothed_dtr" = some sm)
  (g5 : Dict.get? (j.inp c).data.frame "prec" = some prec)
  (g9 : Dict.get? (j.inp c).data.frame "seasonal_prec" = some sp) (k : Nat) (hk : k < j.n)

include hj ho hrun hday hm hc g1 g2 g3 g4 g5 g9 hk

/-- **C81**: the cloud cover written for a day follows from the temperature range and the rain of the day. -/
theorem C81_cloud (u : String) (hu : j.shared.outVars.get? "tskc" = some u) (d m r : ℝ) (e1 : dtr k = fin d) (hd : 0 ≤ d)
    (e2 : sm k = fin m) (e3 : prec k = fin r) (h0 : 0 ≤ j.shared.rainScalar) (h1 : j.shared.rainScalar ≤ 1) :
    Reads j files c "tskc" k 0 (if Lw.upperS j.shared.lwCloud = "CLOUD_DEARDORFF" then 1 - skyOf j.shared d m r
      else Real.sqrt ((1 - skyOf j.shared d m r) / 0.65)) := by
  obtain ⟨elev, lat, lon, -, -, -, q, rep, hr, hread⟩ := readout_daily j hj ho hrun hday hc
  obtain ⟨dew, -, v2, -⟩ := mtclim_columns q hm g1 g2 g3 g4 g5 g9
  obtain ⟨sw, dl, rr, -, -, -, -, hkeep⟩ := daily_ok hr
  obtain ⟨col, a1, a2⟩ := hread "tskc" u "fraction" .ratio hu (by decide) rfl (by simp)
  rw [hkeep _ (by decide), v2] at a1
  have ht := tfmax_sky j.shared elev (sm := m) (prec := r) hd
  refine (a2 k hk).1 _ _ ?_ rfl
  rw [← Option.some.inj a1]
  show tskc (tfmax (dtr k) (sm k) (prec k) _) _ = _
  rw [e1, e2, e3, ht]
  obtain ⟨f, hf, f0, f1, -⟩ := tfmax_bounds (j.shared.daily elev) d m r hd h0 h1
  rw [ht] at hf
  obtain rfl := Flt.fin.inj hf
  unfold Methods.tskc
  show (if Lw.upperS j.shared.lwCloud = "CLOUD_DEARDORFF" then _ else _) = _
  split
  · rfl
  · rw [sub_fin, div_fin_ne (by norm_num), sqrt_fin (div_nonneg (by linarith) (by norm_num))]

/-- **C81**: the length of day written for a day is that of the geometry of the cell on that day of the year. -/
theorem C81_daylength (u : String) (hu : j.shared.outVars.get? "daylength" = some u) (elev lat : ℝ)
    (p1 : (j.inp c).elev = fin elev) (p2 : (j.inp c).lat = fin lat) (geom : List Solar.DayGeom)
    (hg : Solar.solarGeom elev lat j.shared.lapseRate = .ok geom) (g : Solar.DayGeom)
    (hgk : geom[doy (j.d0 + k) - 1]? = some g) : Reads j files c "daylength" k 0 g.daylength := by
  obtain ⟨elev', lat', lon, q1, q2, -, q, rep, hr, hread⟩ := readout_daily j hj ho hrun hday hc
  rw [p1] at q1
  rw [p2] at q2
  obtain rfl := Flt.fin.inj q1
  obtain rfl := Flt.fin.inj q2
  obtain ⟨dew, -, -, -, v4, -⟩ := mtclim_columns q hm g1 g2 g3 g4 g5 g9
  obtain ⟨sw, dl, rr, -, -, -, -, hkeep⟩ := daily_ok hr
  obtain ⟨col, a1, a2⟩ := hread "daylength" u "s" .duration hu (by decide) rfl (by simp)
  rw [hkeep _ (by decide), v4] at a1
  have hdk : (j.inp c).data.days[k]? = some (j.d0 + k) := by
    rw [hj.data c]
    simp [consecutive, hk]
  refine (a2 k hk).1 _ _ ?_ rfl
  rw [← Option.some.inj a1, row_of q hg hdk hgk]

/-- **C81**: the shortwave radiation written for a day is the potential radiation of the cell on that day of the year,
through a clear sky holding the vapour pressure written for the day, times the transmittance of the day. -/
theorem C81_shortwave (u : String) (hu : j.shared.outVars.get? "shortwave" = some u) (elev lat : ℝ)
    (p1 : (j.inp c).elev = fin elev) (p2 : (j.inp c).lat = fin lat) (geom : List Solar.DayGeom)
    (hg : Solar.solarGeom elev lat j.shared.lapseRate = .ok geom) (g : Solar.DayGeom)
    (hgk : geom[doy (j.d0 + k) - 1]? = some g) (d m r e tt : ℝ) (e1 : dtr k = fin d) (hd : 0 ≤ d)
    (e2 : sm k = fin m) (e3 : prec k = fin r) (he : Reads j files c "vapor_pressure" k 0 e) (htt : g.ttMax = fin tt) :
    Reads j files c "shortwave" k 0 (g.potrad * max (tt - 6.1e-5 * e) 0.0001 * skyOf j.shared d m r * g.daylength / 86400) := by
  obtain ⟨elev', lat', lon, q1, q2, -, q, rep, hr, hread⟩ := readout_daily j hj ho hrun hday hc
  rw [p1] at q1
  rw [p2] at q2
  obtain rfl := Flt.fin.inj q1
  obtain rfl := Flt.fin.inj q2
  obtain ⟨dew, v1, -, v3, v4, -⟩ := mtclim_columns q hm g1 g2 g3 g4 g5 g9
  obtain ⟨sw, dl, rr, d1, d2, d3, d4, hkeep⟩ := daily_ok hr
  have hdk : (j.inp c).data.days[k]? = some (j.d0 + k) := by
    rw [hj.data c]
    simp [consecutive, hk]
  have he' := he
  obtain ⟨uE, -, -, -, hE, -⟩ := he'
  obtain ⟨colE, b1, b2⟩ := hread "vapor_pressure" uE "Pa" .pressure hE (by decide) rfl (by simp)
  rw [hkeep _ (by decide), v1] at b1
  obtain ⟨x, hx, hxs⟩ := (b2 k hk).2 e he
  obtain rfl : x = e := (Prod.mk.inj (Option.some.inj hxs)).2
  rw [← Option.some.inj b1] at hx
  replace hx : vaporPressure (dew k) = fin x := hx
  obtain ⟨col, a1, a2⟩ := hread "shortwave" u "W m-2" .energyFlux hu (by decide) rfl (by simp)
  rw [d3] at a1
  rw [v3] at d1
  rw [v4] at d2
  refine (a2 k hk).1 _ _ ?_ rfl
  rw [← Option.some.inj a1]
  refine d4 k _ _ ?_ ?_
  · rw [← Option.some.inj d1]
    show shortwave _ (vaporPressure (dew k)) _ _ = _
    rw [hx, row_of q hg hdk hgk, row_of q hg hdk hgk, htt, e1, e2, e3, tfmax_sky j.shared elev hd, C43_value]
  · rw [← Option.some.inj d2, row_of q hg hdk hgk]

/-- **C81**: the evaporation written for a day is that of the radiation and the length of day written for it, at the
daylight temperature of the day and the pressure of the elevation of the cell. -/
theorem C81_evaporation (u : String) (hu : j.shared.outVars.get? "pet" = some u) (elev : ℝ)
    (p1 : (j.inp c).elev = fin elev) (hl : 0 < j.shared.lapseRate) (hle : j.shared.lapseRate * elev < 288.15)
    (a b S L : ℝ) (e1 : tMin k = fin a) (e2 : tMax k = fin b)
    (hS : Reads j files c "shortwave" k 0 S) (hL : Reads j files c "daylength" k 0 L) (hL0 : L ≠ 0)
    (ht1 : -115 ≤ (a + b) / 2 + j.shared.tdayCoef * (b - (a + b) / 2))
    (ht2 : (a + b) / 2 + j.shared.tdayCoef * (b - (a + b) / 2) ≤ 1000) :
    Reads j files c "pet" k 0 (Spec.evaporation (S * 86400 / L) ((a + b) / 2 + j.shared.tdayCoef * (b - (a + b) / 2)) L
      (Spec.barometric elev j.shared.lapseRate) / 86400) := by
  obtain ⟨elev', lat, lon, q1, -, -, q, rep, hr, hread⟩ := readout_daily j hj ho hrun hday hc
  rw [p1] at q1
  obtain rfl := Flt.fin.inj q1
  obtain ⟨dew, v1, -, v3, v4, ev, v5, v6⟩ := mtclim_columns q hm g1 g2 g3 g4 g5 g9
  obtain ⟨sw, dl, rr, d1, d2, d3, d4, hkeep⟩ := daily_ok hr
  rw [v3] at d1
  rw [v4] at d2
  have hS' := hS
  obtain ⟨uS, -, -, -, hS1, -⟩ := hS'
  have hL' := hL
  obtain ⟨uL, -, -, -, hL1, -⟩ := hL'
  obtain ⟨colS, b1, b2⟩ := hread "shortwave" uS "W m-2" .energyFlux hS1 (by decide) rfl (by simp)
  rw [d3] at b1
  obtain ⟨colL, c1, c2⟩ := hread "daylength" uL "s" .duration hL1 (by decide) rfl (by simp)
  rw [hkeep _ (by decide), v4] at c1
  obtain ⟨col, a1, a2⟩ := hread "pet" u "mm timestep-1" .waterFlux hu (by decide) rfl (by simp)
  rw [hkeep _ (by decide), v6] at a1
  obtain ⟨x, hx, hxs⟩ := (b2 k hk).2 S hS
  obtain rfl : x = S := (Prod.mk.inj (Option.some.inj hxs)).2
  obtain ⟨l, hlx, hls⟩ := (c2 k hk).2 L hL
  obtain rfl : l = L := (Prod.mk.inj (Option.some.inj hls)).2
  rw [← Option.some.inj b1] at hx
  rw [← Option.some.inj c1] at hlx
  have hdl : dl k = fin l := by rw [← Option.some.inj d2]; exact hlx
  obtain ⟨y, hy⟩ := daily_back hr (sw := sw) (by rw [v3, d1]) d3 hx
  have hyS : y * l / 86400 = x := by
    have := d4 k y l hy hdl
    rw [hx] at this
    exact (Flt.fin.inj this).symm
  obtain ⟨out, o1, o2⟩ := C40_pet_value (j.shared.daily elev) elev rfl hl hle _ _ _
  rw [v5] at o1
  obtain rfl := Except.ok.inj o1
  have hy' : x * 86400 / l = y := by rw [← hyS]; field_simp
  rw [hy']
  refine (a2 k hk).1 (Spec.evaporation y ((a + b) / 2 + j.shared.tdayCoef * (b - (a + b) / 2)) l
    (Spec.barometric elev j.shared.lapseRate)) _ ?_ ?_
  · rw [← Option.some.inj a1]
    refine o2 k y _ l (by rw [← hy, ← Option.some.inj d1]) ?_ hlx ht1 ht2
    show tDay (tMin k) (tMax k) _ = _
    rw [e1, e2, C36_value]
    rfl
  · rw [hday]
    simp only [Spec.si]
    norm_num

end C81

/-- A run with the estimating method in daily steps. -/
noncomputable def yearly : Job :=
  { demo .mtclim with
    shared := { (demo .mtclim).shared with ts := 1440, outVars := [("tskc", "fraction"), ("shortwave", "W m-2"),
      ("daylength", "s"), ("pet", "mm s-1"), ("vapor_pressure", "hPa")] } }

theorem yearly_sane : yearly.Sane where
  step := ⟨by decide, dvd_refl _⟩
  pos := (demo_sane .mtclim).pos
  calendar := regular_standard _ _
  data := fun _ => rfl
  freq := (demo_sane .mtclim).freq
  years := by
    intro T h t ht
    have h' : Times.outputTimes ⟨1440, "standard", false⟩ (consecutive 0 2) = .ok T := h
    rw [outputTimes_grid _ _ _ ⟨by decide, dvd_refl _⟩ 0 2 (by decide) (regular_standard _ _)] at h'
    injection h' with h'
    subst h'
    revert t
    decide +kernel
  vars := by
    show (Dict.keys [("tskc", "fraction"), ("shortwave", "W m-2"), ("daylength", "s"), ("pet", "mm s-1"),
      ("vapor_pressure", "hPa")]).Nodup
    decide
  names := by
    show ((Dict.keys [("tskc", "fraction"), ("shortwave", "W m-2"), ("daylength", "s"), ("pet", "mm s-1"),
      ("vapor_pressure", "hPa")]).map id).Nodup
    decide
  dims := (demo_sane .mtclim).dims
  dims_pos := (demo_sane .mtclim).dims_pos
  chunks := (demo_sane .mtclim).chunks
  chunks_pos := (demo_sane .mtclim).chunks_pos
  same := (demo_sane .mtclim).same

theorem yearly_runs : ∃ order fuel files, yearly.Schedule order ∧ yearly.run fuel order = .ok files := by
  refine ⟨[[("lat", none), ("lon", none)]], ?_⟩
  obtain ⟨fuel, h⟩ := C72_run yearly yearly_sane [[("lat", none), ("lon", none)]] ⟨_, rfl, List.Perm.refl _⟩
    { demo_params with } (fun c _ => { demo_complete .mtclim c with }) (fun c _ => demo_plausible c)
  obtain ⟨files, hf⟩ := (h 0).2 (fun c _ q hq => by
    have hq : q ∈ [("tskc", "fraction"), ("shortwave", "W m-2"), ("daylength", "s"), ("pet", "mm s-1"),
      ("vapor_pressure", "hPa")] := hq
    unfold Offers
    rw [if_neg (show ¬ (yearly.shared.ts < 1440) from lt_irrefl 1440)]
    simp only [List.mem_cons, List.not_mem_nil, or_false] at hq
    rcases hq with rfl | rfl | rfl | rfl | rfl <;> exact ⟨Or.inl (by decide), _, _, rfl, rfl⟩)
  exact ⟨fuel, files, ⟨_, rfl, List.Perm.refl _⟩, hf⟩


/-- **C81**: there is such a run, and it writes a vapour pressure, a radiation and a length of day. -/
example : yearly.Sane ∧ yearly.shared.ts = 1440 ∧ yearly.shared.method = .mtclim ∧ yearly.Computed [0, 0] ∧
    SaneParams yearly.shared ∧ ∃ order fuel files, yearly.Schedule order ∧ yearly.run fuel order = .ok files ∧
    ∃ e S L, Reads yearly files [0, 0] "vapor_pressure" 0 0 e ∧ Reads yearly files [0, 0] "shortwave" 0 0 S ∧
      Reads yearly files [0, 0] "daylength" 0 0 L ∧ L ≠ 0 := by
  obtain ⟨order, fuel, files, ho, hrun⟩ := yearly_runs
  have hc : yearly.Computed [0, 0] := ⟨by unfold yearly demo; decide, 1, rfl, one_pos⟩
  refine ⟨yearly_sane, rfl, rfl, hc, { demo_params with }, order, fuel, files, ho, hrun, ?_⟩
  obtain ⟨elev, lat, lon, h1, h2, h3, q, rep, hr, hread⟩ := readout_daily yearly yearly_sane ho hrun rfl hc
  have hs := demo_sound [0, 0]
  have hgood := mtclim_good q (by rw [yearly_sane.data [0, 0], length_consecutive]; rfl) rfl { demo_params with } hs.lapse.1
    (hs.column elev h1) (hs.lat lat h2) hs.record (demo_complete .mtclim [0, 0]).columns (by unfold yearly demo; decide)
  obtain ⟨sw, dl, rr, d1, d2, d3, d4, hkeep⟩ := daily_ok hr
  obtain ⟨colE, a1, a2⟩ := hread "vapor_pressure" "hPa" "Pa" .pressure rfl (by decide) rfl (by simp)
  obtain ⟨colS, b1, b2⟩ := hread "shortwave" "W m-2" "W m-2" .energyFlux rfl (by decide) rfl (by simp)
  obtain ⟨colL, c1, c2⟩ := hread "daylength" "s" "s" .duration rfl (by decide) rfl (by simp)
  have hn : 0 < yearly.n := yearly_sane.pos
  obtain ⟨ve, v1, v2⟩ := hgood.vapor
  obtain ⟨e, he, -⟩ := v2 0 hn
  obtain ⟨vs, s1, s2⟩ := hgood.shortwave
  obtain ⟨S, hS, -⟩ := s2 0 hn
  have hlat : |lat| ≤ 60 := by
    rw [← Flt.fin.inj h2]
    norm_num
  have hrl : q.rows.length = 2 := (mapM_getElem q.h_rows).1
  have hL : ∃ L, dl 0 = fin L ∧ L ≠ 0 := by
    have hb : Dict.get? q.base "daylength" = some (colOf (q.rows.map fun g => fin g.daylength)) := by
      rw [runMethod_keeps q.h_base (by decide)]
      unfold withGeom
      simp (decide := true) only [Dict.get?_set, if_true, if_false]
    rw [d2] at hb
    rw [Option.some.inj hb, colOf_rows (by omega)]
    refine ⟨_, rfl, ?_⟩
    have hmem : q.rows[0] ∈ q.geom := by
      have hrows := q.h_rows
      unfold geomRows at hrows
      obtain ⟨d, -, hd⟩ := (mapM_ok hrows).2 _ (List.getElem_mem (show 0 < q.rows.length by omega))
      cases hgd : q.geom[doy d - 1]? with
      | none => rw [hgd] at hd; cases hd
      | some g' =>
        rw [hgd] at hd
        injection hd with hd
        rw [← hd]
        exact List.mem_of_getElem? hgd
    obtain ⟨tr, -, -, hs2⟩ := solarGeom_ok q.h_geom
    obtain ⟨i, -, hi⟩ := hs2 _ hmem
    rw [daylength_eq hi]
    have := hss_mid hlat i
    exact (lt_min (by linarith) (by norm_num)).ne'
  obtain ⟨L, hL, hL0⟩ := hL
  rw [hkeep _ (by decide), v1] at a1
  rw [d3] at b1
  rw [hkeep _ (by decide), d2] at c1
  refine ⟨e, S * L / 86400, L, (a2 0 hn).1 e _ (by rw [← Option.some.inj a1, he]) rfl,
    (b2 0 hn).1 _ _ (by rw [← Option.some.inj b1]; exact d4 0 S L (by rw [← hS, Option.some.inj (s1.symm.trans d1)]) hL) rfl,
    (c2 0 hn).1 L _ (by rw [← Option.some.inj c1, hL]) rfl, hL0⟩

end Verif.Props
