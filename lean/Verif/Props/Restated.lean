import Verif.Props.Stages

/-!
# Two ways to state the radiation of a day

The method `passthrough` is given daily shortwave radiation, as the mean over daylight (`sw_averaging = 'daylight'`) or over the day.
-/

namespace Verif.Props

open Flt Cell Methods Disaggregate Np Physics

/-- Two cells of runs of `passthrough` that agree but for the way the radiation is stated: `a`, the mean over daylight, and `b`, the mean
over the day. -/
structure Restated (j j' : Job) (c c' : Run.Cell) (a b : Col) : Prop where
  method : j.shared.method = .passthrough
  method' : j'.shared.method = .passthrough
  daylight : j.shared.swAveraging = "daylight"
  wholeDay : j'.shared.swAveraging ≠ "daylight"
  estimates : SameEstimates j.shared j'.shared
  steps : SameSteps j.shared j'.shared
  days : j.n = j'.n
  doy : ∀ k < j.n, doy (j.d0 + k) = doy (j'.d0 + k)
  elev : (j.inp c).elev = (j'.inp c').elev
  lat : (j.inp c).lat = (j'.inp c').lat
  lon : (j.inp c).lon = (j'.inp c').lon
  state : (j.inp c).data.stateEnd = (j'.inp c').data.stateEnd
  frame : ∀ name ≠ "shortwave", Dict.get? (j.inp c).data.frame name = Dict.get? (j'.inp c').data.frame name
  given : Dict.get? (j.inp c).data.frame "shortwave" = some a
  given' : Dict.get? (j'.inp c').data.frame "shortwave" = some b
  mean : ∀ elev lat geom g k, (j.inp c).elev = fin elev → (j.inp c).lat = fin lat →
    Solar.solarGeom elev lat j.shared.lapseRate = .ok geom → k < j.n → geom[Cell.doy (j.d0 + k) - 1]? = some g →
    b k = a k * fin g.daylength / fin 86400

section pair

variable {j j' : Job} {c c' : Run.Cell} {a b : Col}

theorem Restated.doys (h : Restated j j' c c' a b) (hj : j.Sane) (hj' : j'.Sane) :
    (j.inp c).data.days.map Cell.doy = (j'.inp c').data.days.map Cell.doy := by
  rw [hj.data c, hj'.data c', ← h.days]
  simp only [consecutive, List.map_map]
  exact List.map_congr_left fun k hk => h.doy k (List.mem_range.1 hk)

variable {fuel fuel' : Nat} {elev lat lon : ℝ}

/-- The length of a day in the frame is that of the geometry. -/
theorem base_light (hj : j.Sane) (q : Cell.Common fuel j.shared elev lat lon (j.inp c).data) :
    ∃ l, Dict.get? q.base "daylength" = some l ∧ ∀ k < j.n, ∃ g, q.geom[Cell.doy (j.d0 + k) - 1]? = some g ∧ l k = fin g.daylength := by
  have hb : Dict.get? q.base "daylength" = some (colOf (q.rows.map fun g => fin g.daylength)) := by
    rw [runMethod_keeps q.h_base (by decide)]
    unfold withGeom
    simp (decide := true) only [Dict.get?_set, if_true, if_false]
  refine ⟨_, hb, fun k hk => ?_⟩
  obtain ⟨e1, e2⟩ := mapM_getElem q.h_rows
  have hl : (j.inp c).data.days.length = j.n := by rw [hj.data c, length_consecutive]
  have hk' : k < q.rows.length := by rw [e1, hl]; exact hk
  rw [colOf_rows hk']
  have hday : (j.inp c).data.days[k]? = some (j.d0 + k) := by
    rw [hj.data c]
    unfold consecutive
    rw [List.getElem?_map, List.getElem?_range hk]
    rfl
  have e := e2 k _ _ hday (List.getElem?_eq_getElem hk')
  cases hg : q.geom[Cell.doy (j.d0 + k) - 1]? with
  | none => rw [hg] at e; cases e
  | some g =>
    rw [hg] at e
    exact ⟨g, rfl, by rw [← Except.ok.inj e]⟩

theorem restated_core (h : Restated j j' c c' a b) (hj : j.Sane) (hj' : j'.Sane) (he : (j.inp c).elev = fin elev)
    (hla : (j.inp c).lat = fin lat) (q : Cell.Common fuel j.shared elev lat lon (j.inp c).data)
    (q' : Cell.Common fuel' j'.shared elev lat lon (j'.inp c').data) {daily daily' : Disaggregate.Daily}
    (hd : dailyOf (j.inp c).data.days q.base = .ok daily) (hd' : dailyOf (j'.inp c').data.days q'.base = .ok daily') :
    q.geom = q'.geom ∧ SameDays daily daily' ∧
      List.zipWith (· * ·) daily.shortwave (daylengthOf daily (j.shared.sub elev lon)) =
        List.zipWith (· * ·) daily'.shortwave (daylengthOf daily' (j'.shared.sub elev lon)) ∧
      ((Dict.get? (j.inp c).data.frame "vapor_pressure" ≠ none ∨ Dict.get? (j.inp c).data.frame "tdew" ≠ none) →
        daily.vaporPressure = daily'.vaporPressure) := by
  have hdoy := h.doys hj hj'
  have hlen : (j.inp c).data.days.length = (j'.inp c').data.days.length := by simpa using congrArg List.length hdoy
  have hn : (j.inp c).data.days.length = j.n := by rw [hj.data c, length_consecutive]
  have hg : q.geom = q'.geom := by
    have := q'.h_geom
    rw [← h.steps.lapseRate] at this
    exact Except.ok.inj (q.h_geom.symm.trans this)
  have hr : q.rows = q'.rows := by
    have := q'.h_rows
    rw [← hg, ← geomRows_doy hdoy] at this
    exact Except.ok.inj (q.h_rows.symm.trans this)
  have kept : ∀ name ∈ ["t_min", "t_max", "prec", "wind", "longwave", "t_pk", "dur"], Dict.get? q.base name = Dict.get? q'.base name := by
    intro name hn
    have n1 : name ∉ ["t_day", "tfmax", "tskc", "seasonal_prec", "tdew", "vapor_pressure", "shortwave", "pet"] := by
      revert name; decide
    have n2 : name ∉ ["daylength", "potrad", "tt_max"] := by
      revert name; decide
    have n3 : name ≠ "shortwave" := by
      revert name; decide
    rw [base_keeps q n1 n2, base_keeps q' n1 n2, h.frame name n3]
  obtain ⟨l, hl, hlight⟩ := base_light hj q
  have hl' : Dict.get? q'.base "daylength" = some l := by
    rw [← hl, runMethod_keeps q.h_base (by decide), runMethod_keeps q'.h_base (by decide), ← hr]
    unfold withGeom
    simp only
    rw [Dict.get?_set_ne _ _ (by decide), Dict.get?_set_ne _ _ (by decide), Dict.get?_set_self,
      Dict.get?_set_ne _ _ (by decide), Dict.get?_set_ne _ _ (by decide), Dict.get?_set_self]
  have run1 := q.h_base
  have run2 := q'.h_base
  rw [h.method] at run1
  rw [h.method'] at run2
  have hcloud : Dict.get? q.base "tskc" = Dict.get? q'.base "tskc" := by
    refine passthrough_apart (l := ["tskc", "tfmax", "dtr", "smoothed_dtr", "prec"]) (fun k hk => ?_) run1 run2 (Or.inl (by decide))
      (Or.inr ⟨by decide, by decide, by decide, by decide, h.estimates.swPrecThresh, h.estimates.rainScalar⟩)
      (Or.inr ⟨by decide, by decide, h.estimates.lwCloud⟩) (Or.inl (by decide)) (by decide) (by decide) _ (by decide)
    have n2 : k ∉ ["daylength", "potrad", "tt_max"] := by
      revert k; decide
    rw [withGeom_keeps _ _ n2, withGeom_keeps _ _ n2]
    exact h.frame k (by revert k; decide)
  obtain ⟨p1, p2, p3, p4, p5, p6, p7, p8, p9, p10, p11, p12⟩ := dailyOf_ok hd
  obtain ⟨r1, r2, r3, r4, r5, r6, r7, r8, r9, r10, r11, r12⟩ := dailyOf_ok hd'
  rw [← hlen] at r2 r3 r4 r5 r6 r7 r8 r9 r10 r11 r12
  have opt : ∀ name ∈ ["wind", "longwave", "t_pk", "dur"],
      column? (j.inp c).data.days.length q.base name = column? (j.inp c).data.days.length q'.base name := by
    intro name hn
    unfold Cell.column?
    rw [kept name (by revert name; decide)]
  refine ⟨hg, ⟨by rw [p1, r1, hdoy], column_same p4 r4 (kept _ (by decide)), column_same p5 r5 (kept _ (by decide)),
    column_same p7 r7 hcloud, column_same p8 r8 (kept _ (by decide)), by rw [p9, r9, opt _ (by decide)],
    by rw [p10, r10, opt _ (by decide)], by rw [p11, r11, opt _ (by decide)], by rw [p12, r12, opt _ (by decide)]⟩, ?_, ?_⟩
  · obtain ⟨a', g1, e1⟩ := Cell.column_ok.1 p2
    obtain ⟨l1, g2, e2⟩ := Cell.column_ok.1 p3
    obtain ⟨b', g3, e3⟩ := Cell.column_ok.1 r2
    obtain ⟨l2, g4, e4⟩ := Cell.column_ok.1 r3
    rw [passed_base q h.method h.given (by decide) (by decide)] at g1
    rw [hl] at g2
    rw [passed_base q' h.method' h.given' (by decide) (by decide)] at g3
    rw [hl'] at g4
    cases g1
    cases g2
    cases g3
    cases g4
    have z : ∀ (f g : Col) (n : Nat), List.zipWith (· * ·) ((List.range n).map f) ((List.range n).map g) = (List.range n).map fun k => f k * g k :=
      fun f g n => by rw [List.zipWith_map, List.zipWith_self]
    have f1 : daylengthOf daily (j.shared.sub elev lon) = (List.range (j.inp c).data.days.length).map l := by
      unfold daylengthOf Shared.sub
      simp [h.method, h.daylight, e2]
    have f2 : daylengthOf daily' (j'.shared.sub elev lon) = (List.range (j.inp c).data.days.length).map fun _ => fin 86400 := by
      have hw := h.wholeDay
      unfold daylengthOf Shared.sub
      simp only [h.method', e4, decide_true, Bool.true_and, bne_iff_ne, ne_eq, hw, not_false_eq_true, if_true, List.map_map]
      rfl
    rw [f1, f2, e1, e3, z, z]
    refine List.map_congr_left fun k hk => ?_
    have hk := List.mem_range.1 hk
    rw [hn] at hk
    obtain ⟨g, i1, i2⟩ := hlight k hk
    rw [h.mean elev lat q.geom g k he hla q.h_geom hk i1, i2, mean_energy']
  · intro hv
    refine column_same p6 r6 ?_
    cases hx : Dict.get? (j.inp c).data.frame "vapor_pressure" with
    | some col =>
      have hx' := hx
      rw [h.frame _ (by decide)] at hx'
      rw [passed_base q h.method hx (by decide) (by decide), passed_base q' h.method' hx' (by decide) (by decide)]
    | none =>
      rw [hx] at hv
      obtain ⟨dew, hy⟩ := Option.ne_none_iff_exists'.1 (hv.resolve_left fun e => e rfl)
      have hx' := hx
      rw [h.frame _ (by decide)] at hx'
      have hy' := hy
      rw [h.frame _ (by decide)] at hy'
      obtain ⟨-, -, -, -, -, k6⟩ := C42_added _ _ _ run1
      obtain ⟨-, -, -, -, -, m6⟩ := C42_added _ _ _ run2
      obtain ⟨d1, v1, i1, i2, i3⟩ := k6 (by rw [withGeom_keeps _ _ (by decide)]; exact hx)
      obtain ⟨d2, v2, j1, j2, j3⟩ := m6 (by rw [withGeom_keeps _ _ (by decide)]; exact hx')
      rw [passed_base q h.method hy (by decide) (by decide)] at i1
      rw [passed_base q' h.method' hy' (by decide) (by decide)] at j1
      cases i1
      cases j1
      rw [i2, j2]
      congr 1
      funext i
      rw [i3, j3]

end pair

/-- **C125**: two runs of `passthrough` with a step shorter than a day that state the same radiation in the two ways write the same
radiation, temperature, air pressure, cloud cover, precipitation and wind; if vapour pressure or dewpoint are given, they write the same
in all. -/
theorem C125_restated_partial (j j' : Job) (hj : j.Sane) (hj' : j'.Sane) (c c' : Run.Cell) (a b : Col) (h : Restated j j' c c' a b)
    (hsub : j.shared.ts < 1440) (fuel fuel' : Nat) (order order' : List (Dict String Chunk.Slice)) (ho : j.Schedule order)
    (ho' : j'.Schedule order') (files files' : Run.Files Output) (hrun : j.run fuel order = .ok files)
    (hrun' : j'.run fuel' order' = .ok files') (hc : j.Computed c) (hc' : j'.Computed c') (v u : String)
    (hv : v ∈ ["shortwave", "temp", "air_pressure", "tskc", "prec", "wind"] ∨
      Dict.get? (j.inp c).data.frame "vapor_pressure" ≠ none ∨ Dict.get? (j.inp c).data.frame "tdew" ≠ none)
    (hu : j.shared.outVars.get? v = some u) (hu' : j'.shared.outVars.get? v = some u)
    (val val' : ℚ → Flt ℝ) (hval : Recorded j files v c val) (hval' : Recorded j' files' v c' val')
    (k i : Nat) (hk : k < j.n) (hi : i < 1440 / j.shared.ts) : val (j.stamp k i) = val' (j'.stamp k i) := by
  have place : ∀ {x y : ℝ} {a b : Flt ℝ}, a = b → a = fin x → b = fin y → x = y := fun e e1 e2 => Flt.fin.inj (e1.symm.trans (e.trans e2))
  have hts := h.steps.ts
  obtain ⟨elev, lat, lon, h1, h2, h3, q, daily, sub, hd, hsu, hcol⟩ := written_sub j hj ho hrun hsub hc
  obtain ⟨elev', lat', lon', h1', h2', h3', q', daily', sub', hd', hsu', hcol'⟩ := written_sub j' hj' ho' hrun' (hts ▸ hsub) hc'
  obtain rfl := place h.elev h1 h1'
  obtain rfl := place h.lat h2 h2'
  obtain rfl := place h.lon h3 h3'
  obtain ⟨eg, hdays, hprod, hvap⟩ := restated_core h hj hj' h1 h2 q q' hd hd'
  rw [← eg, ← h.state] at hsu'
  obtain ⟨col, w, a1, a2, a3⟩ := hcol v u hu
  obtain ⟨col', w', a1', a2', a3'⟩ := hcol' v u hu'
  have hcc : col = col' := by
    have := subColumn_products h.steps hdays hprod (v := v) (hv.symm.imp hvap id) hsu hsu'
    rw [a1, a1'] at this
    exact Except.ok.inj this
  subst hcc
  have b1 := a3 k hk i hi
  have b2 := a3' k (h.days ▸ hk) i (hts ▸ hi)
  rw [recorded_unique j hj a2 hval hk hi] at b1
  rw [recorded_unique j' hj' a2' hval' (h.days ▸ hk) (hts ▸ hi), ← hts, b1] at b2
  exact Except.ok.inj b2

/-! ### Evaporation -/

theorem calcPet_scale (r ta dl pa : Flt ℝ) (y : ℝ) : calcPet (r * fin y) ta dl pa = calcPet r ta dl pa * fin y := by
  unfold calcPet
  simp only
  generalize fin 2.5023e6 - fin 2430.54 * ta = L
  generalize (svp (ta + fin 0.2) - svp (ta - fin 0.2)) / (ta + fin 0.2 - (ta - fin 0.2)) = s
  generalize s / (s + fin Cnst.CP * pa / (L * fin Cnst.EPS)) = w
  cases r with
  | nan => simp
  | fin r =>
    cases w with
    | nan => simp
    | fin w =>
      cases dl with
      | nan => simp
      | fin dl =>
        cases L with
        | nan => simp
        | fin L =>
          by_cases hL : L = 0
          · subst hL; simp
          · simp only [mul_fin, div_fin_ne hL, div_fin_ne (show (10 : ℝ) ≠ 0 by norm_num)]
            congr 1
            ring

/-- The daily mean radiation is taken for a mean over daylight. -/
theorem evaporation_core {j j' : Job} {c c' : Run.Cell} {a b : Col} (h : Restated j j' c c' a b) (hj : j.Sane) (hj' : j'.Sane)
    {fuel fuel' : Nat} {elev lat lon : ℝ} (he : (j.inp c).elev = fin elev) (hla : (j.inp c).lat = fin lat)
    (hp : Dict.get? (j.inp c).data.frame "pet" = none)
    (q : Cell.Common fuel j.shared elev lat lon (j.inp c).data) (q' : Cell.Common fuel' j'.shared elev lat lon (j'.inp c').data) :
    q.geom = q'.geom ∧ ∃ e e', Dict.get? q.base "pet" = some e ∧ Dict.get? q'.base "pet" = some e' ∧
      ∀ k g, k < j.n → q.geom[Cell.doy (j.d0 + k) - 1]? = some g → e' k = e k * fin (g.daylength / 86400) := by
  have hdoy := h.doys hj hj'
  have hg : q.geom = q'.geom := by
    have := q'.h_geom
    rw [← h.steps.lapseRate] at this
    exact Except.ok.inj (q.h_geom.symm.trans this)
  have hr : q.rows = q'.rows := by
    have := q'.h_rows
    rw [← hg, ← geomRows_doy hdoy] at this
    exact Except.ok.inj (q.h_rows.symm.trans this)
  have run1 := q.h_base
  have run2 := q'.h_base
  rw [h.method] at run1
  rw [h.method'] at run2
  have hp' := hp
  rw [h.frame _ (by decide)] at hp'
  obtain ⟨-, -, -, k4, -⟩ := C42_added _ _ _ run1
  obtain ⟨-, -, -, m4, -⟩ := C42_added _ _ _ run2
  obtain ⟨s1, t1, l1, e1, i1, i2, i3, i4, i5⟩ := k4 (by rw [withGeom_keeps _ _ (by decide)]; exact hp)
  obtain ⟨s2, t2, l2, e2, j1, j2, j3, j4, j5⟩ := m4 (by rw [withGeom_keeps _ _ (by decide)]; exact hp')
  rw [passed_base q h.method h.given (by decide) (by decide)] at i1
  rw [passed_base q' h.method' h.given' (by decide) (by decide)] at j1
  cases i1
  cases j1
  have hday : Dict.get? q.base "t_day" = Dict.get? q'.base "t_day" := by
    refine passthrough_apart (l := ["t_day", "t_min", "t_max"]) (fun k hk => ?_) run1 run2
      (Or.inr ⟨by decide, by decide, by decide, h.estimates.tdayCoef⟩) (Or.inl (by decide)) (Or.inl (by decide)) (Or.inl (by decide))
      (by decide) (by decide) _ (by decide)
    have n2 : k ∉ ["daylength", "potrad", "tt_max"] := by
      revert k; decide
    rw [withGeom_keeps _ _ n2, withGeom_keeps _ _ n2]
    exact h.frame k (by revert k; decide)
  rw [hday, j2] at i2
  cases i2
  obtain ⟨l, hl, hlight⟩ := base_light hj q
  have hl' : Dict.get? q'.base "daylength" = some l := by
    rw [← hl, runMethod_keeps q.h_base (by decide), runMethod_keeps q'.h_base (by decide), ← hr]
    unfold withGeom
    simp only
    rw [Dict.get?_set_ne _ _ (by decide), Dict.get?_set_ne _ _ (by decide), Dict.get?_set_self,
      Dict.get?_set_ne _ _ (by decide), Dict.get?_set_ne _ _ (by decide), Dict.get?_set_self]
  rw [hl] at i3
  rw [hl'] at j3
  cases i3
  cases j3
  refine ⟨hg, e1, e2, i4, j4, fun k g hk hgk => ?_⟩
  unfold pet at i5 j5
  simp only [bind_ok, pure_ok] at i5 j5
  obtain ⟨pa, y1, rfl⟩ := i5
  obtain ⟨pa', y2, rfl⟩ := j5
  have hpa : pa = pa' := by
    have : atmPres (j.shared.daily elev).elev (j.shared.daily elev).lapseRate =
        atmPres (j'.shared.daily elev).elev (j'.shared.daily elev).lapseRate := by
      unfold Shared.daily
      rw [h.estimates.lapseRate]
    rw [y1, y2] at this
    exact Except.ok.inj this
  subst hpa
  obtain ⟨g', i1, i2⟩ := hlight k hk
  rw [hgk] at i1
  cases i1
  show calcPet (b k) _ _ _ * _ = calcPet (a k) _ _ _ * _ * _
  have hb : b k = a k * fin (g.daylength / 86400) := by
    rw [h.mean elev lat q.geom g k he hla q.h_geom hk hgk]
    cases a k with
    | nan => rfl
    | fin x =>
      rw [mul_fin, mul_fin, div_fin_ne (show (86400 : ℝ) ≠ 0 by norm_num)]
      congr 1
      ring
  rw [hb, calcPet_scale]
  cases calcPet (a k) (t1 k) (l1 k) pa with
  | nan => rfl
  | fin x =>
    simp only [mul_fin]
    congr 1
    ring

/-- **C125**: with daily means of the radiation, `passthrough` estimates too little evaporation: the estimate is that of the mean over
daylight times the share of daylight in the day. -/
theorem C125_evaporation (j j' : Job) (hj : j.Sane) (hj' : j'.Sane) (c c' : Run.Cell) (a b : Col) (h : Restated j j' c c' a b)
    (hday : j.shared.ts = 1440) (fuel fuel' : Nat) (order order' : List (Dict String Chunk.Slice)) (ho : j.Schedule order)
    (ho' : j'.Schedule order') (files files' : Run.Files Output) (hrun : j.run fuel order = .ok files)
    (hrun' : j'.run fuel' order' = .ok files') (hc : j.Computed c) (hc' : j'.Computed c')
    (hp : Dict.get? (j.inp c).data.frame "pet" = none) (u u' : String) (hu : j.shared.outVars.get? "pet" = some u)
    (hu' : j'.shared.outVars.get? "pet" = some u') (elev lat : ℝ) (he : (j.inp c).elev = fin elev) (hla : (j.inp c).lat = fin lat)
    (geom : List Solar.DayGeom) (hg : Solar.solarGeom elev lat j.shared.lapseRate = .ok geom) (k : Nat) (hk : k < j.n) (g : Solar.DayGeom)
    (hgk : geom[Cell.doy (j.d0 + k) - 1]? = some g) (E : ℝ) (hE : Reads j files c "pet" k 0 E) :
    Reads j' files' c' "pet" k 0 (E * (g.daylength / 86400)) := by
  have place : ∀ {x y : ℝ} {a b : Flt ℝ}, a = b → a = fin x → b = fin y → x = y := fun e e1 e2 => Flt.fin.inj (e1.symm.trans (e.trans e2))
  have hts := h.steps.ts
  obtain ⟨elev₁, lat₁, lon, h1, h2, h3, q, rep, hr, hread⟩ := readout_daily j hj ho hrun hday hc
  obtain ⟨elev', lat', lon', h1', h2', h3', q', rep', hr', hread'⟩ := readout_daily j' hj' ho' hrun' (hts ▸ hday) hc'
  obtain rfl := place rfl he h1
  obtain rfl := place rfl hla h2
  obtain rfl := place h.elev he h1'
  obtain rfl := place h.lat hla h2'
  obtain rfl := place h.lon h3 h3'
  obtain ⟨-, e, e', i1, i2, i3⟩ := evaporation_core h hj hj' he hla hp q q'
  obtain rfl := Except.ok.inj (hg.symm.trans q.h_geom)
  obtain ⟨-, -, -, -, -, -, -, keep⟩ := daily_ok hr
  obtain ⟨-, -, -, -, -, -, -, keep'⟩ := daily_ok hr'
  obtain ⟨col, a1, a2⟩ := hread "pet" u "mm timestep-1" .waterFlux hu (by decide) rfl (by simp)
  obtain ⟨col', b1, b2⟩ := hread' "pet" u' "mm timestep-1" .waterFlux hu' (by decide) rfl (by simp)
  rw [keep _ (by decide), i1] at a1
  rw [keep' _ (by decide), i2] at b1
  cases a1
  cases b1
  obtain ⟨x, x1, x2⟩ := (a2 k hk).2 E hE
  refine (b2 k (h.days ▸ hk)).1 (x * (g.daylength / 86400)) _ (by rw [i3 k g hk hgk, x1, mul_fin]) ?_
  rw [← hts]
  simp only [Spec.si, Option.some.injEq, Prod.mk.injEq, true_and] at x2 ⊢
  rw [← x2]
  ring

/-! ### Such runs -/

/-- **C125**, in full: runs that state the same radiation in the two ways write the same files. -/
def C125_full : Prop :=
  ∀ (j j' : Job), j.Sane → j'.Sane → ∀ (c c' : Run.Cell) (a b : Col), Restated j j' c c' a b →
    ∀ (fuel fuel' : Nat) (order order' : List (Dict String Chunk.Slice)), j.Schedule order → j'.Schedule order' →
    ∀ files files', j.run fuel order = .ok files → j'.run fuel' order' = .ok files' → j.Computed c → j'.Computed c' →
    ∀ v u, v ≠ "shortwave" → j.shared.outVars.get? v = some u → j'.shared.outVars.get? v = some u →
    ∀ k i, k < j.n → i < 1440 / j.shared.ts → ∀ x, Reads j files c v k i x → Reads j' files' c' v k i x

/-- Two days of `passthrough` in daily steps; the radiation and how it is meant are left open. -/
noncomputable def stated (m : String) (sw : Col) : Job :=
  { demo .passthrough with
    shared := { (demo .passthrough).shared with ts := 1440, swAveraging := m, outVars := [("pet", "mm s-1")] }
    inp := fun _ => ⟨fin 100, fin 45, fin (-120), ⟨consecutive 0 2,
      [("t_min", fun _ => fin 5), ("t_max", fun _ => fin 15), ("prec", fun _ => fin 24), ("dtr", fun _ => fin 10),
       ("smoothed_dtr", fun _ => fin 10), ("seasonal_prec", fun _ => fin 800), ("shortwave", sw)], (fin 4, fin 14)⟩⟩ }

theorem stated_sane (m : String) (sw : Col) : (stated m sw).Sane where
  step := ⟨by show 0 < 1440; decide, dvd_refl _⟩
  pos := (demo_sane .passthrough).pos
  calendar := regular_standard _ _
  data := fun _ => rfl
  freq := (demo_sane .passthrough).freq
  years := yearly_sane.years
  vars := by show (Dict.keys [("pet", "mm s-1")]).Nodup; decide
  names := by show ((Dict.keys [("pet", "mm s-1")]).map id).Nodup; decide
  dims := (demo_sane .passthrough).dims
  dims_pos := (demo_sane .passthrough).dims_pos
  chunks := (demo_sane .passthrough).chunks
  chunks_pos := (demo_sane .passthrough).chunks_pos
  same := (demo_sane .passthrough).same

theorem stated_complete (m : String) (sw : Col) (c : Run.Cell) : CompleteCell (stated m sw).shared 2 ((stated m sw).inp c) where
  place := (demo_complete .passthrough c).place
  lapse := (demo_complete .passthrough c).lapse
  columns := by
    intro k hk
    simp only [List.mem_cons, List.not_mem_nil, or_false] at hk
    rcases hk with rfl | rfl | rfl | rfl | rfl | rfl <;> simp [stated, Dict.get?_cons]
  radiation := fun _ => by simp [stated, Dict.get?_cons]
  tMin := fun col h i _ => by
    simp (decide := true) only [stated, Dict.get?_cons, if_true, if_false, Option.some.injEq] at h
    subst h; exact ⟨5, rfl⟩
  tMax := fun col h i _ => by
    simp (decide := true) only [stated, Dict.get?_cons, if_true, if_false, Option.some.injEq] at h
    subst h; exact ⟨15, rfl⟩
  state := ⟨4, 14, rfl⟩
  fraction := (demo_complete .passthrough c).fraction
  lwType := (demo_complete .passthrough c).lwType
  lwCloud := (demo_complete .passthrough c).lwCloud
  storm := (demo_complete .passthrough c).storm

theorem stated_runs (m : String) (sw : Col) :
    ∃ files, (stated m sw).run 0 [[("lat", none), ("lon", none)]] = .ok files :=
  (C71_run (stated m sw) (stated_sane _ _) 0 [[("lat", none), ("lon", none)]]
    ⟨_, rfl, List.Perm.refl _⟩ (fun c _ => stated_complete _ _ c) (fun h => by cases h)).2
    (fun c _ q hq => by
      have hq : q ∈ [("pet", "mm s-1")] := hq
      unfold Offers
      rw [if_neg (show ¬ ((stated m sw).shared.ts < 1440) from lt_irrefl 1440)]
      simp only [List.mem_cons, List.not_mem_nil, or_false] at hq
      subst hq
      exact ⟨Or.inl (by decide), _, _, rfl, rfl⟩)

/-- On the first of January daylight is shorter than the day. -/
theorem january {elev lat lr : ℝ} {geom : List Solar.DayGeom} (h : Solar.solarGeom elev lat lr = .ok geom) (h0 : 0 < lat) (h1 : lat ≤ 60) :
    ∃ g, geom[0]? = some g ∧ 0 < g.daylength ∧ g.daylength < (43200.0001 : ℝ) := by
  unfold Solar.solarGeom at h
  simp only [bind_ok, pure_ok] at h
  obtain ⟨tr, -, ds, hds, rfl⟩ := h
  obtain ⟨e1, e2⟩ := mapM_getElem hds
  rw [List.length_range] at e1
  have hl : 0 < ds.length := by omega
  have hd := e2 0 0 ds[0] (by simp) (List.getElem?_eq_getElem hl)
  refine ⟨ds[0], by rw [List.getElem?_append_left hl, List.getElem?_eq_getElem hl], ?_,
    (C66_seasons tr lat 0 _ h0 (by linarith) hd).1 (Or.inl (by decide))⟩
  rw [daylength_eq hd]
  have := hss_mid (lat := lat) (by rw [abs_of_pos h0]; exact h1) 0
  exact lt_min (by linarith) (by norm_num)

theorem evaporation_pos {rad t secs pa : ℝ} (hr : 0 < rad) (hs : 0 < secs) (hpa : 0 < pa) (h1 : -115 ≤ t) (h2 : t ≤ 1000) :
    0 < Spec.evaporation rad t secs pa := by
  have hl : (0 : ℝ) < 2502300 - 2430.54 * t := by norm_num; linarith
  have hs' := slope_pos (ta := t) (by linarith)
  rw [show t + 0.2 - (t - 0.2) = (0.4 : ℝ) by ring] at hs'
  unfold Spec.evaporation
  simp only [saturation_eq]
  generalize (svpR (t + 0.2) - svpR (t - 0.2)) / 0.4 = s at *
  have hg : 0 < 1010 * pa / (0.62196351 * (2502300 - 2430.54 * t)) := by positivity
  generalize 1010 * pa / (0.62196351 * (2502300 - 2430.54 * t)) = g at *
  exact div_pos (mul_pos (mul_pos (by norm_num) (div_pos hs' (by linarith))) (mul_pos (mul_pos (by norm_num) hr) hs)) hl

theorem stated_computed (m : String) (sw : Col) : (stated m sw).Computed [0, 0] :=
  ⟨by show _ ∈ gridCells [("lat", 1), ("lon", 2)]; decide, 1, rfl, one_pos⟩

/-- The two statements of one radiation, in runs that end, and what the first writes. -/
theorem stated_pair : ∃ (b : Col) (files files' : Run.Files Output) (geom : List Solar.DayGeom) (g : Solar.DayGeom) (E : ℝ),
    (stated "daylight" fun _ => fin 200).run 0 [[("lat", none), ("lon", none)]] = .ok files ∧
    (stated "" b).run 0 [[("lat", none), ("lon", none)]] = .ok files' ∧
    Restated (stated "daylight" fun _ => fin 200) (stated "" b) [0, 0] [0, 0] (fun _ => fin 200) b ∧
    Solar.solarGeom 100 45 (stated "daylight" fun _ => fin 200).shared.lapseRate = .ok geom ∧
    geom[Cell.doy (0 + (0 : Nat)) - 1]? = some g ∧ 0 < g.daylength ∧ g.daylength < (43200.0001 : ℝ) ∧ 0 < E ∧
    Reads (stated "daylight" fun _ => fin 200) files [0, 0] "pet" 0 0 E := by
  obtain ⟨files, hrun⟩ := stated_runs "daylight" fun _ => fin 200
  have hs := stated_sane "daylight" fun _ => fin 200
  have hc := stated_computed "daylight" fun _ => fin 200
  obtain ⟨elev, lat, lon, h1, h2, h3, q, rep, hr, hread⟩ := readout_daily _ hs ⟨_, rfl, List.Perm.refl _⟩ hrun rfl hc
  obtain rfl : (100 : ℝ) = elev := Flt.fin.inj h1
  obtain rfl : (45 : ℝ) = lat := Flt.fin.inj h2
  obtain ⟨l, hl, hlight⟩ := base_light hs q
  obtain ⟨files', hrun'⟩ := stated_runs "" fun k => fin 200 * l k / fin 86400
  obtain ⟨g, hg, hg0, hg1⟩ := january q.h_geom (by norm_num) (by norm_num)
  have hdoy : Cell.doy (0 + (0 : Nat)) - 1 = 0 := by decide +kernel
  have run1 : passthroughRun (withGeom q.rows ((stated "daylight" fun _ => fin 200).inp [0, 0]).data.frame)
      ((stated "daylight" fun _ => fin 200).shared.daily 100) = .ok q.base := q.h_base
  obtain ⟨k1, -, -, k4, -⟩ := C42_added _ _ _ run1
  obtain ⟨tn, tx, td, i1, i2, i3, i4⟩ := k1 (by rw [withGeom_keeps _ _ (by decide)]; rfl)
  obtain ⟨sw, td', l', e, j1, j2, j3, j4, j5⟩ := k4 (by rw [withGeom_keeps _ _ (by decide)]; rfl)
  rw [i3] at j2
  cases j2
  rw [hl] at j3
  cases j3
  rw [passed_base q rfl (col := fun _ => fin 200) rfl (by decide) (by decide)] at j1
  cases j1
  rw [base_keeps q (by decide) (by decide)] at i1 i2
  obtain rfl : (fun _ => fin 5 : Col) = tn := Option.some.inj i1
  obtain rfl : (fun _ => fin 15 : Col) = tx := Option.some.inj i2
  have hlr : (stated "daylight" fun _ => fin 200).shared.lapseRate = 0.0065 := rfl
  obtain ⟨out, o1, o2⟩ := C40_pet_value ((stated "daylight" fun _ => fin 200).shared.daily 100) 100 rfl
    (by show (0 : ℝ) < 0.0065; norm_num) (by show (0.0065 : ℝ) * 100 < 288.15; norm_num) (fun _ => fin 200) td l
  rw [j5] at o1
  obtain rfl := Except.ok.inj o1
  obtain ⟨g', y1, y2⟩ := hlight 0 (by show 0 < 2; decide)
  rw [show (stated "daylight" fun _ => fin 200).d0 = 0 from rfl, hdoy, hg] at y1
  cases y1
  have htd : td 0 = fin 12.25 := by
    rw [i4]
    show tDay (fin 5) (fin 15) _ = _
    rw [C36_value]
    congr 1
    show (5 + 15) / 2 + (0.45 : ℝ) * (15 - (5 + 15) / 2) = 12.25
    norm_num
  have he := o2 0 200 12.25 g.daylength rfl htd y2 (by norm_num) (by norm_num)
  obtain ⟨col, a1, a2⟩ := hread "pet" "mm s-1" "mm timestep-1" .waterFlux rfl (by decide) rfl (by simp)
  obtain ⟨-, -, -, -, -, -, -, keep⟩ := daily_ok hr
  rw [keep _ (by decide), j4] at a1
  cases a1
  have hb : 0 < Spec.barometric 100 ((stated "daylight" fun _ => fin 200).shared.daily 100).lapseRate := by
    show 0 < Spec.barometric 100 0.0065
    obtain ⟨x, x1, x2, -⟩ := C40_atm_pres 100 0.0065 (by norm_num) (by norm_num)
    rw [C40_atm_pres_value 100 0.0065 (by norm_num) (by norm_num)] at x1
    rw [Flt.fin.inj (Except.ok.inj x1)]
    exact x2
  refine ⟨_, files, files', q.geom, g, _, hrun, hrun', ?_, q.h_geom, by rw [hdoy]; exact hg, hg0, hg1, ?_,
    (a2 0 (by show 0 < 2; decide)).1 _ _ he rfl⟩
  · refine ⟨rfl, rfl, rfl, by show "" ≠ "daylight"; decide, ⟨rfl, rfl, rfl, rfl, rfl, rfl⟩, ⟨rfl, rfl, rfl, rfl, rfl, rfl, rfl, rfl⟩, rfl,
      fun _ _ => rfl, rfl, rfl, rfl, rfl, fun name hne => ?_, rfl, rfl, ?_⟩
    · show Dict.get? [("t_min", fun _ => fin 5), ("t_max", fun _ => fin 15), ("prec", fun _ => fin 24), ("dtr", fun _ => fin 10),
        ("smoothed_dtr", fun _ => fin 10), ("seasonal_prec", fun _ => fin 800), ("shortwave", fun _ => fin 200)] name =
        Dict.get? [("t_min", fun _ => fin 5), ("t_max", fun _ => fin 15), ("prec", fun _ => fin 24), ("dtr", fun _ => fin 10),
        ("smoothed_dtr", fun _ => fin 10), ("seasonal_prec", fun _ => fin 800), ("shortwave", fun k => fin 200 * l k / fin 86400)] name
      simp only [Dict.get?_cons, if_neg (Ne.symm hne)]
    · intro elev lat geom g k e1 e2 e3 hk e4
      obtain rfl : (100 : ℝ) = elev := Flt.fin.inj e1
      obtain rfl : (45 : ℝ) = lat := Flt.fin.inj e2
      obtain rfl := Except.ok.inj (q.h_geom.symm.trans e3)
      obtain ⟨g', z1, z2⟩ := hlight k hk
      rw [z1] at e4
      cases e4
      show fin 200 * l k / fin 86400 = _
      rw [z2]
  · exact div_pos (evaporation_pos (by norm_num) hg0 hb (by norm_num) (by norm_num)) (by show (0 : ℝ) < ((1440 : ℕ) : ℝ) * 60; norm_num)

/-- **C125**: `passthrough` estimates evaporation, and with it the dewpoint it is not given, from a mean over the day as if it were one over
daylight. -/
theorem C125_refuted : ¬ C125_full := by
  intro hfull
  obtain ⟨b, files, files', geom, g, E, hrun, hrun', hres, hgeom, hg, hg0, hg1, hE, hread⟩ := stated_pair
  have hn : 0 < (stated "daylight" fun _ => fin 200).n := by show 0 < 2; decide
  have h1 := hfull _ _ (stated_sane _ _) (stated_sane _ _) _ _ _ _ hres 0 0 _ _ ⟨_, rfl, List.Perm.refl _⟩ ⟨_, rfl, List.Perm.refl _⟩ _ _
    hrun hrun' (stated_computed _ _) (stated_computed _ _) "pet" "mm s-1" (by decide) rfl rfl 0 0 hn (by show 0 < 1440 / 1440; decide) E hread
  have h2 := C125_evaporation _ _ (stated_sane _ _) (stated_sane _ _) _ _ _ _ hres rfl 0 0 _ _ ⟨_, rfl, List.Perm.refl _⟩
    ⟨_, rfl, List.Perm.refl _⟩ _ _ hrun hrun' (stated_computed _ _) (stated_computed _ _) rfl _ _ rfl rfl 100 45 rfl rfl geom hgeom 0 hn g hg
    E hread
  have := reads_unique (stated_sane _ _) (show 0 < 2 by decide) (show 0 < 1440 / 1440 by decide) h1 h2
  have hlt : g.daylength / 86400 < 1 := by rw [div_lt_one (by norm_num)]; linarith
  nlinarith

end Verif.Props
