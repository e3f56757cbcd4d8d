import Verif.Lemmas.Window

/-!
# How far the data of a day reach

Two runs over different periods, or over records that differ elsewhere, write the same values for a day if that day, the one
before and the one after have the same data.
-/

namespace Verif.Props

open Flt Cell Methods Disaggregate Np
open Solar (DayGeom)

/-- What counts of a day for the temperatures of its neighbours. -/
def extremes : List String := ["t_min", "t_max"]

/-- What counts of a day for its own values, radiation and humidity aside. -/
def given : List String := ["t_min", "t_max", "prec", "wind", "t_pk", "dur"]

/-- What counts of a day for its neighbours when humidity is passed through. -/
def moist : List String := ["t_min", "t_max", "vapor_pressure"]

/-- What counts of a day for its own values when radiation and humidity are passed through. -/
def passed : List String := ["t_min", "t_max", "prec", "wind", "t_pk", "dur", "shortwave", "vapor_pressure", "tskc"]

/-- What counts of a day for its own values when cloud cover is estimated. -/
def clouded : List String := ["t_min", "t_max", "prec", "wind", "t_pk", "dur", "dtr", "smoothed_dtr"]

/-- The same of these are given, with the same values in row `a` of the one and row `b` of the other. -/
def AlikeAt (names : List String) (f f' : Frame) (a b : Nat) : Prop :=
  ∀ name ∈ names, (Dict.get? f name).map (· a) = (Dict.get? f' name).map (· b)

theorem AlikeAt.mono {names more : List String} {f f' : Frame} {a b : Nat} (h : AlikeAt more f f' a b) (hs : ∀ v ∈ names, v ∈ more) :
    AlikeAt names f f' a b := fun v hv => h v (hs v hv)

/-- Day `a` of a cell of one run is day `b` of a cell of another: the runs have the same parameters, the cells lie at the same
place, the days are the same date, and the data of that day and of the days before and after are the same as far as they count. At
the beginning of both runs the state takes the place of the day before. -/
structure SameWindow (near own : List String) (j j' : Job) (c c' : Run.Cell) (a b : Nat) : Prop where
  shared : j.shared = j'.shared
  elev : (j.inp c).elev = (j'.inp c').elev
  lat : (j.inp c).lat = (j'.inp c').lat
  lon : (j.inp c).lon = (j'.inp c').lon
  date : j.d0 + a = j'.d0 + b
  before : (∃ a' b', a = a' + 1 ∧ b = b' + 1 ∧ AlikeAt near (j.inp c).data.frame (j'.inp c').data.frame a' b') ∨
    a = 0 ∧ b = 0 ∧ (j.inp c).data.stateEnd = (j'.inp c').data.stateEnd
  day : AlikeAt own (j.inp c).data.frame (j'.inp c').data.frame a b
  after : AlikeAt near (j.inp c).data.frame (j'.inp c').data.frame (a + 1) (b + 1)
  within : a + 1 < j.n
  within' : b + 1 < j'.n

theorem SameWindow.stamp {near own : List String} {j j' : Job} {c c' : Run.Cell} {a b : Nat} (h : SameWindow near own j j' c c' a b) (i : Nat) :
    j.stamp a i = j'.stamp b i := by
  unfold Job.stamp
  have : (j.d0 : ℚ) + a = j'.d0 + b := by exact_mod_cast h.date
  rw [this, h.shared]

theorem at_range {n a : Nat} {col : Col} (h : a < n) : ((List.range n).map col)[a]? = some (col a) := by
  rw [List.getElem?_map, List.getElem?_range h]; rfl

/-- Columns with the same value have it in the daily frames. -/
theorem column_alike {n n' a b : Nat} {f f' : Frame} {name : String} {xs xs' : List (Flt ℝ)}
    (h : Cell.column n f name = .ok xs) (h' : Cell.column n' f' name = .ok xs') (ha : a < n) (hb : b < n')
    (e : (Dict.get? f name).map (· a) = (Dict.get? f' name).map (· b)) : xs[a]? = xs'[b]? := by
  obtain ⟨c, g, rfl⟩ := Cell.column_ok.1 h
  obtain ⟨c', g', rfl⟩ := Cell.column_ok.1 h'
  rw [g, g'] at e
  rw [at_range ha, at_range hb]
  exact e

theorem column?_alike {n n' a b : Nat} {f f' : Frame} {name : String} (ha : a < n) (hb : b < n')
    (e : (Dict.get? f name).map (· a) = (Dict.get? f' name).map (· b)) :
    at? (column? n f name) a = at? (column? n' f' name) b := by
  unfold column? at?
  cases hf : Dict.get? f name <;> cases hf' : Dict.get? f' name <;> rw [hf, hf'] at e <;> simp at e ⊢
  · rw [List.getElem?_range ha, List.getElem?_range hb]
    simpa using e

/-- The extremes of two runs, day by day. -/
theorem temp_alike {fuel fuel' n n' : Nat} {s : Shared} {elev lat lon : ℝ} {d d' : Data} (q : Common fuel s elev lat lon d)
    (q' : Common fuel' s elev lat lon d') {daily daily' : Disaggregate.Daily} (hd : dailyOf d.days q.base = .ok daily)
    (hd' : dailyOf d'.days q'.base = .ok daily') (hn : d.days.length = n) (hn' : d'.days.length = n') {a b : Nat} (ha : a < n)
    (hb : b < n') (hday : d.days[a]? = d'.days[b]?) (h : AlikeAt extremes d.frame d'.frame a b) : SameTemp daily daily' a b := by
  obtain ⟨q1, q2, q3, q4, q5, -⟩ := dailyOf_ok hd
  obtain ⟨p1, p2, p3, p4, p5, -⟩ := dailyOf_ok hd'
  have e : ∀ name ∉ ["t_day", "tfmax", "tskc", "seasonal_prec", "tdew", "vapor_pressure", "shortwave", "pet"],
      name ∉ ["daylength", "potrad", "tt_max"] → name ∈ extremes →
      (Dict.get? q.base name).map (· a) = (Dict.get? q'.base name).map (· b) := by
    intro name h1 h2 h3
    rw [base_keeps q h1 h2, base_keeps q' h1 h2]
    exact h name h3
  rw [hn] at q4 q5
  rw [hn'] at p4 p5
  exact {
    doy := by rw [q1, p1, List.getElem?_map, List.getElem?_map, hday]
    tMin := column_alike q4 p4 ha hb (e _ (by decide) (by decide) (by decide))
    tMax := column_alike q5 p5 ha hb (e _ (by decide) (by decide) (by decide)) }

/-- The daily frames of two runs, day by day. -/
theorem given_alike {fuel fuel' n n' : Nat} {s : Shared} {elev lat lon : ℝ} {d d' : Data} (q : Common fuel s elev lat lon d)
    (q' : Common fuel' s elev lat lon d') {daily daily' : Disaggregate.Daily} (hd : dailyOf d.days q.base = .ok daily)
    (hd' : dailyOf d'.days q'.base = .ok daily') (hn : d.days.length = n) (hn' : d'.days.length = n') {a b : Nat} (ha : a < n)
    (hb : b < n') (hday : d.days[a]? = d'.days[b]?) (h : AlikeAt given d.frame d'.frame a b) : SameGiven daily daily' a b := by
  obtain ⟨q1, q2, q3, q4, q5, q6, q7, q8, q9, q10, q11, q12⟩ := dailyOf_ok hd
  obtain ⟨p1, p2, p3, p4, p5, p6, p7, p8, p9, p10, p11, p12⟩ := dailyOf_ok hd'
  have e : ∀ name ∉ ["t_day", "tfmax", "tskc", "seasonal_prec", "tdew", "vapor_pressure", "shortwave", "pet"],
      name ∉ ["daylength", "potrad", "tt_max"] → name ∈ given →
      (Dict.get? q.base name).map (· a) = (Dict.get? q'.base name).map (· b) := by
    intro name h1 h2 h3
    rw [base_keeps q h1 h2, base_keeps q' h1 h2]
    exact h name h3
  rw [hn] at q8 q9 q11 q12
  rw [hn'] at p8 p9 p11 p12
  exact { temp_alike q q' hd hd' hn hn' ha hb hday (h.mono (by decide)) with
    prec := column_alike q8 p8 ha hb (e _ (by decide) (by decide) (by decide))
    wind := by rw [q9, p9]; exact column?_alike ha hb (e _ (by decide) (by decide) (by decide))
    tPk := by rw [q11, p11]; exact column?_alike ha hb (e _ (by decide) (by decide) (by decide))
    dur := by rw [q12, p12]; exact column?_alike ha hb (e _ (by decide) (by decide) (by decide)) }

/-- What `passthrough` keeps. -/
theorem kept_alike {fuel fuel' : Nat} {s : Shared} {elev lat lon : ℝ} {d d' : Data} (q : Common fuel s elev lat lon d)
    (q' : Common fuel' s elev lat lon d') (hm : s.method = .passthrough) {a b : Nat} {name : String} {col : Col}
    (h1 : Dict.get? d.frame name = some col) (h2 : name ∉ ["daylength", "potrad", "tt_max"]) (h3 : name ≠ "seasonal_prec")
    (e : (Dict.get? d.frame name).map (· a) = (Dict.get? d'.frame name).map (· b)) :
    (Dict.get? q.base name).map (· a) = (Dict.get? q'.base name).map (· b) := by
  have hrun : passthroughRun (withGeom q.rows d.frame) (s.daily elev) = .ok q.base := by
    have h := q.h_base
    rw [hm] at h
    exact h
  have hrun' : passthroughRun (withGeom q'.rows d'.frame) (s.daily elev) = .ok q'.base := by
    have h := q'.h_base
    rw [hm] at h
    exact h
  rw [h1] at e
  cases h4 : Dict.get? d'.frame name with
  | none => rw [h4] at e; cases e
  | some col' =>
    rw [h4] at e
    rw [((C42_passthrough_partial _ _).2 _ hrun).1 _ _ (by rw [withGeom_keeps _ _ h2, h1]) (fun h => absurd h h3),
      ((C42_passthrough_partial _ _).2 _ hrun').1 _ _ (by rw [withGeom_keeps _ _ h2, h4]) (fun h => absurd h h3)]
    exact e

/-- Humidity that is passed through. -/
theorem vapor_alike {fuel fuel' n n' : Nat} {s : Shared} {elev lat lon : ℝ} {d d' : Data} (q : Common fuel s elev lat lon d)
    (q' : Common fuel' s elev lat lon d') {daily daily' : Disaggregate.Daily} (hd : dailyOf d.days q.base = .ok daily)
    (hd' : dailyOf d'.days q'.base = .ok daily') (hn : d.days.length = n) (hn' : d'.days.length = n')
    (hm : s.method = .passthrough) (hgiven : DailyGood n d.frame) {a b : Nat} (ha : a < n) (hb : b < n')
    (hday : d.days[a]? = d'.days[b]?) (h : AlikeAt moist d.frame d'.frame a b) : SameVapor daily daily' a b := by
  obtain ⟨q1, q2, q3, q4, q5, q6, -⟩ := dailyOf_ok hd
  obtain ⟨p1, p2, p3, p4, p5, p6, -⟩ := dailyOf_ok hd'
  obtain ⟨c2, g2, -⟩ := hgiven.vapor
  rw [hn] at q6
  rw [hn'] at p6
  exact { temp_alike q q' hd hd' hn hn' ha hb hday (h.mono (by decide)) with
    vapor := column_alike q6 p6 ha hb (kept_alike q q' hm g2 (by decide) (by decide) (h _ (by decide))) }

/-- What is passed through is alike too, where it is given. -/
theorem passed_alike {fuel fuel' n n' : Nat} {s : Shared} {elev lat lon : ℝ} {d d' : Data} (q : Common fuel s elev lat lon d)
    (q' : Common fuel' s elev lat lon d') {daily daily' : Disaggregate.Daily} (hd : dailyOf d.days q.base = .ok daily)
    (hd' : dailyOf d'.days q'.base = .ok daily') (hn : d.days.length = n) (hn' : d'.days.length = n')
    (hm : s.method = .passthrough) (hgiven : DailyGood n d.frame) {a b : Nat} (ha : a < n) (hb : b < n')
    (hday : d.days[a]? = d'.days[b]?) (h : AlikeAt passed d.frame d'.frame a b) : SameDay daily daily' a b := by
  obtain ⟨q1, q2, q3, q4, q5, q6, q7, -⟩ := dailyOf_ok hd
  obtain ⟨p1, p2, p3, p4, p5, p6, p7, -⟩ := dailyOf_ok hd'
  obtain ⟨c1, g1, -⟩ := hgiven.shortwave
  obtain ⟨c3, g3, -⟩ := hgiven.cloud
  have hdl : (Dict.get? q.base "daylength").map (· a) = (Dict.get? q'.base "daylength").map (· b) := by
    obtain ⟨x, dl, x1, x2, x3⟩ := base_daylength q (List.getElem?_eq_getElem (hn ▸ ha))
    have e : d'.days[b]? = some (d.days[a]'(hn ▸ ha)) := by rw [← hday, List.getElem?_eq_getElem]
    obtain ⟨y, dl', y1, y2, y3⟩ := base_daylength q' e
    have hgeom : q.geom = q'.geom := Except.ok.inj (q.h_geom.symm.trans q'.h_geom)
    rw [hgeom, y1] at x1
    rw [x2, y2, Option.map_some, Option.map_some, x3, y3, Option.some.inj x1]
  rw [hn] at q2 q3 q7
  rw [hn'] at p2 p3 p7
  exact { given_alike q q' hd hd' hn hn' ha hb hday (h.mono (by decide)),
    vapor_alike q q' hd hd' hn hn' hm hgiven ha hb hday (h.mono (by decide)) with
    tskc := column_alike q7 p7 ha hb (kept_alike q q' hm g3 (by decide) (by decide) (h _ (by decide)))
    shortwave := column_alike q2 p2 ha hb (kept_alike q q' hm g1 (by decide) (by decide) (h _ (by decide)))
    daylength := column_alike q3 p3 ha hb hdl }

/-- The cloud cover `mtclim` estimates. -/
theorem mtclim_cloud {fuel : Nat} {s : Shared} {elev lat lon : ℝ} {d : Data} (k : Common fuel s elev lat lon d)
    (hm : s.method = .mtclim) {tMin tMax dtr sm prec sp : Col}
    (g1 : Dict.get? d.frame "t_min" = some tMin) (g2 : Dict.get? d.frame "t_max" = some tMax)
    (g3 : Dict.get? d.frame "dtr" = some dtr) (g4 : Dict.get? d.frame "smoothed_dtr" = some sm)
    (g5 : Dict.get? d.frame "prec" = some prec) (g9 : Dict.get? d.frame "seasonal_prec" = some sp) :
    Dict.get? k.base "tskc" = some (fun i => tskc (tfmax (dtr i) (sm i) (prec i) (s.daily elev)) (s.daily elev)) := by
  have hrun : mtclimRun d.days.length fuel (withGeom k.rows d.frame) (s.daily elev) = .ok (some k.base) := by
    have h := k.h_base
    rw [hm] at h
    unfold runMethod at h
    simp only [bind_ok] at h
    obtain ⟨r, h1, h2⟩ := h
    cases r with
    | none => cases h2
    | some b =>
      have : b = k.base := Except.ok.inj h2
      rw [h1, this]
  obtain ⟨-, -, -, h, -⟩ := mtclimRun_dew hrun (P := fun _ => True)
    (tMin := tMin) (tMax := tMax) (dtr := dtr) (sm := sm) (prec := prec) (tt := colOf (k.rows.map (·.ttMax)))
    (pot := colOf (k.rows.map fun g => fin g.potrad)) (dl := colOf (k.rows.map fun g => fin g.daylength)) (sp := sp)
    (by rw [withGeom_keeps _ _ (by decide), g1]) (by rw [withGeom_keeps _ _ (by decide), g2])
    (by rw [withGeom_keeps _ _ (by decide), g3]) (by rw [withGeom_keeps _ _ (by decide), g4])
    (by rw [withGeom_keeps _ _ (by decide), g5])
    (by unfold withGeom; simp (decide := true) only [Dict.get?_set, if_true, if_false])
    (by unfold withGeom; simp (decide := true) only [Dict.get?_set, if_true, if_false])
    (by unfold withGeom; simp (decide := true) only [Dict.get?_set, if_true, if_false])
    (by rw [withGeom_keeps _ _ (by decide), g9]) trivial (fun _ _ _ _ => trivial)
  exact h

theorem cloud_alike {fuel fuel' n n' : Nat} {s : Shared} {elev lat lon : ℝ} {d d' : Data} (q : Common fuel s elev lat lon d)
    (q' : Common fuel' s elev lat lon d') {daily daily' : Disaggregate.Daily} (hd : dailyOf d.days q.base = .ok daily)
    (hd' : dailyOf d'.days q'.base = .ok daily') (hn : d.days.length = n) (hn' : d'.days.length = n')
    (hm : s.method = .mtclim)
    (hcols : ∀ k ∈ ["t_min", "t_max", "dtr", "smoothed_dtr", "prec", "seasonal_prec"], Dict.get? d.frame k ≠ none)
    (hcols' : ∀ k ∈ ["t_min", "t_max", "dtr", "smoothed_dtr", "prec", "seasonal_prec"], Dict.get? d'.frame k ≠ none)
    {a b : Nat} (ha : a < n) (hb : b < n') (h : AlikeAt clouded d.frame d'.frame a b) : daily.tskc[a]? = daily'.tskc[b]? := by
  obtain ⟨q1, q2, q3, q4, q5, q6, q7, -⟩ := dailyOf_ok hd
  obtain ⟨p1, p2, p3, p4, p5, p6, p7, -⟩ := dailyOf_ok hd'
  have both : ∀ k ∈ ["t_min", "t_max", "dtr", "smoothed_dtr", "prec", "seasonal_prec"], ∃ x y,
      Dict.get? d.frame k = some x ∧ Dict.get? d'.frame k = some y ∧ (k ∈ clouded → x a = y b) := by
    intro k hk
    obtain ⟨x, hx⟩ := Option.ne_none_iff_exists'.1 (hcols k hk)
    obtain ⟨y, hy⟩ := Option.ne_none_iff_exists'.1 (hcols' k hk)
    refine ⟨x, y, hx, hy, fun hin => ?_⟩
    have e := h k hin
    rw [hx, hy] at e
    exact Option.some.inj e
  obtain ⟨x1, y1, g1, k1, -⟩ := both "t_min" (by decide)
  obtain ⟨x2, y2, g2, k2, -⟩ := both "t_max" (by decide)
  obtain ⟨x3, y3, g3, k3, e3⟩ := both "dtr" (by decide)
  obtain ⟨x4, y4, g4, k4, e4⟩ := both "smoothed_dtr" (by decide)
  obtain ⟨x5, y5, g5, k5, e5⟩ := both "prec" (by decide)
  obtain ⟨x6, y6, g6, k6, -⟩ := both "seasonal_prec" (by decide)
  rw [hn] at q7
  rw [hn'] at p7
  refine column_alike q7 p7 ha hb ?_
  rw [mtclim_cloud q hm g1 g2 g3 g4 g5 g6, mtclim_cloud q' hm k1 k2 k3 k4 k5 k6]
  simp only [Option.map_some, e3 (by decide), e4 (by decide), e5 (by decide)]

theorem days_alike {j j' : Job} (hj : j.Sane) (hj' : j'.Sane) {c c' : Run.Cell} {a b : Nat} (h : j.d0 + a = j'.d0 + b)
    (ha : a < j.n) (hb : b < j'.n) : (j.inp c).data.days[a]? = (j'.inp c').data.days[b]? := by
  rw [hj.data c, hj'.data c']
  unfold consecutive
  rw [List.getElem?_map, List.getElem?_map, List.getElem?_range ha, List.getElem?_range hb]
  simp [h]

/-- `written_sub` for a run whose parameters are known. -/
theorem written_at (j : Job) (hj : j.Sane) {s : Shared} (hsh : j.shared = s) {fuel : Nat}
    {order : List (Dict String Chunk.Slice)} (ho : j.Schedule order)
    {files : Run.Files Output} (hrun : j.run fuel order = .ok files) (hsub : s.ts < 1440) {c : Run.Cell}
    (hc : j.Computed c) {elev lat lon : ℝ} (h1 : (j.inp c).elev = fin elev) (h2 : (j.inp c).lat = fin lat)
    (h3 : (j.inp c).lon = fin lon) :
    ∃ (k : Common fuel s elev lat lon (j.inp c).data) (daily : Disaggregate.Daily) (sub : Disaggregate.Sub),
      dailyOf (j.inp c).data.days k.base = .ok daily ∧
      Disaggregate.disaggregate daily (s.sub elev lon) k.geom
        (some [(j.inp c).data.stateEnd.1, (j.inp c).data.stateEnd.2]) none = .ok sub ∧
      ∀ v u, s.outVars.get? v = some u → ∃ col val, subColumn sub v = .ok col ∧ Recorded j files v c val ∧
        ∀ k < j.n, ∀ i < 1440 / s.ts,
          Units.convert v u (col.getD (k * (1440 / s.ts) + i) nan) s.ts = .ok (val (j.stamp k i)) := by
  subst hsh
  obtain ⟨e, la, lo, e1, e2, e3, k, daily, sub, hd, hsu, hcol⟩ := written_sub j hj ho hrun hsub hc
  obtain rfl : e = elev := Flt.fin.inj (e1.symm.trans h1)
  obtain rfl : la = lat := Flt.fin.inj (e2.symm.trans h2)
  obtain rfl : lo = lon := Flt.fin.inj (e3.symm.trans h3)
  exact ⟨k, daily, sub, hd, hsu, hcol⟩

/-- From the frames of the two runs to their files. -/
theorem alike_of (j j' : Job) (hj : j.Sane) (hj' : j'.Sane) {fuel fuel' : Nat}
    {order order' : List (Dict String Chunk.Slice)} (ho : j.Schedule order) (ho' : j'.Schedule order')
    {files files' : Run.Files Output} (hrun : j.run fuel order = .ok files) (hrun' : j'.run fuel' order' = .ok files')
    (hsub : j.shared.ts < 1440) {c c' : Run.Cell} (hc : j.Computed c) (hc' : j'.Computed c')
    (hs : Sound j.shared j.n (j.inp c)) (hs' : Sound j'.shared j'.n (j'.inp c'))
    (hgood : ∀ elev lat lon, (j.inp c).elev = fin elev → (j.inp c).lat = fin lat →
      ∀ k : Common fuel j.shared elev lat lon (j.inp c).data, DailyGood j.n k.base)
    {near own : List String} {a b : Nat} (hw : SameWindow near own j j' c c' a b) {v u : String} (hu : j.shared.outVars.get? v = some u)
    (hcore : ∀ (elev lat lon : ℝ) (q : Common fuel j.shared elev lat lon (j.inp c).data)
      (q' : Common fuel' j.shared elev lat lon (j'.inp c').data) (daily daily' : Disaggregate.Daily)
      (t : Trace daily (j.shared.sub elev lon) q.geom (some [(j.inp c).data.stateEnd.1, (j.inp c).data.stateEnd.2]) none)
      (t' : Trace daily' (j.shared.sub elev lon) q.geom
        (some [(j'.inp c').data.stateEnd.1, (j'.inp c').data.stateEnd.2]) none),
      dailyOf (j.inp c).data.days q.base = .ok daily → dailyOf (j'.inp c').data.days q'.base = .ok daily' →
      daily.doy.length = j.n → |lat| ≤ 90 → elev ≤ 8000 → Usable daily (j.shared.sub elev lon) →
      Usable daily' (j.shared.sub elev lon) → DayGood daily → (∀ T ∈ t.temp, -60 ≤ T ∧ T ≤ 60) →
      (∀ k < daily.prec.length, Spreads j.shared.precType daily.tMin daily.tPk daily.dur k) →
      ∀ col col', subColumn t.sub v = .ok col → subColumn t'.sub v = .ok col' → ∀ i < 1440 / j.shared.ts,
        col[a * (1440 / j.shared.ts) + i]? = col'[b * (1440 / j.shared.ts) + i]?) :
    ∃ val val', Recorded j files v c val ∧ Recorded j' files' v c' val' ∧
      ∀ i < 1440 / j.shared.ts, j.stamp a i = j'.stamp b i ∧ val (j.stamp a i) = val' (j'.stamp b i) := by
  obtain ⟨elev, lat, lon, h1, h2, h3, q, daily, sub, hd, hsu, hcol⟩ := written_sub j hj ho hrun hsub hc
  obtain ⟨q', daily', sub', hd', hsu', hcol'⟩ := written_at j' hj' hw.shared.symm ho' hrun' hsub hc'
    (hw.elev ▸ h1) (hw.lat ▸ h2) (hw.lon ▸ h3)
  obtain ⟨col, val, a1, a2, a3⟩ := hcol v u hu
  obtain ⟨col', val', a1', a2', a3'⟩ := hcol' v u hu
  rw [show q'.geom = q.geom from Except.ok.inj (q'.h_geom.symm.trans q.h_geom)] at hsu'
  have hlen : (j.inp c).data.days.length = j.n := by rw [hj.data c, length_consecutive]
  have hlen' : (j'.inp c').data.days.length = j'.n := by rw [hj'.data c', length_consecutive]
  obtain ⟨t, rfl⟩ := disaggregate_ok.1 hsu
  obtain ⟨t', rfl⟩ := disaggregate_ok.1 hsu'
  have hm := hs.record
  rw [← hlen] at hm
  have hm' := hs'.record
  rw [← hlen'] at hm'
  have hn := hw.within
  have hn' := hw.within'
  have hus := usable_of q hd t hj.step.2 (by omega) hm ⟨by linarith [hs.fraction.1], hs.fraction.2⟩ hs.storm
  have hus' := usable_of q' hd' t' hj.step.2 (by omega) hm' ⟨by linarith [hs.fraction.1], hs.fraction.2⟩
    (by rw [hw.shared]; exact hs'.storm)
  have ld : daily.doy.length = j.n := by rw [(dailyOf_ok hd).1, List.length_map, hlen]
  refine ⟨val, val', a2, a2', fun i hi => ⟨hw.stamp i, ?_⟩⟩
  have e := hcore elev lat lon q q' daily daily' t t' hd hd' ld (hs.lat lat h2) (hs.elev elev h1) hus hus'
    (dayGood_of hs h1 q hlen hd (hgood elev lat lon h1 h2 q)) (temp_sound hs h2 h3 q hlen hd t hus)
    (fun k hk => by
      rw [hus.prec, ld] at hk
      exact falls_spreads q hd (by rw [hlen]; exact hk) (hs.rain k hk)) col col' a1 a1' i hi
  have b1 := a3 a (by omega) i hi
  have b2 := a3' b (by omega) i hi
  rw [List.getD_eq_getElem?_getD] at b1 b2
  rw [e, b2] at b1
  exact (Except.ok.inj b1).symm

/-- **C106**, passing through: a day is written alike by two runs if the data of that day and of its neighbours are alike. -/
theorem C106_passthrough (j j' : Job) (hj : j.Sane) (hj' : j'.Sane) (fuel fuel' : Nat)
    (order order' : List (Dict String Chunk.Slice)) (ho : j.Schedule order) (ho' : j'.Schedule order')
    (files files' : Run.Files Output) (hrun : j.run fuel order = .ok files) (hrun' : j'.run fuel' order' = .ok files')
    (hsub : j.shared.ts < 1440) (hloc : j.shared.utcOffset = false) (hm : j.shared.method = .passthrough)
    (c c' : Run.Cell) (hc : j.Computed c) (hc' : j'.Computed c')
    (hs : Sound j.shared j.n (j.inp c)) (hs' : Sound j'.shared j'.n (j'.inp c'))
    (hgiven : DailyGood j.n (j.inp c).data.frame) (a b : Nat) (hw : SameWindow moist passed j j' c c' a b)
    (v u : String) (hu : j.shared.outVars.get? v = some u) :
    ∃ val val', Recorded j files v c val ∧ Recorded j' files' v c' val' ∧
      ∀ i < 1440 / j.shared.ts, j.stamp a i = j'.stamp b i ∧ val (j.stamp a i) = val' (j'.stamp b i) := by
  have hlen : (j.inp c).data.days.length = j.n := by rw [hj.data c, length_consecutive]
  have hlen' : (j'.inp c').data.days.length = j'.n := by rw [hj'.data c', length_consecutive]
  have hn := hw.within
  have hn' := hw.within'
  refine alike_of j j' hj hj' ho ho' hrun hrun' hsub hc hc' hs hs' (fun _ _ _ _ _ k => passthrough_good k hm hgiven) hw hu ?_
  intro elev lat lon q q' daily daily' t t' hd hd' ld hlat he hus hus' hDG hT hsp col col' a1 a1' i hi
  refine sub_window hlat q.h_geom hus hus' hloc t t' ?_
    (passed_alike q q' hd hd' hlen hlen' hm hgiven (by omega) (by omega)
      (days_alike hj hj' hw.date (by omega) (by omega)) hw.day)
    (vapor_alike q q' hd hd' hlen hlen' hm hgiven hn hn'
      (days_alike hj hj' (by have := hw.date; push_cast; omega) hn hn') hw.after)
    (by omega) hDG ?_ hT hsp hs.lapse.1 hs.lapse.2 he hsub hi a1 a1'
  · rcases hw.before with ⟨x, y, e1, e2, h⟩ | h
    · exact Or.inl ⟨x, y, e1, e2, vapor_alike q q' hd hd' hlen hlen' hm hgiven (by omega) (by omega)
        (days_alike hj hj' (by have := hw.date; push_cast [e1, e2] at this; omega) (by omega) (by omega)) h⟩
    · exact Or.inr h
  · obtain ⟨-, -, -, -, -, -, -, -, -, q10, -⟩ := dailyOf_ok hd'
    rw [q10]
    unfold column?
    rw [base_keeps q' (by decide) (by decide), hs'.longwave]; rfl

/-- **C106**, estimating: so are temperature, pressure, precipitation, wind and cloud cover. -/
theorem C106_mtclim (j j' : Job) (hj : j.Sane) (hj' : j'.Sane) (fuel fuel' : Nat)
    (order order' : List (Dict String Chunk.Slice)) (ho : j.Schedule order) (ho' : j'.Schedule order')
    (files files' : Run.Files Output) (hrun : j.run fuel order = .ok files) (hrun' : j'.run fuel' order' = .ok files')
    (hsub : j.shared.ts < 1440) (hloc : j.shared.utcOffset = false) (hm : j.shared.method = .mtclim)
    (hp : SaneParams j.shared) (hcl : Lw.upperS j.shared.lwCloud = "CLOUD_DEARDORFF")
    (c c' : Run.Cell) (hc : j.Computed c) (hc' : j'.Computed c')
    (hs : Sound j.shared j.n (j.inp c)) (hs' : Sound j'.shared j'.n (j'.inp c'))
    (hcols : ∀ k ∈ ["t_min", "t_max", "dtr", "smoothed_dtr", "prec", "seasonal_prec"],
      Dict.get? (j.inp c).data.frame k ≠ none)
    (hcols' : ∀ k ∈ ["t_min", "t_max", "dtr", "smoothed_dtr", "prec", "seasonal_prec"],
      Dict.get? (j'.inp c').data.frame k ≠ none) (a b : Nat) (v u : String)
    (hw : SameWindow extremes (if v = "tskc" then clouded else given) j j' c c' a b)
    (hu : j.shared.outVars.get? v = some u) (hv : v ∈ ["temp", "air_pressure", "prec", "wind", "tskc"]) :
    ∃ val val', Recorded j files v c val ∧ Recorded j' files' v c' val' ∧
      ∀ i < 1440 / j.shared.ts, j.stamp a i = j'.stamp b i ∧ val (j.stamp a i) = val' (j'.stamp b i) := by
  have hlen : (j.inp c).data.days.length = j.n := by rw [hj.data c, length_consecutive]
  have hlen' : (j'.inp c').data.days.length = j'.n := by rw [hj'.data c', length_consecutive]
  have hn := hw.within
  have hn' := hw.within'
  have hday : AlikeAt given (j.inp c).data.frame (j'.inp c').data.frame a b := by
    have := hw.day
    split_ifs at this
    · exact this.mono (by decide)
    · exact this
  refine alike_of j j' hj hj' ho ho' hrun hrun' hsub hc hc' hs hs' (fun elev lat _ he hlat k =>
    mtclim_good k hlen hm hp hs.lapse.1 (hs.column elev he) (hs.lat lat hlat) hs.record hcols hcl) hw hu ?_
  intro elev lat lon q q' daily daily' t t' hd hd' ld hlat he hus hus' hDG hT hsp col col' a1 a1' i hi
  refine given_window hlat q.h_geom hus hus' hloc t t' ?_
    (given_alike q q' hd hd' hlen hlen' (by omega) (by omega) (days_alike hj hj' hw.date (by omega) (by omega)) hday)
    (temp_alike q q' hd hd' hlen hlen' hn hn'
      (days_alike hj hj' (by have := hw.date; push_cast; omega) hn hn') hw.after)
    (by omega) hDG hT hsp hs.lapse.1 hs.lapse.2 he hi ?_ a1 a1'
  · rcases hw.before with ⟨x, y, e1, e2, h⟩ | h
    · exact Or.inl ⟨x, y, e1, e2, temp_alike q q' hd hd' hlen hlen' (by omega) (by omega)
        (days_alike hj hj' (by have := hw.date; push_cast [e1, e2] at this; omega) (by omega) (by omega)) h⟩
    · exact Or.inr h
  · simp only [List.mem_cons, List.not_mem_nil, or_false] at hv
    rcases hv with rfl | rfl | rfl | rfl | rfl
    · exact Or.inl (by decide)
    · exact Or.inl (by decide)
    · exact Or.inl (by decide)
    · exact Or.inl (by decide)
    · exact Or.inr ⟨rfl, cloud_alike q q' hd hd' hlen hlen' hm hcols hcols' (by omega) (by omega) hw.day⟩

/-- A run and a longer one that begins alike. -/
structure Extends (j j' : Job) (c c' : Run.Cell) : Prop where
  shared : j.shared = j'.shared
  elev : (j.inp c).elev = (j'.inp c').elev
  lat : (j.inp c).lat = (j'.inp c').lat
  lon : (j.inp c).lon = (j'.inp c').lon
  start : j.d0 = j'.d0
  longer : j.n ≤ j'.n
  state : (j.inp c).data.stateEnd = (j'.inp c').data.stateEnd
  data : ∀ k < j.n, AlikeAt passed (j.inp c).data.frame (j'.inp c').data.frame k k

theorem Extends.window {j j' : Job} {c c' : Run.Cell} (h : Extends j j' c c') {a : Nat} (ha : a + 1 < j.n) :
    SameWindow moist passed j j' c c' a a where
  shared := h.shared
  elev := h.elev
  lat := h.lat
  lon := h.lon
  date := by rw [h.start]
  before := by
    cases a with
    | zero => exact Or.inr ⟨rfl, rfl, h.state⟩
    | succ a => exact Or.inl ⟨a, a, rfl, rfl, (h.data a (by omega)).mono (by decide)⟩
  day := h.data a (by omega)
  after := (h.data (a + 1) ha).mono (by decide)
  within := ha
  within' := lt_of_lt_of_le ha h.longer

/-- **C106**: a longer run writes what a shorter one writes, except on the last day of the shorter. -/
theorem C106_longer (j j' : Job) (hj : j.Sane) (hj' : j'.Sane) (fuel fuel' : Nat)
    (order order' : List (Dict String Chunk.Slice)) (ho : j.Schedule order) (ho' : j'.Schedule order')
    (files files' : Run.Files Output) (hrun : j.run fuel order = .ok files) (hrun' : j'.run fuel' order' = .ok files')
    (hsub : j.shared.ts < 1440) (hloc : j.shared.utcOffset = false) (hm : j.shared.method = .passthrough)
    (c c' : Run.Cell) (hc : j.Computed c) (hc' : j'.Computed c')
    (hs : Sound j.shared j.n (j.inp c)) (hs' : Sound j'.shared j'.n (j'.inp c'))
    (hgiven : DailyGood j.n (j.inp c).data.frame) (hx : Extends j j' c c')
    (v u : String) (hu : j.shared.outVars.get? v = some u) (val val' : ℚ → Flt ℝ) (hval : Recorded j files v c val)
    (hval' : Recorded j' files' v c' val') (a : Nat) (ha : a + 1 < j.n) (i : Nat) (hi : i < 1440 / j.shared.ts) :
    j.stamp a i = j'.stamp a i ∧ val (j.stamp a i) = val' (j.stamp a i) := by
  have hw := hx.window ha
  obtain ⟨w, w', h1, h2, h3⟩ := C106_passthrough j j' hj hj' fuel fuel' order order' ho ho' files files' hrun hrun' hsub hloc hm
    c c' hc hc' hs hs' hgiven a a hw v u hu
  obtain ⟨e1, e2⟩ := h3 i hi
  refine ⟨e1, ?_⟩
  rw [recorded_unique j hj hval h1 (by omega) hi, e2, e1]
  exact recorded_unique j' hj' h2 hval' (by have := hx.longer; omega) (by rw [← hx.shared]; exact hi)

/-! ### There are such runs -/

/-- Runs over two or three days, the same on the first two. -/
noncomputable def span (n : Nat) (x : ℝ) : Job :=
  { oneDay with
    n := n
    inp := fun _ => ⟨fin 100, fin 45, fin (-120), ⟨consecutive 0 n,
      [("t_min", fun i => if i < 2 then fin 5 else fin x), ("t_max", fun _ => fin 15), ("prec", fun _ => fin 24),
       ("dtr", fun _ => fin 10), ("smoothed_dtr", fun _ => fin 10), ("seasonal_prec", fun _ => fin 800),
       ("shortwave", fun _ => fin 200), ("vapor_pressure", fun _ => fin 600), ("tskc", fun _ => fin 0.5)], (fin 4, fin 14)⟩⟩ }

theorem span_sane {n : Nat} (hn : n = 2 ∨ n = 3) (x : ℝ) : (span n x).Sane where
  step := oneDay_sane.step
  pos := by rcases hn with rfl | rfl <;> exact Nat.succ_pos _
  calendar := regular_standard _ _
  data := fun _ => rfl
  freq := oneDay_sane.freq
  years := by
    intro T h t ht
    have h' : Times.outputTimes ⟨720, "standard", false⟩ (consecutive 0 n) = .ok T := h
    have e : ∀ t ∈ T, t ∈ ([0, 720, 1440, 2160, 2880, 3600] : List ℚ) := by
      rcases hn with rfl | rfl
      · have e : Times.outputTimes ⟨720, "standard", false⟩ (consecutive 0 2) = .ok [0, 720, 1440, 2160] := by decide +kernel
        rw [e] at h'
        injection h' with h'
        subst h'
        decide +kernel
      · have e : Times.outputTimes ⟨720, "standard", false⟩ (consecutive 0 3) =
            .ok [0, 720, 1440, 2160, 2880, 3600] := by decide +kernel
        rw [e] at h'
        injection h' with h'
        subst h'
        decide +kernel
    exact (show ∀ t ∈ ([0, 720, 1440, 2160, 2880, 3600] : List ℚ),
      0 ≤ Cal.yearOf (Times.ordOf t) ∧ Cal.yearOf (Times.ordOf t) < 10000 by decide +kernel) t (e t ht)
  vars := oneDay_sane.vars
  names := oneDay_sane.names
  dims := oneDay_sane.dims
  dims_pos := oneDay_sane.dims_pos
  chunks := oneDay_sane.chunks
  chunks_pos := oneDay_sane.chunks_pos
  same := oneDay_sane.same

theorem span_sound {n : Nat} {x : ℝ} (h0 : -60 ≤ x) (h1 : x ≤ 60) (c : Run.Cell) :
    Sound (span n x).shared n ((span n x).inp c) where
  elev := (oneDay_sound c).elev
  lat := (oneDay_sound c).lat
  lon := (oneDay_sound c).lon
  lapse := (oneDay_sound c).lapse
  fraction := (oneDay_sound c).fraction
  record := {
    tMin := by
      intro col h i _
      simp (decide := true) only [span, Dict.get?_cons, if_true, if_false, Option.some.injEq] at h
      subst h
      by_cases hi : i < 2
      · exact ⟨5, by simp [hi], by norm_num, by norm_num⟩
      · exact ⟨x, by simp [hi], h0, h1⟩
    tMax := by
      intro col h i _
      simp (decide := true) only [span, Dict.get?_cons, if_true, if_false, Option.some.injEq] at h
      subst h; exact ⟨15, rfl, by norm_num, by norm_num⟩
    dtr := by
      intro col h i _
      simp (decide := true) only [span, Dict.get?_cons, if_true, if_false, Option.some.injEq] at h
      subst h; exact ⟨10, rfl, by norm_num, by norm_num⟩
    smoothed := by
      intro col h i _
      simp (decide := true) only [span, Dict.get?_cons, if_true, if_false, Option.some.injEq] at h
      subst h; exact ⟨10, rfl⟩
    prec := by
      intro col h i _
      simp (decide := true) only [span, Dict.get?_cons, if_true, if_false, Option.some.injEq] at h
      subst h; exact ⟨24, rfl, by norm_num⟩
    seasonal := by
      intro col h i _
      simp (decide := true) only [span, Dict.get?_cons, if_true, if_false, Option.some.injEq] at h
      subst h; exact ⟨800, rfl⟩
    wind := by
      intro col h i _
      have : Dict.get? ((span n x).inp c).data.frame "wind" = none := rfl
      rw [this] at h; cases h
    state := ⟨4, 14, rfl, by norm_num, by norm_num, by norm_num, by norm_num⟩ }
  rain := fun _ _ => Or.inl (by
    show Lw.upperS "uniform" ≠ _ ∧ Lw.upperS "uniform" ≠ _
    decide)
  storm := fun h => absurd h (by
    show ¬ (Lw.upperS "uniform" = _ ∨ Lw.upperS "uniform" = _)
    decide)
  longwave := rfl

theorem span_complete {n : Nat} {x : ℝ} (h0 : -60 ≤ x) (h1 : x ≤ 60) (c : Run.Cell) :
    CompleteCell (span n x).shared n ((span n x).inp c) where
  place := (oneDay_complete c).place
  lapse := (oneDay_complete c).lapse
  columns := by
    intro k hk
    simp only [List.mem_cons, List.not_mem_nil, or_false] at hk
    rcases hk with rfl | rfl | rfl | rfl | rfl | rfl <;> simp [span, Dict.get?_cons]
  radiation := fun _ => by simp [span, Dict.get?_cons]
  tMin := fun col h i hi => by
    obtain ⟨y, hy, -⟩ := (span_sound h0 h1 c).record.tMin col h i hi
    exact ⟨y, hy⟩
  tMax := fun col h i hi => by
    obtain ⟨y, hy, -⟩ := (span_sound h0 h1 c).record.tMax col h i hi
    exact ⟨y, hy⟩
  state := ⟨4, 14, rfl⟩
  fraction := (oneDay_complete c).fraction
  lwType := (oneDay_complete c).lwType
  lwCloud := (oneDay_complete c).lwCloud
  storm := (span_sound h0 h1 c).storm

theorem span_runs {n : Nat} (hn : n = 2 ∨ n = 3) {x : ℝ} (h0 : -60 ≤ x) (h1 : x ≤ 60) :
    ∃ order files, (span n x).Schedule order ∧ (span n x).run 0 order = .ok files := by
  obtain ⟨files, h⟩ := (C71_run (span n x) (span_sane hn x) 0 [[("lat", none), ("lon", none)]]
    ⟨_, rfl, List.Perm.refl _⟩ (fun c _ => span_complete h0 h1 c) (fun h => by cases h)).2 (by
      intro c _ q hq
      have hq : q = ("vapor_pressure", "kPa") := by simpa [span, oneDay] using hq
      subst hq
      refine ⟨?_, _, _, rfl, rfl⟩
      unfold Offers
      rw [if_pos (by show (720 : Nat) < 1440; decide)]
      exact Or.inl (by decide))
  exact ⟨_, files, ⟨_, rfl, List.Perm.refl _⟩, h⟩

/-- **C106**: there are two such runs, and their records differ afterwards. -/
example : (span 2 7).Sane ∧ (span 3 9).Sane ∧ (span 2 7).shared.ts < 1440 ∧ (span 2 7).shared.utcOffset = false ∧
    (span 2 7).shared.method = .passthrough ∧ (span 2 7).Computed [0, 0] ∧ (span 3 9).Computed [0, 0] ∧
    Sound (span 2 7).shared 2 ((span 2 7).inp [0, 0]) ∧ Sound (span 3 9).shared 3 ((span 3 9).inp [0, 0]) ∧
    DailyGood 2 ((span 2 7).inp [0, 0]).data.frame ∧ Extends (span 2 7) (span 3 9) [0, 0] [0, 0] ∧ 0 + 1 < (span 2 7).n ∧
    (∃ order files, (span 2 7).Schedule order ∧ (span 2 7).run 0 order = .ok files) ∧
    (∃ order files, (span 3 9).Schedule order ∧ (span 3 9).run 0 order = .ok files) := by
  refine ⟨span_sane (Or.inl rfl) _, span_sane (Or.inr rfl) _, by show (720 : Nat) < 1440; decide, rfl, rfl,
    ⟨by show _ ∈ gridCells [("lat", 1), ("lon", 2)]; decide, 1, rfl, one_pos⟩,
    ⟨by show _ ∈ gridCells [("lat", 1), ("lon", 2)]; decide, 1, rfl, one_pos⟩, span_sound (by norm_num) (by norm_num) _,
    span_sound (by norm_num) (by norm_num) _,
    ⟨⟨_, rfl, fun _ _ => ⟨200, rfl, by norm_num⟩⟩, ⟨_, rfl, fun _ _ => ⟨600, rfl, by norm_num⟩⟩,
      ⟨_, rfl, fun _ _ => ⟨0.5, rfl, by norm_num, by norm_num⟩⟩⟩,
    ⟨rfl, rfl, rfl, rfl, rfl, by show 2 ≤ 3; decide, rfl, ?_⟩, by show 1 < 2; decide,
    span_runs (Or.inl rfl) (by norm_num) (by norm_num), span_runs (Or.inr rfl) (by norm_num) (by norm_num)⟩
  intro k hk name _
  have hk : k < 2 := hk
  simp only [span, Dict.get?_cons]
  split_ifs <;> simp only [Option.map_some, if_pos hk]

end Verif.Props
