import Verif.Props.Asked
import Verif.Props.DailyFiles

/-!
# Daily values first, their course later

The daily values `mtclim` estimates can be written to a file by a run with a step of one day, and be given to a later run with the method
`passthrough`, which only spreads them over the steps of the day.
-/

namespace Verif.Props

open Flt Cell Methods Disaggregate Np

/-- The settings the daily estimates are made with are the same. -/
structure SameEstimates (s s' : Shared) : Prop where
  tdayCoef : s.tdayCoef = s'.tdayCoef
  swPrecThresh : s.swPrecThresh = s'.swPrecThresh
  rainScalar : s.rainScalar = s'.rainScalar
  lapseRate : s.lapseRate = s'.lapseRate
  tdewTol : s.tdewTol = s'.tdewTol
  lwCloud : s.lwCloud = s'.lwCloud

/-- The settings the days are spread over their steps with are the same, but for the meaning of the daily shortwave radiation. -/
structure SameSteps (s s' : Shared) : Prop where
  ts : s.ts = s'.ts
  utcOffset : s.utcOffset = s'.utcOffset
  precType : s.precType = s'.precType
  lwType : s.lwType = s'.lwType
  lwCloud : s.lwCloud = s'.lwCloud
  thetaS : s.thetaS = s'.thetaS
  tmaxFraction : s.tmaxFraction = s'.tmaxFraction
  lapseRate : s.lapseRate = s'.lapseRate

/-- Two frames of daily values agree in all but radiation, the length of the day and vapour pressure. -/
structure SameDays (d d' : Disaggregate.Daily) : Prop where
  doy : d.doy = d'.doy
  tMin : d.tMin = d'.tMin
  tMax : d.tMax = d'.tMax
  tskc : d.tskc = d'.tskc
  prec : d.prec = d'.prec
  wind : d.wind = d'.wind
  longwave : d.longwave = d'.longwave
  tPk : d.tPk = d'.tPk
  dur : d.dur = d'.dur

/-- Only the energy of a day counts, the product of radiation and length of the day. -/
theorem shortwave_products {sw dl sw' dl' : List (Flt ℝ)} (h : List.zipWith (· * ·) sw dl = List.zipWith (· * ·) sw' dl') (doy : List Nat)
    (table : List (List ℝ)) (ts : Nat) (u : Bool) (lon : ℝ) :
    Disagg.shortwave sw dl doy table ts u lon = Disagg.shortwave sw' dl' doy table ts u lon := by
  have e : ∀ (a b : List (Flt ℝ)) (x : Flt ℝ), List.zipWith (fun s d => s * d / x) a b = (List.zipWith (· * ·) a b).map (· / x) :=
    fun a b x => by rw [List.map_zipWith]
  unfold Disagg.shortwave
  simp only [e, h]

theorem subColumn_products {daily daily' : Disaggregate.Daily} {s s' : Shared} (hs : SameSteps s s') (hd : SameDays daily daily')
    {elev lon : ℝ} {geom : List Solar.DayGeom} {tb te : Option (List (Flt ℝ))} {sub sub' : Disaggregate.Sub}
    (hp : List.zipWith (· * ·) daily.shortwave (daylengthOf daily (s.sub elev lon)) =
      List.zipWith (· * ·) daily'.shortwave (daylengthOf daily' (s'.sub elev lon)))
    {v : String} (hv : daily.vaporPressure = daily'.vaporPressure ∨
      v ∈ ["shortwave", "temp", "air_pressure", "tskc", "prec", "wind"])
    (h : disaggregate daily (s.sub elev lon) geom tb te = .ok sub) (h' : disaggregate daily' (s'.sub elev lon) geom tb te = .ok sub') :
    subColumn sub v = subColumn sub' v := by
  obtain ⟨m, t1, cal, pe, u, sa, pt, lt, lc, th, tf, tc, st, rs, lr, tt, ov⟩ := s
  obtain ⟨m', t1', cal', pe', u', sa', pt', lt', lc', th', tf', tc', st', rs', lr', tt', ov'⟩ := s'
  obtain ⟨e1, e2, e3, e4, e5, e6, e7, e8⟩ := hs
  simp only at e1 e2 e3 e4 e5 e6 e7 e8
  subst e1 e2 e3 e4 e5 e6 e7 e8
  obtain ⟨doy, swd, dl, tmin, tmax, vpd, tsk, pr, wi, lw, pk, du⟩ := daily
  obtain ⟨doy', swd', dl', tmin', tmax', vpd', tsk', pr', wi', lw', pk', du'⟩ := daily'
  obtain ⟨f1, f2, f3, f4, f5, f6, f7, f8, f9⟩ := hd
  simp only at f1 f2 f3 f4 f5 f6 f7 f8 f9
  subst f1 f2 f3 f4 f5 f6 f7 f8 f9
  obtain ⟨t, rfl⟩ := disaggregate_ok.1 h
  obtain ⟨t', rfl⟩ := disaggregate_ok.1 h'
  have a1 : t.sw = t'.sw := by
    have := t.h_sw
    rw [shortwave_products hp] at this
    exact Except.ok.inj (this.symm.trans t'.h_sw)
  have a2 : t.times = t'.times := Except.ok.inj (t.h_times.symm.trans t'.h_times)
  have a3 : t.temp = t'.temp := by
    have := t'.h_temp
    rw [← a2] at this
    exact Except.ok.inj (t.h_temp.symm.trans this)
  have a5 : t.cloud = t'.cloud := Except.ok.inj (t.h_cloud.symm.trans t'.h_cloud)
  have a7 : t.prec = t'.prec := Except.ok.inj (t.h_prec.symm.trans t'.h_prec)
  have a8 : t.wind = t'.wind := Except.ok.inj (t.h_wind.symm.trans t'.h_wind)
  have b1 : t.airPressure = t'.airPressure := by unfold Trace.airPressure; rw [a3]; rfl
  rcases hv with hv | hv
  swap
  · simp only [List.mem_cons, List.not_mem_nil, or_false] at hv
    rcases hv with rfl | rfl | rfl | rfl | rfl | rfl <;> simp only [subColumn, Trace.sub, a1, a3, a5, a7, a8, b1]
  simp only at hv
  subst hv
  have a4 : t.vp = t'.vp := by
    have := t'.h_vp
    rw [← a2, ← a3] at this
    exact Except.ok.inj (t.h_vp.symm.trans this)
  have a6 : t.lw = t'.lw := by
    have := t'.h_lw
    rw [← a3, ← a4, ← a5] at this
    exact Except.ok.inj (t.h_lw.symm.trans this)
  have b2 : t.relHumid = t'.relHumid := by unfold Trace.relHumid; rw [a3, a4]
  have b3 : t.specHumid = t'.specHumid := by unfold Trace.specHumid; rw [b1, a4]
  unfold subColumn Trace.sub
  simp only [a1, a3, a4, a5, a6, a7, a8, b1, b2, b3]

/-- The daily estimates of `mtclim` depend neither on the step nor on what is written. -/
theorem estimates_same {fuel fuel' : Nat} {s s' : Shared} {elev lat lon : ℝ} {d d' : Data} (hs : SameEstimates s s')
    (hm : s.method = .mtclim) (hm' : s'.method = .mtclim) (hdoy : d.days.map doy = d'.days.map doy) (hframe : d.frame = d'.frame)
    (q : Cell.Common fuel s elev lat lon d) (q' : Cell.Common fuel' s' elev lat lon d') : q.base = q'.base := by
  have hlen : d.days.length = d'.days.length := by simpa using congrArg List.length hdoy
  have hg : q.geom = q'.geom := by
    have := q'.h_geom
    rw [← hs.lapseRate] at this
    exact Except.ok.inj (q.h_geom.symm.trans this)
  have hr : q.rows = q'.rows := by
    have := q'.h_rows
    rw [← hg, ← geomRows_doy hdoy] at this
    exact Except.ok.inj (q.h_rows.symm.trans this)
  have hp : s.daily elev = s'.daily elev := by
    unfold Shared.daily
    rw [hs.tdayCoef, hs.swPrecThresh, hs.rainScalar, hs.lapseRate, hs.tdewTol, hs.lwCloud]
  have h1 := q.h_base
  have h2 := q'.h_base
  rw [hm', ← hr, ← hframe, ← hp, ← hlen] at h2
  rw [hm] at h1
  exact mtclim_rounds (runMethod_mtclim h1) (runMethod_mtclim h2)

/-- A cell of the second stage: the place, the days and the forcing of the first, but for the radiation, the vapour pressure and the cloud
cover, which are those of the daily files. -/
structure SecondStage (j j' : Job) (c c' : Run.Cell) : Prop where
  days : j.n = j'.n
  doy : ∀ k < j.n, doy (j.d0 + k) = doy (j'.d0 + k)
  elev : (j.inp c).elev = (j'.inp c').elev
  lat : (j.inp c).lat = (j'.inp c').lat
  lon : (j.inp c).lon = (j'.inp c').lon
  frame : AgreeIn ["t_min", "t_max", "prec", "wind", "longwave", "t_pk", "dur"] (j.inp c).data.frame (j'.inp c').data.frame
  state : (j.inp c).data.stateEnd = (j'.inp c').data.stateEnd

/-- A variable of a daily file is given to a later run as a column of its forcing. -/
def GivenFrom (j₁ : Job) (files₁ : Run.Files Output) (c₁ : Run.Cell) (v u : String) (f : Frame) : Prop :=
  j₁.shared.outVars.get? v = some u ∧ ∃ col val, Dict.get? f v = some col ∧ Recorded j₁ files₁ v c₁ val ∧
    ∀ k < j₁.n, col k = val (j₁.stamp k 0)

/-- The columns agree over the days of the record. -/
def AgreeOver (n : Nat) (f g : Frame) (name : String) : Prop :=
  ∃ a b, Dict.get? f name = some a ∧ Dict.get? g name = some b ∧ ∀ k < n, a k = b k

theorem AgreeOver.column {n : Nat} {f g : Frame} {name : String} (h : AgreeOver n f g name) {xs ys : List (Flt ℝ)}
    (hx : Cell.column n f name = .ok xs) (hy : Cell.column n g name = .ok ys) : xs = ys := by
  obtain ⟨a, b, h1, h2, h3⟩ := h
  obtain ⟨a', g1, rfl⟩ := Cell.column_ok.1 hx
  obtain ⟨b', g2, rfl⟩ := Cell.column_ok.1 hy
  rw [h1] at g1
  rw [h2] at g2
  cases g1
  cases g2
  exact List.map_congr_left fun k hk => h3 k (List.mem_range.1 hk)

/-- What `passthrough` is given reaches the disaggregation. -/
theorem passed_base {fuel : Nat} {s : Shared} {elev lat lon : ℝ} {d : Data} (q : Cell.Common fuel s elev lat lon d)
    (hm : s.method = .passthrough) {name : String} {col : Col} (h1 : Dict.get? d.frame name = some col)
    (h2 : name ∉ ["daylength", "potrad", "tt_max"]) (h3 : name ≠ "seasonal_prec") : Dict.get? q.base name = some col := by
  have a := q.h_base
  rw [hm] at a
  exact ((C42_passthrough_partial _ _).2 _ a).1 _ _ (by rw [withGeom_keeps _ _ h2, h1]) (fun h => absurd h h3)

section core

variable {fuel fuel' : Nat} {s s' : Shared} {elev lat lon : ℝ} {d d' : Data} {daily daily' : Disaggregate.Daily}

theorem stages_core (hs : SameSteps s s') (hm : s.method = .mtclim) (hm' : s'.method = .passthrough)
    (hdoy : d.days.map doy = d'.days.map doy)
    (hf : AgreeIn ["t_min", "t_max", "prec", "wind", "longwave", "t_pk", "dur"] d.frame d'.frame)
    (q : Cell.Common fuel s elev lat lon d) (q' : Cell.Common fuel' s' elev lat lon d')
    (hv : AgreeOver d.days.length q.base d'.frame "vapor_pressure") (hc : AgreeOver d.days.length q.base d'.frame "tskc")
    {a l b : Col} (ha : Dict.get? q.base "shortwave" = some a) (hl : Dict.get? q.base "daylength" = some l)
    (hb : Dict.get? d'.frame "shortwave" = some b)
    (hen : ∀ k < d.days.length, a k * l k = b k * (if s'.swAveraging = "daylight" then l k else fin 86400))
    (hd : dailyOf d.days q.base = .ok daily) (hd' : dailyOf d'.days q'.base = .ok daily') :
    q.geom = q'.geom ∧ SameDays daily daily' ∧ daily.vaporPressure = daily'.vaporPressure ∧
      List.zipWith (· * ·) daily.shortwave (daylengthOf daily (s.sub elev lon)) =
        List.zipWith (· * ·) daily'.shortwave (daylengthOf daily' (s'.sub elev lon)) := by
  have hlen : d.days.length = d'.days.length := by simpa using congrArg List.length hdoy
  have hg : q.geom = q'.geom := by
    have := q'.h_geom
    rw [← hs.lapseRate] at this
    exact Except.ok.inj (q.h_geom.symm.trans this)
  have hr : q.rows = q'.rows := by
    have := q'.h_rows
    rw [← hg, ← geomRows_doy hdoy] at this
    exact Except.ok.inj (q.h_rows.symm.trans this)
  have kept : ∀ name ∈ ["t_min", "t_max", "prec", "wind", "longwave", "t_pk", "dur"], Dict.get? q.base name = Dict.get? q'.base name := by
    intro name hn
    have n1 : name ∉ ["t_day", "tfmax", "tskc", "seasonal_prec", "tdew", "vapor_pressure", "shortwave", "pet"] := by
      revert name; decide
    have n2 : name ∉ ["daylength", "potrad", "tt_max"] := by
      revert name; decide
    rw [base_keeps q n1 n2, base_keeps q' n1 n2, hf name hn]
  have hlight : Dict.get? q'.base "daylength" = some l := by
    rw [← hl, runMethod_keeps q.h_base (by decide), runMethod_keeps q'.h_base (by decide), ← hr]
    unfold withGeom
    simp only
    rw [Dict.get?_set_ne _ _ (by decide), Dict.get?_set_ne _ _ (by decide), Dict.get?_set_self,
      Dict.get?_set_ne _ _ (by decide), Dict.get?_set_ne _ _ (by decide), Dict.get?_set_self]
  obtain ⟨p1, p2, p3, p4, p5, p6, p7, p8, p9, p10, p11, p12⟩ := dailyOf_ok hd
  obtain ⟨r1, r2, r3, r4, r5, r6, r7, r8, r9, r10, r11, r12⟩ := dailyOf_ok hd'
  rw [← hlen] at r2 r3 r4 r5 r6 r7 r8 r9 r10 r11 r12
  have given : ∀ name, AgreeOver d.days.length q.base d'.frame name → name ∉ ["daylength", "potrad", "tt_max"] → name ≠ "seasonal_prec" →
      AgreeOver d.days.length q.base q'.base name := by
    rintro name ⟨x, y, h1, h2, h3⟩ n2 n3
    exact ⟨x, y, h1, passed_base q' hm' h2 n2 n3, h3⟩
  have opt : ∀ name ∈ ["wind", "longwave", "t_pk", "dur"], column? d.days.length q.base name = column? d.days.length q'.base name := by
    intro name hn
    unfold Cell.column?
    rw [kept name (by revert name; decide)]
  refine ⟨hg, ⟨by rw [p1, r1, hdoy], column_same p4 r4 (kept _ (by decide)), column_same p5 r5 (kept _ (by decide)),
    (given _ hc (by decide) (by decide)).column p7 r7,
    column_same p8 r8 (kept _ (by decide)), by rw [p9, r9, opt _ (by decide)], by rw [p10, r10, opt _ (by decide)],
    by rw [p11, r11, opt _ (by decide)], by rw [p12, r12, opt _ (by decide)]⟩, (given _ hv (by decide) (by decide)).column p6 r6, ?_⟩
  obtain ⟨a', g1, e1⟩ := Cell.column_ok.1 p2
  obtain ⟨l', g2, e2⟩ := Cell.column_ok.1 p3
  obtain ⟨b', g3, e3⟩ := Cell.column_ok.1 r2
  obtain ⟨m', g4, e4⟩ := Cell.column_ok.1 r3
  rw [ha] at g1
  rw [hl] at g2
  rw [passed_base q' hm' hb (by decide) (by decide)] at g3
  rw [hlight] at g4
  cases g1
  cases g2
  cases g3
  cases g4
  have z : ∀ (f g : Col) (n : Nat), List.zipWith (· * ·) ((List.range n).map f) ((List.range n).map g) = (List.range n).map fun k => f k * g k :=
    fun f g n => by rw [List.zipWith_map, List.zipWith_self]
  have f1 : daylengthOf daily (s.sub elev lon) = (List.range d.days.length).map l := by
    unfold daylengthOf Shared.sub
    simp only [hm, e2]
    rfl
  have f2 : daylengthOf daily' (s'.sub elev lon) =
      (List.range d.days.length).map fun k => if s'.swAveraging = "daylight" then l k else fin 86400 := by
    unfold daylengthOf Shared.sub
    simp only [hm', e4, decide_true, Bool.true_and, bne_iff_ne, ne_eq]
    by_cases hsa : s'.swAveraging = "daylight"
    · simp [hsa]
    · simp only [hsa, not_false_eq_true, if_true, if_false, List.map_map]
      rfl
  rw [f1, f2, e1, e3, z, z]
  exact List.map_congr_left fun k hk => hen k (List.mem_range.1 hk)

end core

section files

variable {j j₁ j₂ : Job} {files files₁ files₂ : Run.Files Output} {c c₁ c₂ : Run.Cell}

theorem SecondStage.doys (h : SecondStage j j₂ c c₂) (hj : j.Sane) (hj' : j₂.Sane) :
    (j.inp c).data.days.map Cell.doy = (j₂.inp c₂).data.days.map Cell.doy := by
  rw [hj.data c, hj'.data c₂, ← h.days]
  simp only [consecutive, List.map_map]
  exact List.map_congr_left fun k hk => h.doy k (List.mem_range.1 hk)

/-- What the daily files say is what `mtclim` has estimated; radiation is averaged over the whole day. -/
theorem daily_files (hj₁ : j₁.Sane) (hday : j₁.shared.ts = 1440) {fuel₁ : Nat} {order₁ : List (Dict String Chunk.Slice)}
    (ho₁ : j₁.Schedule order₁) (hrun₁ : j₁.run fuel₁ order₁ = .ok files₁) (hc₁ : j₁.Computed c₁) :
    ∃ elev lat lon, (j₁.inp c₁).elev = fin elev ∧ (j₁.inp c₁).lat = fin lat ∧ (j₁.inp c₁).lon = fin lon ∧
    ∃ q : Cell.Common fuel₁ j₁.shared elev lat lon (j₁.inp c₁).data, ∃ sw dl : Col,
      Dict.get? q.base "shortwave" = some sw ∧ Dict.get? q.base "daylength" = some dl ∧
      (∀ v ∈ [("vapor_pressure", "Pa"), ("tskc", "fraction"), ("daylength", "s")], j₁.shared.outVars.get? v.1 = some v.2 →
        ∀ val, Recorded j₁ files₁ v.1 c₁ val → ∃ a, Dict.get? q.base v.1 = some a ∧ ∀ k < j₁.n, a k = val (j₁.stamp k 0)) ∧
      (j₁.shared.outVars.get? "shortwave" = some "W m-2" → ∀ val, Recorded j₁ files₁ "shortwave" c₁ val →
        ∀ k < j₁.n, sw k * (dl k / fin 86400) = val (j₁.stamp k 0)) := by
  obtain ⟨elev, lat, lon, h1, h2, h3, q, rep, hd, hcol⟩ := written_daily j₁ hj₁ ho₁ hrun₁ hday hc₁
  have hi : 0 < 1440 / j₁.shared.ts := by rw [hday]; decide
  unfold dailyShortwave at hd
  simp only [bind_ok, pure_ok, Dict.get_ok] at hd
  obtain ⟨sw, e1, dl, e2, rfl⟩ := hd
  refine ⟨elev, lat, lon, h1, h2, h3, q, sw, dl, e1, e2, ?_, ?_⟩
  · intro v hv hu val hval
    obtain ⟨col, w, a1, a2, a3⟩ := hcol v.1 v.2 hu
    have hne : "shortwave" ≠ v.1 := by
      clear hu hval hcol a1 a2 a3
      revert v; decide
    rw [Dict.get?_set_ne _ _ hne] at a1
    refine ⟨col, a1, fun k hk => ?_⟩
    have b := a3 k hk
    rw [recorded_unique j₁ hj₁ a2 hval hk hi] at b
    simp only [List.mem_cons, List.not_mem_nil, or_false] at hv
    rcases hv with rfl | rfl | rfl <;> exact Except.ok.inj b
  · intro hu val hval k hk
    obtain ⟨col, w, a1, a2, a3⟩ := hcol _ _ hu
    rw [Dict.get?_set_self] at a1
    cases a1
    have b := a3 k hk
    rw [recorded_unique j₁ hj₁ a2 hval hk hi] at b
    have b := Except.ok.inj (show Except.ok _ = Except.ok _ from b)
    have hS : ((Cnst.SEC_PER_DAY : ℝ)) = 86400 := by unfold Cnst.SEC_PER_DAY; norm_num
    rw [← b, hS]
    rfl

theorem mean_energy (s l : Flt ℝ) : s * (l / fin 86400) * fin 86400 = s * l := by
  cases s with
  | nan => rfl
  | fin x =>
    cases l with
    | nan => rfl
    | fin y =>
      rw [div_fin_ne (show (86400 : ℝ) ≠ 0 by norm_num), mul_fin, mul_fin, mul_fin]
      congr 1
      field_simp

theorem mean_energy' (s l : Flt ℝ) : s * l / fin 86400 * fin 86400 = s * l := by
  cases s with
  | nan => rfl
  | fin x =>
    cases l with
    | nan => rfl
    | fin y =>
      rw [mul_fin, div_fin_ne (show (86400 : ℝ) ≠ 0 by norm_num), mul_fin]
      congr 1
      field_simp

/-- A run of `mtclim` with a step shorter than a day, a run of `mtclim` with a step of one day, and a run of `passthrough` with the shorter
step, in the same settings. -/
structure TwoStages (j j₁ j₂ : Job) (c c₁ c₂ : Run.Cell) : Prop where
  whole : j.shared.method = .mtclim
  step : j.shared.ts < 1440
  first : j₁.shared.method = .mtclim
  daily : j₁.shared.ts = 1440
  second : j₂.shared.method = .passthrough
  estimates : SameEstimates j.shared j₁.shared
  steps : SameSteps j.shared j₂.shared
  record : SameRecord j j₁ c c₁
  given : SecondStage j j₂ c c₂

theorem two_stages (hj : j.Sane) (hj₁ : j₁.Sane) (hj₂ : j₂.Sane) (h : TwoStages j j₁ j₂ c c₁ c₂)
    {fuel fuel₁ fuel₂ : Nat} {order order₁ order₂ : List (Dict String Chunk.Slice)} (ho : j.Schedule order) (ho₁ : j₁.Schedule order₁)
    (ho₂ : j₂.Schedule order₂) (hrun : j.run fuel order = .ok files) (hrun₁ : j₁.run fuel₁ order₁ = .ok files₁)
    (hrun₂ : j₂.run fuel₂ order₂ = .ok files₂) (hc : j.Computed c) (hc₁ : j₁.Computed c₁) (hc₂ : j₂.Computed c₂)
    (hvp : GivenFrom j₁ files₁ c₁ "vapor_pressure" "Pa" (j₂.inp c₂).data.frame)
    (htskc : GivenFrom j₁ files₁ c₁ "tskc" "fraction" (j₂.inp c₂).data.frame)
    (husw : j₁.shared.outVars.get? "shortwave" = some "W m-2") {b : Col} (hb : Dict.get? (j₂.inp c₂).data.frame "shortwave" = some b)
    {mean : ℚ → Flt ℝ} (hmean : Recorded j₁ files₁ "shortwave" c₁ mean)
    (hen : (j₂.shared.swAveraging ≠ "daylight" ∧ ∀ k < j₁.n, b k = mean (j₁.stamp k 0)) ∨
      (j₂.shared.swAveraging = "daylight" ∧ j₁.shared.outVars.get? "daylength" = some "s" ∧ ∃ len, Recorded j₁ files₁ "daylength" c₁ len ∧
        ∀ k < j₁.n, b k * len (j₁.stamp k 0) / fin 86400 = mean (j₁.stamp k 0)))
    {v u : String} (hu : j.shared.outVars.get? v = some u) (hu' : j₂.shared.outVars.get? v = some u)
    {val val₂ : ℚ → Flt ℝ} (hval : Recorded j files v c val) (hval₂ : Recorded j₂ files₂ v c₂ val₂)
    {k i : Nat} (hk : k < j.n) (hi : i < 1440 / j.shared.ts) : val (j.stamp k i) = val₂ (j₂.stamp k i) := by
  have place : ∀ {x y : ℝ} {a b : Flt ℝ}, a = b → a = fin x → b = fin y → x = y := fun e e1 e2 => Flt.fin.inj (e1.symm.trans (e.trans e2))
  have hts := h.steps.ts
  obtain ⟨elev, lat, lon, h1, h2, h3, q, daily, sub, hd, hsu, hcol⟩ := written_sub j hj ho hrun h.step hc
  obtain ⟨elev₂, lat₂, lon₂, h1₂, h2₂, h3₂, q₂, daily₂, sub₂, hd₂, hsu₂, hcol₂⟩ := written_sub j₂ hj₂ ho₂ hrun₂ (hts ▸ h.step) hc₂
  obtain ⟨elev₁, lat₁, lon₁, h1₁, h2₁, h3₁, q₁, sw, dl, g1, g2, g3, g4⟩ := daily_files hj₁ h.daily ho₁ hrun₁ hc₁
  obtain rfl := place h.record.elev h1 h1₁
  obtain rfl := place h.record.lat h2 h2₁
  obtain rfl := place h.record.lon h3 h3₁
  obtain rfl := place h.given.elev h1 h1₂
  obtain rfl := place h.given.lat h2 h2₂
  obtain rfl := place h.given.lon h3 h3₂
  have eb : q.base = q₁.base := estimates_same h.estimates h.whole h.first (h.record.doys hj hj₁) h.record.frame q q₁
  rw [← eb] at g1 g2 g3
  have hlen : (j.inp c).data.days.length = j₁.n := by rw [hj.data c, ← h.record.days]; simp [consecutive]
  have over : ∀ {v u : String}, (v, u) ∈ [("vapor_pressure", "Pa"), ("tskc", "fraction"), ("daylength", "s")] →
      GivenFrom j₁ files₁ c₁ v u (j₂.inp c₂).data.frame → AgreeOver (j.inp c).data.days.length q.base (j₂.inp c₂).data.frame v := by
    rintro v u hm ⟨a1, col, w, a2, a3, a4⟩
    obtain ⟨x, b1, b2⟩ := g3 (v, u) hm a1 w a3
    exact ⟨x, col, b1, a2, fun k hk => by rw [hlen] at hk; rw [b2 k hk, a4 k hk]⟩
  have henergy : ∀ k < (j.inp c).data.days.length,
      sw k * dl k = b k * (if j₂.shared.swAveraging = "daylight" then dl k else fin 86400) := by
    intro k hk
    rw [hlen] at hk
    have e := g4 husw mean hmean k hk
    rcases hen with ⟨n1, n2⟩ | ⟨n1, n2, len, n3, n4⟩
    · rw [if_neg n1, n2 k hk, ← e, mean_energy]
    · obtain ⟨x, b1, b2⟩ := g3 ("daylength", "s") (by decide) n2 len n3
      rw [show Dict.get? q.base "daylength" = some x from b1] at g2
      cases g2
      rw [if_pos n1, ← mean_energy, e, ← n4 k hk, ← b2 k hk, mean_energy']
  obtain ⟨eg, hdays, hvap, hprod⟩ := stages_core h.steps h.whole h.second (h.given.doys hj hj₂) h.given.frame q q₂ (over (by decide) hvp)
    (over (by decide) htskc) g1 g2 hb henergy hd hd₂
  rw [← eg, ← h.given.state] at hsu₂
  obtain ⟨col, w, a1, a2, a3⟩ := hcol v u hu
  obtain ⟨col', w', a1', a2', a3'⟩ := hcol₂ v u hu'
  have hcc : col = col' := by
    have := subColumn_products h.steps hdays hprod (v := v) (Or.inl hvap) hsu hsu₂
    rw [a1, a1'] at this
    exact Except.ok.inj this
  subst hcc
  have b1 := a3 k hk i hi
  have b2 := a3' k (h.given.days ▸ hk) i (hts ▸ hi)
  rw [recorded_unique j hj a2 hval hk hi] at b1
  rw [recorded_unique j₂ hj₂ a2' hval₂ (h.given.days ▸ hk) (hts ▸ hi), ← hts, b1] at b2
  exact Except.ok.inj b2

end files

/-- **C124**: daily values estimated by `mtclim`, written to files and spread over the day by `passthrough` in a later run, give the files
one run of `mtclim` gives. -/
theorem C124_stages (j j₁ j₂ : Job) (hj : j.Sane) (hj₁ : j₁.Sane) (hj₂ : j₂.Sane) (c c₁ c₂ : Run.Cell) (h : TwoStages j j₁ j₂ c c₁ c₂)
    (hav : j₂.shared.swAveraging ≠ "daylight") (fuel fuel₁ fuel₂ : Nat) (order order₁ order₂ : List (Dict String Chunk.Slice))
    (ho : j.Schedule order) (ho₁ : j₁.Schedule order₁) (ho₂ : j₂.Schedule order₂) (files files₁ files₂ : Run.Files Output)
    (hrun : j.run fuel order = .ok files) (hrun₁ : j₁.run fuel₁ order₁ = .ok files₁) (hrun₂ : j₂.run fuel₂ order₂ = .ok files₂)
    (hc : j.Computed c) (hc₁ : j₁.Computed c₁) (hc₂ : j₂.Computed c₂)
    (hgiven : ∀ v ∈ [("shortwave", "W m-2"), ("vapor_pressure", "Pa"), ("tskc", "fraction")],
      GivenFrom j₁ files₁ c₁ v.1 v.2 (j₂.inp c₂).data.frame)
    (v u : String) (hu : j.shared.outVars.get? v = some u) (hu' : j₂.shared.outVars.get? v = some u)
    (val val₂ : ℚ → Flt ℝ) (hval : Recorded j files v c val) (hval₂ : Recorded j₂ files₂ v c₂ val₂)
    (k i : Nat) (hk : k < j.n) (hi : i < 1440 / j.shared.ts) : val (j.stamp k i) = val₂ (j₂.stamp k i) := by
  obtain ⟨a1, b, mean, a2, a3, a4⟩ := hgiven ("shortwave", "W m-2") (by decide)
  exact two_stages hj hj₁ hj₂ h ho ho₁ ho₂ hrun hrun₁ hrun₂ hc hc₁ hc₂ (hgiven ("vapor_pressure", "Pa") (by decide))
    (hgiven ("tskc", "fraction") (by decide)) a1 a2 a3 (Or.inl ⟨hav, a4⟩) hu hu' hval hval₂ hk hi

/-- **C124**: so it is if the radiation given is the mean over daylight, of the same energy as the mean over the day in the files. -/
theorem C124_daylight (j j₁ j₂ : Job) (hj : j.Sane) (hj₁ : j₁.Sane) (hj₂ : j₂.Sane) (c c₁ c₂ : Run.Cell) (h : TwoStages j j₁ j₂ c c₁ c₂)
    (hav : j₂.shared.swAveraging = "daylight") (fuel fuel₁ fuel₂ : Nat) (order order₁ order₂ : List (Dict String Chunk.Slice))
    (ho : j.Schedule order) (ho₁ : j₁.Schedule order₁) (ho₂ : j₂.Schedule order₂) (files files₁ files₂ : Run.Files Output)
    (hrun : j.run fuel order = .ok files) (hrun₁ : j₁.run fuel₁ order₁ = .ok files₁) (hrun₂ : j₂.run fuel₂ order₂ = .ok files₂)
    (hc : j.Computed c) (hc₁ : j₁.Computed c₁) (hc₂ : j₂.Computed c₂)
    (hgiven : ∀ v ∈ [("vapor_pressure", "Pa"), ("tskc", "fraction")], GivenFrom j₁ files₁ c₁ v.1 v.2 (j₂.inp c₂).data.frame)
    (hus : j₁.shared.outVars.get? "shortwave" = some "W m-2") (hul : j₁.shared.outVars.get? "daylength" = some "s")
    (b : Col) (hb : Dict.get? (j₂.inp c₂).data.frame "shortwave" = some b) (mean len : ℚ → Flt ℝ)
    (hmean : Recorded j₁ files₁ "shortwave" c₁ mean) (hlen : Recorded j₁ files₁ "daylength" c₁ len)
    (hen : ∀ k < j₁.n, b k * len (j₁.stamp k 0) / fin 86400 = mean (j₁.stamp k 0))
    (v u : String) (hu : j.shared.outVars.get? v = some u) (hu' : j₂.shared.outVars.get? v = some u)
    (val val₂ : ℚ → Flt ℝ) (hval : Recorded j files v c val) (hval₂ : Recorded j₂ files₂ v c₂ val₂)
    (k i : Nat) (hk : k < j.n) (hi : i < 1440 / j.shared.ts) : val (j.stamp k i) = val₂ (j₂.stamp k i) :=
  two_stages hj hj₁ hj₂ h ho ho₁ ho₂ hrun hrun₁ hrun₂ hc hc₁ hc₂ (hgiven ("vapor_pressure", "Pa") (by decide))
    (hgiven ("tskc", "fraction") (by decide)) hus hb hmean (Or.inr ⟨hav, hul, len, hlen, hen⟩) hu hu' hval hval₂ hk hi

/-! ### Such runs -/

def estimatedVars : Dict String String := [("shortwave", "W m-2"), ("vapor_pressure", "Pa"), ("tskc", "fraction")]

/-- The first stage: daily values. -/
noncomputable def estimated : Job := { yearly with shared := { yearly.shared with outVars := estimatedVars } }

theorem estimated_sane : estimated.Sane :=
  { yearly_sane with
    vars := by show (Dict.keys estimatedVars).Nodup; decide
    names := by show ((Dict.keys estimatedVars).map id).Nodup; decide }

theorem estimated_runs : ∃ order fuel files, estimated.Schedule order ∧ estimated.run fuel order = .ok files := by
  refine ⟨[[("lat", none), ("lon", none)]], ?_⟩
  obtain ⟨fuel, h⟩ := C72_run estimated estimated_sane [[("lat", none), ("lon", none)]] ⟨_, rfl, List.Perm.refl _⟩
    { demo_params with } (fun c _ => { demo_complete .mtclim c with }) (fun c _ => demo_plausible c)
  obtain ⟨files, hf⟩ := (h 0).2 (fun c _ q hq => by
    have hq : q ∈ [("shortwave", "W m-2"), ("vapor_pressure", "Pa"), ("tskc", "fraction")] := hq
    unfold Offers
    rw [if_neg (show ¬ (estimated.shared.ts < 1440) from lt_irrefl 1440)]
    simp only [List.mem_cons, List.not_mem_nil, or_false] at hq
    rcases hq with rfl | rfl | rfl <;> exact ⟨Or.inl (by decide), _, _, rfl, rfl⟩)
  exact ⟨fuel, files, ⟨_, rfl, List.Perm.refl _⟩, hf⟩

/-- The second stage, given the daily values. -/
noncomputable def handedOn (sw vp tskc : Col) : Job :=
  { demo .passthrough with
    shared := { (demo .passthrough).shared with swAveraging := "" }
    inp := fun _ => ⟨fin 100, fin 45, fin (-120), ⟨consecutive 0 2,
      [("t_min", fun _ => fin 5), ("t_max", fun _ => fin 15), ("prec", fun _ => fin 24),
       ("dtr", fun _ => fin 10), ("smoothed_dtr", fun _ => fin 10), ("seasonal_prec", fun _ => fin 800),
       ("shortwave", sw), ("vapor_pressure", vp), ("tskc", tskc)], (fin 4, fin 14)⟩⟩ }

theorem handedOn_sane (sw vp tskc : Col) : (handedOn sw vp tskc).Sane :=
  { demo_sane .passthrough with data := fun _ => rfl }

theorem handedOn_complete (sw vp tskc : Col) (c : Run.Cell) : CompleteCell (handedOn sw vp tskc).shared 2 ((handedOn sw vp tskc).inp c) where
  place := (demo_complete .passthrough c).place
  lapse := (demo_complete .passthrough c).lapse
  columns := by
    intro k hk
    simp only [List.mem_cons, List.not_mem_nil, or_false] at hk
    rcases hk with rfl | rfl | rfl | rfl | rfl | rfl <;> simp [handedOn, Dict.get?_cons]
  radiation := fun _ => by simp [handedOn, Dict.get?_cons]
  tMin := fun col h i _ => by
    simp (decide := true) only [handedOn, Dict.get?_cons, if_true, if_false, Option.some.injEq] at h
    subst h; exact ⟨5, rfl⟩
  tMax := fun col h i _ => by
    simp (decide := true) only [handedOn, Dict.get?_cons, if_true, if_false, Option.some.injEq] at h
    subst h; exact ⟨15, rfl⟩
  state := ⟨4, 14, rfl⟩
  fraction := (demo_complete .passthrough c).fraction
  lwType := (demo_complete .passthrough c).lwType
  lwCloud := (demo_complete .passthrough c).lwCloud
  storm := (demo_complete .passthrough c).storm

theorem handedOn_runs (sw vp tskc : Col) :
    ∃ order files, (handedOn sw vp tskc).Schedule order ∧ (handedOn sw vp tskc).run 0 order = .ok files := by
  obtain ⟨files, h⟩ := (C71_run (handedOn sw vp tskc) (handedOn_sane _ _ _) 0 [[("lat", none), ("lon", none)]]
    ⟨_, rfl, List.Perm.refl _⟩ (fun c _ => handedOn_complete _ _ _ c) (fun h => by cases h)).2
    (fun c _ => demo_offers (by show (720 : Nat) < 1440; decide) _)
  exact ⟨_, files, ⟨_, rfl, List.Perm.refl _⟩, h⟩

/-- **C124**: there are such runs. -/
example : ∃ (order order₁ order₂ : _) (fuel fuel₁ : Nat) (files files₁ files₂ : _) (sw vp tskc : Col),
    (demo .mtclim).Schedule order ∧ (demo .mtclim).run fuel order = .ok files ∧
    estimated.Schedule order₁ ∧ estimated.run fuel₁ order₁ = .ok files₁ ∧
    (handedOn sw vp tskc).Schedule order₂ ∧ (handedOn sw vp tskc).run 0 order₂ = .ok files₂ ∧
    TwoStages (demo .mtclim) estimated (handedOn sw vp tskc) [0, 0] [0, 0] [0, 0] ∧
    (∀ v ∈ estimatedVars, GivenFrom estimated files₁ [0, 0] v.1 v.2 ((handedOn sw vp tskc).inp [0, 0]).data.frame) := by
  obtain ⟨order, fuel, files, ho, hrun⟩ := demo_mtclim_runs
  obtain ⟨order₁, fuel₁, files₁, ho₁, hrun₁⟩ := estimated_runs
  have hc : estimated.Computed [0, 0] := ⟨by show _ ∈ gridCells [("lat", 1), ("lon", 2)]; decide, 1, rfl, one_pos⟩
  obtain ⟨elev, lat, lon, -, -, -, q, rep, -, hcol⟩ := written_daily estimated estimated_sane ho₁ hrun₁ rfl hc
  obtain ⟨-, w1, -, r1, -⟩ := hcol "shortwave" "W m-2" rfl
  obtain ⟨-, w2, -, r2, -⟩ := hcol "vapor_pressure" "Pa" rfl
  obtain ⟨-, w3, -, r3, -⟩ := hcol "tskc" "fraction" rfl
  let sw : Col := fun k => w1 (estimated.stamp k 0)
  let vp : Col := fun k => w2 (estimated.stamp k 0)
  let tskc : Col := fun k => w3 (estimated.stamp k 0)
  obtain ⟨order₂, files₂, ho₂, hrun₂⟩ := handedOn_runs sw vp tskc
  refine ⟨order, order₁, order₂, fuel, fuel₁, files, files₁, files₂, sw, vp, tskc, ho, hrun, ho₁, hrun₁, ho₂, hrun₂, ?_, ?_⟩
  · exact ⟨rfl, by show (720 : Nat) < 1440; decide, rfl, rfl, rfl, ⟨rfl, rfl, rfl, rfl, rfl, rfl⟩, ⟨rfl, rfl, rfl, rfl, rfl, rfl, rfl, rfl⟩,
      ⟨rfl, fun _ _ => rfl, rfl, rfl, rfl, rfl, rfl⟩, ⟨rfl, fun _ _ => rfl, rfl, rfl, rfl, fun v hv => by
        simp only [List.mem_cons, List.not_mem_nil, or_false] at hv
        rcases hv with rfl | rfl | rfl | rfl | rfl | rfl | rfl <;> rfl, rfl⟩⟩
  · intro v hv
    simp only [estimatedVars, List.mem_cons, List.not_mem_nil, or_false] at hv
    rcases hv with rfl | rfl | rfl
    · exact ⟨rfl, sw, w1, rfl, r1, fun _ _ => rfl⟩
    · exact ⟨rfl, vp, w2, rfl, r2, fun _ _ => rfl⟩
    · exact ⟨rfl, tskc, w3, rfl, r3, fun _ _ => rfl⟩

end Verif.Props
