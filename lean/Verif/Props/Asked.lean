import Verif.Props.Dependence

/-!
# What a run is asked to write

The variables asked for, their units, names and files, the stamps' end of the step and the year decide how and where values are
written, not what is computed.
-/

namespace Verif.Props

open Flt Cell Methods Disaggregate Np

/-- The settings agree in all that is to count for the values: they may differ in the calendar of the files, in the end of the step the
stamps stand for, and in the variables asked for and their units. -/
structure SameCalc (s s' : Shared) : Prop where
  method : s.method = s'.method
  ts : s.ts = s'.ts
  utcOffset : s.utcOffset = s'.utcOffset
  swAveraging : s.swAveraging = s'.swAveraging
  precType : s.precType = s'.precType
  lwType : s.lwType = s'.lwType
  lwCloud : s.lwCloud = s'.lwCloud
  thetaS : s.thetaS = s'.thetaS
  tmaxFraction : s.tmaxFraction = s'.tmaxFraction
  tdayCoef : s.tdayCoef = s'.tdayCoef
  swPrecThresh : s.swPrecThresh = s'.swPrecThresh
  rainScalar : s.rainScalar = s'.rainScalar
  lapseRate : s.lapseRate = s'.lapseRate
  tdewTol : s.tdewTol = s'.tdewTol

theorem SameCalc.daily {s s' : Shared} (h : SameCalc s s') (elev : ℝ) : s.daily elev = s'.daily elev := by
  unfold Shared.daily
  rw [h.tdayCoef, h.swPrecThresh, h.rainScalar, h.lapseRate, h.tdewTol, h.lwCloud]

theorem geomRows_doy {geom : List Solar.DayGeom} {days days' : List Int} (h : days.map doy = days'.map doy) :
    geomRows geom days = geomRows geom days' := by
  have e : ∀ l : List Int, geomRows geom l = (l.map doy).mapM fun k => match geom[k - 1]? with
      | some g => .ok g
      | none => .error .indexError := fun l => by
    unfold geomRows
    rw [List.mapM_map]
    rfl
  rw [e, e, h]

theorem common_same {fuel fuel' : Nat} {s s' : Shared} {elev lat lon : ℝ} {d d' : Data} (hs : SameCalc s s')
    (hdoy : d.days.map doy = d'.days.map doy) (hframe : d.frame = d'.frame) (q : Cell.Common fuel s elev lat lon d)
    (q' : Cell.Common fuel' s' elev lat lon d') : q.geom = q'.geom ∧ q.base = q'.base := by
  have hlen : d.days.length = d'.days.length := by simpa using congrArg List.length hdoy
  have hg : q.geom = q'.geom := by
    have := q'.h_geom
    rw [← hs.lapseRate] at this
    exact Except.ok.inj (q.h_geom.symm.trans this)
  have hr : q.rows = q'.rows := by
    have := q'.h_rows
    rw [← hg, ← geomRows_doy hdoy] at this
    exact Except.ok.inj (q.h_rows.symm.trans this)
  refine ⟨hg, ?_⟩
  have h1 := q.h_base
  have h2 := q'.h_base
  rw [← hs.method, ← hr, ← hframe, ← hs.daily, ← hlen] at h2
  cases hm : s.method with
  | passthrough =>
    rw [hm] at h1 h2
    exact Except.ok.inj (h1.symm.trans h2)
  | mtclim =>
    rw [hm] at h1 h2
    exact mtclim_rounds (runMethod_mtclim h1) (runMethod_mtclim h2)

/-- The same columns, whatever the stamps. -/
theorem subColumn_same {daily : Disaggregate.Daily} {s s' : Shared} (hs : SameCalc s s') {elev lon : ℝ} {geom : List Solar.DayGeom}
    {tb te : Option (List (Flt ℝ))} {sub sub' : Disaggregate.Sub} (h : disaggregate daily (s.sub elev lon) geom tb te = .ok sub)
    (h' : disaggregate daily (s'.sub elev lon) geom tb te = .ok sub') (v : String) : subColumn sub v = subColumn sub' v := by
  obtain ⟨m, t1, cal, pe, u, sa, pt, lt, lc, th, tf, tc, st, rs, lr, tt, ov⟩ := s
  obtain ⟨m', t1', cal', pe', u', sa', pt', lt', lc', th', tf', tc', st', rs', lr', tt', ov'⟩ := s'
  obtain ⟨e1, e2, e3, e4, e5, e6, e7, e8, e9, e10, e11, e12, e13, e14⟩ := hs
  simp only at e1 e2 e3 e4 e5 e6 e7 e8 e9 e10 e11 e12 e13 e14
  subst e1 e2 e3 e4 e5 e6 e7 e8 e9 e10 e11 e12 e13 e14
  obtain ⟨t, rfl⟩ := disaggregate_ok.1 h
  obtain ⟨t', rfl⟩ := disaggregate_ok.1 h'
  have a1 : t.sw = t'.sw := Except.ok.inj (t.h_sw.symm.trans t'.h_sw)
  have a2 : t.times = t'.times := Except.ok.inj (t.h_times.symm.trans t'.h_times)
  have a3 : t.temp = t'.temp := by
    have := t'.h_temp
    rw [← a2] at this
    exact Except.ok.inj (t.h_temp.symm.trans this)
  have a4 : t.vp = t'.vp := by
    have := t'.h_vp
    rw [← a2, ← a3] at this
    exact Except.ok.inj (t.h_vp.symm.trans this)
  have a5 : t.cloud = t'.cloud := Except.ok.inj (t.h_cloud.symm.trans t'.h_cloud)
  have a6 : t.lw = t'.lw := by
    have := t'.h_lw
    rw [← a3, ← a4, ← a5] at this
    exact Except.ok.inj (t.h_lw.symm.trans this)
  have a7 : t.prec = t'.prec := Except.ok.inj (t.h_prec.symm.trans t'.h_prec)
  have a8 : t.wind = t'.wind := Except.ok.inj (t.h_wind.symm.trans t'.h_wind)
  have b1 : t.airPressure = t'.airPressure := by unfold Trace.airPressure; rw [a3]; rfl
  have b2 : t.relHumid = t'.relHumid := by unfold Trace.relHumid; rw [a3, a4]
  have b3 : t.specHumid = t'.specHumid := by unfold Trace.specHumid; rw [b1, a4]
  unfold subColumn Trace.sub
  simp only [a1, a3, a4, a5, a6, a7, a8, b1, b2, b3]

/-- Two cells with the same place and the same record, dated to days of the same number in the year. -/
structure SameRecord (j j' : Job) (c c' : Run.Cell) : Prop where
  days : j.n = j'.n
  doy : ∀ k < j.n, doy (j.d0 + k) = doy (j'.d0 + k)
  elev : (j.inp c).elev = (j'.inp c').elev
  lat : (j.inp c).lat = (j'.inp c').lat
  lon : (j.inp c).lon = (j'.inp c').lon
  frame : (j.inp c).data.frame = (j'.inp c').data.frame
  state : (j.inp c).data.stateEnd = (j'.inp c').data.stateEnd

theorem SameRecord.doys {j j' : Job} {c c' : Run.Cell} (h : SameRecord j j' c c') (hj : j.Sane) (hj' : j'.Sane) :
    (j.inp c).data.days.map Cell.doy = (j'.inp c').data.days.map Cell.doy := by
  rw [hj.data c, hj'.data c', ← h.days]
  simp only [consecutive, List.map_map]
  exact List.map_congr_left fun k hk => h.doy k (List.mem_range.1 hk)

/-- **C115**: two runs that differ in what they are asked to write, and in the year, write the same quantities. -/
theorem C115_asked (j j' : Job) (hj : j.Sane) (hj' : j'.Sane) (hs : SameCalc j.shared j'.shared)
    (fuel fuel' : Nat) (order order' : List (Dict String Chunk.Slice)) (ho : j.Schedule order) (ho' : j'.Schedule order')
    (files files' : Run.Files Output) (hrun : j.run fuel order = .ok files) (hrun' : j'.run fuel' order' = .ok files')
    (c c' : Run.Cell) (hc : j.Computed c) (hc' : j'.Computed c') (hr : SameRecord j j' c c') (v u u' : String)
    (hu : j.shared.outVars.get? v = some u) (hu' : j'.shared.outVars.get? v = some u')
    (val val' : ℚ → Flt ℝ) (hval : Recorded j files v c val) (hval' : Recorded j' files' v c' val')
    (k i : Nat) (hk : k < j.n) (hi : i < 1440 / j.shared.ts) :
    ∃ x, Units.convert v u x j.shared.ts = .ok (val (j.stamp k i)) ∧ Units.convert v u' x j.shared.ts = .ok (val' (j'.stamp k i)) := by
  have hts := hs.ts
  have place : ∀ {x y : ℝ} {a b : Flt ℝ}, a = b → a = fin x → b = fin y → x = y := fun e e1 e2 => Flt.fin.inj (e1.symm.trans (e.trans e2))
  by_cases hsub : j.shared.ts < 1440
  · obtain ⟨elev, lat, lon, h1, h2, h3, q, daily, sub, hd, hsu, hcol⟩ := written_sub j hj ho hrun hsub hc
    obtain ⟨elev', lat', lon', h1', h2', h3', q', daily', sub', hd', hsu', hcol'⟩ := written_sub j' hj' ho' hrun' (hts ▸ hsub) hc'
    obtain rfl := place hr.elev h1 h1'
    obtain rfl := place hr.lat h2 h2'
    obtain rfl := place hr.lon h3 h3'
    obtain ⟨eg, eb⟩ := common_same hs (hr.doys hj hj') hr.frame q q'
    have hdd : daily = daily' := by
      have hlen : (j.inp c).data.days.length = (j'.inp c').data.days.length := by simpa using congrArg List.length (hr.doys hj hj')
      rw [← eb] at hd'
      unfold dailyOf at hd hd'
      rw [← hr.doys hj hj', ← hlen] at hd'
      exact Except.ok.inj (hd.symm.trans hd')
    subst hdd
    rw [← eg, ← hr.state] at hsu'
    obtain ⟨col, w, a1, a2, a3⟩ := hcol v u hu
    obtain ⟨col', w', a1', a2', a3'⟩ := hcol' v u' hu'
    have hcc : col = col' := by
      have := subColumn_same hs hsu hsu' v
      rw [a1, a1'] at this
      exact Except.ok.inj this
    subst hcc
    have b1 := a3 k hk i hi
    have b2 := a3' k (hr.days ▸ hk) i (hts ▸ hi)
    rw [recorded_unique j hj a2 hval hk hi] at b1
    rw [recorded_unique j' hj' a2' hval' (hr.days ▸ hk) (hts ▸ hi), ← hts] at b2
    exact ⟨_, b1, b2⟩
  · have hday : j.shared.ts = 1440 := by
      have := Nat.le_of_dvd (by decide) hj.step.2
      omega
    obtain ⟨elev, lat, lon, h1, h2, h3, q, rep, hd, hcol⟩ := written_daily j hj ho hrun hday hc
    obtain ⟨elev', lat', lon', h1', h2', h3', q', rep', hd', hcol'⟩ := written_daily j' hj' ho' hrun' (hts ▸ hday) hc'
    obtain rfl := place hr.elev h1 h1'
    obtain rfl := place hr.lat h2 h2'
    obtain rfl := place hr.lon h3 h3'
    obtain ⟨eg, eb⟩ := common_same hs (hr.doys hj hj') hr.frame q q'
    rw [← eb] at hd'
    have hrep : rep = rep' := Except.ok.inj (hd.symm.trans hd')
    subst hrep
    obtain ⟨col, w, a1, a2, a3⟩ := hcol v u hu
    obtain ⟨col', w', a1', a2', a3'⟩ := hcol' v u' hu'
    rw [a1] at a1'
    cases a1'
    have hi0 : i = 0 := by rw [hday] at hi; omega
    subst hi0
    have b1 := a3 k hk
    have b2 := a3' k (hr.days ▸ hk)
    rw [recorded_unique j hj a2 hval hk hi] at b1
    rw [recorded_unique j' hj' a2' hval' (hr.days ▸ hk) (hts ▸ hi), ← hts] at b2
    exact ⟨_, b1, b2⟩

/-- **C115**: in the same unit, the same values. -/
theorem C115_same_unit (j j' : Job) (hj : j.Sane) (hj' : j'.Sane) (hs : SameCalc j.shared j'.shared)
    (fuel fuel' : Nat) (order order' : List (Dict String Chunk.Slice)) (ho : j.Schedule order) (ho' : j'.Schedule order')
    (files files' : Run.Files Output) (hrun : j.run fuel order = .ok files) (hrun' : j'.run fuel' order' = .ok files')
    (c c' : Run.Cell) (hc : j.Computed c) (hc' : j'.Computed c') (hr : SameRecord j j' c c') (v u : String)
    (hu : j.shared.outVars.get? v = some u) (hu' : j'.shared.outVars.get? v = some u)
    (val val' : ℚ → Flt ℝ) (hval : Recorded j files v c val) (hval' : Recorded j' files' v c' val')
    (k i : Nat) (hk : k < j.n) (hi : i < 1440 / j.shared.ts) : val (j.stamp k i) = val' (j'.stamp k i) := by
  obtain ⟨x, e, e'⟩ := C115_asked j j' hj hj' hs fuel fuel' order order' ho ho' files files' hrun hrun' c c' hc hc' hr v u u hu hu' val val'
    hval hval' k i hk hi
  exact Except.ok.inj (e.symm.trans e')

/-! ### Which days have the same number -/

theorem years_between {y y' : Int} {M : Nat} (h : ∀ m : Nat, m < M → Cal.leap (y + m) = Cal.leap (y' + m)) :
    ∀ m : Nat, m ≤ M → Cal.daysBeforeYear (y + m) - Cal.daysBeforeYear y = Cal.daysBeforeYear (y' + m) - Cal.daysBeforeYear y'
  | 0, _ => by simp
  | m + 1, hm => by
    have ih := years_between h m (by omega)
    have hl := h m (by omega)
    have e1 := Cal.daysBeforeYear_succ (y + m)
    have e2 := Cal.daysBeforeYear_succ (y' + m)
    have e3 : Cal.yearLen (y + m) = Cal.yearLen (y' + m) := by unfold Cal.yearLen; rw [hl]
    push_cast
    rw [← add_assoc, ← add_assoc, e1, e2, e3]
    omega

/-- Day after day the same numbers, as long as the years are of the same lengths. -/
theorem dayOfYear_years {a a' : Int} (h0 : Cal.dayOfYear a = Cal.dayOfYear a') {k : Nat}
    (h : ∀ m : Nat, Cal.yearOf a + m ≤ Cal.yearOf (a + k) → Cal.leap (Cal.yearOf a + m) = Cal.leap (Cal.yearOf a' + m)) :
    Cal.dayOfYear (a + k) = Cal.dayOfYear (a' + k) := by
  obtain ⟨b1, b2⟩ := Cal.yearOf_spec a
  obtain ⟨c1, c2⟩ := Cal.yearOf_spec (a + k)
  have hle : Cal.yearOf a ≤ Cal.yearOf (a + k) := by
    by_contra hlt
    have := Cal.daysBeforeYear_mono (show Cal.yearOf (a + k) + 1 ≤ Cal.yearOf a by omega)
    omega
  obtain ⟨M, hM⟩ := Int.le.dest hle
  have hy := years_between (y := Cal.yearOf a) (y' := Cal.yearOf a') (M := M + 1) (fun m hm => h m (by omega))
  have e1 := hy M (by omega)
  have e2 := hy (M + 1) (by omega)
  unfold Cal.dayOfYear at h0
  push_cast at e2
  rw [← add_assoc, ← add_assoc, hM] at e2
  rw [hM] at e1
  have : Cal.yearOf (a' + k) = Cal.yearOf a' + M := Cal.yearOf_unique (by omega) (by omega)
  unfold Cal.dayOfYear
  rw [this]
  omega

/-- The calendar begins anew after 400 years. -/
theorem leap_400 (y m : Int) : Cal.leap (y + 400 * m) = Cal.leap y := by
  rw [Bool.eq_iff_iff, Cal.leap_iff, Cal.leap_iff]
  omega

/-- **C115**: the same record at another time: the first days have the same number in their years, and the years are of the same lengths
as far as the run goes. -/
theorem C115_year (j j' : Job) (hj : j.Sane) (hj' : j'.Sane) (hs : SameCalc j.shared j'.shared)
    (fuel fuel' : Nat) (order order' : List (Dict String Chunk.Slice)) (ho : j.Schedule order) (ho' : j'.Schedule order')
    (files files' : Run.Files Output) (hrun : j.run fuel order = .ok files) (hrun' : j'.run fuel' order' = .ok files')
    (c c' : Run.Cell) (hc : j.Computed c) (hc' : j'.Computed c') (hn : j.n = j'.n)
    (hfirst : Cal.dayOfYear (j.d0 + 730120) = Cal.dayOfYear (j'.d0 + 730120))
    (hyears : ∀ m : Nat, Cal.yearOf (j.d0 + 730120) + m ≤ Cal.yearOf (j.d0 + 730120 + (j.n - 1 : Nat)) →
      Cal.leap (Cal.yearOf (j.d0 + 730120) + m) = Cal.leap (Cal.yearOf (j'.d0 + 730120) + m))
    (helev : (j.inp c).elev = (j'.inp c').elev) (hlat : (j.inp c).lat = (j'.inp c').lat) (hlon : (j.inp c).lon = (j'.inp c').lon)
    (hframe : (j.inp c).data.frame = (j'.inp c').data.frame) (hstate : (j.inp c).data.stateEnd = (j'.inp c').data.stateEnd)
    (v u : String) (hu : j.shared.outVars.get? v = some u) (hu' : j'.shared.outVars.get? v = some u)
    (val val' : ℚ → Flt ℝ) (hval : Recorded j files v c val) (hval' : Recorded j' files' v c' val')
    (k i : Nat) (hk : k < j.n) (hi : i < 1440 / j.shared.ts) : val (j.stamp k i) = val' (j'.stamp k i) := by
  refine C115_same_unit j j' hj hj' hs fuel fuel' order order' ho ho' files files' hrun hrun' c c' hc hc'
    ⟨hn, fun l hl => ?_, helev, hlat, hlon, hframe, hstate⟩ v u hu hu' val val' hval hval' k i hk hi
  unfold Cell.doy
  have := dayOfYear_years (a := j.d0 + 730120) (a' := j'.d0 + 730120) hfirst (k := l) fun m hm => hyears m (hm.trans ?_)
  · rw [show j.d0 + (l : Int) + 730120 = j.d0 + 730120 + l by ring, show j'.d0 + (l : Int) + 730120 = j'.d0 + 730120 + l by ring, this]
  · by_contra hlt
    have h1 := Cal.yearOf_spec (j.d0 + 730120 + (l : Int))
    have h2 := Cal.yearOf_spec (j.d0 + 730120 + ((j.n - 1 : Nat) : Int))
    have := Cal.daysBeforeYear_mono (show Cal.yearOf (j.d0 + 730120 + ((j.n - 1 : Nat) : Int)) + 1 ≤ Cal.yearOf (j.d0 + 730120 + (l : Int)) by omega)
    omega

/-! ### There are such runs -/

/-- The run of the example at another time, writing other things. -/
noncomputable def asked (d0 : Int) (vars : Dict String String) : Job :=
  { demo .passthrough with
    shared := { (demo .passthrough).shared with outVars := vars, periodEnding := true }
    d0 := d0
    inp := fun c => { (demo .passthrough).inp c with data := { ((demo .passthrough).inp c).data with days := consecutive d0 2 } } }

theorem asked_sane : (asked 1461 [("temp", "C")]).Sane where
  step := (demo_sane .passthrough).step
  pos := (demo_sane .passthrough).pos
  calendar := regular_standard _ _
  data := fun _ => rfl
  freq := (demo_sane .passthrough).freq
  years := by
    intro T h t ht
    have e : Times.outputTimes (asked 1461 [("temp", "C")]).shared.cfg (consecutive 1461 2) = .ok [2104560, 2105280, 2106000, 2106720] := by
      show Times.outputTimes ⟨720, "standard", true⟩ (consecutive 1461 2) = _
      decide +kernel
    have h' : Times.outputTimes (asked 1461 [("temp", "C")]).shared.cfg (consecutive 1461 2) = .ok T := h
    rw [e] at h'
    injection h' with h'
    subst h'
    revert t
    decide +kernel
  vars := by unfold asked Dict.keys; decide
  names := by unfold asked Dict.keys; decide
  dims := (demo_sane .passthrough).dims
  dims_pos := (demo_sane .passthrough).dims_pos
  chunks := (demo_sane .passthrough).chunks
  chunks_pos := (demo_sane .passthrough).chunks_pos
  same := (demo_sane .passthrough).same

theorem asked_complete (c : Run.Cell) : CompleteCell (asked 1461 [("temp", "C")]).shared 2 ((asked 1461 [("temp", "C")]).inp c) where
  place := (demo_complete .passthrough c).place
  lapse := (demo_complete .passthrough c).lapse
  columns := (demo_complete .passthrough c).columns
  radiation := (demo_complete .passthrough c).radiation
  tMin := (demo_complete .passthrough c).tMin
  tMax := (demo_complete .passthrough c).tMax
  state := (demo_complete .passthrough c).state
  fraction := (demo_complete .passthrough c).fraction
  lwType := (demo_complete .passthrough c).lwType
  lwCloud := (demo_complete .passthrough c).lwCloud
  storm := (demo_complete .passthrough c).storm

theorem asked_runs : ∃ order files, (asked 1461 [("temp", "C")]).Schedule order ∧ (asked 1461 [("temp", "C")]).run 0 order = .ok files := by
  obtain ⟨files, h⟩ := (C71_run (asked 1461 [("temp", "C")]) asked_sane 0 [[("lat", none), ("lon", none)]]
    ⟨_, rfl, List.Perm.refl _⟩ (fun c _ => asked_complete c) (fun h => by cases h)).2 (fun c _ => by
      intro q hq
      have hq : q ∈ [("temp", "C")] := hq
      simp only [List.mem_cons, List.not_mem_nil, or_false] at hq
      subst hq
      unfold Offers
      rw [if_pos (by show (720 : Nat) < 1440; decide)]
      exact ⟨Or.inl (by decide), _, _, rfl, rfl⟩)
  exact ⟨_, files, ⟨_, rfl, List.Perm.refl _⟩, h⟩

/-- **C115**: the run of 2000 in Kelvin and that of 2004 in Celsius, with stamps at the end of the steps. -/
example : (demo .passthrough).Sane ∧ (asked 1461 [("temp", "C")]).Sane ∧
    SameCalc (demo .passthrough).shared (asked 1461 [("temp", "C")]).shared ∧
    (demo .passthrough).Computed [0, 0] ∧ (asked 1461 [("temp", "C")]).Computed [0, 0] ∧
    SameRecord (demo .passthrough) (asked 1461 [("temp", "C")]) [0, 0] [0, 0] ∧
    (demo .passthrough).shared.outVars.get? "temp" = some "K" ∧ (asked 1461 [("temp", "C")]).shared.outVars.get? "temp" = some "C" ∧
    (∃ order files, (demo .passthrough).Schedule order ∧ (demo .passthrough).run 0 order = .ok files) ∧
    ∃ order files, (asked 1461 [("temp", "C")]).Schedule order ∧ (asked 1461 [("temp", "C")]).run 0 order = .ok files := by
  refine ⟨demo_sane _, asked_sane, ⟨rfl, rfl, rfl, rfl, rfl, rfl, rfl, rfl, rfl, rfl, rfl, rfl, rfl, rfl⟩,
    ⟨by show _ ∈ gridCells [("lat", 1), ("lon", 2)]; decide, 1, rfl, one_pos⟩,
    ⟨by show _ ∈ gridCells [("lat", 1), ("lon", 2)]; decide, 1, rfl, one_pos⟩,
    ⟨rfl, ?_, rfl, rfl, rfl, rfl, rfl⟩, rfl, rfl, demo_runs, asked_runs⟩
  show ∀ k < 2, doy (0 + (k : Nat)) = doy (1461 + (k : Nat))
  decide +kernel

/-- **C115**: the years 2001 to 2003 and 2401 to 2403 are of the same lengths. -/
example : ∀ m : Nat, Cal.leap (2001 + m) = Cal.leap (2401 + m) := fun m => by
  have := leap_400 (2001 + m) 1
  rw [← this]
  congr 1
  ring

end Verif.Props
