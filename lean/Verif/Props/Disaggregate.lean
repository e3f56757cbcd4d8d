import Verif.Model.Disaggregate
import Verif.Model.Units
import Verif.Spec.UnitMeaning
import Verif.Lemmas.Fill
import Verif.Props.Humidity
import Verif.Props.Temp
import Verif.Props.Prec
import Verif.Props.Shortwave

/-!
# The sub-daily frame
-/

set_option linter.unusedSectionVars false

namespace Verif.Props

open Flt Np Verif.Disaggregate Verif.Physics Verif.Solar

theorem column_ok {n : Nat} {xs ys : List (Flt ℝ)} : column n xs = .ok ys ↔ xs.length = n ∧ ys = xs := by
  unfold column
  by_cases h : xs.length = n
  · rw [if_pos h]; exact ⟨fun e => ⟨h, (Except.ok.inj e).symm⟩, fun e => by rw [e.2]⟩
  · rw [if_neg h]; exact ⟨fun e => (by cases e), fun e => absurd e.1 h⟩

/-- The parameters of `set_min_max_hour`. -/
noncomputable def hours (p : Par) : Disagg.HourParams ℝ :=
  ⟨p.ts, p.utcOffset, Disagg.remainder360 p.lon, p.thetaS, p.tmaxFraction⟩

/-- Everything computed on the way to a sub-daily frame. -/
structure Trace (d : Daily) (p : Par) (geom : List DayGeom) (tb te : Option (List (Flt ℝ))) where
  sw : List (Flt ℝ)
  times : List (ℝ × ℝ)
  temp : List ℝ
  vp : List (Flt ℝ)
  cloud : List (Flt ℝ)
  lw : List (Flt ℝ)
  prec : List (Flt ℝ)
  wind : Option (List (Flt ℝ))
  ts_ne : p.ts ≠ 0
  h_sw : Disagg.shortwave d.shortwave (daylengthOf d p) d.doy
    (geom.map fun g => (List.range Disagg.slotsPerDay).map g.fract) p.ts p.utcOffset (Disagg.remainder360 p.lon) = .ok sw
  l_sw : sw.length = nDisagg d.doy.length p.ts
  h_times : Disagg.setMinMaxHour (hours p) (geom.map (·.fract)) (d.doy.map (· - 1)) = .ok times
  h_temp : Interp.temp d.tMin d.tMax (nDisagg d.doy.length p.ts) times p.ts tb te = .ok temp
  h_vp : Humidity.vaporPressure d.vaporPressure (temp.map fin) (times.map (·.1)) (nDisagg d.doy.length p.ts) p.ts = .ok vp
  h_cloud : Disagg.tskc d.tskc p.ts p.utcOffset (Disagg.remainder360 p.lon) = .ok cloud
  l_cloud : cloud.length = nDisagg d.doy.length p.ts
  h_lw : Humidity.longwave (temp.map fin) (fillBoth vp) cloud p.lwType p.lwCloud p.ts d.longwave = .ok lw
  h_prec : Disagg.prec d.prec d.tMin p.ts p.precType p.utcOffset (Disagg.remainder360 p.lon) d.tPk d.dur = .ok prec
  l_prec : prec.length = nDisagg d.doy.length p.ts
  h_wind : windOf (nDisagg d.doy.length p.ts) (Disagg.remainder360 p.lon) d p = .ok wind

namespace Trace

variable {d : Daily} {p : Par} {geom : List DayGeom} {tb te : Option (List (Flt ℝ))}

noncomputable def relHumid (t : Trace d p geom tb te) : List (Flt ℝ) :=
  List.zipWith Humidity.relativeHumidity (fillBoth t.vp) (t.temp.map fin)
noncomputable def airPressure (t : Trace d p geom tb te) : List (Flt ℝ) :=
  (t.temp.map fin).map fun x => Humidity.pressure x p.elev p.lapseRate
noncomputable def specHumid (t : Trace d p geom tb te) : List (Flt ℝ) :=
  List.zipWith Humidity.specificHumidity (fillBoth t.vp) t.airPressure

/-- The frame. -/
noncomputable def sub (t : Trace d p geom tb te) : Sub where
  time := (List.range (nDisagg d.doy.length p.ts)).map fun (i : Nat) => p.ts * i + if p.periodEnding then p.ts else 0
  shortwave := fillBoth t.sw
  temp := fillBoth (t.temp.map fin)
  vaporPressure := fillBoth (fillBoth t.vp)
  relHumid := fillBoth t.relHumid
  airPressure := fillBoth t.airPressure
  specHumid := fillBoth t.specHumid
  tskc := fillBoth t.cloud
  longwave := fillBoth t.lw
  prec := fillBoth t.prec
  wind := t.wind.map fillBoth

end Trace

theorem disaggregate_ok {d : Daily} {p : Par} {geom : List DayGeom} {tb te : Option (List (Flt ℝ))} {s : Sub} :
    disaggregate d p geom tb te = .ok s ↔ ∃ t : Trace d p geom tb te, s = t.sub := by
  constructor
  · intro h
    unfold disaggregate at h
    simp only at h
    split at h
    · cases h
    rename_i hts
    simp only [bind_ok, pure_ok, column_ok] at h
    obtain ⟨_, h1, sw, ⟨l1, rfl⟩, times, h2, temp, h3, vp, h4, _, h5, cl, ⟨l5, rfl⟩, lw, h6, _, h7, pr, ⟨l7, rfl⟩,
      w, h8, rfl⟩ := h
    exact ⟨⟨sw, times, temp, vp, cl, lw, pr, w, hts, h1, l1, h2, h3, h4, h5, l5, h6, h7, l7, h8⟩, rfl⟩
  · rintro ⟨⟨sw, times, temp, vp, cl, lw, pr, w, hts, h1, l1, h2, h3, h4, h5, l5, h6, h7, l7, h8⟩, rfl⟩
    unfold disaggregate
    simp only
    rw [if_neg hts]
    simp only [bind_ok, pure_ok, column_ok]
    exact ⟨sw, h1, _, ⟨l1, rfl⟩, times, h2, temp, h3, vp, h4, cl, h5, _, ⟨l5, rfl⟩, lw, h6, pr, h7, _, ⟨l7, rfl⟩,
      w, h8, rfl⟩


/-! ### C62: no gaps -/

/-- **C62**: each column is the series computed for it with the gaps filled, so that it has no gaps unless nothing of
it is defined. -/
theorem C62_columns {d : Daily} {p : Par} {geom : List DayGeom} {tb te : Option (List (Flt ℝ))} {s : Sub}
    (h : disaggregate d p geom tb te = .ok s) :
    ∃ (sw temp vp cloud lw prec : List (Flt ℝ)) (wind : Option (List (Flt ℝ))) (times : List (ℝ × ℝ)) (T : List ℝ),
      Disagg.shortwave d.shortwave (daylengthOf d p) d.doy
        (geom.map fun g => (List.range 2880).map g.fract) p.ts p.utcOffset (Disagg.remainder360 p.lon) = .ok sw ∧
      Disagg.setMinMaxHour (hours p) (geom.map (·.fract)) (d.doy.map (· - 1)) = .ok times ∧
      Interp.temp d.tMin d.tMax (d.doy.length * 1440 / p.ts) times p.ts tb te = .ok T ∧ temp = T.map fin ∧
      Humidity.vaporPressure d.vaporPressure temp (times.map (·.1)) (d.doy.length * 1440 / p.ts) p.ts = .ok vp ∧
      Disagg.tskc d.tskc p.ts p.utcOffset (Disagg.remainder360 p.lon) = .ok cloud ∧
      Humidity.longwave temp s.vaporPressure cloud p.lwType p.lwCloud p.ts d.longwave = .ok lw ∧
      Disagg.prec d.prec d.tMin p.ts p.precType p.utcOffset (Disagg.remainder360 p.lon) d.tPk d.dur = .ok prec ∧
      (∀ w, d.wind = some w → ∃ o, Disagg.wind w p.ts p.utcOffset (Disagg.remainder360 p.lon) = .ok o ∧ wind = some o) ∧
      (d.wind = none → wind = none) ∧
      Spec.Filled sw s.shortwave ∧ s.temp = temp ∧ Spec.Filled vp s.vaporPressure ∧ Spec.Filled cloud s.tskc ∧
      Spec.Filled lw s.longwave ∧ Spec.Filled prec s.prec ∧
      Spec.Filled (List.zipWith Humidity.relativeHumidity s.vaporPressure s.temp) s.relHumid ∧
      Spec.Filled (s.temp.map fun t => Humidity.pressure t p.elev p.lapseRate) s.airPressure ∧
      Spec.Filled (List.zipWith Humidity.specificHumidity s.vaporPressure
        (s.temp.map fun t => Humidity.pressure t p.elev p.lapseRate)) s.specHumid ∧
      (wind.isSome = s.wind.isSome ∧ ∀ w o, wind = some w → s.wind = some o → Spec.Filled w o) := by
  obtain ⟨t, rfl⟩ := disaggregate_ok.1 h
  have hT : fillBoth (t.temp.map fin) = t.temp.map fin := fillBoth_of_fin (by
    intro x hx
    obtain ⟨y, -, rfl⟩ := List.mem_map.1 hx
    rfl)
  have hV : fillBoth (fillBoth t.vp) = fillBoth t.vp := fillBoth_idem _
  refine ⟨t.sw, t.temp.map fin, t.vp, t.cloud, t.lw, t.prec, t.wind, t.times, t.temp, t.h_sw, t.h_times, t.h_temp, rfl,
    t.h_vp, t.h_cloud, ?_, t.h_prec, ?_, ?_, fillBoth_filled _, hT, ?_, fillBoth_filled _, fillBoth_filled _,
    fillBoth_filled _, ?_, ?_, ?_, ?_, ?_⟩
  · show Humidity.longwave _ (fillBoth (fillBoth t.vp)) _ _ _ _ _ = _
    rw [hV]; exact t.h_lw
  · intro w hw
    have := t.h_wind
    unfold windOf at this
    rw [hw] at this
    simp only [bind_ok, pure_ok, column_ok] at this
    obtain ⟨o, h1, o', ⟨-, rfl⟩, h2⟩ := this
    exact ⟨_, h1, h2.symm⟩
  · intro hw
    have := t.h_wind
    unfold windOf at this
    rw [hw] at this
    exact (Except.ok.inj this).symm
  · show Spec.Filled t.vp (fillBoth (fillBoth t.vp))
    rw [hV]; exact fillBoth_filled _
  · show Spec.Filled (List.zipWith _ (fillBoth (fillBoth t.vp)) (fillBoth (t.temp.map fin))) (fillBoth t.relHumid)
    rw [hV, hT]; exact fillBoth_filled _
  · show Spec.Filled ((fillBoth (t.temp.map fin)).map _) (fillBoth t.airPressure)
    rw [hT]; exact fillBoth_filled _
  · show Spec.Filled (List.zipWith _ (fillBoth (fillBoth t.vp)) ((fillBoth (t.temp.map fin)).map _)) (fillBoth t.specHumid)
    rw [hV, hT]; exact fillBoth_filled _
  · show t.wind.isSome = (t.wind.map fillBoth).isSome
    cases t.wind <;> rfl
  · intro w o hw ho
    have ho' : t.wind.map fillBoth = some o := ho
    rw [hw] at ho'
    rw [← Option.some.inj ho']
    exact fillBoth_filled _

/-- **C62**: a gap in the middle, at the beginning, and nothing defined. -/
example : fillBoth [nan, fin 1, nan, nan, fin (2 : ℚ), nan] = [fin 1, fin 1, fin 1, fin 1, fin 2, fin 2] := by decide +kernel
example : fillBoth [nan, (nan : Flt ℚ)] = [nan, nan] := by decide +kernel

/-! ### C69: completeness -/

/-- Input that `disaggregate` can work on. -/
structure Usable (d : Daily) (p : Par) : Prop where
  ts : p.ts ∣ 1440
  ne : d.doy ≠ []
  doy : ∀ x ∈ d.doy, x ≤ 366
  frac : 0 < p.tmaxFraction
  frac1 : p.tmaxFraction ≤ 1
  shortwave : d.shortwave.length = d.doy.length
  daylength : d.daylength.length = d.doy.length
  tMin : d.tMin.length = d.doy.length
  tMax : d.tMax.length = d.doy.length
  vaporPressure : d.vaporPressure.length = d.doy.length
  tskc : d.tskc.length = d.doy.length
  prec : d.prec.length = d.doy.length
  wind : ∀ w, d.wind = some w → w.length = d.doy.length
  longwave : ∀ w, d.longwave = some w → w.length = d.doy.length
  tMin_fin : ∀ v ∈ d.tMin, isFin v = true
  tMax_fin : ∀ v ∈ d.tMax, isFin v = true
  lwType : ∃ ty, Lw.lwTypeOf p.lwType = .ok ty
  lwCloud : ∃ cl, Lw.cloudOf p.lwCloud = .ok cl
  storm : Lw.upperS p.precType = "TRIANGLE" ∨ Lw.upperS p.precType = "MIX" → d.tPk.isSome ∧ d.dur.isSome

theorem wind_total (xs : List (Flt ℝ)) {ts : Nat} (hts : ts ∣ 1440) (utc : Bool) (lon : ℝ) :
    ∃ out, Disagg.wind xs ts utc lon = .ok out ∧ out.length = xs.length * 1440 / ts := by
  have hts0 : 0 < ts := Nat.pos_of_dvd_of_pos hts (by norm_num)
  unfold Disagg.wind
  simp only
  have hl : (if utc then roll (repeatEach xs Cnst.MIN_PER_DAY) (-Disagg.offsetMin lon)
      else repeatEach xs Cnst.MIN_PER_DAY).length = xs.length * 1440 := by
    split <;> simp only [length_roll, length_repeatEach] <;> rfl
  rw [reshape_ok.2 ⟨hts0, by rw [hl]; exact Dvd.dvd.mul_left hts _, rfl⟩]
  refine ⟨_, rfl, ?_⟩
  rw [List.length_map, length_rows, hl]

theorem prec_total (P tMin : List (Flt ℝ)) {ts : Nat} (hts : ts ∣ 1440) (ptype : String) (utc : Bool) (lon : ℝ)
    (tPk dur : Option (List (Flt ℝ)))
    (h : Lw.upperS ptype = "TRIANGLE" ∨ Lw.upperS ptype = "MIX" → tPk.isSome ∧ dur.isSome) :
    ∃ out, Disagg.prec P tMin ts ptype utc lon tPk dur = .ok out ∧ out.length = P.length * 1440 / ts := by
  have hts0 : 0 < ts := Nat.pos_of_dvd_of_pos hts (by norm_num)
  obtain ⟨m, hm, hml⟩ : ∃ m, Disagg.precMinutes P tMin ptype tPk dur = .ok m ∧ m.length = P.length * 1440 := by
    unfold Disagg.precMinutes
    by_cases hc : Lw.upperS ptype = "TRIANGLE" ∨ Lw.upperS ptype = "MIX"
    · rw [if_pos hc]
      obtain ⟨h1, h2⟩ := h hc
      obtain ⟨a, rfl⟩ := Option.isSome_iff_exists.1 h1
      obtain ⟨b, rfl⟩ := Option.isSome_iff_exists.1 h2
      unfold Disagg.precTriangle
      obtain ⟨days, hd⟩ := mapM_total (f := fun i =>
        Disagg.triangleDay (decide (Lw.upperS ptype = "MIX")) (P.getD i nan) (tMin.getD i nan)
          ((some a).map fun l => l.getD i nan) ((some b).map fun l => l.getD i nan)) (xs := List.range P.length) (by
        intro i _
        unfold Disagg.triangleDay
        simp only [Option.map_some]
        split
        · exact ⟨_, rfl⟩
        · exact ⟨_, rfl⟩)
      rw [hd]
      refine ⟨_, rfl, ?_⟩
      obtain ⟨hl, hy⟩ := mapM_ok hd
      rw [length_flatten_const 1440 days, hl, List.length_range]
      intro day hday
      obtain ⟨i, -, hi⟩ := hy day hday
      exact triangleDay_length hi
    · rw [if_neg hc]
      refine ⟨_, rfl, ?_⟩
      unfold Disagg.precUniform
      rw [length_repeatEach, List.length_map]; rfl
  unfold Disagg.prec
  rw [hm]
  simp only [bind, Except.bind, pure, Except.pure]
  have hl : (if utc then roll m (-Disagg.offsetMin lon) else m).length = P.length * 1440 := by
    split <;> simp only [length_roll, hml]
  rw [reshape_ok.2 ⟨hts0, by rw [hl]; exact Dvd.dvd.mul_left hts _, rfl⟩]
  refine ⟨_, rfl, ?_⟩
  rw [List.length_map, length_rows, hl]

theorem shortwave_length {sw dl : List (Flt ℝ)} {doy : List Nat} {table : List (List ℝ)} {ts : Nat} {utc : Bool}
    {lon : ℝ} {out : List (Flt ℝ)} (hl : dl.length = sw.length)
    (h : Disagg.shortwave sw dl doy table ts utc lon = .ok out) (hts : ts ∣ 1440) :
    out.length = sw.length * 1440 / ts := by
  obtain ⟨hts0, days, rfl, h1, h2⟩ := shortwave_inv hl h
  rw [length_flatten_const (1440 / ts) days, h1, Nat.mul_div_assoc _ hts]
  intro day hday
  obtain ⟨i, hi, rfl⟩ := List.getElem_of_mem hday
  obtain ⟨-, Z, hZ, hZ', -⟩ := h2 i _ (List.getElem?_eq_getElem hi)
  rw [hZ', List.length_map, length_rows, hZ, show 2880 = 2 * 1440 from rfl, Nat.mul_div_mul_left _ _ (by norm_num)]

theorem scaleDaily_total {lw daily : List (Flt ℝ)} {ts n : Nat} (hts : ts ∣ 1440) (hl : lw.length = n * 1440 / ts)
    (hd : daily.length = n) : ∃ out, Humidity.scaleDaily lw daily ts = .ok out ∧ out.length = lw.length := by
  have hts0 : 0 < ts := Nat.pos_of_dvd_of_pos hts (by norm_num)
  have hl' : lw.length = n * (1440 / ts) := by rw [hl, Nat.mul_div_assoc _ hts]
  have hw : 0 < 1440 / ts := Nat.div_pos (Nat.le_of_dvd (by norm_num) hts) hts0
  have hrl : (rows lw (1440 / ts)).length = n := by rw [length_rows, hl', Nat.mul_div_cancel _ hw]
  unfold Humidity.scaleDaily
  rw [if_neg hts0.ne']
  have e : Cnst.HOURS_PER_DAY * Cnst.MIN_PER_HOUR / ts = 1440 / ts := rfl
  simp only
  rw [e, reshape_ok.2 ⟨hw, by rw [hl']; exact Dvd.intro_left _ rfl, rfl⟩]
  simp only [bind, Except.bind, pure, Except.pure]
  rw [if_neg (by rw [hrl, hd]; simp)]
  have hf : (repeatEach (List.zipWith (· / ·) daily ((rows lw (1440 / ts)).map mean)) (1440 / ts)).length = lw.length := by
    rw [length_repeatEach, List.length_zipWith, List.length_map, hrl, hd, min_self, hl']
  rw [if_neg (by rw [hf]; simp)]
  exact ⟨_, rfl, by rw [List.length_zipWith, hf, min_self]⟩

theorem longwave_total {temp vp tskc : List (Flt ℝ)} {lwType lwCloud : String} {ts n : Nat}
    {daily : Option (List (Flt ℝ))} (h1 : ∃ ty, Lw.lwTypeOf lwType = .ok ty) (h2 : ∃ cl, Lw.cloudOf lwCloud = .ok cl)
    (hts : ts ∣ 1440) (l1 : temp.length = n * 1440 / ts) (l2 : vp.length = n * 1440 / ts)
    (l3 : tskc.length = n * 1440 / ts) (l4 : ∀ w, daily = some w → w.length = n) :
    ∃ out, Humidity.longwave temp vp tskc lwType lwCloud ts daily = .ok out ∧ out.length = n * 1440 / ts := by
  obtain ⟨ty, h1⟩ := h1
  obtain ⟨cl, h2⟩ := h2
  unfold Humidity.longwave
  rw [h1, h2]
  simp only [bind, Except.bind, pure, Except.pure]
  rw [if_neg (by rw [l1, l2, l3]; simp)]
  have hl : (List.zipWith (fun (a : Flt ℝ × Flt ℝ) c => Humidity.lwElem ty cl a.1 a.2 c) (temp.zip vp) tskc).length =
      n * 1440 / ts := by rw [List.length_zipWith, List.length_zip, l1, l2, l3]; simp
  cases daily with
  | none => exact ⟨_, rfl, hl⟩
  | some w =>
    obtain ⟨out, ho, hol⟩ := scaleDaily_total hts hl (l4 w rfl)
    exact ⟨out, ho, by rw [hol, hl]⟩

theorem vaporPressure_total {vpDaily temp : List (Flt ℝ)} {tTmin : List ℝ} {n : Nat} (ts : Nat)
    (h1 : tTmin.length = vpDaily.length) (h2 : temp.length = n) :
    ∃ out, Humidity.vaporPressure vpDaily temp tTmin n ts = .ok out ∧ out.length = n := by
  unfold Humidity.vaporPressure
  rw [if_neg (by simp [h1])]
  simp only [bind, Except.bind, pure, Except.pure]
  rw [if_neg (by simp [h2])]
  exact ⟨_, rfl, by rw [List.length_zipWith, List.length_map, List.length_range, h2, min_self]⟩

theorem daylengthOf_length (d : Daily) (p : Par) : (daylengthOf d p).length = d.daylength.length := by
  unfold daylengthOf
  split
  · rw [List.length_map]
  · rfl

/-- **C69**: at every place, for every usable input, there is a sub-daily frame, with one entry per step in each
column, at the right times. -/
theorem C69_total (elev lat lr : ℝ) (hlat : |lat| ≤ 90) (geom : List DayGeom) (hg : solarGeom elev lat lr = .ok geom)
    (d : Daily) (p : Par) (hu : Usable d p) (tb te : Option (ℝ × ℝ)) :
    ∃ s, disaggregate d p geom (tb.map fun q => [fin q.1, fin q.2]) (te.map fun q => [fin q.1, fin q.2]) = .ok s ∧
      (∀ n, n * p.ts = d.doy.length * 1440 →
      s.time.length = n ∧ (∀ i < n, s.time[i]? = some (p.ts * i + if p.periodEnding then p.ts else 0)) ∧
      s.shortwave.length = n ∧ s.temp.length = n ∧ s.vaporPressure.length = n ∧ s.relHumid.length = n ∧
      s.airPressure.length = n ∧ s.specHumid.length = n ∧ s.tskc.length = n ∧ s.longwave.length = n ∧
      s.prec.length = n ∧ (s.wind.isSome = d.wind.isSome) ∧ ∀ w, s.wind = some w → w.length = n) := by
  have hts0 : 0 < p.ts := Nat.pos_of_dvd_of_pos hu.ts (by norm_num)
  have hN : nDisagg d.doy.length p.ts = d.doy.length * 1440 / p.ts := rfl
  have hgl : geom.length = 366 := by
    obtain ⟨-, -, hrl, -⟩ := solarGeom_ok hg
    exact hrl
  -- shortwave
  have hdl : (daylengthOf d p).length = d.shortwave.length := by rw [daylengthOf_length, hu.daylength, hu.shortwave]
  obtain ⟨sw, hsw⟩ := shortwave_total (sw := d.shortwave) (dl := daylengthOf d p) (doy := d.doy)
    (table := geom.map fun g => (List.range Disagg.slotsPerDay).map g.fract) (ts := p.ts) p.utcOffset
    (Disagg.remainder360 p.lon) hdl hu.ts
    (by
      intro r hr
      obtain ⟨g, -, rfl⟩ := List.mem_map.1 hr
      rw [List.length_map, List.length_range]; rfl)
    (by
      intro k hk
      rw [hu.shortwave] at hk
      rw [List.length_map, hgl, List.getD_eq_getElem?_getD, List.getElem?_eq_getElem hk, Option.getD_some]
      have := hu.doy _ (List.getElem_mem hk)
      omega)
  have lsw := shortwave_length hdl hsw hu.ts
  rw [hu.shortwave] at lsw
  -- temperature
  obtain ⟨times, htimes, ltimes, htemp⟩ := C54_accepted elev lat lr hlat geom hg (hours p) hu.frac hu.frac1
    (d.doy.map (· - 1)) (by
      intro x hx
      obtain ⟨y, hy, rfl⟩ := List.mem_map.1 hx
      have := hu.doy y hy
      omega) (by simpa using hu.ne)
  rw [List.length_map] at ltimes
  obtain ⟨T, hT, lT⟩ := htemp d.tMin d.tMax (nDisagg d.doy.length p.ts) (by rw [List.length_map]; exact hu.tMin)
    (by rw [List.length_map]; exact hu.tMax) hu.tMin_fin hu.tMax_fin tb te
  -- vapour pressure
  obtain ⟨V, hV, lV⟩ := vaporPressure_total (vpDaily := d.vaporPressure) (temp := T.map fin) (tTmin := times.map (·.1))
    (n := nDisagg d.doy.length p.ts) p.ts (by rw [List.length_map, ltimes, hu.vaporPressure])
    (by rw [List.length_map, lT])
  -- cloud
  obtain ⟨C, hC, lC⟩ := wind_total d.tskc hu.ts p.utcOffset (Disagg.remainder360 p.lon)
  rw [hu.tskc] at lC
  obtain ⟨L, hL, lL⟩ := longwave_total (temp := T.map fin) (vp := fillBoth V) (tskc := C) (ts := p.ts)
    (n := d.doy.length) (daily := d.longwave) hu.lwType hu.lwCloud hu.ts (by rw [List.length_map, lT, hN])
    (by rw [length_fillBoth, lV, hN]) lC hu.longwave
  obtain ⟨P, hP, lP⟩ := prec_total d.prec d.tMin hu.ts p.precType p.utcOffset (Disagg.remainder360 p.lon) d.tPk d.dur
    hu.storm
  rw [hu.prec] at lP
  obtain ⟨W, hW, lW, lW'⟩ : ∃ W, windOf (nDisagg d.doy.length p.ts) (Disagg.remainder360 p.lon) d p = .ok W ∧
      W.isSome = d.wind.isSome ∧ ∀ w, W = some w → w.length = nDisagg d.doy.length p.ts := by
    unfold windOf
    cases hw : d.wind with
    | none => exact ⟨none, rfl, rfl, fun w h => by cases h⟩
    | some w =>
      obtain ⟨o, ho, lo⟩ := wind_total w hu.ts p.utcOffset (Disagg.remainder360 p.lon)
      rw [hu.wind w hw] at lo
      refine ⟨some o, ?_, rfl, fun w' h => by rw [← Option.some.inj h, lo, hN]⟩
      simp only [bind_ok, pure_ok, column_ok]
      exact ⟨o, ho, o, ⟨lo, rfl⟩, rfl⟩
  let t : Trace d p geom (tb.map fun q => [fin q.1, fin q.2]) (te.map fun q => [fin q.1, fin q.2]) :=
    ⟨sw, times, T, V, C, L, P, W, hts0.ne', hsw, lsw, htimes, hT, hV, hC, lC, hL, hP, lP, hW⟩
  refine ⟨t.sub, disaggregate_ok.2 ⟨t, rfl⟩, fun n hn => ?_⟩
  have hn' : d.doy.length * 1440 / p.ts = n := by rw [← hn, Nat.mul_div_cancel _ hts0]
  rw [hN, hn'] at lT lV lW'
  rw [hn'] at lsw lC lL lP
  have lA : t.airPressure.length = n := by
    show ((T.map fin).map _).length = n
    rw [List.length_map, List.length_map, lT]
  refine ⟨?_, ?_, ?_, ?_, ?_, ?_, ?_, ?_, ?_, ?_, ?_, ?_, ?_⟩
  · show ((List.range (nDisagg d.doy.length p.ts)).map _).length = n
    rw [List.length_map, List.length_range, hN, hn']
  · intro i hi
    show ((List.range (nDisagg d.doy.length p.ts)).map _)[i]? = _
    rw [List.getElem?_map, List.getElem?_range (by rw [hN, hn']; exact hi)]; rfl
  · show (fillBoth sw).length = n
    rw [length_fillBoth, lsw]
  · show (fillBoth (T.map fin)).length = n
    rw [length_fillBoth, List.length_map, lT]
  · show (fillBoth (fillBoth V)).length = n
    rw [length_fillBoth, length_fillBoth, lV]
  · show (fillBoth (List.zipWith _ (fillBoth V) (T.map fin))).length = n
    rw [length_fillBoth, List.length_zipWith, length_fillBoth, List.length_map, lT, lV, min_self]
  · show (fillBoth t.airPressure).length = n
    rw [length_fillBoth, lA]
  · show (fillBoth (List.zipWith _ (fillBoth V) t.airPressure)).length = n
    rw [length_fillBoth, List.length_zipWith, length_fillBoth, lA, lV, min_self]
  · show (fillBoth C).length = n
    rw [length_fillBoth, lC]
  · show (fillBoth L).length = n
    rw [length_fillBoth, lL]
  · show (fillBoth P).length = n
    rw [length_fillBoth, lP]
  · show (W.map fillBoth).isSome = _
    rw [Option.isSome_map, lW]
  · intro w hw
    have hw' : W.map fillBoth = some w := hw
    obtain ⟨w0, h0, rfl⟩ := Option.map_eq_some_iff.1 hw'
    rw [length_fillBoth, lW' w0 h0]


/-! ### C64, C56: vapour pressure -/

theorem vaporPressure_ok {vpDaily temp : List (Flt ℝ)} {tTmin : List ℝ} {n ts : Nat} {out : List (Flt ℝ)}
    (h : Humidity.vaporPressure vpDaily temp tTmin n ts = .ok out) :
    tTmin.length = vpDaily.length ∧ temp.length = n ∧ out.length = n ∧ ∀ (i : Nat) x, temp[i]? = some x →
      out[i]? = some (Humidity.capAtSaturation (Interp.linear (fun j => tTmin.getD j 0)
        (fun j => vpDaily.getD j nan / fin 1000) vpDaily.length ((ts : ℝ) * (i : ℝ))) x) := by
  have e5 : (Cnst.MBAR_PER_BAR : ℝ) = 1000.0 := rfl
  unfold Humidity.vaporPressure at h
  simp only at h
  split at h
  · cases h
  rename_i h1
  split at h
  · cases h
  rename_i h2
  push Not at h1 h2
  obtain rfl := Except.ok.inj h
  refine ⟨h1, h2, by rw [List.length_zipWith, List.length_map, List.length_range, h2, min_self], fun i x hx => ?_⟩
  have hi := (List.getElem?_eq_some_iff.1 hx).1
  rw [List.getElem?_zipWith, List.getElem?_map, List.getElem?_range (by omega), hx, e5]
  norm_num

theorem cap_fin {v T : ℝ} (hT : -237.3 < T) :
    Humidity.capAtSaturation (fin v) (fin T) = fin (min v (svpR T / 1000)) := by
  have e5 : (Cnst.MBAR_PER_BAR : ℝ) = 1000 := by unfold Cnst.MBAR_PER_BAR; norm_num
  unfold Humidity.capAtSaturation
  rw [svp_fin (by linarith), e5, div_fin_ne (by norm_num)]
  simp only [lt_fin, decide_eq_true_eq]
  split
  · rename_i h; rw [min_eq_right h.le]
  · rename_i h; rw [min_eq_left (by push Not at h; exact h)]

theorem cap_nan (x : Flt ℝ) : Humidity.capAtSaturation nan x = nan := by
  unfold Humidity.capAtSaturation
  simp

theorem cap_of_fin {v : Flt ℝ} {T w : ℝ} (h : Humidity.capAtSaturation v (fin T) = fin w) : ∃ x, v = fin x := by
  cases v with
  | nan => rw [cap_nan] at h; cases h
  | fin x => exact ⟨x, rfl⟩

section
variable {d : Daily} {p : Par} {geom : List DayGeom} {tb te : Option (List (Flt ℝ))}

/-- The times of the minima increase. -/
theorem tmin_lt {elev lat lr : ℝ} (hlat : |lat| ≤ 90) (hg : solarGeom elev lat lr = .ok geom) (hu : Usable d p)
    (t : Trace d p geom tb te) : t.times.length = d.doy.length ∧
      ∀ a b, a < b → b < d.doy.length → (t.times.map (·.1)).getD a 0 < (t.times.map (·.1)).getD b 0 := by
  obtain ⟨hl, h2⟩ := setMinMaxHour_inDays (geom_rows hlat hg) (p := hours p) hu.frac hu.frac1 t.h_times
  rw [List.length_map] at hl
  refine ⟨hl, fun a b hab hb => ?_⟩
  have ha' := List.getElem?_eq_getElem (show a < t.times.length by omega)
  have hb' := List.getElem?_eq_getElem (show b < t.times.length by omega)
  obtain ⟨-, -, -, -, a1, a2, a3⟩ := h2 a _ ha'
  obtain ⟨-, -, -, -, b1, -, -⟩ := h2 b _ hb'
  rw [List.getD_eq_getElem?_getD, List.getD_eq_getElem?_getD, List.getElem?_map, List.getElem?_map, ha', hb']
  simp only [Option.map_some, Option.getD_some]
  have : (a : ℝ) + 1 ≤ b := by exact_mod_cast hab
  linarith

theorem getD_times {times : List (ℝ × ℝ)} {k : Nat} {q : ℝ × ℝ} (h : times[k]? = some q) :
    (times.map (·.1)).getD k 0 = q.1 := by
  rw [List.getD_eq_getElem?_getD, List.getElem?_map, h]; rfl

theorem getD_vp {vs : List (Flt ℝ)} {k : Nat} {a : ℝ} (h : vs[k]? = some (fin a)) :
    (vs.getD k nan / fin 1000 : Flt ℝ) = fin (a / 1000) := by
  rw [List.getD_eq_getElem?_getD, h, Option.getD_some, div_fin_ne (by norm_num)]

theorem temp_fill (t : Trace d p geom tb te) : t.sub.temp = t.temp.map fin := fillBoth_of_fin (by
  intro x hx
  obtain ⟨y, -, rfl⟩ := List.mem_map.1 hx
  rfl)

theorem vp_fill (t : Trace d p geom tb te) : t.sub.vaporPressure = fillBoth t.vp := fillBoth_idem _

/-- A step between the minima of two days. -/
theorem vp_between {elev lat lr : ℝ} (hlat : |lat| ≤ 90) (hg : solarGeom elev lat lr = .ok geom) (hu : Usable d p)
    (t : Trace d p geom tb te) {k i : Nat} {q q' : ℝ × ℝ} {a b T : ℝ} (hq : t.times[k]? = some q)
    (hq' : t.times[k + 1]? = some q') (ha : d.vaporPressure[k]? = some (fin a))
    (hb : d.vaporPressure[k + 1]? = some (fin b)) (h0 : q.1 ≤ (p.ts : ℝ) * i) (h1 : (p.ts : ℝ) * i ≤ q'.1)
    (hT : t.temp[i]? = some T) (hT0 : -237.3 < T) :
    t.vp[i]? = some (fin (min (a + (b - a) * (((p.ts : ℝ) * i - q.1) / (q'.1 - q.1))) (svpR T) / 1000)) := by
  obtain ⟨hl, hlt⟩ := tmin_lt hlat hg hu t
  obtain ⟨-, -, -, hv⟩ := vaporPressure_ok t.h_vp
  have hx : (t.temp.map (fin : ℝ → Flt ℝ))[i]? = some (fin T) := by rw [List.getElem?_map, hT]; rfl
  have hk := (List.getElem?_eq_some_iff.1 hq').1
  rw [hv i _ hx, Interp.linear_chord (j := k) (a := a / 1000) (b := b / 1000)]
  · simp only [getD_times hq, getD_times hq']
    rw [cap_fin hT0]
    congr 2
    rw [← min_div_div_right (by norm_num : (0 : ℝ) ≤ 1000)]
    congr 1
    ring
  · intro a b hab hb
    exact hlt a b hab (by rw [hu.vaporPressure] at hb; exact hb)
  · rw [hu.vaporPressure, ← hl]; exact hk
  · simp only [getD_times hq]; exact h0
  · simp only [getD_times hq']; exact h1
  · simp only [getD_vp ha]
  · simp only [getD_vp hb]

/-- A step with a value lies between the minima of two days, or at the minimum of the only day. -/
theorem vp_inside {elev lat lr : ℝ} (hlat : |lat| ≤ 90) (hg : solarGeom elev lat lr = .ok geom) (hu : Usable d p)
    (t : Trace d p geom tb te) {i : Nat} {v : ℝ} (hv : t.vp[i]? = some (fin v)) :
    ∃ T, t.temp[i]? = some T ∧ ((∃ (k : Nat) (q q' : ℝ × ℝ), t.times[k]? = some q ∧ t.times[k + 1]? = some q' ∧
      q.1 ≤ (p.ts : ℝ) * i ∧ (p.ts : ℝ) * i ≤ q'.1) ∨
      d.doy.length = 1 ∧ ∃ q a, t.times[0]? = some q ∧ q.1 = (p.ts : ℝ) * i ∧ d.vaporPressure[0]? = some (fin a) ∧
        (-237.3 < T → v = min a (svpR T) / 1000)) := by
  obtain ⟨hl, hlt⟩ := tmin_lt hlat hg hu t
  obtain ⟨-, l2, l3, h4⟩ := vaporPressure_ok t.h_vp
  have hi := (List.getElem?_eq_some_iff.1 hv).1
  rw [List.length_map] at l2
  obtain ⟨T, hT⟩ : ∃ T, t.temp[i]? = some T := ⟨_, List.getElem?_eq_getElem (show i < t.temp.length by omega)⟩
  have hx : (t.temp.map (fin : ℝ → Flt ℝ))[i]? = some (fin T) := by rw [List.getElem?_map, hT]; rfl
  have hc := h4 i _ hx
  rw [hv] at hc
  obtain ⟨w, hw⟩ := cap_of_fin (Option.some.inj hc).symm
  obtain ⟨n0, n1, n2⟩ := Interp.linear_fin hw
  refine ⟨T, hT, ?_⟩
  rw [hu.vaporPressure] at n0 n2
  by_cases h1 : d.doy.length = 1
  · right
    refine ⟨h1, ?_⟩
    have hq := List.getElem?_eq_getElem (show 0 < t.times.length by omega)
    rw [h1] at n2
    simp only [getD_times hq, Nat.sub_self] at n1 n2
    have heq := le_antisymm n1 n2
    have hdv : d.vaporPressure.length = 1 := by rw [hu.vaporPressure, h1]
    have hval : Interp.linear (fun j => (t.times.map (·.1)).getD j 0) (fun j => d.vaporPressure.getD j nan / fin 1000)
        d.vaporPressure.length ((p.ts : ℝ) * (i : ℝ)) = d.vaporPressure.getD 0 nan / fin 1000 := by
      unfold Interp.linear
      rw [hdv]
      simp only [getD_times hq, Nat.sub_self, Interp.knotBefore, List.range_zero, List.filter_nil, List.length_nil]
      rw [if_neg (by
        rintro (h | h | h)
        · omega
        · linarith
        · linarith), if_pos heq.symm]
    rw [hval] at hw
    have hvp := List.getElem?_eq_getElem (show 0 < d.vaporPressure.length by omega)
    cases hv0 : d.vaporPressure[0]'(by omega) with
    | nan =>
      rw [List.getD_eq_getElem?_getD, hvp, hv0] at hw
      simp at hw
    | fin a =>
      rw [hv0] at hvp
      refine ⟨_, a, hq, heq, hvp, fun hT0 => ?_⟩
      rw [hval, getD_vp hvp, cap_fin hT0] at hc
      rw [Flt.fin.inj (Option.some.inj hc), ← min_div_div_right (by norm_num : (0 : ℝ) ≤ 1000)]
  · left
    obtain ⟨k, hk, a, b⟩ := exists_segment (fun j => (t.times.map (·.1)).getD j 0) (d.doy.length - 2)
      ((p.ts : ℝ) * i) n1 (by rw [show d.doy.length - 2 + 1 = d.doy.length - 1 by omega]; exact n2)
    have hq := List.getElem?_eq_getElem (show k < t.times.length by omega)
    have hq' := List.getElem?_eq_getElem (show k + 1 < t.times.length by omega)
    simp only [getD_times hq, getD_times hq'] at a b
    exact ⟨k, _, _, hq, hq', a, b⟩

end


/-- **C64**, as stated: between the minima of two days the vapour pressure, in the unit of its metadata, is the daily
vapour pressure (Pa) interpolated between the two days, or saturation if that is less. -/
def C64_full : Prop :=
  ∀ (elev lat lr : ℝ) (geom : List DayGeom) (d : Daily) (p : Par) (tb te : Option (List (Flt ℝ))) (s : Sub)
    (times : List (ℝ × ℝ)) (k i : Nat) (q q' : ℝ × ℝ) (a b T sat : ℝ), |lat| ≤ 90 → solarGeom elev lat lr = .ok geom →
    Usable d p → disaggregate d p geom tb te = .ok s →
    Disagg.setMinMaxHour (hours p) (geom.map (·.fract)) (d.doy.map (· - 1)) = .ok times →
    times[k]? = some q → times[k + 1]? = some q' → d.vaporPressure[k]? = some (fin a) →
    d.vaporPressure[k + 1]? = some (fin b) → q.1 ≤ (p.ts : ℝ) * i → (p.ts : ℝ) * i ≤ q'.1 →
    s.temp[i]? = some (fin T) → -237.3 < T → svp (fin T) = fin sat →
    ∃ v u, s.vaporPressure[i]? = some (fin v) ∧ Dict.get? Units.importAttrs "vapor_pressure" = some u ∧
      Spec.si u (p.ts : ℝ) v = some (.pressure, min (a + (b - a) * (((p.ts : ℝ) * i - q.1) / (q'.1 - q.1))) sat)

/-- **C64**: what holds: the value is right if read in kPa.  (The metadata say Pa.) -/
theorem C64_kilopascal_partial
    (elev lat lr : ℝ) (geom : List DayGeom) (d : Daily) (p : Par) (tb te : Option (List (Flt ℝ))) (s : Sub)
    (times : List (ℝ × ℝ)) (k i : Nat) (q q' : ℝ × ℝ) (a b T sat : ℝ) (hlat : |lat| ≤ 90)
    (hg : solarGeom elev lat lr = .ok geom) (hu : Usable d p) (h : disaggregate d p geom tb te = .ok s)
    (ht : Disagg.setMinMaxHour (hours p) (geom.map (·.fract)) (d.doy.map (· - 1)) = .ok times)
    (hq : times[k]? = some q) (hq' : times[k + 1]? = some q') (ha : d.vaporPressure[k]? = some (fin a))
    (hb : d.vaporPressure[k + 1]? = some (fin b)) (h0 : q.1 ≤ (p.ts : ℝ) * i) (h1 : (p.ts : ℝ) * i ≤ q'.1)
    (hT : s.temp[i]? = some (fin T)) (hT0 : -237.3 < T) (hs : svp (fin T) = fin sat) :
    ∃ v, s.vaporPressure[i]? = some (fin v) ∧
      Spec.si "kPa" (p.ts : ℝ) v =
        some (.pressure, min (a + (b - a) * (((p.ts : ℝ) * i - q.1) / (q'.1 - q.1))) sat) := by
  obtain ⟨t, rfl⟩ := disaggregate_ok.1 h
  have : times = t.times := Except.ok.inj (ht.symm.trans t.h_times)
  subst this
  rw [temp_fill, List.getElem?_map] at hT
  obtain ⟨T', hT2, e⟩ := Option.map_eq_some_iff.1 hT
  obtain rfl := Flt.fin.inj e
  rw [svp_fin (by linarith)] at hs
  obtain rfl := Flt.fin.inj hs
  have hv := vp_between hlat hg hu t hq hq' ha hb h0 h1 hT2 hT0
  refine ⟨_, by rw [vp_fill]; exact fillBoth_keep hv, ?_⟩
  simp only [Spec.si]
  congr 2
  ring

/-- **C56**, as stated: vapour pressure (kPa) never exceeds saturation vapour pressure (Pa) at the temperature of the
same step. -/
def C56_full : Prop :=
  ∀ (elev lat lr : ℝ) (geom : List DayGeom) (d : Daily) (p : Par) (tb te : Option (List (Flt ℝ))) (s : Sub)
    (i : Nat) (v T sat : ℝ), |lat| ≤ 90 → solarGeom elev lat lr = .ok geom →
    Usable d p → disaggregate d p geom tb te = .ok s →
    s.vaporPressure[i]? = some (fin v) → s.temp[i]? = some (fin T) → -237.3 < T → svp (fin T) = fin sat →
    v * 1000 ≤ sat

theorem cap_le {v : Flt ℝ} {T w : ℝ} (hT : -237.3 < T) (h : Humidity.capAtSaturation v (fin T) = fin w) :
    w * 1000 ≤ svpR T := by
  obtain ⟨x, rfl⟩ := cap_of_fin h
  rw [cap_fin hT] at h
  rw [← Flt.fin.inj h]
  have := min_le_right x (svpR T / 1000)
  linarith

theorem raw_vp_le {d : Daily} {p : Par} {geom : List DayGeom} {tb te : Option (List (Flt ℝ))}
    (t : Trace d p geom tb te) {j : Nat} {v : ℝ} (hv : t.vp[j]? = some (fin v)) :
    ∃ T, t.temp[j]? = some T ∧ (-237.3 < T → v * 1000 ≤ svpR T) := by
  obtain ⟨-, l2, l3, h4⟩ := vaporPressure_ok t.h_vp
  have hi := (List.getElem?_eq_some_iff.1 hv).1
  rw [List.length_map] at l2
  obtain ⟨T, hT⟩ : ∃ T, t.temp[j]? = some T := ⟨_, List.getElem?_eq_getElem (show j < t.temp.length by omega)⟩
  have hx : (t.temp.map (fin : ℝ → Flt ℝ))[j]? = some (fin T) := by rw [List.getElem?_map, hT]; rfl
  have hc := h4 j _ hx
  rw [hv] at hc
  exact ⟨T, hT, fun hT0 => cap_le hT0 (Option.some.inj hc).symm⟩

/-- **C56**: what holds: every value is at most saturation at some step `j`, where `j` is the step itself if that lies
between the minima of two days with known vapour pressure.  Outside (before the first minimum, after the last) the
value is copied and need not be below saturation. -/
theorem C56_inside_partial (elev lat lr : ℝ) (geom : List DayGeom) (d : Daily) (p : Par)
    (tb te : Option (List (Flt ℝ))) (s : Sub) (i : Nat) (v : ℝ) (hlat : |lat| ≤ 90)
    (hg : solarGeom elev lat lr = .ok geom) (hu : Usable d p) (h : disaggregate d p geom tb te = .ok s)
    (hv : s.vaporPressure[i]? = some (fin v)) :
    ∃ (j : Nat) (T : ℝ), s.temp[j]? = some (fin T) ∧ s.vaporPressure[j]? = some (fin v) ∧
      (∀ sat, -237.3 < T → svp (fin T) = fin sat → v * 1000 ≤ sat) ∧
      ∀ (times : List (ℝ × ℝ)) (k : Nat) (q q' : ℝ × ℝ) (a b T' : ℝ),
        Disagg.setMinMaxHour (hours p) (geom.map (·.fract)) (d.doy.map (· - 1)) = .ok times →
        times[k]? = some q → times[k + 1]? = some q' → d.vaporPressure[k]? = some (fin a) →
        d.vaporPressure[k + 1]? = some (fin b) → q.1 ≤ (p.ts : ℝ) * i → (p.ts : ℝ) * i ≤ q'.1 →
        s.temp[i]? = some (fin T') → -237.3 < T' → j = i := by
  obtain ⟨t, rfl⟩ := disaggregate_ok.1 h
  rw [vp_fill] at hv
  rw [temp_fill, vp_fill]
  have key : ∀ j, t.vp[j]? = some (fin v) → ((t.vp[i]? ≠ some nan) → j = i) →
      ∃ (j : Nat) (T : ℝ), (t.temp.map (fin : ℝ → Flt ℝ))[j]? = some (fin T) ∧ (fillBoth t.vp)[j]? = some (fin v) ∧
      (∀ sat, -237.3 < T → svp (fin T) = fin sat → v * 1000 ≤ sat) ∧
      ∀ (times : List (ℝ × ℝ)) (k : Nat) (q q' : ℝ × ℝ) (a b T' : ℝ),
        Disagg.setMinMaxHour (hours p) (geom.map (·.fract)) (d.doy.map (· - 1)) = .ok times →
        times[k]? = some q → times[k + 1]? = some q' → d.vaporPressure[k]? = some (fin a) →
        d.vaporPressure[k + 1]? = some (fin b) → q.1 ≤ (p.ts : ℝ) * i → (p.ts : ℝ) * i ≤ q'.1 →
        (t.temp.map (fin : ℝ → Flt ℝ))[i]? = some (fin T') → -237.3 < T' → j = i := by
    intro j hj hji
    obtain ⟨T, hT, hle⟩ := raw_vp_le t hj
    refine ⟨j, T, by rw [List.getElem?_map, hT]; rfl, fillBoth_keep hj, fun sat h1 h2 => ?_, ?_⟩
    · rw [svp_fin (by linarith)] at h2
      rw [← Flt.fin.inj h2]; exact hle h1
    · intro times k q q' a b T' ht hq hq' ha hb h0 h1 hT' hT0
      have : times = t.times := Except.ok.inj (ht.symm.trans t.h_times)
      subst this
      rw [List.getElem?_map] at hT'
      obtain ⟨T'', hT2, e⟩ := Option.map_eq_some_iff.1 hT'
      obtain rfl := Flt.fin.inj e
      have := vp_between hlat hg hu t hq hq' ha hb h0 h1 hT2 hT0
      exact hji (by rw [this]; simp)
  rcases fillBoth_spec hv with ⟨j, w, hj, hx, he, hk⟩ | ⟨j, w, hj, hx, he, hk⟩ | ⟨he, -⟩
  · obtain rfl := Flt.fin.inj he
    refine key j hx fun hne => ?_
    by_contra hc
    exact hne (hk i (by omega) le_rfl)
  · obtain rfl := Flt.fin.inj he
    exact key j hx fun hne => absurd (hk i hj) hne
  · cases he


/-! ### A record that breaks C56 and C64

Two days with minimum 0 and maximum 1 degree and saturated at the minimum, after a day with -30 and -20 degrees. -/

/-- The record. -/
noncomputable def mildDays : Daily where
  doy := [1, 2]
  shortwave := [fin 100, fin 100]
  daylength := [fin 43200, fin 43200]
  tMin := [fin 0, fin 0]
  tMax := [fin 1, fin 1]
  vaporPressure := [fin (svpR 0), fin (svpR 0)]
  tskc := [fin 0, fin 0]
  prec := [fin 0, fin 0]
  wind := none
  longwave := none
  tPk := none
  dur := none

/-- Hourly steps, 90 degrees west. -/
noncomputable def western : Par where
  ts := 60
  lon := -90
  elev := 0
  lapseRate := 0.0065
  thetaS := 0
  tmaxFraction := 0.67
  utcOffset := true
  periodEnding := false
  passthrough := false
  swAveraging := ""
  precType := "uniform"
  lwType := "prata"
  lwCloud := "cloud_deardorff"

theorem western_shift : Disagg.utcShift (hours western) = -360 := by
  have hr : Disagg.remainder360 (-90 : ℝ) = -90 := by
    unfold Disagg.remainder360
    have e : ⌊(-90 / 360 : ℝ)⌋ = -1 := by rw [Int.floor_eq_iff]; norm_num
    simp only [e]
    norm_num
  unfold Disagg.utcShift hours western
  simp only [if_true, hr]
  have e : ((-90 : ℝ) - 0) / Cnst.DEG_PER_REV * ((Cnst.MIN_PER_DAY : Nat) : ℝ) = ((-360 : Int) : ℝ) := by
    unfold Cnst.DEG_PER_REV Cnst.MIN_PER_DAY; norm_num
  rw [e]
  unfold trunc
  rw [if_neg (by norm_num), Int.ceil_intCast]

theorem mild_usable : Usable mildDays western where
  ts := by decide
  ne := by simp [mildDays]
  doy := by simp [mildDays]
  frac := by unfold western; norm_num
  frac1 := by unfold western; norm_num
  shortwave := rfl
  daylength := rfl
  tMin := rfl
  tMax := rfl
  vaporPressure := rfl
  tskc := rfl
  prec := rfl
  wind := fun w h => by cases h
  longwave := fun w h => by cases h
  tMin_fin := by simp [mildDays]
  tMax_fin := by simp [mildDays]
  lwType := ⟨.prata, by decide⟩
  lwCloud := ⟨.deardorff, by decide⟩
  storm := by
    rintro (h | h) <;> exact absurd h (by decide)

/-- What the frame of this record looks like at the equator. -/
theorem mild_frame : ∃ geom, solarGeom 0 0 0.0065 = .ok geom ∧
    ∃ t : Trace mildDays western geom (some [fin (-30), fin (-20)]) none,
      (∃ q0 q1 : ℝ × ℝ, t.times[0]? = some q0 ∧ t.times[1]? = some q1 ∧ 0 < q0.1 ∧ q0.1 ≤ 1080 ∧ 1080 ≤ q1.1) ∧
      (∃ T0 : ℝ, t.temp[0]? = some T0 ∧ -20 ≤ T0 ∧ T0 < 0) ∧
      (∃ T : ℝ, t.temp[18]? = some T ∧ 0 ≤ T ∧ T ≤ 1) ∧
      t.vp[18]? = some (fin (svpR 0 / 1000)) ∧
      ∀ (i : Nat) v, t.vp[i]? = some (fin v) → v = svpR 0 / 1000 := by
  obtain ⟨geom, hg, -, -⟩ := C45_midlatitude_partial 0 0 0.0065 (by norm_num) (by norm_num) (by norm_num)
  have hlat : |(0 : ℝ)| ≤ 90 := by norm_num
  obtain ⟨s, hs, -⟩ := C69_total 0 0 0.0065 hlat geom hg mildDays western mild_usable (some (-30, -20)) none
  have hs : disaggregate mildDays western geom (some [fin (-30), fin (-20)]) none = .ok s := hs
  obtain ⟨t, -⟩ := disaggregate_ok.1 hs
  refine ⟨geom, hg, t, ?_⟩
  obtain ⟨hl, h2⟩ := setMinMaxHour_inDays (geom_rows hlat hg) (p := hours western) mild_usable.frac mild_usable.frac1
    t.h_times
  have hl : t.times.length = 2 := hl
  obtain ⟨q0, hq0⟩ : ∃ q, t.times[0]? = some q := ⟨_, List.getElem?_eq_getElem (by omega)⟩
  obtain ⟨q1, hq1⟩ : ∃ q, t.times[1]? = some q := ⟨_, List.getElem?_eq_getElem (by omega)⟩
  have hts : ((western.ts : Nat) : ℝ) = 60 := by unfold western; norm_num
  -- bounds on the times
  have hb : ∀ (i : Nat) (q : ℝ × ℝ), t.times[i]? = some q →
      0 < q.1 - 1440 * i - 300 ∧ q.1 - 1440 * i - 300 ≤ 720 ∧ q.1 < q.2 ∧ q.2 - 1440 * i ≤ 1400 := by
    intro i q hq
    obtain ⟨g, hgm, -, rfl, -, hlt, -⟩ := h2 i q hq
    refine ⟨?_, ?_, hlt, ?_⟩ <;>
    · rw [minMaxTime_eq, western_shift]
      have e1 : ((hours western).ts : ℝ) = 60 := hts
      have e2 : (hours western).tmaxFraction = 0.67 := rfl
      rw [e1, e2]
      push_cast
      rcases Disagg.rise_set (geom_rows hlat hg g hgm) with ⟨a, b⟩ | ⟨a, b⟩ | ⟨a, b, c, d, e⟩
      all_goals linarith
  have b0 := hb 0 q0 hq0
  have b1 := hb 1 q1 hq1
  simp only [Nat.cast_zero, Nat.cast_one, mul_zero, mul_one, sub_zero] at b0 b1
  -- points
  have hpts := C55_points mildDays.tMin mildDays.tMax t.times (some (fin (-30), fin (-20))) none
    (by rw [hl]; rfl) (by rw [hl]; rfl) (by intro e; rw [e] at hl; cases hl)
  simp only [Option.map_some, Option.map_none] at hpts
  obtain ⟨-, hpts⟩ := hpts
  obtain ⟨k, hk, hk2, hkn, hpt, hout⟩ := temp_ok t.h_temp
  obtain ⟨p2, p3, p01, -⟩ := hpts 0 q0 (fin 0) (fin 1) hq0 rfl rfl
  obtain ⟨p4, p5, -⟩ := hpts 1 q1 (fin 0) (fin 1) hq1 rfl rfl
  obtain ⟨-, p1⟩ := p01 rfl
  have hpos : ∀ (j : Nat) x y, (points mildDays.tMin mildDays.tMax t.times (some [fin (-30), fin (-20)]) none)[j]? =
      some (x, fin y) → j < k.n ∧ k.x j = x ∧ k.y j = y := by
    intro j x y h
    have hj : j < k.n := by rw [hkn]; exact (List.getElem?_eq_some_iff.1 h).1
    rw [hpt j hj] at h
    obtain ⟨e1, e2⟩ := Prod.mk.inj (Option.some.inj h)
    exact ⟨hj, e1, Flt.fin.inj e2⟩
  have k1 := hpos 1 _ _ p1
  have k2 := hpos 2 _ _ p2
  have k3 := hpos 3 _ _ p3
  have k4 := hpos 4 _ _ p4
  have hN : nDisagg mildDays.doy.length western.ts = 48 := rfl
  have hT : ∀ i : Nat, i < 48 → t.temp[i]? = some (Interp.pchip k (60 * (i : ℝ))) := by
    intro i hi
    rw [hout, hN, List.getElem?_map, List.getElem?_range hi, hts]; rfl
  have hin : ∀ i : Nat, i < 48 → q0.1 ≤ 60 * (i : ℝ) → 60 * (i : ℝ) ≤ q1.1 →
      0 ≤ Interp.pchip k (60 * (i : ℝ)) ∧ Interp.pchip k (60 * (i : ℝ)) ≤ 1 := by
    intro i _ h0 h1
    rcases le_total (60 * (i : ℝ)) q0.2 with h | h
    · have := Interp.pchip_between hk hk2 (i := 2) k3.1 (t := 60 * (i : ℝ)) (by rw [k2.2.1]; exact h0)
        (by rw [k3.2.1]; exact h)
      rw [k2.2.2, k3.2.2] at this
      norm_num at this
      exact this
    · have := Interp.pchip_between hk hk2 (i := 3) k4.1 (t := 60 * (i : ℝ)) (by rw [k3.2.1]; exact h)
        (by rw [k4.2.1]; exact h1)
      rw [k3.2.2, k4.2.2] at this
      norm_num at this
      exact this
  have hvp : ∀ i : Nat, i < 48 → q0.1 ≤ 60 * (i : ℝ) → 60 * (i : ℝ) ≤ q1.1 → t.vp[i]? = some (fin (svpR 0 / 1000)) := by
    intro i hi h0 h1
    obtain ⟨a, b⟩ := hin i hi h0 h1
    rw [vp_between hlat hg mild_usable t (k := 0) (a := svpR 0) (b := svpR 0) hq0 hq1 rfl rfl (by rw [hts]; exact h0)
      (by rw [hts]; exact h1) (hT i hi) (by linarith)]
    congr 3
    rw [sub_self, zero_mul, add_zero]
    apply min_eq_left
    rcases eq_or_lt_of_le a with h | h
    · rw [← h]
    · exact (svpR_lt (by norm_num) h).le
  refine ⟨⟨q0, q1, hq0, hq1, by linarith, by linarith, by linarith⟩, ?_, ?_, ?_, ?_⟩
  · refine ⟨_, hT 0 (by norm_num), ?_, ?_⟩
    · have := (Interp.pchip_between hk hk2 (i := 1) k2.1 (t := 60 * ((0 : Nat) : ℝ)) (by rw [k1.2.1]; norm_num; linarith)
        (by rw [k2.2.1]; norm_num; linarith)).1
      rw [k1.2.2, k2.2.2] at this
      norm_num at this ⊢
      exact this
    · have := Interp.pchip_lt hk hk2 (i := 1) k2.1 (t := 60 * ((0 : Nat) : ℝ)) (by rw [k1.2.1]; norm_num; linarith)
        (by rw [k2.2.1]; norm_num; linarith) (by rw [k1.2.2, k2.2.2]; norm_num)
      rw [k2.2.2] at this
      exact this
  · refine ⟨_, hT 18 (by norm_num), hin 18 (by norm_num) (by norm_num; linarith) (by norm_num; linarith)⟩
  · exact hvp 18 (by norm_num) (by norm_num; linarith) (by norm_num; linarith)
  · intro i v hv
    have hi : i < 48 := by
      have h1 := (List.getElem?_eq_some_iff.1 hv).1
      obtain ⟨-, -, l3, -⟩ := vaporPressure_ok t.h_vp
      rw [l3] at h1; exact h1
    obtain ⟨T, -, ⟨k', q, q', h0, h1, h3, h4⟩ | ⟨h1, -⟩⟩ := vp_inside hlat hg mild_usable t hv
    · have hk0 : k' = 0 := by
        have := (List.getElem?_eq_some_iff.1 h1).1
        omega
      subst hk0
      rw [hq0] at h0; rw [hq1] at h1
      obtain rfl := Option.some.inj h0
      obtain rfl := Option.some.inj h1
      rw [hts] at h3 h4
      have := hvp i hi h3 h4
      rw [hv] at this
      exact Flt.fin.inj (Option.some.inj this)
    · cases h1

/-- **C56** fails: the vapour pressure of the first hour is that of the first minimum, 20 degrees warmer. -/
theorem C56_refuted : ¬ C56_full := by
  intro h
  obtain ⟨geom, hg, t, -, ⟨T0, hT0, lo, hi⟩, -, h18, hall⟩ := mild_frame
  have hv : (fillBoth t.vp)[0]? = some (fin (svpR 0 / 1000)) := by
    obtain ⟨-, -, l3, -⟩ := vaporPressure_ok t.h_vp
    have hl : t.vp.length = 48 := l3
    obtain ⟨v, hv⟩ := (fillBoth_filled t.vp).complete ⟨18, _, h18⟩ 0 (by omega)
    rcases fillBoth_spec hv with ⟨j, w, -, hx, he, -⟩ | ⟨j, w, -, hx, he, -⟩ | ⟨he, -⟩
    · rw [hv, he, hall j w hx]
    · rw [hv, he, hall j w hx]
    · cases he
  have := h 0 0 0.0065 geom mildDays western _ _ t.sub 0 (svpR 0 / 1000) T0 (svpR T0) (by norm_num) hg mild_usable
    (disaggregate_ok.2 ⟨t, rfl⟩) (by rw [vp_fill]; exact hv) (by rw [temp_fill, List.getElem?_map, hT0]; rfl)
    (by linarith) (svp_fin (by linarith))
  have hlt := svpR_lt (s := T0) (t := 0) (by linarith) hi
  linarith

/-- **C64** fails: the value is a thousand times too small for its unit. -/
theorem C64_refuted : ¬ C64_full := by
  intro h
  obtain ⟨geom, hg, t, ⟨q0, q1, hq0, hq1, c0, c1, c2⟩, -, ⟨T, hT, lo, -⟩, h18, -⟩ := mild_frame
  have hts : ((western.ts : Nat) : ℝ) = 60 := by unfold western; norm_num
  obtain ⟨v, u, hv, hu, hs⟩ := h 0 0 0.0065 geom mildDays western _ _ t.sub t.times 0 18 q0 q1 (svpR 0) (svpR 0) T (svpR T)
    (by norm_num) hg mild_usable (disaggregate_ok.2 ⟨t, rfl⟩) t.h_times hq0 hq1 rfl rfl (by rw [hts]; norm_num; linarith)
    (by rw [hts]; norm_num; linarith) (by rw [temp_fill, List.getElem?_map, hT]; rfl) (by linarith)
    (svp_fin (by linarith))
  have hu' : u = "Pa" := by
    have : Dict.get? Units.importAttrs "vapor_pressure" = some "Pa" := by decide
    rw [this] at hu
    exact (Option.some.inj hu).symm
  rw [hu'] at hs
  rw [vp_fill, fillBoth_keep h18] at hv
  obtain rfl := Flt.fin.inj (Option.some.inj hv)
  simp only [Spec.si] at hs
  have := (Prod.mk.inj (Option.some.inj hs)).2
  rw [sub_self, zero_mul, add_zero, min_eq_left (by
    rcases eq_or_lt_of_le lo with h | h
    · rw [← h]
    · exact (svpR_lt (by norm_num) h).le)] at this
  have hp := svpR_pos 0
  linarith


/-! ### C61: provided daily longwave -/

theorem scaleDaily_ok {lw daily out : List (Flt ℝ)} {ts : Nat} (h : Humidity.scaleDaily lw daily ts = .ok out) :
    0 < 1440 / ts ∧ lw.length = daily.length * (1440 / ts) ∧
      out = List.zipWith (· * ·) lw
        (repeatEach (List.zipWith (· / ·) daily ((rows lw (1440 / ts)).map mean)) (1440 / ts)) := by
  unfold Humidity.scaleDaily at h
  simp only at h
  split at h
  · cases h
  simp only [bind_ok] at h
  obtain ⟨days, hd, h⟩ := h
  obtain ⟨hw, hdvd, rfl⟩ := reshape_ok.1 hd
  split at h
  · cases h
  rename_i hl
  split at h
  · cases h
  obtain rfl := Except.ok.inj h
  push Not at hl
  refine ⟨hw, ?_, rfl⟩
  rw [← hl, length_rows]
  exact (Nat.div_mul_cancel hdvd).symm

theorem fin_of_mean {xs : List (Flt ℝ)} {b : ℝ} (h : mean xs = fin b) :
    ∃ ys : List ℝ, xs = ys.map fin ∧ ys.sum / (ys.length : ℝ) = b ∧ ys ≠ [] := by
  have hf : ∀ x ∈ xs, x ≠ nan := by
    intro x hx e
    subst e
    unfold mean at h
    rw [Flt.sum_of_mem_nan _ hx] at h
    simp at h
  obtain ⟨ys, rfl⟩ := Flt.exists_map_fin xs (fun x hx => by
    cases x with
    | nan => exact absurd rfl (hf _ hx)
    | fin v => rfl)
  have hne : ys ≠ [] := by
    rintro rfl
    simp [mean, div_fin_zero] at h
  have hl : (ys.length : ℝ) ≠ 0 := by exact_mod_cast (List.length_pos_iff.2 hne).ne'
  refine ⟨ys, rfl, ?_, hne⟩
  unfold mean at h
  rw [sum_map_fin, List.length_map, div_fin_ne hl] at h
  exact Flt.fin.inj h


theorem mean_map_mul {ys : List ℝ} (hne : ys ≠ []) (c : ℝ) :
    mean ((ys.map fin).map fun x => x * fin c) = (fin (ys.sum / ys.length * c) : Flt ℝ) := by
  have hl : (ys.length : ℝ) ≠ 0 := by exact_mod_cast (List.length_pos_iff.2 hne).ne'
  have e : (ys.map fin).map (fun x => x * fin c) = (ys.map fun y => y * c).map (fin : ℝ → Flt ℝ) := by
    rw [List.map_map, List.map_map]; rfl
  unfold mean
  rw [e, sum_map_fin, List.length_map, List.length_map, div_fin_ne hl, List.sum_map_mul_right]
  congr 1
  rw [List.map_id']
  ring

theorem scaled_block {lw daily out : List (Flt ℝ)} {ts : Nat} (h : Humidity.scaleDaily lw daily ts = .ok out)
    {k : Nat} {m b : ℝ} (hm : daily[k]? = some (fin m))
    (hb : mean ((lw.drop (k * (1440 / ts))).take (1440 / ts)) = fin b) (hb0 : b ≠ 0) :
    (out.drop (k * (1440 / ts))).take (1440 / ts) =
      ((lw.drop (k * (1440 / ts))).take (1440 / ts)).map (fun x => x * fin (m / b)) ∧
    mean ((out.drop (k * (1440 / ts))).take (1440 / ts)) = fin m := by
  obtain ⟨hw, hl, rfl⟩ := scaleDaily_ok h
  generalize 1440 / ts = w at *
  have hk := (List.getElem?_eq_some_iff.1 hm).1
  have hrow : (rows lw w)[k]? = some ((lw.drop (k * w)).take w) := getElem?_rows (by
    rw [hl, Nat.mul_div_cancel _ hw]; exact hk)
  have hf : (List.zipWith (· / ·) daily ((rows lw w).map mean))[k]? = some (fin (m / b) : Flt ℝ) := by
    rw [List.getElem?_zipWith, hm, List.getElem?_map, hrow, Option.map_some, hb]
    simp only
    rw [div_fin_ne hb0]
  have hlen : ((lw.drop (k * w)).take w).length = w := by
    rw [List.length_take, List.length_drop, hl]
    have : (k + 1) * w ≤ daily.length * w := Nat.mul_le_mul_right _ hk
    rw [Nat.succ_mul] at this
    omega
  have hblock : ((List.zipWith (· * ·) lw (repeatEach (List.zipWith (· / ·) daily ((rows lw w).map mean)) w)).drop
      (k * w)).take w = ((lw.drop (k * w)).take w).map (fun x => x * fin (m / b)) := by
    rw [List.drop_zipWith, List.take_zipWith, repeatEach_block _ w hf]
    apply List.ext_getElem?
    intro i
    rw [List.getElem?_zipWith, List.getElem?_map]
    by_cases hi : i < w
    · rw [List.getElem?_replicate_of_lt hi, List.getElem?_eq_getElem (by omega)]; rfl
    · rw [List.getElem?_eq_none (by omega)]; rfl
  refine ⟨hblock, ?_⟩
  rw [hblock]
  obtain ⟨ys, hys, hsum, hne⟩ := fin_of_mean hb
  rw [hys, mean_map_mul hne, hsum]
  congr 1
  field_simp

theorem longwave_scaled {temp vp tskc daily out : List (Flt ℝ)} {lwType lwCloud : String} {ts : Nat}
    (h : Humidity.longwave temp vp tskc lwType lwCloud ts (some daily) = .ok out) :
    ∃ base, Humidity.longwave temp vp tskc lwType lwCloud ts none = .ok base ∧
      Humidity.scaleDaily base daily ts = .ok out := by
  unfold Humidity.longwave at h ⊢
  simp only [bind_ok] at h ⊢
  obtain ⟨ty, h1, cl, h2, h⟩ := h
  split at h
  · cases h
  rename_i hl
  refine ⟨_, ⟨ty, h1, cl, h2, ?_⟩, h⟩
  rw [if_neg hl]; rfl

/-- **C61**: the mean of each day of the scaled series is the provided value, and all steps of a day are scaled alike.
-/
theorem C61_mean (temp vp tskc daily base out : List (Flt ℝ)) (lwType lwCloud : String) (ts : Nat)
    (h0 : Humidity.longwave temp vp tskc lwType lwCloud ts none = .ok base)
    (h : Humidity.longwave temp vp tskc lwType lwCloud ts (some daily) = .ok out) (k : Nat) (m b : ℝ)
    (hm : daily[k]? = some (fin m)) (hb : mean ((base.drop (k * (1440 / ts))).take (1440 / ts)) = fin b) (hb0 : b ≠ 0) :
    mean ((out.drop (k * (1440 / ts))).take (1440 / ts)) = fin m ∧
    ∀ j x, j < 1440 / ts → base[k * (1440 / ts) + j]? = some (fin x) →
      out[k * (1440 / ts) + j]? = some (fin (x * (m / b))) := by
  obtain ⟨base', h1, h2⟩ := longwave_scaled h
  obtain rfl := Except.ok.inj (h0.symm.trans h1)
  obtain ⟨hblock, hmean⟩ := scaled_block h2 hm hb hb0
  refine ⟨hmean, fun j x hj hx => ?_⟩
  have := congrArg (fun l => l[j]?) hblock
  simp only [List.getElem?_map, List.getElem?_take_of_lt hj, List.getElem?_drop, hx, Option.map_some] at this
  rw [this, mul_fin]

/-- One day in two steps at 10 degrees, 350 W/m2 provided. -/
example : ∃ base out b, Humidity.longwave [fin 10, fin 10] [fin 1, fin 1] [fin 0, fin 0.5] "prata" "cloud_deardorff" 720 none
      = .ok base ∧
    Humidity.longwave [fin 10, fin 10] [fin 1, fin 1] [fin 0, fin 0.5] "prata" "cloud_deardorff" 720 (some [fin 350])
      = .ok out ∧ mean ((base.drop (0 * (1440 / 720))).take (1440 / 720)) = fin b ∧ b ≠ 0 ∧
    mean ((out.drop (0 * (1440 / 720))).take (1440 / 720)) = fin 350 := by
  obtain ⟨base, hb, hl, hel⟩ := C60_series [fin 10, fin 10] [fin 1, fin 1] [fin 0, fin 0.5] "prata" "cloud_deardorff" 720
    .prata .deardorff (by decide) (by decide) rfl rfl
  obtain ⟨x, hx, x0, -⟩ := C60_default 10 1 0 (by norm_num) (by norm_num) (by norm_num) (by norm_num)
  obtain ⟨y, hy, y0, -⟩ := C60_default 10 1 0.5 (by norm_num) (by norm_num) (by norm_num) (by norm_num)
  have e0 := hel 0 _ _ _ rfl rfl rfl
  have e1 := hel 1 _ _ _ rfl rfl rfl
  rw [hx] at e0
  rw [hy] at e1
  have hbase : base = [fin x, fin y] := by
    match base, hl, e0, e1 with
    | [a, b], _, h0, h1 =>
      have h0 : some a = some (fin x) := h0
      have h1 : some b = some (fin y) := h1
      rw [Option.some.inj h0, Option.some.inj h1]
  have hm : mean ((base.drop (0 * (1440 / 720))).take (1440 / 720)) = fin ((x + y) / 2) := by
    rw [hbase]
    show mean ([x, y].map fin) = _
    unfold mean
    rw [sum_map_fin, List.length_map, div_fin_ne (by norm_num)]
    norm_num
  have hsc : ∃ out, Humidity.longwave [fin 10, fin 10] [fin 1, fin 1] [fin 0, fin 0.5] "prata" "cloud_deardorff" 720
      (some [fin 350]) = .ok out := by
    obtain ⟨out, ho, -⟩ := longwave_total (temp := [fin 10, fin 10]) (vp := [fin 1, fin 1]) (tskc := [fin 0, fin 0.5])
      (lwType := "prata") (lwCloud := "cloud_deardorff") (ts := 720) (n := 1) (daily := some [fin 350])
      ⟨.prata, by decide⟩ ⟨.deardorff, by decide⟩ (by decide) rfl rfl rfl (by simp)
    exact ⟨out, ho⟩
  obtain ⟨out, ho⟩ := hsc
  refine ⟨base, out, _, hb, ho, hm, by positivity, ?_⟩
  exact (C61_mean _ _ _ _ _ _ _ _ _ hb ho 0 350 _ rfl hm (by positivity)).1

section
variable {d : Daily} {p : Par} {geom : List DayGeom} {tb te : Option (List (Flt ℝ))}

/-- Vapour pressure is not negative if the daily one is not. -/
theorem vp_nonneg {elev lat lr : ℝ} (hlat : |lat| ≤ 90) (hg : solarGeom elev lat lr = .ok geom) (hu : Usable d p)
    (t : Trace d p geom tb te) (hd : ∀ x ∈ d.vaporPressure, ∃ v, x = fin v ∧ 0 ≤ v)
    (hT : ∀ T ∈ t.temp, -237.3 < T) {i : Nat} {v : ℝ} (hv : t.vp[i]? = some (fin v)) : 0 ≤ v := by
  obtain ⟨hl, -⟩ := tmin_lt hlat hg hu t
  obtain ⟨T, hTi, ⟨k, q, q', hq, hq', h0, h1⟩ | ⟨-, q, a, -, -, ha, he⟩⟩ := vp_inside hlat hg hu t hv
  · have hk := (List.getElem?_eq_some_iff.1 hq').1
    have hk1 : k + 1 < d.vaporPressure.length := by rw [hu.vaporPressure]; omega
    obtain ⟨a, ha, a0⟩ := hd _ (List.getElem_mem (show k < d.vaporPressure.length by omega))
    obtain ⟨b, hb, b0⟩ := hd _ (List.getElem_mem hk1)
    have hT0 := hT T (List.mem_of_getElem? hTi)
    have := vp_between hlat hg hu t hq hq' (by rw [List.getElem?_eq_getElem (by omega), ha]) (by rw [List.getElem?_eq_getElem hk1, hb]) h0 h1 hTi hT0
    rw [hv] at this
    rw [Flt.fin.inj (Option.some.inj this)]
    refine div_nonneg (le_min ?_ (svpR_pos T).le) (by norm_num)
    rcases eq_or_lt_of_le (h0.trans h1) with e | e
    · rw [e, sub_self, div_zero, mul_zero, add_zero]; exact a0
    · have hp : 0 < q'.1 - q.1 := by linarith
      have u0 : 0 ≤ ((p.ts : ℝ) * i - q.1) / (q'.1 - q.1) := div_nonneg (by linarith) hp.le
      have u1 : ((p.ts : ℝ) * i - q.1) / (q'.1 - q.1) ≤ 1 := by rw [div_le_one hp]; linarith
      nlinarith [mul_nonneg b0 u0, mul_nonneg a0 (by linarith : 0 ≤ 1 - ((p.ts : ℝ) * i - q.1) / (q'.1 - q.1))]
  · rw [he (hT T (List.mem_of_getElem? hTi))]
    obtain ⟨w, hw, w0⟩ := hd _ (List.mem_of_getElem? ha)
    obtain rfl := Flt.fin.inj hw
    exact div_nonneg (le_min w0 (svpR_pos T).le) (by norm_num)

end

/-- **C61** for the frame, with the default parameterisations: the daily means of its longwave column are the provided
values, for every record with temperatures above -237.3 degrees, vapour pressure not negative, cloud fraction in [0,1].
-/
theorem C61_frame (elev lat lr : ℝ) (hlat : |lat| ≤ 90) (geom : List DayGeom) (hg : solarGeom elev lat lr = .ok geom)
    (d : Daily) (p : Par) (hu : Usable d p) (tb te : Option (List (Flt ℝ))) (s : Sub)
    (h : disaggregate d p geom tb te = .ok s) (ht : Lw.lwTypeOf p.lwType = .ok .prata)
    (hc : Lw.cloudOf p.lwCloud = .ok .deardorff) (hvp : ∀ x ∈ d.vaporPressure, ∃ v, x = fin v ∧ 0 ≤ v)
    (hcl : ∀ x ∈ d.tskc, ∃ v, x = fin v ∧ 0 ≤ v ∧ v ≤ 1) (hT : ∀ T, fin T ∈ s.temp → -237.3 < T)
    (hdef : ∃ (i : Nat) (v : ℝ), s.vaporPressure[i]? = some (fin v))
    (daily : List (Flt ℝ)) (hd : d.longwave = some daily) (k : Nat) (m : ℝ) (hm : daily[k]? = some (fin m)) :
    mean ((s.longwave.drop (k * (1440 / p.ts))).take (1440 / p.ts)) = fin m := by
  obtain ⟨t, rfl⟩ := disaggregate_ok.1 h
  have hts0 : 0 < p.ts := Nat.pos_of_dvd_of_pos hu.ts (by norm_num)
  have hT' : ∀ T ∈ t.temp, -237.3 < T := fun T hTm => hT T (by rw [temp_fill]; exact List.mem_map.2 ⟨T, hTm, rfl⟩)
  have hN : nDisagg d.doy.length p.ts = d.doy.length * 1440 / p.ts := rfl
  obtain ⟨-, l2, l3, -⟩ := vaporPressure_ok t.h_vp
  rw [List.length_map] at l2
  -- vapour pressure is defined everywhere
  have hraw : ∃ (i : Nat) (v : ℝ), t.vp[i]? = some (fin v) := by
    obtain ⟨i, v, hv⟩ := hdef
    rw [vp_fill] at hv
    rcases fillBoth_spec hv with ⟨j, w, -, hx, -, -⟩ | ⟨j, w, -, hx, -, -⟩ | ⟨he, -⟩
    · exact ⟨j, w, hx⟩
    · exact ⟨j, w, hx⟩
    · cases he
  have hV : ∀ i < nDisagg d.doy.length p.ts, ∃ v, (fillBoth t.vp)[i]? = some (fin v) ∧ 0 ≤ v := by
    intro i hi
    obtain ⟨v, hv⟩ := (fillBoth_filled t.vp).complete hraw i (by omega)
    refine ⟨v, hv, ?_⟩
    rcases fillBoth_spec hv with ⟨j, w, -, hx, he, -⟩ | ⟨j, w, -, hx, he, -⟩ | ⟨he, -⟩
    · rw [Flt.fin.inj he]; exact vp_nonneg hlat hg hu t hvp hT' hx
    · rw [Flt.fin.inj he]; exact vp_nonneg hlat hg hu t hvp hT' hx
    · cases he
  have hC := C50_bounds (lo := 0) (hi := 1) t.h_cloud hcl
  -- the unscaled series
  have hlw := t.h_lw
  rw [hd] at hlw
  obtain ⟨base, hb, hsc⟩ := longwave_scaled hlw
  obtain ⟨base', hb', hbl, hel⟩ := C60_series (t.temp.map fin) (fillBoth t.vp) t.cloud p.lwType p.lwCloud p.ts .prata
    .deardorff ht hc (by rw [List.length_map, length_fillBoth, l2, l3]) (by rw [List.length_map, l2, t.l_cloud])
  obtain rfl := Except.ok.inj (hb.symm.trans hb')
  rw [List.length_map, l2] at hbl
  have hpos : ∀ i < nDisagg d.doy.length p.ts, ∃ x, base[i]? = some (fin x) ∧ 0 < x := by
    intro i hi
    obtain ⟨v, hv, v0⟩ := hV i hi
    obtain ⟨T, hTi⟩ : ∃ T, t.temp[i]? = some T := ⟨_, List.getElem?_eq_getElem (show i < t.temp.length by omega)⟩
    have hCi := List.getElem?_eq_getElem (show i < t.cloud.length by rw [t.l_cloud]; exact hi)
    obtain ⟨c, hce, c0, c1⟩ := hC _ (List.getElem_mem (show i < t.cloud.length by rw [t.l_cloud]; exact hi))
    rw [hce] at hCi
    have hTT := hT' T (List.mem_of_getElem? hTi)
    obtain ⟨x, hx, x0, -⟩ := C60_default T v c v0 c0 c1 (by linarith)
    exact ⟨x, by rw [hel i _ _ _ (by rw [List.getElem?_map, hTi]; rfl) hv hCi, hx], x0⟩
  -- its daily mean is positive
  obtain ⟨hw, hsl, -⟩ := scaleDaily_ok hsc
  have hk := (List.getElem?_eq_some_iff.1 hm).1
  have hkw : k * (1440 / p.ts) + 1440 / p.ts ≤ base.length := by
    rw [hsl]
    calc k * (1440 / p.ts) + 1440 / p.ts = (k + 1) * (1440 / p.ts) := by ring
      _ ≤ _ := Nat.mul_le_mul_right _ hk
  have hall : ∀ x ∈ (base.drop (k * (1440 / p.ts))).take (1440 / p.ts), ∃ v, x = fin v ∧ 0 < v := by
    intro x hx
    obtain ⟨i, hi, rfl⟩ := List.getElem_of_mem (List.mem_of_mem_drop (List.mem_of_mem_take hx))
    obtain ⟨v, hv, v0⟩ := hpos i (by omega)
    rw [List.getElem?_eq_getElem hi] at hv
    exact ⟨v, Option.some.inj hv, v0⟩
  obtain ⟨ys, hys⟩ := Flt.exists_map_fin _ (fun x hx => by
    obtain ⟨v, rfl, -⟩ := hall x hx
    rfl)
  have hyl : ys.length = 1440 / p.ts := by
    have := congrArg List.length hys
    rw [List.length_map, List.length_take, List.length_drop] at this
    omega
  have hyl0 : (ys.length : ℝ) ≠ 0 := by rw [hyl]; exact_mod_cast hw.ne'
  have hysum : 0 < ys.sum := by
    refine List.sum_pos _ (fun y hy => ?_) (List.length_pos_iff.1 (by omega))
    obtain ⟨v, hv, v0⟩ := hall (fin y) (by rw [hys]; exact List.mem_map.2 ⟨y, hy, rfl⟩)
    rw [Flt.fin.inj hv]; exact v0
  have hmean : mean ((base.drop (k * (1440 / p.ts))).take (1440 / p.ts)) = fin (ys.sum / ys.length) := by
    rw [hys]; unfold mean
    rw [sum_map_fin, List.length_map, div_fin_ne hyl0]
  obtain ⟨hblk, hres⟩ := scaled_block hsc hm hmean (div_ne_zero hysum.ne' hyl0)
  -- filling changes nothing in that day
  rw [← hres]
  congr 1
  show ((fillBoth t.lw).drop _).take _ = _
  obtain ⟨-, -, hout⟩ := scaleDaily_ok hsc
  have hol : t.lw.length = base.length := by
    have h1 : (repeatEach (List.zipWith (· / ·) daily ((rows base (1440 / p.ts)).map mean)) (1440 / p.ts)).length
        = base.length := by
      rw [length_repeatEach, List.length_zipWith, List.length_map, length_rows, hsl, Nat.mul_div_cancel _ hw, min_self]
    rw [hout, List.length_zipWith, h1, min_self]
  apply List.ext_getElem?
  intro j
  by_cases hj : j < 1440 / p.ts
  · rw [List.getElem?_take_of_lt hj, List.getElem?_take_of_lt hj, List.getElem?_drop, List.getElem?_drop]
    have e := congrArg (fun l => l[j]?) hblk
    simp only [List.getElem?_map, List.getElem?_take_of_lt hj, List.getElem?_drop] at e
    obtain ⟨x, hx, -⟩ := hpos (k * (1440 / p.ts) + j) (by omega)
    rw [hx, Option.map_some, mul_fin] at e
    rw [e]
    exact fillBoth_keep e
  · rw [List.getElem?_eq_none (by rw [List.length_take]; omega), List.getElem?_eq_none (by rw [List.length_take]; omega)]

end Verif.Props
