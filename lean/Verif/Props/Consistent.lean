import Verif.Props.Physical
import Verif.Props.Formulas

/-!
# The variables written for a step agree with each other: C79
-/

namespace Verif.Props

open Flt Physics Methods Cell Np
open Disaggregate (nDisagg)

/-- The value of `v` in the files for step `i` of day `k` is defined and, read in the unit asked for, is `s` in SI units. -/
def Reads (j : Job) (files : Run.Files Output) (c : Run.Cell) (v : String) (k i : Nat) (s : ℝ) : Prop :=
  ∃ u val x kd, j.shared.outVars.get? v = some u ∧ Recorded j files v c val ∧ val (j.stamp k i) = fin x ∧
    Spec.kindOf v = some kd ∧ Spec.si u (j.shared.ts : ℝ) x = some (kd, s)

theorem reads_unique {j : Job} (hj : j.Sane) {files : Run.Files Output} {c : Run.Cell} {v : String} {k i : Nat} {a b : ℝ}
    (hk : k < j.n) (hi : i < 1440 / j.shared.ts) (ha : Reads j files c v k i a) (hb : Reads j files c v k i b) : a = b := by
  obtain ⟨u, val, x, kd, h1, h2, h3, h4, h5⟩ := ha
  obtain ⟨u', val', x', kd', h1', h2', h3', h4', h5'⟩ := hb
  obtain rfl := Option.some.inj (h1.symm.trans h1')
  have hx := recorded_unique j hj h2 h2' hk hi
  rw [h3, h3'] at hx
  rw [← Flt.fin.inj hx, h5] at h5'
  exact (Prod.mk.inj (Option.some.inj h5')).2

/-- The files of a sub-daily run, read against the frame computed for the cell. -/
theorem readout (j : Job) (hj : j.Sane) {fuel : Nat} {order : List (Dict String Chunk.Slice)} (ho : j.Schedule order)
    {files : Run.Files Output} (hrun : j.run fuel order = .ok files) (hsub : j.shared.ts < 1440) {c : Run.Cell}
    (hc : j.Computed c) :
    ∃ elev lat lon, (j.inp c).elev = fin elev ∧ (j.inp c).lat = fin lat ∧ (j.inp c).lon = fin lon ∧
    ∃ (q : Common fuel j.shared elev lat lon (j.inp c).data) (daily : Disaggregate.Daily)
      (t : Trace daily (j.shared.sub elev lon) q.geom
        (some [(j.inp c).data.stateEnd.1, (j.inp c).data.stateEnd.2]) none),
      dailyOf (j.inp c).data.days q.base = .ok daily ∧ daily.doy.length = j.n ∧
      nDisagg daily.doy.length j.shared.ts = j.n * (1440 / j.shared.ts) ∧
      ∀ v u dflt kd, j.shared.outVars.get? v = some u → Units.importAttrs.get? v = some dflt → Spec.kindOf v = some kd →
        ¬ (v = "air_pressure" ∧ u = "hPa") → ∃ col, subColumn t.sub v = .ok col ∧
        ∀ k < j.n, ∀ i < 1440 / j.shared.ts,
          (∀ x s, col[k * (1440 / j.shared.ts) + i]? = some (fin x) → Spec.si dflt (j.shared.ts : ℝ) x = some (kd, s) →
            Reads j files c v k i s) ∧
          (∀ s, Reads j files c v k i s → ∃ x, col[k * (1440 / j.shared.ts) + i]? = some (fin x) ∧
            Spec.si dflt (j.shared.ts : ℝ) x = some (kd, s)) := by
  obtain ⟨elev, lat, lon, h1, h2, h3, q, daily, sub, hd, hsu, hcol⟩ := written_sub j hj ho hrun hsub hc
  obtain ⟨t, rfl⟩ := disaggregate_ok.1 hsu
  have ld : daily.doy.length = j.n := by
    rw [(dailyOf_ok hd).1, List.length_map, hj.data c, length_consecutive]
  refine ⟨elev, lat, lon, h1, h2, h3, q, daily, t, hd, ld, by rw [ld]; exact Nat.mul_div_assoc _ hj.step.2, ?_⟩
  intro v u dflt kd hu hdf hkd hbug
  obtain ⟨col, val, a1, a2, a3⟩ := hcol v u hu
  refine ⟨col, a1, fun k hk i hi => ⟨?_, ?_⟩⟩
  · intro x s hx hs
    have hw := a3 k hk i hi
    rw [List.getD_eq_getElem?_getD, hx, Option.getD_some] at hw
    obtain ⟨y, s', kd', b1, b2, b3, b4⟩ := convert_si hbug hdf hj.step.1 hw
    rw [hs] at b4
    obtain ⟨rfl, rfl⟩ := Prod.mk.inj (Option.some.inj b4)
    exact ⟨u, val, y, kd, hu, a2, b1, hkd, b3⟩
  · rintro s ⟨u', val', y, kd', c1, c2, c3, c4, c5⟩
    obtain rfl := Option.some.inj (hu.symm.trans c1)
    obtain rfl := Option.some.inj (hkd.symm.trans c4)
    have hv := recorded_unique j hj c2 a2 hk hi
    rw [c3] at hv
    have hw := a3 k hk i hi
    rw [← hv, List.getD_eq_getElem?_getD] at hw
    cases hx : col[k * (1440 / j.shared.ts) + i]? with
    | none =>
      rw [hx, Option.getD_none] at hw
      exact absurd (C01_missing _ _ _ _ hw) (by simp)
    | some a =>
      rw [hx, Option.getD_some] at hw
      cases a with
      | nan => exact absurd (C01_missing _ _ _ _ hw) (by simp)
      | fin x =>
        obtain ⟨y', s', kd', b1, b2, b3, b4⟩ := convert_si hbug hdf hj.step.1 hw
        obtain rfl := Flt.fin.inj b1
        rw [c5] at b3
        rw [← Option.some.inj b3] at b4
        exact ⟨x, rfl, b4⟩

section C79

variable (j : Job) (hj : j.Sane) (fuel : Nat) (order : List (Dict String Chunk.Slice)) (ho : j.Schedule order)
  (files : Run.Files Output) (hrun : j.run fuel order = .ok files) (hsub : j.shared.ts < 1440) (c : Run.Cell)
  (hc : j.Computed c)

include hj ho hrun hsub hc

/-- **C79**: the air pressure written for a step is that of the temperature written for it, at the elevation of the cell. -/
theorem C79_pressure (elev : ℝ) (he : (j.inp c).elev = fin elev) (u : String)
    (hu : j.shared.outVars.get? "air_pressure" = some u) (hbug : u ≠ "hPa") (k : Nat) (hk : k < j.n) (i : Nat)
    (hi : i < 1440 / j.shared.ts) (T : ℝ) (hT : Reads j files c "temp" k i T) (hT0 : 0 < T - j.shared.lapseRate * elev / 2) :
    Reads j files c "air_pressure" k i (Spec.hypsometric elev j.shared.lapseRate T) := by
  obtain ⟨elev', lat, lon, h1, h2, h3, q, daily, t, hd, ld, hnd, hread⟩ := readout j hj ho hrun hsub hc
  rw [he] at h1
  obtain rfl := Flt.fin.inj h1
  have hT' := hT
  obtain ⟨uT, -, -, -, hT1, -⟩ := hT'
  obtain ⟨colT, a1, a2⟩ := hread "temp" uT "C" .temperature hT1 (by decide) rfl (by simp)
  obtain ⟨colP, b1, b2⟩ := hread "air_pressure" u "kPa" .pressure hu (by decide) rfl (fun h => hbug h.2)
  obtain ⟨x, hx, hxs⟩ := (a2 k hk i hi).2 T hT
  rw [← Except.ok.inj a1, temp_fill] at hx
  have e : x + 273.15 = T := (Prod.mk.inj (Option.some.inj hxs)).2
  have hp : t.airPressure[k * (1440 / j.shared.ts) + i]? = some (fin (101.325 *
      Real.exp (-(9.80665 * elev) / (287 * (x + 273.15 - j.shared.lapseRate * elev / 2))))) := by
    unfold Trace.airPressure
    rw [List.getElem?_map, hx, Option.map_some, ← C59_value x elev j.shared.lapseRate (by rw [e]; exact hT0)]
    rfl
  refine (b2 k hk i hi).1 _ _ (by rw [← Except.ok.inj b1]; exact fillBoth_keep hp) ?_
  simp only [Spec.si, Spec.hypsometric, e]
  congr 2
  ring

/-- **C79**: the relative humidity written for a step is the vapour pressure written for it over saturation at the
temperature written for it, but no more than one: if the vapour pressure is read a thousand times larger. -/
theorem C79_relative_partial (u : String) (hu : j.shared.outVars.get? "rel_humid" = some u) (k : Nat) (hk : k < j.n) (i : Nat)
    (hi : i < 1440 / j.shared.ts) (T e : ℝ) (hT : Reads j files c "temp" k i T) (hT0 : 35.85 < T)
    (he : Reads j files c "vapor_pressure" k i e) :
    Reads j files c "rel_humid" k i (min 1 (1000 * e / Spec.saturation (T - 273.15))) := by
  obtain ⟨elev', lat, lon, h1, h2, h3, q, daily, t, hd, ld, hnd, hread⟩ := readout j hj ho hrun hsub hc
  have hT' := hT
  obtain ⟨uT, -, -, -, hT1, -⟩ := hT'
  have he' := he
  obtain ⟨uE, -, -, -, hE1, -⟩ := he'
  obtain ⟨colT, a1, a2⟩ := hread "temp" uT "C" .temperature hT1 (by decide) rfl (by simp)
  obtain ⟨colE, c1, c2⟩ := hread "vapor_pressure" uE "Pa" .pressure hE1 (by decide) rfl (by simp)
  obtain ⟨colR, b1, b2⟩ := hread "rel_humid" u "%" .ratio hu (by decide) rfl (by simp)
  obtain ⟨x, hx, hxs⟩ := (a2 k hk i hi).2 T hT
  obtain ⟨y, hy, hys⟩ := (c2 k hk i hi).2 e he
  rw [← Except.ok.inj a1, temp_fill] at hx
  rw [← Except.ok.inj c1, vp_fill] at hy
  have e1 : x + 273.15 = T := (Prod.mk.inj (Option.some.inj hxs)).2
  have e2 : y = e := (Prod.mk.inj (Option.some.inj hys)).2
  have hr : t.relHumid[k * (1440 / j.shared.ts) + i]? = some (fin (min 100 (100 * (y / satKPa x)))) := by
    unfold Trace.relHumid
    rw [List.getElem?_zipWith, hx, hy, ← relativeHumidity_eq (by linarith)]
  refine (b2 k hk i hi).1 _ _ (by rw [← Except.ok.inj b1]; exact fillBoth_keep hr) ?_
  simp only [Spec.si]
  congr 2
  rw [← min_div_div_right (by norm_num : (0 : ℝ) ≤ 100), show T - 273.15 = x by linarith, saturation_eq, e2]
  unfold satKPa
  have := svpR_pos x
  congr 1
  · norm_num
  · field_simp

/-- **C79**: the specific humidity written for a step follows from the vapour pressure and the air pressure written for it:
if the vapour pressure is read a thousand times larger. -/
theorem C79_specific_partial (elev : ℝ) (hel : (j.inp c).elev = fin elev) (u : String)
    (hu : j.shared.outVars.get? "spec_humid" = some u) (uP : String)
    (huP : j.shared.outVars.get? "air_pressure" = some uP) (hbug : uP ≠ "hPa") (k : Nat) (hk : k < j.n) (i : Nat)
    (hi : i < 1440 / j.shared.ts) (T e p : ℝ) (hT : Reads j files c "temp" k i T)
    (hT0 : 0 < T - j.shared.lapseRate * elev / 2) (he : Reads j files c "vapor_pressure" k i e) (he0 : 0 ≤ e)
    (hp : Reads j files c "air_pressure" k i p) (hp0 : 1000 * e < p) :
    Reads j files c "spec_humid" k i (Spec.moisture (1000 * e) p) := by
  have hpp := reads_unique hj hk hi hp (C79_pressure j hj fuel order ho files hrun hsub c hc elev hel uP huP hbug k hk i hi T hT hT0)
  obtain ⟨elev', lat, lon, h1, h2, h3, q, daily, t, hd, ld, hnd, hread⟩ := readout j hj ho hrun hsub hc
  rw [hel] at h1
  obtain rfl := Flt.fin.inj h1
  have hT' := hT
  obtain ⟨uT, -, -, -, hT1, -⟩ := hT'
  have he' := he
  obtain ⟨uE, -, -, -, hE1, -⟩ := he'
  obtain ⟨colT, a1, a2⟩ := hread "temp" uT "C" .temperature hT1 (by decide) rfl (by simp)
  obtain ⟨colE, c1, c2⟩ := hread "vapor_pressure" uE "Pa" .pressure hE1 (by decide) rfl (by simp)
  obtain ⟨colS, b1, b2⟩ := hread "spec_humid" u "g g-1" .ratio hu (by decide) rfl (by simp)
  obtain ⟨x, hx, hxs⟩ := (a2 k hk i hi).2 T hT
  obtain ⟨y, hy, hys⟩ := (c2 k hk i hi).2 e he
  rw [← Except.ok.inj a1, temp_fill] at hx
  rw [← Except.ok.inj c1, vp_fill] at hy
  have e1 : x + 273.15 = T := (Prod.mk.inj (Option.some.inj hxs)).2
  have e2 : y = e := (Prod.mk.inj (Option.some.inj hys)).2
  have hP : p / 1000 = 101.325 * Real.exp (-(9.80665 * elev) / (287 * (x + 273.15 - j.shared.lapseRate * elev / 2))) := by
    rw [hpp, e1]
    unfold Spec.hypsometric
    ring
  have hr : t.specHumid[k * (1440 / j.shared.ts) + i]? =
      some (fin (0.62196351 * y / (0.62196351 * y + (p / 1000 - y)))) := by
    unfold Trace.specHumid Trace.airPressure
    rw [List.getElem?_zipWith, List.getElem?_map, hx, hy, Option.map_some]
    show some (Humidity.specificHumidity (fin y) (Humidity.pressure (fin x) elev j.shared.lapseRate)) = _
    rw [C59_value x elev j.shared.lapseRate (by rw [e1]; exact hT0), ← hP, C58_value y (p / 1000) (by rw [e2]; exact he0)
      (by rw [e2, lt_div_iff₀ (by norm_num)]; linarith)]
  refine (b2 k hk i hi).1 _ _ (by rw [← Except.ok.inj b1]; exact fillBoth_keep hr) ?_
  simp only [Spec.si, Spec.moisture]
  congr 2
  rw [e2]
  have hd1 : 0.62196351 * e + (p / 1000 - e) ≠ 0 := by
    have : 0 < 0.62196351 * e + (p / 1000 - e) := by
      have : e < p / 1000 := by rw [lt_div_iff₀ (by norm_num)]; linarith
      have : 0 ≤ 0.62196351 * e := by positivity
      linarith
    exact this.ne'
  rw [show 0.62196351 * (1000 * e) / (0.62196351 * (1000 * e) + (p - 1000 * e)) =
    (1000 * (0.62196351 * e)) / (1000 * (0.62196351 * e + (p / 1000 - e))) by ring_nf, mul_div_mul_left _ _ (by norm_num)]

/-- Longwave radiation, if cloud cover is known every day. -/
theorem longwave_of (hcloud : ∀ elev lat lon (q : Common fuel j.shared elev lat lon (j.inp c).data),
      (j.inp c).elev = fin elev → (j.inp c).lat = fin lat → DailyGood j.n q.base)
    (hlw : Dict.get? (j.inp c).data.frame "longwave" = none)
    {u : String} (hu : j.shared.outVars.get? "longwave" = some u) {ty : Lw.LwType} {cl : Lw.Cloud}
    (hty : Lw.lwTypeOf j.shared.lwType = .ok ty) (hcl : Lw.cloudOf j.shared.lwCloud = .ok cl)
    {k : Nat} (hk : k < j.n) {i : Nat}
    (hi : i < 1440 / j.shared.ts) {T e f : ℝ} (hT : Reads j files c "temp" k i T) (hT0 : 0 < T)
    (he : Reads j files c "vapor_pressure" k i e) (he0 : 0 ≤ e) (hf : Reads j files c "tskc" k i f) :
    Reads j files c "longwave" k i (withCloud cl (clearSky ty (1000 * e / 100) T) f * (5.669e-8 * T ^ 4)) := by
  obtain ⟨elev, lat, lon, h1, h2, h3, q, daily, t, hd, ld, hnd, hread⟩ := readout j hj ho hrun hsub hc
  have hgood := hcloud elev lat lon q h1 h2
  obtain ⟨q1, q2, q3, q4, q5, q6, q7, q8, q9, q10, q11, q12⟩ := dailyOf_ok hd
  have hT' := hT
  obtain ⟨uT, -, -, -, hT1, -⟩ := hT'
  have he' := he
  obtain ⟨uE, -, -, -, hE1, -⟩ := he'
  have hf' := hf
  obtain ⟨uF, -, -, -, hF1, -⟩ := hf'
  obtain ⟨colT, a1, a2⟩ := hread "temp" uT "C" .temperature hT1 (by decide) rfl (by simp)
  obtain ⟨colE, c1, c2⟩ := hread "vapor_pressure" uE "Pa" .pressure hE1 (by decide) rfl (by simp)
  obtain ⟨colF, d1, d2⟩ := hread "tskc" uF "fraction" .ratio hF1 (by decide) rfl (by simp)
  obtain ⟨colS, b1, b2⟩ := hread "longwave" u "W m-2" .energyFlux hu (by decide) rfl (by simp)
  obtain ⟨x, hx, hxs⟩ := (a2 k hk i hi).2 T hT
  obtain ⟨y, hy, hys⟩ := (c2 k hk i hi).2 e he
  obtain ⟨z, hz, hzs⟩ := (d2 k hk i hi).2 f hf
  rw [← Except.ok.inj a1, temp_fill] at hx
  rw [← Except.ok.inj c1, vp_fill] at hy
  rw [← Except.ok.inj d1] at hz
  have e1 : x + 273.15 = T := (Prod.mk.inj (Option.some.inj hxs)).2
  have e2 : y = e := (Prod.mk.inj (Option.some.inj hys)).2
  have e3 : z = f := (Prod.mk.inj (Option.some.inj hzs)).2
  have hcl' : ∀ v ∈ daily.tskc, ∃ w, v = fin w ∧ 0 ≤ w ∧ w ≤ 1 := by
    intro v hv
    obtain ⟨col, g, hcv⟩ := Cell.column_ok.1 q7
    rw [hcv] at hv
    obtain ⟨m, hm, rfl⟩ := List.mem_map.1 hv
    obtain ⟨col', g', hP⟩ := hgood.cloud
    rw [g] at g'
    obtain rfl := Option.some.inj g'
    exact hP m (by rw [← length_consecutive j.d0 j.n, ← hj.data c]; exact List.mem_range.1 hm)
  have hz' : t.cloud[k * (1440 / j.shared.ts) + i]? = some (fin z) := by
    have hz0 := hz
    have : t.sub.tskc = t.cloud := fillBoth_of_fin (fun v hv => by
      obtain ⟨w, hw, -⟩ := C50_bounds t.h_cloud hcl' v hv
      rw [hw]; rfl)
    rw [this] at hz0
    exact hz0
  obtain ⟨-, lt, lv, -⟩ := vaporPressure_ok t.h_vp
  rw [List.length_map] at lt
  obtain ⟨lw, g1, g2, g3⟩ := C60_series (t.temp.map fin) (fillBoth t.vp) t.cloud j.shared.lwType j.shared.lwCloud j.shared.ts ty cl
    hty hcl (by rw [List.length_map, lt, (fillBoth_filled t.vp).length, lv]) (by rw [List.length_map, lt, t.l_cloud])
  have hlw' := t.h_lw
  have hnone : daily.longwave = none := by
    rw [q10]
    unfold column?
    rw [base_keeps q (by decide) (by decide), hlw]; rfl
  rw [hnone] at hlw'
  have : t.lw = lw := Except.ok.inj (hlw'.symm.trans g1)
  have hr := g3 _ _ _ _ hx hy hz'
  rw [C60_value ty cl x y z (by rw [e2]; exact he0) (by linarith), ← this] at hr
  refine (b2 k hk i hi).1 _ _ (by rw [← Except.ok.inj b1]; exact fillBoth_keep hr) ?_
  simp only [Spec.si]
  rw [e1, e2, e3, show 1000 * e / 100 = 10 * e by ring]

/-- **C79**: the longwave radiation written for a step follows from the temperature, vapour pressure and cloud cover
written for it, by the schemes of the configuration: if the vapour pressure is read a thousand times larger. -/
theorem C79_longwave_partial (hgood : (j.shared.method = .mtclim ∧ SaneParams j.shared ∧
      Lw.upperS j.shared.lwCloud = "CLOUD_DEARDORFF" ∧
      ∀ k ∈ ["t_min", "t_max", "dtr", "smoothed_dtr", "prec", "seasonal_prec"], Dict.get? (j.inp c).data.frame k ≠ none) ∨
      (j.shared.method = .passthrough ∧ DailyGood j.n (j.inp c).data.frame))
    (hs : Sound j.shared j.n (j.inp c)) (u : String) (hu : j.shared.outVars.get? "longwave" = some u)
    (ty : Lw.LwType) (cl : Lw.Cloud)
    (hty : Lw.lwTypeOf j.shared.lwType = .ok ty) (hcl : Lw.cloudOf j.shared.lwCloud = .ok cl)
    (k : Nat) (hk : k < j.n) (i : Nat) (hi : i < 1440 / j.shared.ts) (T e f : ℝ) (hT : Reads j files c "temp" k i T)
    (hT0 : 0 < T) (he : Reads j files c "vapor_pressure" k i e) (he0 : 0 ≤ e) (hf : Reads j files c "tskc" k i f) :
    Reads j files c "longwave" k i (withCloud cl (clearSky ty (1000 * e / 100) T) f * (5.669e-8 * T ^ 4)) := by
  refine longwave_of j hj fuel order ho files hrun hsub c hc ?_ hs.longwave hu hty hcl hk hi hT hT0 he he0 hf
  intro elev lat lon q h1 h2
  rcases hgood with ⟨hm, hp, hde, hcols⟩ | ⟨hm, hg⟩
  · exact mtclim_good q (by rw [hj.data c, length_consecutive]) hm hp hs.lapse.1 (hs.column elev h1) (hs.lat lat h2) hs.record
      hcols hde
  · exact passthrough_good q hm hg

end C79

/-- **C79** in full: relative humidity is the vapour pressure over saturation at the temperature, as written. -/
def C79_full : Prop := ∀ (j : Job), j.Sane → ∀ (fuel : Nat) (order : List (Dict String Chunk.Slice)), j.Schedule order →
  ∀ files : Run.Files Output, j.run fuel order = .ok files → j.shared.ts < 1440 → ∀ c, j.Computed c →
  ∀ u, j.shared.outVars.get? "rel_humid" = some u → ∀ k < j.n, ∀ i < 1440 / j.shared.ts, ∀ T e,
    Reads j files c "temp" k i T → 35.85 < T → Reads j files c "vapor_pressure" k i e →
    Reads j files c "rel_humid" k i (min 1 (e / Spec.saturation (T - 273.15)))

/-- A run over two days with a vapour pressure of 600 Pa. -/
noncomputable def humid : Job :=
  { demo .passthrough with
    inp := fun _ => ⟨fin 100, fin 45, fin (-120), ⟨consecutive 0 2,
      [("t_min", fun _ => fin 5), ("t_max", fun _ => fin 15), ("prec", fun _ => fin 24), ("dtr", fun _ => fin 10),
       ("smoothed_dtr", fun _ => fin 10), ("seasonal_prec", fun _ => fin 800), ("shortwave", fun _ => fin 200),
       ("vapor_pressure", fun _ => fin 600), ("tskc", fun _ => fin 0.5)], (fin 4, fin 14)⟩⟩ }

theorem humid_sane : humid.Sane where
  step := (demo_sane .passthrough).step
  pos := (demo_sane .passthrough).pos
  calendar := regular_standard _ _
  data := fun _ => rfl
  freq := (demo_sane .passthrough).freq
  years := (demo_sane .passthrough).years
  vars := (demo_sane .passthrough).vars
  names := (demo_sane .passthrough).names
  dims := (demo_sane .passthrough).dims
  dims_pos := (demo_sane .passthrough).dims_pos
  chunks := (demo_sane .passthrough).chunks
  chunks_pos := (demo_sane .passthrough).chunks_pos
  same := (demo_sane .passthrough).same

theorem humid_sound (c : Run.Cell) : Sound humid.shared 2 (humid.inp c) where
  elev := (demo_sound c).elev
  lat := (demo_sound c).lat
  lon := fun _ _ => Or.inl rfl
  lapse := (demo_sound c).lapse
  fraction := (demo_sound c).fraction
  record := {
    tMin := fun col h i _ => by
      rw [← Option.some.inj (show some (fun _ => fin 5) = some col from h)]
      exact ⟨5, rfl, by norm_num, by norm_num⟩
    tMax := fun col h i _ => by
      rw [← Option.some.inj (show some (fun _ => fin 15) = some col from h)]
      exact ⟨15, rfl, by norm_num, by norm_num⟩
    dtr := fun col h i _ => by
      rw [← Option.some.inj (show some (fun _ => fin 10) = some col from h)]
      exact ⟨10, rfl, by norm_num, by norm_num⟩
    smoothed := fun col h i _ => by
      rw [← Option.some.inj (show some (fun _ => fin 10) = some col from h)]
      exact ⟨10, rfl⟩
    prec := fun col h i _ => by
      rw [← Option.some.inj (show some (fun _ => fin 24) = some col from h)]
      exact ⟨24, rfl, by norm_num⟩
    seasonal := fun col h i _ => by
      rw [← Option.some.inj (show some (fun _ => fin 800) = some col from h)]
      exact ⟨800, rfl⟩
    wind := fun col h i _ => by
      have : Dict.get? (humid.inp c).data.frame "wind" = none := rfl
      rw [this] at h; cases h
    state := ⟨4, 14, rfl, by norm_num, by norm_num, by norm_num, by norm_num⟩ }
  rain := fun _ _ => Or.inl (by unfold humid demo; decide)
  storm := (demo_complete .passthrough c).storm
  longwave := rfl

theorem humid_given (c : Run.Cell) : DailyGood 2 (humid.inp c).data.frame :=
  ⟨⟨_, rfl, fun _ _ => ⟨200, rfl, by norm_num⟩⟩, ⟨_, rfl, fun _ _ => ⟨600, rfl, by norm_num⟩⟩,
    ⟨_, rfl, fun _ _ => ⟨0.5, rfl, by norm_num, by norm_num⟩⟩⟩

theorem humid_complete (c : Run.Cell) : CompleteCell humid.shared 2 (humid.inp c) where
  place := ⟨100, 45, -120, rfl, rfl, rfl, by rw [abs_of_pos] <;> norm_num, by unfold humid demo; norm_num⟩
  lapse := (humid_sound c).lapse.1
  columns := by
    intro k hk
    simp only [List.mem_cons, List.not_mem_nil, or_false] at hk
    rcases hk with rfl | rfl | rfl | rfl | rfl | rfl <;> simp [humid, Dict.get?_cons]
  radiation := fun _ => by simp [humid, Dict.get?_cons]
  tMin := fun col h i hi => by
    obtain ⟨x, hx, -⟩ := (humid_sound c).record.tMin col h i hi
    exact ⟨x, hx⟩
  tMax := fun col h i hi => by
    obtain ⟨x, hx, -⟩ := (humid_sound c).record.tMax col h i hi
    exact ⟨x, hx⟩
  state := ⟨4, 14, rfl⟩
  fraction := by unfold humid demo; norm_num
  lwType := (demo_complete .passthrough c).lwType
  lwCloud := (demo_complete .passthrough c).lwCloud
  storm := (humid_sound c).storm

theorem humid_runs : ∃ order files, humid.Schedule order ∧ humid.run 0 order = .ok files := by
  obtain ⟨files, h⟩ := (C71_run humid humid_sane 0 [[("lat", none), ("lon", none)]]
    ⟨_, rfl, List.Perm.refl _⟩ (fun c _ => humid_complete c) (fun h => by cases h)).2
      (fun _ _ => demo_offers (by unfold humid demo; decide) _)
  exact ⟨_, files, ⟨_, rfl, List.Perm.refl _⟩, h⟩

/-- At some step the files hold a temperature and a vapour pressure of 600 Pa, or saturation, over a thousand. -/
theorem humid_reads {order : List (Dict String Chunk.Slice)} (ho : humid.Schedule order) {files : Run.Files Output}
    (hrun : humid.run 0 order = .ok files) :
    ∃ k < humid.n, ∃ i < 1440 / humid.shared.ts, ∃ T, -60 ≤ T ∧ T ≤ 60 ∧ Reads humid files [0, 0] "temp" k i (T + 273.15) ∧
      Reads humid files [0, 0] "vapor_pressure" k i (min 600 (svpR T) / 1000) := by
  have hsub : humid.shared.ts < 1440 := by unfold humid demo; decide
  have hc : humid.Computed [0, 0] := ⟨by unfold humid demo; decide, 1, rfl, one_pos⟩
  obtain ⟨elev, lat, lon, h1, h2, h3, q, daily, t, hd, ld, hnd, hread⟩ := readout humid humid_sane ho hrun hsub hc
  have hs := humid_sound [0, 0]
  have hus := usable_of q hd t humid_sane.step.2 (by decide) hs.record (humid_complete [0, 0]).fraction hs.storm
  have hT := temp_sound hs h2 h3 q rfl hd t hus
  have hvp : ∀ x ∈ daily.vaporPressure, x = fin 600 := by
    obtain ⟨-, -, -, -, -, q6, -⟩ := dailyOf_ok hd
    obtain ⟨col, g, e⟩ := Cell.column_ok.1 q6
    have hrun : passthroughRun (withGeom q.rows (humid.inp [0, 0]).data.frame) (humid.shared.daily elev) = .ok q.base := q.h_base
    have := ((C42_passthrough_partial _ _).2 _ hrun).1 "vapor_pressure" (fun _ => fin 600)
      (by rw [withGeom_keeps _ _ (by decide)]; rfl) (fun h => absurd h (by decide))
    rw [this] at g
    rw [e, ← Option.some.inj g]
    intro x hx
    obtain ⟨_, -, rfl⟩ := List.mem_map.1 hx
    rfl
  obtain ⟨m, a, b, w, T, hm, ha, hb, hmT, hmv⟩ := vp_step (hs.lat lat h2) q.h_geom hus t hsub (by rw [ld]; decide)
    (utcShift_half (hs.lon lon h3)) (fun x hx => ⟨600, hvp x hx, by norm_num⟩) (fun T h => by linarith [(hT T h).1])
  obtain rfl := Flt.fin.inj (hvp _ (List.mem_of_getElem? ha))
  obtain rfl := Flt.fin.inj (hvp _ (List.mem_of_getElem? hb))
  rw [sub_self, zero_mul, add_zero] at hmv
  obtain ⟨-, lt, -⟩ := vaporPressure_ok t.h_vp
  rw [List.length_map] at lt
  rw [lt] at hm
  have hpos : 0 < 1440 / humid.shared.ts := humid_sane.step.pos
  have hdm : m / (1440 / humid.shared.ts) * (1440 / humid.shared.ts) + m % (1440 / humid.shared.ts) = m := Nat.div_add_mod' _ _
  have hk : m / (1440 / humid.shared.ts) < humid.n := by
    rw [Nat.div_lt_iff_lt_mul hpos, ← hnd]
    exact hm
  have hi := Nat.mod_lt m hpos
  obtain ⟨colT, a1, a2⟩ := hread "temp" "K" "C" .temperature rfl (by decide) rfl (by simp)
  obtain ⟨colE, c1, c2⟩ := hread "vapor_pressure" "kPa" "Pa" .pressure rfl (by decide) rfl (by simp)
  obtain ⟨b1, b2⟩ := hT T (List.mem_of_getElem? hmT)
  refine ⟨_, hk, _, hi, T, b1, b2, (a2 _ hk _ hi).1 T _ ?_ rfl, (c2 _ hk _ hi).1 _ _ ?_ rfl⟩
  · rw [hdm, ← Except.ok.inj a1, temp_fill, List.getElem?_map, hmT]; rfl
  · rw [hdm, ← Except.ok.inj c1, vp_fill]; exact fillBoth_keep hmv

/-- **C79 is violated by the code**: vapour pressure is written a thousand times smaller than its unit says, relative
humidity is not. -/
theorem C79_refuted : ¬ C79_full := by
  intro h
  obtain ⟨order, files, ho, hrun⟩ := humid_runs
  have hsub : humid.shared.ts < 1440 := by unfold humid demo; decide
  have hc : humid.Computed [0, 0] := ⟨by unfold humid demo; decide, 1, rfl, one_pos⟩
  obtain ⟨k, hk, i, hi, T, b1, b2, hT, he⟩ := humid_reads ho hrun
  have h1 := h humid humid_sane 0 order ho files hrun hsub [0, 0] hc "%" rfl k hk i hi _ _ hT (by linarith) he
  have h2 := C79_relative_partial humid humid_sane 0 order ho files hrun hsub [0, 0] hc "%" rfl k hk i hi _ _ hT (by linarith) he
  have h3 := reads_unique humid_sane hk hi h1 h2
  rw [add_sub_cancel_right, saturation_eq] at h3
  have hp := svpR_pos T
  have hv : 0 < min 600 (svpR T) := lt_min (by norm_num) hp
  have hle : min 600 (svpR T) / 1000 / svpR T ≤ 1 / 1000 := by
    rw [div_le_iff₀ hp]
    have := min_le_right 600 (svpR T)
    linarith
  have hx : 0 < min 600 (svpR T) / 1000 / svpR T := by positivity
  rw [mul_div_assoc] at h3
  generalize min 600 (svpR T) / 1000 / svpR T = x at *
  rw [min_eq_right (by linarith)] at h3
  rcases le_total 1 (1000 * x) with h | h
  · rw [min_eq_left h] at h3; linarith
  · rw [min_eq_right h] at h3; linarith

/-- There is a run with files holding such values. -/
example : humid.Sane ∧ humid.shared.ts < 1440 ∧ humid.Computed [0, 0] ∧ Sound humid.shared humid.n (humid.inp [0, 0]) ∧
    DailyGood humid.n (humid.inp [0, 0]).data.frame ∧ ∃ order files, humid.Schedule order ∧ humid.run 0 order = .ok files ∧
    ∃ k < humid.n, ∃ i < 1440 / humid.shared.ts, ∃ T e, 35.85 < T ∧ 0 < T - humid.shared.lapseRate * 100 / 2 ∧
      Reads humid files [0, 0] "temp" k i T ∧ Reads humid files [0, 0] "vapor_pressure" k i e ∧ 0 ≤ e := by
  obtain ⟨order, files, ho, hrun⟩ := humid_runs
  obtain ⟨k, hk, i, hi, T, b1, b2, hT, he⟩ := humid_reads ho hrun
  refine ⟨humid_sane, by unfold humid demo; decide, ⟨by unfold humid demo; decide, 1, rfl, one_pos⟩, humid_sound _, humid_given _,
    order, files, ho, hrun, k, hk, i, hi, _, _, by linarith, ?_, hT, he, ?_⟩
  · have : humid.shared.lapseRate = 0.0065 := rfl
    rw [this]; linarith
  · have := svpR_pos T
    positivity

end Verif.Props
