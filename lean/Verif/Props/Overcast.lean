import Verif.Props.Known
import Verif.Props.Sunlight

/-!
# Days without radiation or sky cover in the forcing, at sub-daily steps: C153
-/

namespace Verif.Props

open Flt Physics Methods Cell Np

/-- The steps of a day without radiation have none before the frame is filled. -/
theorem shortwave_nan {sw dl : List (Flt ℝ)} {doy : List Nat} {table : List (List ℝ)} {ts : Nat} {lon : ℝ} {out : List (Flt ℝ)}
    (hl : dl.length = sw.length) (hts : 0 < ts) (hdvd : ts ∣ 1440) (h : Disagg.shortwave sw dl doy table ts false lon = .ok out) {d k : Nat}
    (hd : sw[d]? = some nan) (hk : k < 1440 / ts) : out[d * (1440 / ts) + k]? = some nan := by
  have hd' : d < sw.length := (List.getElem?_eq_some_iff.1 hd).1
  rw [shortwave_step hl h hd' hk]
  congr 1
  have hkt : k * (2 * ts) + 0 < 2880 := by
    have : (k + 1) * ts ≤ 1440 := by
      calc (k + 1) * ts ≤ 1440 / ts * ts := Nat.mul_le_mul_right _ hk
        _ = 1440 := Nat.div_mul_cancel hdvd
    nlinarith
  refine sum_of_mem_nan _ (List.mem_map.2 ⟨0, List.mem_range.2 (by omega), ?_⟩)
  rw [slotDay_false hd' hkt]
  unfold perSlot
  rw [show sw.getD d nan = nan by rw [List.getD_eq_getElem?_getD, hd]; rfl]
  simp

open Spec in
/-- Where the sun is down by more than the rounding of the constants, it is down for the code. -/
theorem cza_night {φ δ t : ℝ} (h0 : 0 ≤ t) (h1 : t ≤ 86400) (h : elevation φ δ t ≤ -1e-6) :
    Solar.cza (Real.cos φ * Real.cos δ) (Real.sin φ * Real.sin δ) (Solar.angle t) ≤ 0 := by
  unfold Solar.cza Solar.angle
  unfold elevation at h
  have h2 : |Real.cos φ * Real.cos δ| ≤ 1 := by
    rw [abs_mul]; exact mul_le_one₀ (Real.abs_cos_le_one φ) (abs_nonneg _) (Real.abs_cos_le_one δ)
  have h3 := Solar.cos_lip ((t - 43200) / 13750.9871) (2 * Real.pi * (t - 43200) / 86400)
  have hp := Real.pi_lt_d20
  have hp' := Real.pi_gt_d20
  rw [show (t - 43200) / 13750.9871 - 2 * Real.pi * (t - 43200) / 86400
    = (t - 43200) * (1 / 13750.9871 - Real.pi / 43200) by ring, abs_mul] at h3
  have h4 : |t - 43200| ≤ 43200 := abs_le.2 ⟨by linarith, by linarith⟩
  have h5 : |1 / 13750.9871 - Real.pi / 43200| ≤ 1e-12 := by
    rw [abs_le]; constructor <;> norm_num <;> linarith
  have h6 : |Real.cos φ * Real.cos δ * (Real.cos ((t - 43200) / 13750.9871) - Real.cos (2 * Real.pi * (t - 43200) / 86400))| ≤ 1e-6 := by
    rw [abs_mul]
    calc _ ≤ 1 * |Real.cos ((t - 43200) / 13750.9871) - Real.cos (2 * Real.pi * (t - 43200) / 86400)| :=
          mul_le_mul_of_nonneg_right h2 (abs_nonneg _)
      _ ≤ 43200 * 1e-12 := by
          rw [one_mul]
          exact h3.trans (mul_le_mul h4 h5 (abs_nonneg _) (by norm_num))
      _ ≤ 1e-6 := by norm_num
  have h7 := (abs_le.1 h6).2
  rw [mul_sub] at h7
  linarith

/-- The sun stays down through step `i` of a day. -/
def SunDown (lat : ℝ) (d : Int) (ts i : Nat) : Prop :=
  ∀ t : ℝ, 60 * (ts * i) ≤ t → t ≤ 60 * (ts * (i + 1)) →
    Spec.elevation (Spec.radians lat) (Spec.declination (min (doy d - 1) 364)) t ≤ -1e-6

theorem fract_night {elev lat lr : ℝ} (h90 : |lat| ≤ 90) {geom : List Solar.DayGeom} (hg : Solar.solarGeom elev lat lr = .ok geom) {d : Int}
    {g : Solar.DayGeom} (h : geom[doy d - 1]? = some g) {ts i : Nat} (hts : ts ∣ 1440) (hi : i < 1440 / ts) (hdown : SunDown lat d ts i) {m : Nat}
    (hm : m < 2 * ts) : g.fract (i * (2 * ts) + m) = 0 := by
  obtain ⟨tr, -, hday⟩ := solarGeom_row hg h
  obtain ⟨T, hT, hs⟩ := Solar.fract_sample hday (latRad_lt h90)
  have hle : (i + 1) * ts ≤ 1440 := by
    calc (i + 1) * ts ≤ 1440 / ts * ts := Nat.mul_le_mul_right _ hi
      _ = 1440 := Nat.div_mul_cancel hts
  obtain ⟨t, t1, t2, t3⟩ := hs (i * (2 * ts) + m) (by nlinarith)
  have hler : ((i : ℝ) + 1) * ts ≤ 1440 := by exact_mod_cast hle
  have hmr : (m : ℝ) + 1 ≤ 2 * ts := by exact_mod_cast hm
  have hm0 : (0 : ℝ) ≤ m := Nat.cast_nonneg m
  have hi0 : (0 : ℝ) ≤ i * ts := by positivity
  push_cast at t1 t2
  have hn := cza_night (t := t) (by nlinarith) (by nlinarith) (hdown t (by nlinarith) (by nlinarith))
  rw [latRad_eq h90, decl_eq] at t3
  have e : Spec.radians lat = lat * 0.01745329 := rfl
  rw [e] at hn
  rw [max_eq_left hn, mul_zero] at t3
  exact (mul_eq_zero.1 t3).resolve_right hT.ne'

section C153

variable (j : Job) (hj : j.Sane) (fuel : Nat) (order : List (Dict String Chunk.Slice)) (ho : j.Schedule order)
  (files : Run.Files Output) (hrun : j.run fuel order = .ok files) (hsub : j.shared.ts < 1440) (hutc : j.shared.utcOffset = false)
  (hm : j.shared.method = .passthrough) (c : Run.Cell) (hc : j.Computed c)

include hj ho hrun hsub hutc hm hc

/-- The radiation of the frame. -/
theorem sun_column {col : Col} (hcol : Dict.get? (j.inp c).data.frame "shortwave" = some col) {u : String}
    (hu : j.shared.outVars.get? "shortwave" = some u) :
    ∃ out : List (Flt ℝ), out.length = j.n * (1440 / j.shared.ts) ∧
      (∀ d < j.n, ∀ i < 1440 / j.shared.ts, col d = nan → out[d * (1440 / j.shared.ts) + i]? = some nan) ∧
      ∀ k < j.n, ∀ i < 1440 / j.shared.ts, ∀ x, (fillBoth out)[k * (1440 / j.shared.ts) + i]? = some (fin x) ↔
        Reads j files c "shortwave" k i x := by
  obtain ⟨elev, lat, lon, h1, h2, h3, q, daily, t, hd, ld, hnd, hread⟩ := readout j hj ho hrun hsub hc
  have hlen : (j.inp c).data.days.length = j.n := by rw [hj.data c, length_consecutive]
  obtain ⟨q1, q2, q3, -⟩ := dailyOf_ok hd
  obtain ⟨col', gc, ec⟩ := Cell.column_ok.1 q2
  obtain ⟨dl, -, ed⟩ := Cell.column_ok.1 q3
  have hb := q.h_base
  unfold runMethod at hb
  rw [hm] at hb
  simp only at hb
  rw [((C42_passthrough_partial _ _).2 _ hb).1 "shortwave" col (by rw [withGeom_keeps _ _ (by decide)]; exact hcol)
    (fun h => absurd h (by decide))] at gc
  obtain rfl := Option.some.inj gc
  rw [hlen] at ec ed
  have g1 := t.h_sw
  have hutc' : (j.shared.sub elev lon).utcOffset = false := hutc
  rw [hutc'] at g1
  obtain ⟨cw, r1, r2⟩ := hread "shortwave" u "W m-2" .energyFlux hu (by decide) rfl (by simp)
  have hcw : cw = fillBoth t.sw := (Except.ok.inj r1).symm
  subst hcw
  refine ⟨t.sw, by rw [t.l_sw]; exact hnd, fun d hd i hi hn => ?_, fun k hk i hi x => ⟨fun h => (r2 k hk i hi).1 x x h rfl, fun h => ?_⟩⟩
  · refine shortwave_nan (by rw [daylengthOf_length, ec, ed]; simp) hj.step.1 hj.step.2 g1 ?_ hi
    rw [ec, List.getElem?_map, List.getElem?_range hd, Option.map_some, hn]
  · obtain ⟨y, y1, y2⟩ := (r2 k hk i hi).2 x h
    have : y = x := (Prod.mk.inj (Option.some.inj y2)).2
    rw [← this]; exact y1

/-- **C153**, what holds of the radiation: given for a day, it is zero in the steps of the night. -/
theorem C153_night_partial {col : Col} (hcol : Dict.get? (j.inp c).data.frame "shortwave" = some col) {u : String}
    (hu : j.shared.outVars.get? "shortwave" = some u) {lat : ℝ} (hlat : (j.inp c).lat = fin lat) (h90 : |lat| ≤ 90) {k : Nat} (hk : k < j.n)
    {a : ℝ} (ha : col k = fin a) {i : Nat} (hi : i < 1440 / j.shared.ts) (hdown : SunDown lat (j.d0 + k) j.shared.ts i) :
    Reads j files c "shortwave" k i 0 := by
  obtain ⟨elev, lat0, lon, e1, e2, e3, q, daily, t, hd, ld, hnd, hread⟩ := readout j hj ho hrun hsub hc
  rw [hlat] at e2
  obtain rfl := Flt.fin.inj e2
  have hlen : (j.inp c).data.days.length = j.n := by rw [hj.data c, length_consecutive]
  obtain ⟨g, dl', d1, d2, d3⟩ := base_daylength q (days_getElem j hj c hk)
  obtain ⟨w1, w2, w3, -⟩ := dailyOf_ok hd
  obtain ⟨s1, k1, w2⟩ := Cell.column_ok.1 w2
  have hb := q.h_base
  unfold runMethod at hb
  rw [hm] at hb
  simp only at hb
  rw [((C42_passthrough_partial _ _).2 _ hb).1 "shortwave" col (by rw [withGeom_keeps _ _ (by decide)]; exact hcol)
    (fun h => absurd h (by decide))] at k1
  obtain rfl := Option.some.inj k1
  obtain ⟨s2, k2, w3⟩ := Cell.column_ok.1 w3
  rw [d2] at k2
  obtain rfl := Option.some.inj k2
  obtain ⟨y, hdlen⟩ : ∃ y, (Disaggregate.daylengthOf daily (j.shared.sub elev lon))[k]? = some (fin y) := by
    have hb : daily.daylength[k]? = some (fin g.daylength) := by
      rw [w3, List.getElem?_map, List.getElem?_range (by rw [hlen]; exact hk), Option.map_some, d3]
    unfold Disaggregate.daylengthOf
    split
    · rw [List.getElem?_map, hb]
      exact ⟨_, rfl⟩
    · exact ⟨_, hb⟩
  have h_sw := t.h_sw
  have hutc' : (j.shared.sub elev lon).utcOffset = false := hutc
  have hts' : (j.shared.sub elev lon).ts = j.shared.ts := rfl
  rw [hutc', hts'] at h_sw
  have hrow : (q.geom.map fun g => (List.range Disagg.slotsPerDay).map g.fract)[doy (j.d0 + k) - 1]? =
      some ((List.range Disagg.slotsPerDay).map g.fract) := by
    rw [List.getElem?_map, d1]; rfl
  have hswk : daily.shortwave[k]? = some (fin a) := by
    rw [w2, List.getElem?_map, List.getElem?_range (by rw [hlen]; exact hk), Option.map_some, ha]
  have hswl : k < daily.shortwave.length := (List.getElem?_eq_some_iff.1 hswk).1
  have hts0 : (0 : ℝ) < 60 * j.shared.ts := by have := hj.step.1; positivity
  obtain ⟨z, hper⟩ : ∃ z, perSlot daily.shortwave (Disaggregate.daylengthOf daily (j.shared.sub elev lon)) j.shared.ts k = fin z := by
    unfold perSlot
    rw [List.getD_eq_getElem?_getD, List.getD_eq_getElem?_getD, hswk, hdlen]
    simp only [Option.getD_some, mul_fin]
    rw [div_fin_ne hts0.ne']
    exact ⟨_, rfl⟩
  obtain ⟨cw, c1, c2⟩ := hread "shortwave" u "W m-2" .energyFlux hu (by decide) rfl (by simp)
  have hle : ∀ m < 2 * j.shared.ts, i * (2 * j.shared.ts) + m < 2880 := fun m hm => by
    have : (i + 1) * j.shared.ts ≤ 1440 := by
      calc (i + 1) * j.shared.ts ≤ 1440 / j.shared.ts * j.shared.ts := Nat.mul_le_mul_right _ hi
        _ = 1440 := Nat.div_mul_cancel hj.step.2
    nlinarith
  have hs := shortwave_step (by rw [daylengthOf_length, w2, w3]; simp) h_sw hswl hi
  have hdoy : daily.doy.getD k 1 = doy (j.d0 + k) := by
    rw [w1, List.getD_eq_getElem?_getD, List.getElem?_map, days_getElem j hj c hk]
    rfl
  generalize Disagg.remainder360 (j.shared.sub elev lon).lon = lon' at hs
  rw [Flt.sum_zero _ (fun x hx => by
      obtain ⟨m, hm, rfl⟩ := List.mem_map.1 hx
      have hm := List.mem_range.1 hm
      have hm' := hle m hm
      rw [slotDay_false hswl hm', hper, hdoy, slotFrac_false (by
        intro r hr
        obtain ⟨g', -, rfl⟩ := List.mem_map.1 hr
        rw [List.length_map, List.length_range]; rfl) hrow hm', List.getD_eq_getElem?_getD, List.getElem?_map,
        List.getElem?_range (by exact hm')]
      show fin (g.fract _) * fin z = fin 0
      rw [fract_night h90 q.h_geom d1 hj.step.2 hi hdown hm]
      simp)] at hs
  refine (c2 k hk i hi).1 _ _ (by rw [← Except.ok.inj c1]; exact fillBoth_keep hs) ?_
  rfl

/-- The sky cover of the frame. -/
theorem sky_column {col : Col} (hcol : Dict.get? (j.inp c).data.frame "tskc" = some col) {u : String}
    (hu : j.shared.outVars.get? "tskc" = some u) :
    ∃ out : List (Flt ℝ), out.length = j.n * (1440 / j.shared.ts) ∧
      (∀ d < j.n, ∀ i < 1440 / j.shared.ts, out[d * (1440 / j.shared.ts) + i]? = some (col d)) ∧
      ∀ k < j.n, ∀ i < 1440 / j.shared.ts, ∀ x, (fillBoth out)[k * (1440 / j.shared.ts) + i]? = some (fin x) ↔
        Reads j files c "tskc" k i x := by
  obtain ⟨elev, lat, lon, h1, h2, h3, q, daily, t, hd, ld, hnd, hread⟩ := readout j hj ho hrun hsub hc
  have hlen : (j.inp c).data.days.length = j.n := by rw [hj.data c, length_consecutive]
  obtain ⟨q1, q2, q3, q4, q5, q6, q7, q8, q9, q10, q11, q12⟩ := dailyOf_ok hd
  obtain ⟨col', gc, ec⟩ := Cell.column_ok.1 q7
  have hb := q.h_base
  unfold runMethod at hb
  rw [hm] at hb
  simp only at hb
  rw [((C42_passthrough_partial _ _).2 _ hb).1 "tskc" col (by rw [withGeom_keeps _ _ (by decide)]; exact hcol)
    (fun h => absurd h (by decide))] at gc
  obtain rfl := Option.some.inj gc
  rw [hlen] at ec
  have g1 := t.h_cloud
  have hutc' : (j.shared.sub elev lon).utcOffset = false := hutc
  rw [hutc'] at g1
  obtain ⟨cw, r1, r2⟩ := hread "tskc" u "fraction" .ratio hu (by decide) rfl (by simp)
  have hcw : cw = fillBoth t.cloud := (Except.ok.inj r1).symm
  subst hcw
  obtain ⟨c1, c2⟩ := C50_constant hj.step.2 ((C50_same _ _ _ _).symm.trans g1)
  rw [ec, List.length_map, List.length_range] at c1 c2
  refine ⟨t.cloud, c1, fun d hd i hi => ?_, fun k hk i hi x => ⟨fun h => (r2 k hk i hi).1 x x h rfl, fun h => ?_⟩⟩
  · have := c2 d hd i hi
    rw [List.getElem?_map, List.getElem?_range hd] at this
    exact this
  · obtain ⟨y, y1, y2⟩ := (r2 k hk i hi).2 x h
    have : y = x := (Prod.mk.inj (Option.some.inj y2)).2
    rw [← this]; exact y1

/-- **C153**, what holds of the radiation: through days without data it stays as in the last step before them. -/
theorem C153_hold_partial {col : Col} (hcol : Dict.get? (j.inp c).data.frame "shortwave" = some col) {u : String}
    (hu : j.shared.outVars.get? "shortwave" = some u) {k : Nat} (hk : k < j.n) {i : Nat} (hi : i < 1440 / j.shared.ts) {d : Nat} (hd : d < k)
    (hx : ∀ m, d < m → m ≤ k → col m = nan) {s : ℝ} (h : Reads j files c "shortwave" d (1440 / j.shared.ts - 1) s) :
    Reads j files c "shortwave" k i s := by
  obtain ⟨out, h1, h2, h3⟩ := sun_column j hj fuel order ho files hrun hsub hutc hm c hc hcol hu
  have hs0 : 0 < 1440 / j.shared.ts := by omega
  have h := (h3 d (hd.trans hk) _ (by omega) s).2 h
  refine (h3 k hk i hi s).1 ?_
  generalize 1440 / j.shared.ts = w at *
  have hle : (d + 1) * w ≤ k * w := Nat.mul_le_mul_right _ hd
  have hle' : (k + 1) * w ≤ j.n * w := Nat.mul_le_mul_right _ hk
  rw [Nat.add_mul, Nat.one_mul] at hle hle'
  refine fillBoth_hold h (by omega) (by omega) fun m hm hmk => ?_
  have hm' : m / w < j.n := Nat.div_lt_of_lt_mul (by rw [Nat.mul_comm w]; omega)
  have e := h2 (m / w) hm' (m % w) (Nat.mod_lt _ hs0) (hx _ (by
    rw [Nat.lt_iff_add_one_le, Nat.le_div_iff_mul_le hs0, Nat.add_mul, Nat.one_mul]; omega) (by
    rw [← Nat.lt_add_one_iff, Nat.div_lt_iff_lt_mul hs0, Nat.add_mul, Nat.one_mul]; omega))
  rw [Nat.div_add_mod'] at e
  exact e

/-- **C153**, what holds of the radiation: if the sun is down at the end of the last day before them, days without data are dark. -/
theorem C153_dark_partial {col : Col} (hcol : Dict.get? (j.inp c).data.frame "shortwave" = some col) {u : String}
    (hu : j.shared.outVars.get? "shortwave" = some u) {lat : ℝ} (hlat : (j.inp c).lat = fin lat) (h90 : |lat| ≤ 90)
    {k : Nat} (hk : k < j.n) {i : Nat} (hi : i < 1440 / j.shared.ts) {d : Nat} (hd : d < k) {a : ℝ} (ha : col d = fin a)
    (hx : ∀ m, d < m → m ≤ k → col m = nan) (hdown : SunDown lat (j.d0 + d) j.shared.ts (1440 / j.shared.ts - 1)) :
    Reads j files c "shortwave" k i 0 :=
  C153_hold_partial j hj fuel order ho files hrun hsub hutc hm c hc hcol hu hk hi hd hx
    (C153_night_partial j hj fuel order ho files hrun hsub hutc hm c hc hcol hu hlat h90 (hd.trans hk) ha (by omega) hdown)

/-- **C153**, what holds of the sky cover: each step of a day has that of the day that stands in for it. -/
theorem C153_sky_partial {col : Col} (hcol : Dict.get? (j.inp c).data.frame "tskc" = some col) {u : String}
    (hu : j.shared.outVars.get? "tskc" = some u) {k : Nat} (hk : k < j.n) {i : Nat} (hi : i < 1440 / j.shared.ts) {d : Nat} (hd : d < j.n)
    {x : ℝ} (hx : col d = fin x) (h : StandIn col k d) : Reads j files c "tskc" k i x := by
  obtain ⟨out, h1, h2, h3⟩ := sky_column j hj fuel order ho files hrun hsub hutc hm c hc hcol hu
  exact (h3 k hk i hi x).1 (fillBoth_days (by omega) h1 h2 hk hi hd hx h)

end C153

/-- **C153** as it should be: a day whose radiation or sky cover is missing has none in the output. -/
def C153_full : Prop :=
  ∀ (j : Job), j.Sane → ∀ fuel order, j.Schedule order → ∀ files, j.run fuel order = .ok files → j.shared.ts < 1440 →
    j.shared.utcOffset = false → j.shared.method = .passthrough → ∀ c, j.Computed c → ∀ v ∈ ["shortwave", "tskc"],
    ∀ col, Dict.get? (j.inp c).data.frame v = some col →
    ∀ k < j.n, col k = nan → ∀ i < 1440 / j.shared.ts, ∀ s, ¬ Reads j files c v k i s

/-- A run over two days, the second without radiation. -/
noncomputable def overcast : Job :=
  { humid with
    inp := fun c => ⟨fin 100, fin 45, fin (-120), ⟨consecutive 0 2,
      ("shortwave", fun i => if i = 1 then nan else fin 200) :: (humid.inp c).data.frame, (fin 4, fin 14)⟩⟩ }

theorem overcast_sane : overcast.Sane := { humid_sane with data := fun _ => rfl }

theorem overcast_complete (c : Run.Cell) : CompleteCell overcast.shared 2 (overcast.inp c) where
  place := (humid_complete c).place
  lapse := (humid_complete c).lapse
  columns := by
    intro k hk
    simp only [List.mem_cons, List.not_mem_nil, or_false] at hk
    rcases hk with rfl | rfl | rfl | rfl | rfl | rfl <;> simp [overcast, humid, Dict.get?_cons]
  radiation := fun _ => by simp [overcast, humid, Dict.get?_cons]
  tMin := (humid_complete c).tMin
  tMax := (humid_complete c).tMax
  state := (humid_complete c).state
  fraction := (humid_complete c).fraction
  lwType := (humid_complete c).lwType
  lwCloud := (humid_complete c).lwCloud
  storm := (humid_complete c).storm

theorem overcast_runs : ∃ order files, overcast.Schedule order ∧ overcast.run 0 order = .ok files := by
  obtain ⟨files, h⟩ := (C71_run overcast overcast_sane 0 [[("lat", none), ("lon", none)]]
    ⟨_, rfl, List.Perm.refl _⟩ (fun c _ => overcast_complete c) (fun h => by cases h)).2
      (fun c _ q hq => by
        have hq : q ∈ demoVars := hq
        unfold Offers
        rw [if_pos (by unfold overcast humid demo; decide)]
        simp only [demoVars, List.mem_cons, List.not_mem_nil, or_false] at hq
        rcases hq with rfl | rfl | rfl | rfl | rfl | rfl | rfl | rfl | rfl <;>
          exact ⟨Or.inl (by decide), _, _, rfl, rfl⟩)
  exact ⟨_, files, ⟨_, rfl, List.Perm.refl _⟩, h⟩

theorem overcast_computed : overcast.Computed [0, 0] := ⟨by unfold overcast humid demo; decide, 1, rfl, one_pos⟩

/-- The second day is as bright as the last step of the first. -/
theorem C153_refuted : ¬ C153_full := by
  intro h
  obtain ⟨order, files, ho, hrun⟩ := overcast_runs
  have hsub : overcast.shared.ts < 1440 := by unfold overcast humid demo; decide
  have hcol : Dict.get? (overcast.inp [0, 0]).data.frame "shortwave" = some (fun i => if i = 1 then nan else fin 200) := rfl
  have hn : overcast.n = 2 := rfl
  have hi : 0 < 1440 / overcast.shared.ts := Nat.div_pos hsub.le overcast_sane.step.1
  obtain ⟨r, P, -, hP⟩ := C82_passthrough overcast overcast_sane 0 order ho files hrun hsub rfl [0, 0] overcast_computed "W m-2" rfl 45 rfl
    (by rw [abs_of_pos] <;> norm_num) rfl _ hcol 0 (by rw [hn]; norm_num) 200 (by simp)
  refine h overcast overcast_sane 0 order ho files hrun hsub rfl rfl [0, 0] overcast_computed "shortwave" (by decide) _ hcol 1
    (by rw [hn]; norm_num) rfl 0 hi _
    (C153_hold_partial overcast overcast_sane 0 order ho files hrun hsub rfl rfl [0, 0] overcast_computed hcol (u := "W m-2") rfl
      (by rw [hn]; norm_num) hi (d := 0) (by norm_num) (fun m h1 h2 => ?_) (hP _ (by omega)).2)
  rw [show m = 1 by omega]
  rfl

/-- **C153**: on the equator the last hour of a day is dark. -/
example (d : Int) : SunDown 0 d 60 23 := by
  intro t h1 h2
  have hd : |Spec.declination (min (doy d - 1) 364)| ≤ 0.5 := by
    unfold Spec.declination
    rw [abs_mul]
    refine (mul_le_mul_of_nonneg_left (Real.abs_cos_le_one _) (abs_nonneg _)).trans ?_
    rw [mul_one]
    norm_num
  have hc := Real.one_sub_sq_div_two_le_cos (x := Spec.declination (min (doy d - 1) 364))
  have hsq := sq_le_sq' (abs_le.1 hd).1 (abs_le.1 hd).2
  unfold Spec.elevation Spec.radians
  rw [zero_mul, Real.sin_zero, Real.cos_zero, zero_mul, zero_add, one_mul]
  have hp := Real.pi_pos
  push_cast at h1 h2
  have hx : Real.cos (2 * Real.pi * (t - 43200) / 86400) ≤ -(1 / 2) := by
    rw [show -(1 / 2 : ℝ) = Real.cos (Real.pi - Real.pi / 3) by rw [Real.cos_pi_sub, Real.cos_pi_div_three]]
    refine Real.cos_le_cos_of_nonneg_of_le_pi (by linarith) ?_ ?_
    · rw [div_le_iff₀ (by norm_num)]; nlinarith
    · rw [le_div_iff₀ (by norm_num)]; nlinarith
  nlinarith

end Verif.Props
