import Verif.Props.Balance

/-!
# What a run may write: C77
-/

namespace Verif.Props

open Flt Cell Methods Np Disagg Interp

/-- Without shift, the temperature of a step lies between the maximum of the day before, the two extremes of its own day
and the minimum of the day after. -/
theorem temp_day {elev lat lr : ℝ} (hlat : |lat| ≤ 90) {rows : List Solar.DayGeom}
    (h : Solar.solarGeom elev lat lr = .ok rows) {p : HourParams ℝ} (hf : 0 < p.tmaxFraction) (hf1 : p.tmaxFraction ≤ 1)
    (hu : p.utcOffset = false) {yday : List Nat} {times : List (ℝ × ℝ)}
    (ht : setMinMaxHour p (rows.map (·.fract)) yday = .ok times) {tMin tMax : List (Flt ℝ)}
    (hl : tMin.length = times.length) (hl' : tMax.length = times.length) {n : Nat} {tb : Flt ℝ × Flt ℝ} {out : List ℝ}
    (ho : temp tMin tMax n times p.ts (some [tb.1, tb.2]) none = .ok out) {k i : Nat} {v : ℝ} (hv : out[i]? = some v)
    (hk : k < yday.length) (h0 : 1440 * (k : ℝ) ≤ p.ts * i) (h1 : (p.ts : ℝ) * i + p.ts ≤ 1440 * (k + 1))
    {L U : ℝ} {before lo hi after : ℝ} (hb : (if k = 0 then tb.2 else tMax.getD (k - 1) nan) = fin before)
    (hlo : tMin[k]? = some (fin lo)) (hhi : tMax[k]? = some (fin hi))
    (ha : (if k + 1 < yday.length then tMin.getD (k + 1) nan else fin lo) = fin after)
    (hL : L ≤ before ∧ L ≤ lo ∧ L ≤ hi ∧ L ≤ after) (hU : before ≤ U ∧ lo ≤ U ∧ hi ≤ U ∧ after ≤ U) :
    L ≤ v ∧ v ≤ U := by
  obtain ⟨hlen, h2⟩ := setMinMaxHour_inDays (geom_rows hlat h) hf hf1 ht
  have hsh : utcShift p = 0 := by unfold utcShift; rw [hu]; simp
  rw [hsh] at h2
  have hne : times ≠ [] := List.length_pos_iff.1 (by omega)
  obtain ⟨hpl, hp⟩ := C55_points tMin tMax times (some tb) none hl hl' hne
  have hts0 : (0 : ℝ) ≤ p.ts := Nat.cast_nonneg _
  have key := C55_between tMin tMax n p.ts times _ _ out ho i v hv
  obtain ⟨q, hq⟩ : ∃ q, times[k]? = some q := ⟨_, List.getElem?_eq_getElem (by omega)⟩
  obtain ⟨p1, p2, p3, p4⟩ := hp k q _ _ hq hlo hhi
  obtain ⟨-, -, -, -, c1, c2, c3⟩ := h2 k q hq
  simp only [Int.cast_zero, zero_add] at c1 c3
  -- the maximum before
  obtain ⟨s, hs, hsr⟩ : ∃ s, (points tMin tMax times (some [tb.1, tb.2]) none)[2 * k + 1]? = some (s, fin before) ∧
      s ≤ p.ts * i := by
    by_cases hk0 : k = 0
    · subst hk0
      rw [if_pos rfl] at hb
      refine ⟨q.2 - 1440, ?_, ?_⟩
      · have := (p3 rfl).2
        rw [Option.getD_some, hb] at this
        exact this
      · simp only [Nat.cast_zero, mul_zero] at *
        linarith
    · rw [if_neg hk0] at hb
      obtain ⟨m, rfl⟩ : ∃ m, k = m + 1 := ⟨k - 1, by omega⟩
      obtain ⟨q', hq'⟩ : ∃ q', times[m]? = some q' := ⟨_, List.getElem?_eq_getElem (by omega)⟩
      have hm : tMax[m]? = some (fin before) := by
        rw [Nat.add_sub_cancel, List.getD_eq_getElem?_getD, List.getElem?_eq_getElem (by omega)] at hb
        rw [List.getElem?_eq_getElem (by omega)]
        exact congrArg some hb
      obtain ⟨-, r2, -, -⟩ := hp m q' _ _ hq' (List.getElem?_eq_getElem (by omega)) hm
      obtain ⟨-, -, -, -, -, -, d3⟩ := h2 m q' hq'
      simp only [Int.cast_zero, zero_add] at d3
      refine ⟨q'.2, r2, ?_⟩
      push_cast at h0
      linarith
  -- the minimum after
  obtain ⟨e, he, her⟩ : ∃ e, (points tMin tMax times (some [tb.1, tb.2]) none)[2 * (k + 2)]? = some (e, fin after) ∧
      p.ts * i ≤ e := by
    by_cases hk0 : k + 1 < yday.length
    · rw [if_pos hk0] at ha
      obtain ⟨q', hq'⟩ : ∃ q', times[k + 1]? = some q' := ⟨_, List.getElem?_eq_getElem (by omega)⟩
      have hm : tMin[k + 1]? = some (fin after) := by
        rw [List.getD_eq_getElem?_getD, List.getElem?_eq_getElem (by omega)] at ha
        rw [List.getElem?_eq_getElem (by omega)]
        exact congrArg some ha
      obtain ⟨r1, -, -, -⟩ := hp (k + 1) q' _ _ hq' hm (List.getElem?_eq_getElem (by omega))
      obtain ⟨-, -, -, -, d1, -, -⟩ := h2 (k + 1) q' hq'
      simp only [Int.cast_zero, zero_add] at d1
      refine ⟨q'.1, r1, ?_⟩
      push_cast at d1
      linarith
    · rw [if_neg hk0] at ha
      refine ⟨q.1 + 1440, ?_, by linarith⟩
      have := (p4 (by omega)).1
      rw [Option.getD_none, ha] at this
      exact this
  have hmin : ∀ a b : ℝ, L ≤ a → L ≤ b → L ≤ min a b := fun a b => le_min
  have hmax : ∀ a b : ℝ, a ≤ U → b ≤ U → max a b ≤ U := fun a b => max_le
  rcases le_total ((p.ts : ℝ) * i) q.1 with g | g
  · obtain ⟨x1, x2⟩ := key _ _ _ _ _ hs p1 hsr g
    exact ⟨(hmin _ _ hL.1 hL.2.1).trans x1, x2.trans (hmax _ _ hU.1 hU.2.1)⟩
  · rcases le_total ((p.ts : ℝ) * i) q.2 with g' | g'
    · obtain ⟨x1, x2⟩ := key _ _ _ _ _ p1 p2 g g'
      exact ⟨(hmin _ _ hL.2.1 hL.2.2.1).trans x1, x2.trans (hmax _ _ hU.2.1 hU.2.2.1)⟩
    · obtain ⟨x1, x2⟩ := key _ _ _ _ _ p2 he g' her
      exact ⟨(hmin _ _ hL.2.2.1 hL.2.2.2).trans x1, x2.trans (hmax _ _ hU.2.2.1 hU.2.2.2)⟩

/-- No temperature outside the extremes of the record and the state. -/
theorem temp_within {elev lat lr : ℝ} (hlat : |lat| ≤ 90) {rows : List Solar.DayGeom}
    (h : Solar.solarGeom elev lat lr = .ok rows) {p : HourParams ℝ} (hf : 2 / 3 ≤ p.tmaxFraction) (hf1 : p.tmaxFraction ≤ 1)
    (hu : p.utcOffset = false ∨ |p.lon - p.thetaS| < 180) {yday : List Nat} {times : List (ℝ × ℝ)}
    (ht : setMinMaxHour p (rows.map (·.fract)) yday = .ok times) {tMin tMax : List (Flt ℝ)}
    (hl : tMin.length = times.length) (hl' : tMax.length = times.length) {n : Nat} (hn : p.ts * n ≤ 1440 * yday.length)
    {tb : Flt ℝ × Flt ℝ} {out : List ℝ} (ho : temp tMin tMax n times p.ts (some [tb.1, tb.2]) none = .ok out) {L U : ℝ}
    (hmin : ∀ y ∈ tMin, ∃ a, y = fin a ∧ L ≤ a ∧ a ≤ U) (hmax : ∀ y ∈ tMax, ∃ a, y = fin a ∧ L ≤ a ∧ a ≤ U)
    (hb1 : ∃ a, tb.1 = fin a ∧ L ≤ a ∧ a ≤ U) (hb2 : ∃ a, tb.2 = fin a ∧ L ≤ a ∧ a ≤ U) : ∀ v ∈ out, L ≤ v ∧ v ≤ U := by
  refine C55_within elev lat lr hlat rows h p hf hf1 hu yday times ht _ _ hl hl' n hn (some tb) none out ho L U ?_
  intro q hq
  have hv := (List.of_mem_zip (a := q.1) (b := q.2) hq).2
  have hin : ∀ y : Flt ℝ, (∃ a, y = fin a ∧ L ≤ a ∧ a ≤ U) → le (fin L) y = true ∧ le y (fin U) = true := by
    rintro y ⟨a, rfl, l, r⟩
    simp [Flt.le, l, r]
  apply hin
  have hz : ∀ y ∈ interleave (tMin.zip tMax), ∃ a, y = fin a ∧ L ≤ a ∧ a ≤ U := by
    intro y hy'
    unfold interleave at hy'
    obtain ⟨r, hr, hyr⟩ := List.mem_flatMap.1 hy'
    obtain ⟨m1, m2⟩ := List.of_mem_zip (a := r.1) (b := r.2) hr
    rcases List.mem_cons.1 hyr with rfl | hyr
    · exact hmin _ m1
    · rw [List.mem_singleton.1 hyr]; exact hmax _ m2
  unfold knotValues at hv
  simp only [Option.map_some, Option.map_none, Option.getD_some, Option.getD_none, List.mem_append] at hv
  rcases hv with (hv | hv) | hv
  · rcases List.mem_cons.1 hv with e | hv
    · rw [e]; exact hb1
    · rw [List.mem_singleton.1 hv]; exact hb2
  · exact hz _ hv
  · exact hz _ (List.mem_of_mem_drop hv)

/-- The temperature written for a step of a day is that of the disaggregated series, in kelvin. -/
theorem written_temp (j : Job) (hj : j.Sane) {fuel : Nat} {order : List (Dict String Chunk.Slice)} (ho : j.Schedule order)
    {files : Run.Files Output} (hrun : j.run fuel order = .ok files) (hsub : j.shared.ts < 1440) {c : Run.Cell}
    (hc : j.Computed c) {u : String} (hu : j.shared.outVars.get? "temp" = some u) {tmin tmax : Col}
    (hmin : Dict.get? (j.inp c).data.frame "t_min" = some tmin) (hmax : Dict.get? (j.inp c).data.frame "t_max" = some tmax) :
    ∃ elev lat lon, (j.inp c).elev = fin elev ∧ (j.inp c).lat = fin lat ∧ (j.inp c).lon = fin lon ∧
    ∃ geom, Solar.solarGeom elev lat j.shared.lapseRate = .ok geom ∧ ∃ yday : List Nat, yday.length = j.n ∧
    ∃ times, setMinMaxHour (hours (j.shared.sub elev lon)) (geom.map (·.fract)) yday = .ok times ∧ times.length = j.n ∧
    ∃ out, temp ((List.range j.n).map tmin) ((List.range j.n).map tmax) (j.n * (1440 / j.shared.ts)) times j.shared.ts
      (some [(j.inp c).data.stateEnd.1, (j.inp c).data.stateEnd.2]) none = .ok out ∧
    ∃ val, Recorded j files "temp" c val ∧ ∀ k < j.n, ∀ i < 1440 / j.shared.ts, ∃ x T, val (j.stamp k i) = fin x ∧
      out[k * (1440 / j.shared.ts) + i]? = some T ∧ Spec.si u (j.shared.ts : ℝ) x = some (.temperature, T + 273.15) := by
  obtain ⟨elev, lat, lon, h1, h2, h3, q, daily, sub, hd, hs, hcol⟩ := written_sub j hj ho hrun hsub hc
  obtain ⟨col, val, a1, a2, a3⟩ := hcol "temp" u hu
  have hlen : (j.inp c).data.days.length = j.n := by rw [hj.data c, length_consecutive]
  obtain ⟨t, rfl⟩ := disaggregate_ok.1 hs
  obtain ⟨e0, -, -, g1, g2, -⟩ := dailyOf_ok hd
  obtain ⟨c1, hc1, e1⟩ := Cell.column_ok.1 g1
  obtain ⟨c2, hc2, e2⟩ := Cell.column_ok.1 g2
  rw [base_keeps q (by decide) (by decide), hmin] at hc1
  rw [base_keeps q (by decide) (by decide), hmax] at hc2
  obtain rfl := Option.some.inj hc1
  obtain rfl := Option.some.inj hc2
  have hdl : daily.doy.length = j.n := by rw [e0, List.length_map, hlen]
  have hnd : Disaggregate.nDisagg daily.doy.length j.shared.ts = j.n * (1440 / j.shared.ts) := by
    rw [hdl]
    exact Nat.mul_div_assoc _ hj.step.2
  have htemp := t.h_temp
  rw [e1, e2, hlen, show (j.shared.sub elev lon).ts = j.shared.ts from rfl, hnd] at htemp
  have htl : t.times.length = j.n := by
    have h := t.h_times
    unfold setMinMaxHour at h
    rw [(mapM_range_ok h).1, List.length_map, hdl]
  have hol : t.temp.length = j.n * (1440 / j.shared.ts) := (C55_curve _ _ _ _ _ _ _ _ htemp).choose_spec.1
  refine ⟨elev, lat, lon, h1, h2, h3, q.geom, q.h_geom, daily.doy.map (· - 1), by rw [List.length_map, hdl], t.times,
    t.h_times, htl, t.temp, htemp, val, a2, ?_⟩
  intro k hk i hi
  have hx := a3 k hk i hi
  have hlt : k * (1440 / j.shared.ts) + i < t.temp.length := by
    have : (k + 1) * (1440 / j.shared.ts) ≤ j.n * (1440 / j.shared.ts) := Nat.mul_le_mul_right _ hk
    rw [Nat.add_mul, Nat.one_mul] at this
    omega
  have hat : (t.temp.map fin)[k * (1440 / j.shared.ts) + i]? = some (fin t.temp[k * (1440 / j.shared.ts) + i]) := by
    rw [List.getElem?_map, List.getElem?_eq_getElem hlt]; rfl
  have ecol : col = fillBoth (t.temp.map fin) := by
    have : subColumn t.sub "temp" = .ok (fillBoth (t.temp.map fin)) := rfl
    rw [this] at a1
    exact (Except.ok.inj a1).symm
  rw [ecol, List.getD_eq_getElem?_getD, fillBoth_keep hat, Option.getD_some] at hx
  obtain ⟨y, s, kd, b1, b2, b3, b4⟩ := convert_si (by rintro ⟨h, -⟩; revert h; decide) (dflt := "C") (by decide)
    hj.step.1 hx
  have e : some (Spec.Kind.temperature, t.temp[k * (1440 / j.shared.ts) + i] + 273.15) = some (kd, s) := b4
  exact ⟨y, _, b1, List.getElem?_eq_getElem hlt, by rw [b3, ← e]⟩

/-- **C77**: a temperature written for a step of a day, in whatever unit, lies between the maximum of the day before, the
minimum and the maximum of the day itself and the minimum of the day after: of the forcing, and for the first day of the
last day of the state. -/
theorem C77_within_days (j : Job) (hj : j.Sane) (fuel : Nat) (order : List (Dict String Chunk.Slice)) (ho : j.Schedule order)
    (files : Run.Files Output) (hrun : j.run fuel order = .ok files) (hsub : j.shared.ts < 1440)
    (hutc : j.shared.utcOffset = false) (hf : 0 < j.shared.tmaxFraction) (hf1 : j.shared.tmaxFraction ≤ 1)
    (c : Run.Cell) (hc : j.Computed c) (hlat : ∀ lat, (j.inp c).lat = fin lat → |lat| ≤ 90) (u : String)
    (hu : j.shared.outVars.get? "temp" = some u) (tmin tmax : Col)
    (hmin : Dict.get? (j.inp c).data.frame "t_min" = some tmin) (hmax : Dict.get? (j.inp c).data.frame "t_max" = some tmax)
    (lo hi : ℕ → ℝ) (hlo : ∀ k < j.n, tmin k = fin (lo k)) (hhi : ∀ k < j.n, tmax k = fin (hi k)) (b : ℝ)
    (hb : (j.inp c).data.stateEnd.2 = fin b) :
    ∃ val, Recorded j files "temp" c val ∧ ∀ k < j.n, ∀ i < 1440 / j.shared.ts, ∃ x T, val (j.stamp k i) = fin x ∧
      Spec.si u (j.shared.ts : ℝ) x = some (.temperature, T) ∧
      (∀ L, L ≤ (if k = 0 then b else hi (k - 1)) → L ≤ lo k → L ≤ hi k → (k + 1 < j.n → L ≤ lo (k + 1)) → L ≤ T - 273.15) ∧
      (∀ U, (if k = 0 then b else hi (k - 1)) ≤ U → lo k ≤ U → hi k ≤ U → (k + 1 < j.n → lo (k + 1) ≤ U) → T - 273.15 ≤ U) := by
  obtain ⟨elev, lat, lon, -, h2, -, geom, hg, yday, hy, times, ht, htl, out, hout, val, hval, hx⟩ :=
    written_temp j hj ho hrun hsub hc hu hmin hmax
  refine ⟨val, hval, ?_⟩
  intro k hk i hi'
  obtain ⟨x, T, x1, x2, x3⟩ := hx k hk i hi'
  refine ⟨x, T + 273.15, x1, x3, ?_⟩
  have hmulZ := hj.step.mulZ
  have hm : ((1440 / j.shared.ts : Nat) : ℝ) * j.shared.ts = 1440 := by exact_mod_cast hmulZ
  have e : (j.shared.ts : ℝ) * ((k * (1440 / j.shared.ts) + i : Nat) : ℝ) = 1440 * k + j.shared.ts * i := by
    clear hx x2 x3 hout hmulZ
    generalize 1440 / j.shared.ts = m at *
    push_cast
    linear_combination (k : ℝ) * hm
  have hi1 : (j.shared.ts : ℝ) * i + j.shared.ts ≤ 1440 := by
    rw [← hm]
    have : ((i + 1 : Nat) : ℝ) ≤ ((1440 / j.shared.ts : Nat) : ℝ) := by exact_mod_cast hi'
    have h0 : (0 : ℝ) ≤ j.shared.ts := Nat.cast_nonneg _
    have := mul_le_mul_of_nonneg_right this h0
    push_cast at this ⊢
    linarith
  have key : ∀ L U : ℝ, _ → _ → L ≤ T ∧ T ≤ U := fun L U hL hU =>
    temp_day (p := hours (j.shared.sub elev lon)) (hlat lat h2) hg hf hf1 hutc ht (by simp [htl]) (by simp [htl]) hout x2
      (by rw [hy]; exact hk) (by
        show _ ≤ (j.shared.ts : ℝ) * _
        rw [e]
        have : (0 : ℝ) ≤ (j.shared.ts : ℝ) * i := by positivity
        linarith)
      (by
        show (j.shared.ts : ℝ) * _ + (j.shared.ts : ℝ) ≤ _
        rw [e]; linarith) (L := L) (U := U) (before := if k = 0 then b else hi (k - 1)) (lo := lo k) (hi := hi k)
      (after := if k + 1 < j.n then lo (k + 1) else lo k)
      (by
        by_cases h0 : k = 0
        · rw [if_pos h0, if_pos h0, hb]
        · rw [if_neg h0, if_neg h0, List.getD_eq_getElem?_getD, List.getElem?_map, List.getElem?_range (by omega)]
          exact hhi _ (by omega))
      (by rw [List.getElem?_map, List.getElem?_range hk]; exact congrArg some (hlo k hk))
      (by rw [List.getElem?_map, List.getElem?_range hk]; exact congrArg some (hhi k hk))
      (by
        rw [hy]
        by_cases h0 : k + 1 < j.n
        · rw [if_pos h0, if_pos h0, List.getD_eq_getElem?_getD, List.getElem?_map, List.getElem?_range h0]
          exact hlo _ h0
        · rw [if_neg h0, if_neg h0]) hL hU
  have hT : ∀ Z : ℝ, Z + 273.15 - 273.15 = Z := fun Z => by ring
  rw [hT]
  constructor
  · intro L l1 l2 l3 l4
    refine (key L (max (max (if k = 0 then b else hi (k - 1)) (lo k)) (max (hi k) (if k + 1 < j.n then lo (k + 1) else lo k)))
      ⟨l1, l2, l3, ?_⟩ ⟨?_, ?_, ?_, ?_⟩).1
    · split
      · exact l4 ‹_›
      · exact l2
    · exact (le_max_left _ _).trans (le_max_left _ _)
    · exact (le_max_right _ _).trans (le_max_left _ _)
    · exact (le_max_left _ _).trans (le_max_right _ _)
    · exact (le_max_right _ _).trans (le_max_right _ _)
  · intro U l1 l2 l3 l4
    refine (key (min (min (if k = 0 then b else hi (k - 1)) (lo k)) (min (hi k) (if k + 1 < j.n then lo (k + 1) else lo k))) U
      ⟨?_, ?_, ?_, ?_⟩ ⟨l1, l2, l3, ?_⟩).2
    · exact (min_le_left _ _).trans (min_le_left _ _)
    · exact (min_le_left _ _).trans (min_le_right _ _)
    · exact (min_le_right _ _).trans (min_le_left _ _)
    · exact (min_le_right _ _).trans (min_le_right _ _)
    · split
      · exact l4 ‹_›
      · exact l2

/-- **C77**: with `utc_offset` too, if the meridian of the cell is less than half a turn from `theta_s`, no temperature
written lies outside the extremes of the forcing and of the last day of the state. -/
theorem C77_within_record (j : Job) (hj : j.Sane) (fuel : Nat) (order : List (Dict String Chunk.Slice)) (ho : j.Schedule order)
    (files : Run.Files Output) (hrun : j.run fuel order = .ok files) (hsub : j.shared.ts < 1440)
    (hf : 2 / 3 ≤ j.shared.tmaxFraction) (hf1 : j.shared.tmaxFraction ≤ 1)
    (c : Run.Cell) (hc : j.Computed c) (hlat : ∀ lat, (j.inp c).lat = fin lat → |lat| ≤ 90)
    (hlon : ∀ lon, (j.inp c).lon = fin lon → j.shared.utcOffset = false ∨ |Disagg.remainder360 lon - j.shared.thetaS| < 180)
    (u : String) (hu : j.shared.outVars.get? "temp" = some u) (tmin tmax : Col)
    (hmin : Dict.get? (j.inp c).data.frame "t_min" = some tmin) (hmax : Dict.get? (j.inp c).data.frame "t_max" = some tmax)
    (L U : ℝ) (hmin' : ∀ k < j.n, ∃ a, tmin k = fin a ∧ L ≤ a ∧ a ≤ U) (hmax' : ∀ k < j.n, ∃ a, tmax k = fin a ∧ L ≤ a ∧ a ≤ U)
    (hb1 : ∃ a, (j.inp c).data.stateEnd.1 = fin a ∧ L ≤ a ∧ a ≤ U)
    (hb2 : ∃ a, (j.inp c).data.stateEnd.2 = fin a ∧ L ≤ a ∧ a ≤ U) :
    ∃ val, Recorded j files "temp" c val ∧ ∀ k < j.n, ∀ i < 1440 / j.shared.ts, ∃ x T, val (j.stamp k i) = fin x ∧
      Spec.si u (j.shared.ts : ℝ) x = some (.temperature, T) ∧ L ≤ T - 273.15 ∧ T - 273.15 ≤ U := by
  obtain ⟨elev, lat, lon, -, h2, h3, geom, hg, yday, hy, times, ht, htl, out, hout, val, hval, hx⟩ :=
    written_temp j hj ho hrun hsub hc hu hmin hmax
  refine ⟨val, hval, ?_⟩
  intro k hk i hi'
  obtain ⟨x, T, x1, x2, x3⟩ := hx k hk i hi'
  refine ⟨x, T + 273.15, x1, x3, ?_⟩
  have hT : T + 273.15 - 273.15 = T := by ring
  rw [hT]
  refine temp_within (hlat lat h2) hg (p := hours (j.shared.sub elev lon)) hf hf1 (hlon lon h3) ht (by simp [htl])
    (by simp [htl]) ?_ hout ?_ ?_ hb1 hb2 T (List.mem_of_getElem? x2)
  · rw [hy]
    show j.shared.ts * _ ≤ _
    have h0 : j.shared.ts * (1440 / j.shared.ts) = 1440 := Nat.mul_div_cancel' hj.step.2
    rw [Nat.mul_left_comm, h0, Nat.mul_comm]
  · intro y hy'
    obtain ⟨k1, g1, rfl⟩ := List.mem_map.1 hy'
    exact hmin' _ (List.mem_range.1 g1)
  · intro y hy'
    obtain ⟨k1, g1, rfl⟩ := List.mem_map.1 hy'
    exact hmax' _ (List.mem_range.1 g1)

example : (demo .passthrough).Sane ∧ (demo .passthrough).shared.ts < 1440 ∧ (demo .passthrough).shared.utcOffset = false ∧
    2 / 3 ≤ (demo .passthrough).shared.tmaxFraction ∧ (demo .passthrough).shared.tmaxFraction ≤ 1 ∧
    (demo .passthrough).Computed [0, 0] ∧ (∀ lat, ((demo .passthrough).inp [0, 0]).lat = fin lat → |lat| ≤ 90) ∧
    (demo .passthrough).shared.outVars.get? "temp" = some "K" ∧
    (∃ a b, Dict.get? ((demo .passthrough).inp [0, 0]).data.frame "t_min" = some a ∧
      Dict.get? ((demo .passthrough).inp [0, 0]).data.frame "t_max" = some b ∧ ∀ k, a k = fin 5 ∧ b k = fin 15) ∧
    ((demo .passthrough).inp [0, 0]).data.stateEnd = (fin 4, fin 14) ∧
    ∃ order files, (demo .passthrough).Schedule order ∧ (demo .passthrough).run 0 order = .ok files :=
  ⟨demo_sane _, by unfold demo; decide, rfl, by unfold demo; norm_num, by unfold demo; norm_num, ⟨by decide, 1, rfl, one_pos⟩,
    fun lat h => by
      have : (45 : ℝ) = lat := Flt.fin.inj h
      rw [← this]; norm_num,
    rfl, ⟨_, _, rfl, rfl, fun _ => ⟨rfl, rfl⟩⟩, rfl, demo_runs⟩

end Verif.Props
