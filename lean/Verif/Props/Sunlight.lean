import Verif.Lemmas.Slots
import Verif.Props.Consistent

/-!
# A day's radiation is spread over its steps as the sun's elevation: C82
-/

namespace Verif.Props

open Flt Physics Methods Cell Np Solar
open Disaggregate (nDisagg)

/-- What the sun brings to the ground of the cell in step `i` of a day, without an atmosphere and as a multiple of the flux:
seconds of overhead sun. -/
noncomputable def sunStep (lat : ℝ) (d : Int) (ts i : Nat) : ℝ :=
  Spec.sunshine (Spec.radians lat) (Spec.declination (min (doy d - 1) 364)) (60 * (ts * i)) (60 * (ts * (i + 1)))

/-- The fractions of the slots of a step. -/
theorem step_sample {elev lat lr : ℝ} (h90 : |lat| ≤ 90) {geom : List DayGeom} (hg : solarGeom elev lat lr = .ok geom) {d : Int}
    {g : DayGeom} (h : geom[doy d - 1]? = some g) {ts : Nat} (hts : ts ∣ 1440) :
    ∃ T : ℝ, 0 < T ∧ ∀ i < 1440 / ts,
      |(∑ m ∈ Finset.range (2 * ts), g.fract (i * (2 * ts) + m)) * T - sunStep lat d ts i| ≤ 0.134 * ts := by
  obtain ⟨tr, -, hday⟩ := solarGeom_row hg h
  obtain ⟨T, hT, hs⟩ := fract_sample hday (latRad_lt h90)
  refine ⟨T, hT, fun i hi => ?_⟩
  have hle : ∀ m < 2 * ts, i * (2 * ts) + m < 2880 := fun m hm => by
    have : (i + 1) * ts ≤ 1440 := by
      calc (i + 1) * ts ≤ 1440 / ts * ts := Nat.mul_le_mul_right _ hi
        _ = 1440 := Nat.div_mul_cancel hts
    nlinarith
  rw [latRad_eq h90] at hs
  have e : sunStep lat d ts i = ∑ m ∈ Finset.range (2 * ts), Spec.sunshine (Spec.radians lat)
      (Spec.declination (min (doy d - 1) 364)) (60 * (ts * i) + 30 * m) (60 * (ts * i) + 30 * m + 30) := by
    rw [sunshine_split]
    unfold sunStep
    congr 1
    push_cast; ring
  rw [e, Finset.sum_mul, ← Finset.sum_sub_distrib]
  refine (Finset.abs_sum_le_sum_abs _ _).trans ?_
  have : ∀ m ∈ Finset.range (2 * ts), |g.fract (i * (2 * ts) + m) * T - Spec.sunshine (Spec.radians lat)
      (Spec.declination (min (doy d - 1) 364)) (60 * (ts * i) + 30 * m) (60 * (ts * i) + 30 * m + 30)| ≤ 0.067 := by
    intro m hm
    rw [Finset.mem_range] at hm
    obtain ⟨t, t1, t2, t3⟩ := hs _ (hle m hm)
    have hj : ((i * (2 * ts) + m : ℕ) : ℝ) + 1 ≤ 2880 := by exact_mod_cast hle m hm
    push_cast at t1 t2 hj
    rw [t3, decl_eq]
    exact sample_sunshine _ _ _ t (by positivity) (by linarith) (by linarith) (by linarith)
  refine (Finset.sum_le_sum this).trans ?_
  rw [Finset.sum_const, Finset.card_range, nsmul_eq_mul]
  push_cast
  linarith

theorem sum_fract (g : DayGeom) (w : ℝ) (a n : ℕ) :
    Flt.sum ((List.range n).map fun (m : ℕ) => fin (g.fract (a + m)) * fin w) = fin (w * ∑ m ∈ Finset.range n, g.fract (a + m)) := by
  rw [sum_map_range_mul]
  congr 2

section C82

variable (j : Job) (hj : j.Sane) (fuel : Nat) (order : List (Dict String Chunk.Slice)) (ho : j.Schedule order)
  (files : Run.Files Output) (hrun : j.run fuel order = .ok files) (hsub : j.shared.ts < 1440)
  (hutc : j.shared.utcOffset = false) (c : Run.Cell) (hc : j.Computed c) (u : String)
  (hu : j.shared.outVars.get? "shortwave" = some u) (lat : ℝ) (hlat : (j.inp c).lat = fin lat) (h90 : |lat| ≤ 90)

include hj ho hrun hsub hutc hc hu hlat h90

theorem spread_day : ∃ elev lon, (j.inp c).elev = fin elev ∧ (j.inp c).lon = fin lon ∧
    ∃ q : Common fuel j.shared elev lat lon (j.inp c).data, ∀ k < j.n, ∀ sw a, Dict.get? q.base "shortwave" = some sw →
      sw k = fin a → ∃ (r : ℝ) (P : ℕ → ℝ), (0 ≤ a → 0 ≤ r) ∧ ∀ i < 1440 / j.shared.ts,
        |P i - sunStep lat (j.d0 + k) j.shared.ts i| ≤ 0.134 * j.shared.ts ∧ Reads j files c "shortwave" k i (r * P i) := by
  obtain ⟨elev, lat0, lon, e1, e2, e3, q, daily, t, hd, ld, hnd, hread⟩ := readout j hj ho hrun hsub hc
  rw [hlat] at e2
  obtain rfl := Flt.fin.inj e2
  refine ⟨elev, lon, e1, e3, q, fun k hk sw a hsw ha => ?_⟩
  have hlen : (j.inp c).data.days.length = j.n := by rw [hj.data c, length_consecutive]
  obtain ⟨g, dl', d1, d2, d3⟩ := base_daylength q (days_getElem j hj c hk)
  obtain ⟨w1, w2, w3, -⟩ := dailyOf_ok hd
  obtain ⟨s1, k1, w2⟩ := Cell.column_ok.1 w2
  rw [hsw] at k1
  obtain rfl := Option.some.inj k1
  obtain ⟨s2, k2, w3⟩ := Cell.column_ok.1 w3
  rw [d2] at k2
  obtain rfl := Option.some.inj k2
  have hdlen : (Disaggregate.daylengthOf daily (j.shared.sub elev lon))[k]? = some (fin (averagedOver j.shared g)) := by
    have hb : daily.daylength[k]? = some (fin g.daylength) := by
      rw [w3, List.getElem?_map, List.getElem?_range (by rw [hlen]; exact hk), Option.map_some, d3]
    unfold Disaggregate.daylengthOf averagedOver
    by_cases h : j.shared.method = .passthrough ∧ j.shared.swAveraging ≠ "daylight"
    · rw [if_pos (by simpa [Shared.sub] using h), if_pos h, List.getElem?_map, hb]
      rfl
    · rw [if_neg (by simpa [Shared.sub] using h), if_neg h, hb]
  have h_sw := t.h_sw
  have hutc' : (j.shared.sub elev lon).utcOffset = false := hutc
  have hts' : (j.shared.sub elev lon).ts = j.shared.ts := rfl
  rw [hutc', hts'] at h_sw
  have hrow : (q.geom.map fun g => (List.range Disagg.slotsPerDay).map g.fract)[doy (j.d0 + k) - 1]? =
      some ((List.range Disagg.slotsPerDay).map g.fract) := by
    rw [List.getElem?_map, d1]; rfl
  have hswk : daily.shortwave[k]? = some (fin a) := by
    rw [w2, List.getElem?_map, List.getElem?_range (by rw [hlen]; exact hk), Option.map_some, ha]
  have hswl : k < daily.shortwave.length := (List.getElem?_eq_some_iff.1 hswk).1
  obtain ⟨T, hT, hstep⟩ := step_sample h90 q.h_geom d1 hj.step.2
  have hts0 : (0 : ℝ) < 60 * j.shared.ts := by have := hj.step.1; positivity
  have hper : perSlot daily.shortwave (Disaggregate.daylengthOf daily (j.shared.sub elev lon)) j.shared.ts k =
      fin (a * averagedOver j.shared g / (60 * j.shared.ts)) := by
    unfold perSlot
    rw [List.getD_eq_getElem?_getD, List.getD_eq_getElem?_getD, hswk, hdlen]
    simp only [Option.getD_some, mul_fin]
    rw [div_fin_ne hts0.ne']
  obtain ⟨col, c1, c2⟩ := hread "shortwave" u "W m-2" .energyFlux hu (by decide) rfl (by simp)
  refine ⟨a * averagedOver j.shared g / (60 * j.shared.ts) / T,
    fun i => (∑ m ∈ Finset.range (2 * j.shared.ts), g.fract (i * (2 * j.shared.ts) + m)) * T, fun ha0 => ?_, fun i hi => ⟨hstep i hi, ?_⟩⟩
  · have : 0 ≤ averagedOver j.shared g := by
      unfold averagedOver
      split
      · norm_num
      · exact (day_fractions h90 q.h_geom d1).2.1
    positivity
  · have hle : ∀ m < 2 * j.shared.ts, i * (2 * j.shared.ts) + m < 2880 := fun m hm => by
      have : (i + 1) * j.shared.ts ≤ 1440 := by
        calc (i + 1) * j.shared.ts ≤ 1440 / j.shared.ts * j.shared.ts := Nat.mul_le_mul_right _ hi
          _ = 1440 := Nat.div_mul_cancel hj.step.2
      nlinarith
    have hs := shortwave_step (by rw [daylengthOf_length, w2, w3]; simp) h_sw hswl hi
    have hdoy : daily.doy.getD k 1 = doy (j.d0 + k) := by
      rw [w1, List.getD_eq_getElem?_getD, List.getElem?_map, days_getElem j hj c hk]
      rfl
    generalize Disagg.remainder360 (j.shared.sub elev lon).lon = lon' at hs
    rw [show ((List.range (2 * j.shared.ts)).map fun (m : Nat) =>
        fin (slotFrac (q.geom.map fun g => (List.range Disagg.slotsPerDay).map g.fract) false lon' (daily.doy.getD k 1)
          (i * (2 * j.shared.ts) + m)) *
        perSlot daily.shortwave (Disaggregate.daylengthOf daily (j.shared.sub elev lon)) j.shared.ts
          (slotDay daily.shortwave.length false lon' k (i * (2 * j.shared.ts) + m))) =
      (List.range (2 * j.shared.ts)).map fun (m : Nat) => fin (g.fract (i * (2 * j.shared.ts) + m)) *
        fin (a * averagedOver j.shared g / (60 * j.shared.ts)) from List.map_congr_left fun m hm => by
          have hm' := hle m (List.mem_range.1 hm)
          rw [slotDay_false hswl hm', hper, hdoy, slotFrac_false (by
            intro r hr
            obtain ⟨g', -, rfl⟩ := List.mem_map.1 hr
            rw [List.length_map, List.length_range]; rfl) hrow hm', List.getD_eq_getElem?_getD, List.getElem?_map,
            List.getElem?_range (by exact hm')]
          rfl, sum_fract] at hs
    refine (c2 k hk i hi).1 _ _ (by rw [← Except.ok.inj c1]; exact fillBoth_keep hs) ?_
    simp only [Spec.si]
    congr 2
    field_simp

/-- **C82**: radiation handed in is spread over the steps of its day as the sun's elevation. -/
theorem C82_passthrough (hm : j.shared.method = .passthrough) (sw : Col)
    (hsw : Dict.get? (j.inp c).data.frame "shortwave" = some sw) (k : Nat) (hk : k < j.n) (a : ℝ) (ha : sw k = fin a) :
    ∃ (r : ℝ) (P : ℕ → ℝ), (0 ≤ a → 0 ≤ r) ∧ ∀ i < 1440 / j.shared.ts,
      |P i - sunStep lat (j.d0 + k) j.shared.ts i| ≤ 0.134 * j.shared.ts ∧ Reads j files c "shortwave" k i (r * P i) := by
  obtain ⟨elev, lon, -, -, q, h⟩ := spread_day j hj fuel order ho files hrun hsub hutc c hc u hu lat hlat h90
  refine h k hk sw a ?_ ha
  have hb := q.h_base
  unfold runMethod at hb
  rw [hm] at hb
  simp only at hb
  refine ((C42_passthrough_partial _ _).2 _ hb).1 "shortwave" sw ?_ (fun h => absurd h (by decide))
  rw [withGeom_keeps _ _ (by decide)]
  exact hsw

/-- **C82**: radiation estimated by `mtclim` is spread over the steps of its day as the sun's elevation. -/
theorem C82_mtclim (hm : j.shared.method = .mtclim) (hp : SaneParams j.shared) (hs : Sound j.shared j.n (j.inp c))
    (hcols : ∀ k ∈ ["t_min", "t_max", "dtr", "smoothed_dtr", "prec", "seasonal_prec"],
      Dict.get? (j.inp c).data.frame k ≠ none) (k : Nat) (hk : k < j.n) :
    ∃ (r : ℝ) (P : ℕ → ℝ), 0 ≤ r ∧ ∀ i < 1440 / j.shared.ts,
      |P i - sunStep lat (j.d0 + k) j.shared.ts i| ≤ 0.134 * j.shared.ts ∧ Reads j files c "shortwave" k i (r * P i) := by
  obtain ⟨elev, lon, he, -, q, h⟩ := spread_day j hj fuel order ho files hrun hsub hutc c hc u hu lat hlat h90
  obtain ⟨⟨sw, g1, g2⟩, -⟩ := mtclim_daily q (by rw [hj.data c, length_consecutive]) hm hp hs.lapse.1 (hs.column elev he)
    (hs.lat lat hlat) hs.record hcols
  obtain ⟨a, ha, ha0⟩ := g2 k hk
  obtain ⟨r, P, r1, r2⟩ := h k hk sw a g1 ha
  exact ⟨r, P, r1 ha0, r2⟩

end C82

/-- **C82**: there are such runs. -/
example : (demo .mtclim).Sane ∧ (demo .mtclim).shared.ts < 1440 ∧ (demo .mtclim).shared.utcOffset = false ∧
    (demo .mtclim).Computed [0, 0] ∧ SaneParams (demo .mtclim).shared ∧
    ((demo .mtclim).inp [0, 0]).lat = fin 45 ∧ Sound (demo .mtclim).shared (demo .mtclim).n ((demo .mtclim).inp [0, 0]) ∧
    (∀ k ∈ ["t_min", "t_max", "dtr", "smoothed_dtr", "prec", "seasonal_prec"],
      Dict.get? ((demo .mtclim).inp [0, 0]).data.frame k ≠ none) ∧
    (∃ u, (demo .mtclim).shared.outVars.get? "shortwave" = some u) ∧
    ∃ order fuel files, (demo .mtclim).Schedule order ∧ (demo .mtclim).run fuel order = .ok files :=
  ⟨demo_sane _, by unfold demo; decide, rfl, ⟨by decide, 1, rfl, one_pos⟩, demo_params, rfl, demo_sound _,
    (demo_complete .mtclim [0, 0]).columns, ⟨_, rfl⟩, demo_mtclim_runs⟩

example : (equator 720).Sane ∧ (equator 720).shared.ts < 1440 ∧ (equator 720).shared.utcOffset = false ∧
    (equator 720).Computed [0, 0] ∧ (equator 720).shared.method = .passthrough ∧
    ((equator 720).inp [0, 0]).lat = fin 0 ∧ (equator 720).shared.outVars.get? "shortwave" = some "W m-2" ∧
    (∃ sw, Dict.get? ((equator 720).inp [0, 0]).data.frame "shortwave" = some sw ∧ sw 0 = fin 200) ∧
    ∃ order files, (equator 720).Schedule order ∧ (equator 720).run 0 order = .ok files :=
  ⟨equator_sane _ (Or.inl rfl), by unfold equator; decide, rfl, ⟨by unfold equator demo; decide, 1, rfl, one_pos⟩, rfl, rfl, rfl,
    ⟨_, rfl, rfl⟩, equator_runs _ (Or.inl rfl)⟩

end Verif.Props
