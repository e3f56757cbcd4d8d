import Verif.Lemmas.Curve
import Verif.Props.Sunlight

/-!
# Temperature within the day: C83
-/

namespace Verif.Props

open Flt Physics Methods Cell Np Solar Interp
open Disagg (setMinMaxHour utcShift HourParams)
open Disaggregate (nDisagg)

/-- `rise k` and `set k` are the minutes of sunrise and sunset of day `k` of a run: within a minute of the textbook's, noon
being at minute 720; 240 and 960 if the sun does not rise or does not set. -/
structure SunTimes (lat : ℝ) (d0 : Int) (n : Nat) (f : ℝ) (rise set : ℕ → ℝ) : Prop where
  order : ∀ k < n, 0 < rise k ∧ rise k < set k ∧ rise k + f * (set k - rise k) < 1440
  near : ∀ k < n, 1 ≤ daylight lat (d0 + k) → daylight lat (d0 + k) ≤ 86339 →
    |rise k - (720 - daylight lat (d0 + k) / 120)| ≤ 1.01 ∧ |set k - (720 + daylight lat (d0 + k) / 120)| ≤ 1.01
  night : ∀ k < n, daylight lat (d0 + k) = 0 → rise k = 240 ∧ set k = 960
  light : ∀ k < n, daylight lat (d0 + k) = 86400 → rise k = 240 ∧ set k = 960
  morning : ∀ k < n, rise k ≤ 720

theorem sunset_of_daylight {lat : ℝ} {d : Int} {x : ℝ} (h : daylight lat d = 86400 * x / Real.pi) :
    Spec.sunset (Spec.radians lat) (Spec.declination (min (doy d - 1) 364)) = x := by
  unfold daylight at h
  have hp := Real.pi_pos
  rw [div_left_inj' hp.ne'] at h
  exact mul_left_cancel₀ (by norm_num) h

/-- All day long the sun is up. -/
theorem polar_light {elev lat lr : ℝ} (h90 : |lat| ≤ 90) {geom : List DayGeom} (hg : solarGeom elev lat lr = .ok geom) {d : Int}
    {g : DayGeom} (h : geom[doy d - 1]? = some g) (hl : daylight lat d = 86400) (j : Nat) (hj : j < 2880) : 0 < g.fract j := by
  obtain ⟨tr, -, hday⟩ := solarGeom_row hg h
  obtain ⟨T, hT, hs⟩ := fract_sample hday (latRad_lt h90)
  obtain ⟨t, t1, t2, t3⟩ := hs j hj
  have hp1 := Real.pi_gt_d20
  have hH : halfDay (Real.cos (latRad lat) * Real.cos (decl (min (doy d - 1) 364)))
      (Real.sin (latRad lat) * Real.sin (decl (min (doy d - 1) 364))) = Real.pi := by
    rw [latRad_eq h90, half_eq]
    exact sunset_of_daylight (by rw [hl]; field_simp)
  have hjr : (j : ℝ) + 1 ≤ 2880 := by exact_mod_cast hj
  have hj0 : (0 : ℝ) ≤ j := Nat.cast_nonneg j
  have hz := cza_pos (s := Real.sin (latRad lat) * Real.sin (decl (min (doy d - 1) 364))) (h := angle t)
    (coseg_pos (latRad_lt h90) (min (doy d - 1) 364))
    (by
      rw [hH]
      unfold angle
      rw [lt_div_iff₀ (by norm_num)]
      nlinarith)
    (by
      rw [hH]
      unfold angle
      rw [div_lt_iff₀ (by norm_num)]
      nlinarith)
  rw [max_eq_right hz.le] at t3
  have : 0 < g.fract j * T := by rw [t3]; positivity
  exact (mul_pos_iff_of_pos_right hT).1 this

theorem polar_dark {elev lat lr : ℝ} (h90 : |lat| ≤ 90) {geom : List DayGeom} (hg : solarGeom elev lat lr = .ok geom) {d : Int}
    {g : DayGeom} (h : geom[doy d - 1]? = some g) (hl : daylight lat d = 0) : g.daylength = 0 := by
  obtain ⟨tr, -, hday⟩ := solarGeom_row hg h
  obtain ⟨c, s, H, acc, rfl, rfl, hc0, rfl, hdl, -⟩ := solarDay_ok hday
  have e : latRad lat = Spec.radians lat := latRad_eq h90
  rw [hdl, e, half_eq, sunset_of_daylight (x := 0) (by rw [hl]; simp)]
  norm_num

/-- The times of the extremes of a run in local time. -/
theorem sun_times {elev lat lr : ℝ} (h90 : |lat| ≤ 90) {geom : List DayGeom} (hg : solarGeom elev lat lr = .ok geom)
    {p : HourParams ℝ} (hu : p.utcOffset = false) (hf : 0 < p.tmaxFraction) (hf1 : p.tmaxFraction ≤ 1) (d0 : Int) (n : Nat)
    {times : List (ℝ × ℝ)}
    (ht : setMinMaxHour p (geom.map (·.fract)) ((List.range n).map fun k : Nat => doy (d0 + k) - 1) = .ok times) :
    ∃ rise set : ℕ → ℝ, SunTimes lat d0 n p.tmaxFraction rise set ∧ times.length = n ∧
      ∀ k < n, times[k]? = some (1440 * k + rise k - p.ts, 1440 * k + (rise k + p.tmaxFraction * (set k - rise k)) - p.ts) := by
  obtain ⟨hlen, h2⟩ := setMinMaxHour_inDays (geom_rows h90 hg) hf hf1 ht
  have hsh : utcShift p = 0 := by unfold utcShift; rw [hu]; simp
  rw [List.length_map, List.length_range] at hlen
  have key : ∀ k : ℕ, ∃ rise set : ℝ, k < n →
      times[k]? = some (1440 * k + rise - p.ts, 1440 * k + (rise + p.tmaxFraction * (set - rise)) - p.ts) ∧
      (0 < rise ∧ rise < set ∧ rise + p.tmaxFraction * (set - rise) < 1440) ∧
      (1 ≤ daylight lat (d0 + k) → daylight lat (d0 + k) ≤ 86339 →
        |rise - (720 - daylight lat (d0 + k) / 120)| ≤ 1.01 ∧ |set - (720 + daylight lat (d0 + k) / 120)| ≤ 1.01) ∧
      (daylight lat (d0 + k) = 0 → rise = 240 ∧ set = 960) ∧
      (daylight lat (d0 + k) = 86400 → rise = 240 ∧ set = 960) ∧ rise ≤ 720 := by
    intro k
    by_cases hk : k < n
    swap
    · exact ⟨0, 0, fun h => absurd h hk⟩
    obtain ⟨q, hq⟩ : ∃ q, times[k]? = some q := ⟨_, List.getElem?_eq_getElem (by omega)⟩
    obtain ⟨g, hrow, rise, set, e1, e2, b1, b2, b3⟩ := C54_times elev lat lr h90 geom hg p hf hf1 _ times ht k q hq
    obtain ⟨-, -, -, -, c1, c2, c3⟩ := h2 k q hq
    rw [List.getD_eq_getElem?_getD, List.getElem?_map, List.getElem?_range hk] at hrow
    replace hrow : geom[doy (d0 + k) - 1]? = some g := hrow
    rw [hsh] at e1 e2 c1 c3
    simp only [Int.cast_zero, sub_zero, zero_add] at e1 e2 c1 c3
    rw [e1] at c1 c2
    rw [e2] at c2 c3
    have hfp : 0 < p.tmaxFraction * (set - rise) := by linarith
    have hfs : 0 < set - rise := by
      by_contra hc
      have := mul_nonpos_of_nonneg_of_nonpos hf.le (not_lt.1 hc)
      linarith
    refine ⟨rise, set, fun _ => ⟨?_, ⟨by linarith, by linarith, by linarith⟩, ?_, ?_, ?_, ?_⟩⟩
    · rw [hq]
      congr 1
      exact Prod.ext (by rw [e1]; ring) (by rw [e2]; ring)
    · intro l1 l2
      obtain ⟨hb, h0, -, -⟩ := day_fractions h90 hg hrow
      obtain ⟨hb1, hb2⟩ := abs_le.1 hb
      obtain ⟨x1, x2⟩ := b1 (by intro e; rw [e] at hb1; linarith) (by linarith)
      rw [abs_le] at x1 x2 ⊢
      rw [abs_le]
      obtain ⟨x1, x1'⟩ := x1
      obtain ⟨x2, x2'⟩ := x2
      refine ⟨⟨by linarith, by linarith⟩, ⟨by linarith, by linarith⟩⟩
    · exact fun h => b2 (polar_dark h90 hg hrow h)
    · exact fun h => b3 (polar_light h90 hg hrow h)
    · obtain ⟨g', hgm, -, e', -⟩ := h2 k q hq
      rw [minMaxTime_eq, hsh] at e'
      have : Disagg.riseTime g'.fract ≤ 720 := by
        rcases Disagg.rise_set (geom_rows h90 hg g' hgm) with ⟨a, -⟩ | ⟨a, -⟩ | ⟨a, b, c, -, d⟩
        · rw [a]; norm_num
        · rw [a]; norm_num
        · linarith
      have e'' := congrArg Prod.fst e'
      push_cast at e''
      linarith
  choose rise set hkey using key
  exact ⟨rise, set, ⟨fun k hk => (hkey k hk).2.1, fun k hk => (hkey k hk).2.2.1, fun k hk => (hkey k hk).2.2.2.1,
    fun k hk => (hkey k hk).2.2.2.2.1, fun k hk => (hkey k hk).2.2.2.2.2⟩, hlen, fun k hk => (hkey k hk).1⟩

/-- The extremes of a record of `n` days in order: minimum and maximum of the day before, of each day, and once more those of
the last day. -/
noncomputable def turnValue (before : ℝ × ℝ) (lo hi : ℕ → ℝ) (n m : ℕ) : ℝ :=
  if m % 2 = 0 then if m / 2 = 0 then before.1 else lo (min (m / 2 - 1) (n - 1))
  else if m / 2 = 0 then before.2 else hi (min (m / 2 - 1) (n - 1))

/-- The minutes at which the steps begin that end at the extremes: the minimum at sunrise, the maximum a fraction `f` of the
day later. The first and the last day also serve for the day before and after. -/
noncomputable def turnTime (ts : ℕ) (f : ℝ) (rise set : ℕ → ℝ) (n m : ℕ) : ℝ :=
  let d := min (m / 2 - 1) (n - 1)
  1440 * ((m / 2 : ℕ) - 1) + (if m % 2 = 0 then rise d else rise d + f * (set d - rise d)) - ts

theorem points_turn {n : ℕ} (hn : 0 < n) {times : List (ℝ × ℝ)} {ts : ℕ} {f : ℝ} {rise set : ℕ → ℝ} (hl : times.length = n)
    (ht : ∀ k < n, times[k]? = some (1440 * k + rise k - ts, 1440 * k + (rise k + f * (set k - rise k)) - ts))
    {lo hi : ℕ → ℝ} (before : ℝ × ℝ) {m : ℕ} (hm : m < 2 * (n + 2)) :
    (points ((List.range n).map fun k => fin (lo k)) ((List.range n).map fun k => fin (hi k)) times
      (some [fin before.1, fin before.2]) none)[m]? = some (turnTime ts f rise set n m, fin (turnValue before lo hi n m)) := by
  have hne : times ≠ [] := List.length_pos_iff.1 (by omega)
  obtain ⟨-, hp⟩ := C55_points ((List.range n).map fun k => fin (lo k)) ((List.range n).map fun k => fin (hi k)) times
    (some (fin before.1, fin before.2)) none (by simp [hl]) (by simp [hl]) hne
  have hat : ∀ d < n, _ := fun d hd => hp d _ (fin (lo d)) (fin (hi d)) (ht d hd)
    (by rw [List.getElem?_map, List.getElem?_range hd]; rfl) (by rw [List.getElem?_map, List.getElem?_range hd]; rfl)
  obtain ⟨d, hd | hd⟩ : ∃ d, m = 2 * d ∨ m = 2 * d + 1 := ⟨m / 2, by omega⟩
  · subst hd
    have e1 : 2 * d / 2 = d := by omega
    have e2 : 2 * d % 2 = 0 := by omega
    unfold turnTime turnValue
    simp only [e1, e2, if_true]
    rcases Nat.eq_zero_or_pos d with rfl | hd0
    · have := ((hat 0 hn).2.2.1 rfl).1
      rw [mul_zero]
      refine this.trans ?_
      simp only [Option.getD_some, Nat.cast_zero, Nat.zero_sub, Nat.zero_min, if_true]
      congr 2; ring
    · obtain ⟨e, rfl⟩ : ∃ e, d = e + 1 := ⟨d - 1, by omega⟩
      rw [if_neg (by omega), Nat.add_sub_cancel]
      by_cases he : e < n
      · rw [min_eq_left (by omega)]
        refine (hat e he).1.trans ?_
        push_cast
        congr 2; ring
      · have hen : e = n := by omega
        subst hen
        rw [min_eq_right (by omega)]
        have := ((hat (e - 1) (by omega)).2.2.2 (by omega)).1
        rw [show e - 1 + 2 = e + 1 by omega] at this
        refine this.trans ?_
        rw [Option.getD_none]
        have : ((e - 1 : ℕ) : ℝ) = e - 1 := by rw [Nat.cast_sub (by omega)]; simp
        push_cast
        simp only [this]
        congr 2; ring
  · subst hd
    have e1 : (2 * d + 1) / 2 = d := by omega
    have e2 : (2 * d + 1) % 2 = 1 := by omega
    unfold turnTime turnValue
    simp only [e1, e2, one_ne_zero, if_false]
    rcases Nat.eq_zero_or_pos d with rfl | hd0
    · have := ((hat 0 hn).2.2.1 rfl).2
      rw [mul_zero, zero_add]
      refine this.trans ?_
      simp only [Option.getD_some, Nat.cast_zero, Nat.zero_sub, Nat.zero_min, if_true]
      congr 2; ring
    · obtain ⟨e, rfl⟩ : ∃ e, d = e + 1 := ⟨d - 1, by omega⟩
      rw [if_neg (by omega), Nat.add_sub_cancel]
      by_cases he : e < n
      · rw [min_eq_left (by omega)]
        refine (hat e he).2.1.trans ?_
        push_cast
        congr 2; ring
      · have hen : e = n := by omega
        subst hen
        rw [min_eq_right (by omega)]
        have := ((hat (e - 1) (by omega)).2.2.2 (by omega)).2
        rw [show e - 1 + 2 = e + 1 by omega] at this
        refine this.trans ?_
        rw [Option.getD_none]
        have : ((e - 1 : ℕ) : ℝ) = e - 1 := by rw [Nat.cast_sub (by omega)]; simp
        push_cast
        simp only [this]
        congr 2; ring

/-- The interpolated temperature at a time inside the record. -/
theorem temp_curve {n : ℕ} (hn : 0 < n) {times : List (ℝ × ℝ)} {ts : ℕ} {f : ℝ} {rise set : ℕ → ℝ} (hl : times.length = n)
    (ht : ∀ k < n, times[k]? = some (1440 * k + rise k - ts, 1440 * k + (rise k + f * (set k - rise k)) - ts))
    (hr : ∀ k < n, 0 < rise k ∧ rise k < set k ∧ rise k + f * (set k - rise k) < 1440)
    {lo hi : ℕ → ℝ} (before : ℝ × ℝ) {N : ℕ} {out : List ℝ}
    (ho : Interp.temp ((List.range n).map fun k => fin (lo k)) ((List.range n).map fun k => fin (hi k)) N times ts
      (some [fin before.1, fin before.2]) none = .ok out) {i : ℕ} {v : ℝ} (hv : out[i]? = some v)
    (hi' : (ts : ℝ) * i + ts ≤ 1440 * n) :
    (∀ a b, a < b → b < 2 * (n + 2) → turnTime ts f rise set n a < turnTime ts f rise set n b) ∧
    (∃ m ≤ 2 * n, turnTime ts f rise set n (m + 1) ≤ ts * i ∧ (ts : ℝ) * i ≤ turnTime ts f rise set n (m + 2)) ∧
    ∀ m ≤ 2 * n, turnTime ts f rise set n (m + 1) ≤ ts * i → (ts : ℝ) * i ≤ turnTime ts f rise set n (m + 2) →
      v = Spec.curve (turnTime ts f rise set n) (turnValue before lo hi n) m (ts * i) := by
  obtain ⟨k, hk, hk2, hkn, hpt, hout⟩ := temp_ok ho
  have hpl : (points ((List.range n).map fun k => fin (lo k)) ((List.range n).map fun k => fin (hi k)) times
      (some [fin before.1, fin before.2]) none).length = 2 * (n + 2) := by
    have := (C55_points ((List.range n).map fun k => fin (lo k)) ((List.range n).map fun k => fin (hi k)) times
      (some (fin before.1, fin before.2)) none (by simp [hl]) (by simp [hl]) (List.length_pos_iff.1 (by omega))).1
    rw [hl] at this
    exact this
  rw [hpl] at hkn
  have hxy : ∀ m < 2 * (n + 2), k.x m = turnTime ts f rise set n m ∧ k.y m = turnValue before lo hi n m := by
    intro m hm
    have h1 := hpt m (by omega)
    rw [points_turn hn hl ht before hm] at h1
    obtain ⟨h2, h3⟩ := Prod.mk.inj (Option.some.inj h1)
    exact ⟨h2.symm, (Flt.fin.inj h3).symm⟩
  have hil : i < N := by
    by_contra hc
    rw [hout, List.getElem?_eq_none (by simpa using hc)] at hv
    cases hv
  rw [hout, List.getElem?_map, List.getElem?_range hil] at hv
  have hv' : pchip k ((ts : ℝ) * i) = v := Option.some.inj hv
  have hts0 : (0 : ℝ) ≤ ts := Nat.cast_nonneg _
  have hti : (0 : ℝ) ≤ ts * i := by positivity
  have hts : (ts : ℝ) ≤ 1440 * n := by linarith
  refine ⟨fun a b hab hb => ?_, ?_, ?_⟩
  · rw [← (hxy a (by omega)).1, ← (hxy b hb).1]
    exact hk a b hab (by omega)
  · obtain ⟨m, hm, h1, h2⟩ := exists_segment (fun m => turnTime ts f rise set n (m + 1)) (2 * n) ((ts : ℝ) * i)
      (by
        show turnTime ts f rise set n 1 ≤ _
        unfold turnTime
        have := (hr 0 hn).2.2
        simp
        linarith)
      (by
        show _ ≤ turnTime ts f rise set n (2 * n + 1 + 1)
        unfold turnTime
        rw [show (2 * n + 1 + 1) / 2 = n + 1 by omega, show (2 * n + 1 + 1) % 2 = 0 by omega]
        rw [Nat.add_sub_cancel, min_eq_right (by omega)]
        simp only [if_true]
        push_cast
        have := (hr (n - 1) (by omega)).1
        linarith)
    exact ⟨m, hm, h1, h2⟩
  · intro m hm h1 h2
    rw [← hv']
    have hx : ∀ a < 2 * (n + 2), k.x a = turnTime ts f rise set n a := fun a ha => (hxy a ha).1
    have hy : ∀ a < 2 * (n + 2), k.y a = turnValue before lo hi n a := fun a ha => (hxy a ha).2
    rw [pchip_curve hk (m := m) (by omega) (by rw [hx _ (by omega)]; exact h1) (by rw [hx _ (by omega)]; exact h2)]
    exact curve_congr (fun a ha => hx a (by omega)) (fun a ha => hy a (by omega)) _

/-! ## C83 -/
section C83

variable (j : Job) (hj : j.Sane) (fuel : Nat) (order : List (Dict String Chunk.Slice)) (ho : j.Schedule order)
  (files : Run.Files Output) (hrun : j.run fuel order = .ok files) (hsub : j.shared.ts < 1440)
  (hutc : j.shared.utcOffset = false) (hf : 0 < j.shared.tmaxFraction) (hf1 : j.shared.tmaxFraction ≤ 1)
  (c : Run.Cell) (hc : j.Computed c) (u : String) (hu : j.shared.outVars.get? "temp" = some u)
  (lat : ℝ) (hlat : (j.inp c).lat = fin lat) (h90 : |lat| ≤ 90) (tmin tmax : Col)
  (hmin : Dict.get? (j.inp c).data.frame "t_min" = some tmin) (hmax : Dict.get? (j.inp c).data.frame "t_max" = some tmax)
  (lo hi : ℕ → ℝ) (hlo : ∀ k < j.n, tmin k = fin (lo k)) (hhi : ∀ k < j.n, tmax k = fin (hi k)) (before : ℝ × ℝ)
  (hb : (j.inp c).data.stateEnd = (fin before.1, fin before.2))

include hj ho hrun hsub hutc hf hf1 hc hu hlat h90 hmin hmax hlo hhi hb

/-- **C83**: the temperatures written are the values, at the beginnings of the steps, of the monotone cubic curve through the
daily extremes: the minimum at sunrise, the maximum `tmax_daylength_fraction` of the day later, both one step early. Where an
extreme of the forcing is not an extreme of the series the curve has the slope of Fritsch and Butland. -/
theorem C83_curve : ∃ rise set : ℕ → ℝ, SunTimes lat j.d0 j.n j.shared.tmaxFraction rise set ∧
    ∀ k < j.n, ∀ i < 1440 / j.shared.ts,
      (∃ m ≤ 2 * j.n, turnTime j.shared.ts j.shared.tmaxFraction rise set j.n (m + 1) ≤ 1440 * k + j.shared.ts * i ∧
        1440 * k + j.shared.ts * i ≤ turnTime j.shared.ts j.shared.tmaxFraction rise set j.n (m + 2)) ∧
      ∀ m ≤ 2 * j.n, turnTime j.shared.ts j.shared.tmaxFraction rise set j.n (m + 1) ≤ 1440 * k + j.shared.ts * i →
        1440 * k + j.shared.ts * i ≤ turnTime j.shared.ts j.shared.tmaxFraction rise set j.n (m + 2) →
        Reads j files c "temp" k i (273.15 + Spec.curve (turnTime j.shared.ts j.shared.tmaxFraction rise set j.n)
          (turnValue before lo hi j.n) m (1440 * k + j.shared.ts * i)) := by
  obtain ⟨elev, lat0, lon, e1, e2, e3, q, daily, t, hd, ld, hnd, hread⟩ := readout j hj ho hrun hsub hc
  rw [hlat] at e2
  obtain rfl := Flt.fin.inj e2
  have hlen : (j.inp c).data.days.length = j.n := by rw [hj.data c, length_consecutive]
  obtain ⟨w1, -, -, g1, g2, -⟩ := dailyOf_ok hd
  obtain ⟨c1, hc1, w2⟩ := Cell.column_ok.1 g1
  obtain ⟨c2, hc2, w3⟩ := Cell.column_ok.1 g2
  rw [base_keeps q (by decide) (by decide), hmin] at hc1
  rw [base_keeps q (by decide) (by decide), hmax] at hc2
  obtain rfl := Option.some.inj hc1
  obtain rfl := Option.some.inj hc2
  have hts' : (j.shared.sub elev lon).ts = j.shared.ts := rfl
  have htemp := t.h_temp
  have htimes := t.h_times
  generalize hT : t.times = times at htemp htimes
  have htf := temp_fill t
  generalize hV : t.temp = temps at htemp htf
  rw [w2, w3, hlen, hts', hnd, hb] at htemp
  rw [show (List.range j.n).map tmin = (List.range j.n).map fun k => fin (lo k) from
      List.map_congr_left fun k hk => hlo k (List.mem_range.1 hk),
    show (List.range j.n).map tmax = (List.range j.n).map fun k => fin (hi k) from
      List.map_congr_left fun k hk => hhi k (List.mem_range.1 hk)] at htemp
  rw [w1, List.map_map, hj.data c, consecutive, List.map_map] at htimes
  obtain ⟨rise, set, s1, s2, s3⟩ := sun_times (p := hours (j.shared.sub elev lon)) h90 q.h_geom hutc hf hf1 j.d0 j.n htimes
  have hol : temps.length = j.n * (1440 / j.shared.ts) := (C55_curve _ _ _ _ _ _ _ _ htemp).choose_spec.1
  refine ⟨rise, set, s1, fun k hk i hi' => ?_⟩
  have hlt : k * (1440 / j.shared.ts) + i < temps.length := by
    have : (k + 1) * (1440 / j.shared.ts) ≤ j.n * (1440 / j.shared.ts) := Nat.mul_le_mul_right _ hk
    rw [Nat.add_mul, Nat.one_mul] at this
    omega
  have hmulZ := hj.step.mulZ
  have hm : ((1440 / j.shared.ts : Nat) : ℝ) * j.shared.ts = 1440 := by exact_mod_cast hmulZ
  have e : (j.shared.ts : ℝ) * ((k * (1440 / j.shared.ts) + i : Nat) : ℝ) = 1440 * k + j.shared.ts * i := by
    clear htemp hol hlt hmulZ hread hnd htimes
    generalize 1440 / j.shared.ts = m at *
    push_cast
    linear_combination (k : ℝ) * hm
  have hi1 : (j.shared.ts : ℝ) * i + j.shared.ts ≤ 1440 := by
    rw [← hm]
    have : ((i + 1 : Nat) : ℝ) ≤ ((1440 / j.shared.ts : Nat) : ℝ) := by exact_mod_cast hi'
    have h0 : (0 : ℝ) ≤ j.shared.ts := Nat.cast_nonneg _
    have := mul_le_mul_of_nonneg_right this h0
    push_cast at this ⊢
    linarith
  have hk1 : (k : ℝ) + 1 ≤ j.n := by exact_mod_cast hk
  obtain ⟨-, r2, r3⟩ := temp_curve hj.pos s2 s3 s1.order before htemp (List.getElem?_eq_getElem hlt)
    (show (j.shared.ts : ℝ) * ((k * (1440 / j.shared.ts) + i : Nat) : ℝ) + j.shared.ts ≤ 1440 * j.n by rw [e]; linarith)
  rw [show (hours (j.shared.sub elev lon)).ts = j.shared.ts from rfl, e] at r2 r3
  refine ⟨r2, fun m hm' h1 h2 => ?_⟩
  obtain ⟨col, b1, b2⟩ := hread "temp" u "C" .temperature hu (by decide) rfl (by simp)
  have hx : col[k * (1440 / j.shared.ts) + i]? = some (fin (temps[k * (1440 / j.shared.ts) + i])) := by
    rw [← Except.ok.inj b1, htf, List.getElem?_map, List.getElem?_eq_getElem hlt, Option.map_some]
  refine (b2 k hk i hi').1 _ _ hx ?_
  rw [r3 m hm' h1 h2]
  simp only [Spec.si]
  rw [add_comm]
  rfl

/-- **C83**: from sunrise to the time of the maximum, and from there to the next sunrise, temperature follows the cubic that
is flat at both ends. -/
theorem C83_day : ∃ rise set : ℕ → ℝ, SunTimes lat j.d0 j.n j.shared.tmaxFraction rise set ∧
    ∀ k < j.n, ∀ i < 1440 / j.shared.ts,
      (∀ d < j.n, lo d ≤ (if d = 0 then before.2 else hi (d - 1)) → lo d ≤ hi d → (d + 1 < j.n → lo (d + 1) ≤ hi d) → ∀ s : ℝ,
        0 ≤ s → s ≤ 1 → (1440 * k + j.shared.ts * (i + 1) : ℝ) =
          1440 * d + rise d + s * (j.shared.tmaxFraction * (set d - rise d)) →
        Reads j files c "temp" k i (273.15 + (lo d + (hi d - lo d) * (s ^ 2 * (3 - 2 * s))))) ∧
      (∀ d, d + 1 < j.n → lo d ≤ hi d → lo (d + 1) ≤ hi d → lo (d + 1) ≤ hi (d + 1) → ∀ s : ℝ, 0 ≤ s → s ≤ 1 →
        (1440 * k + j.shared.ts * (i + 1) : ℝ) = (1 - s) * (1440 * d + rise d + j.shared.tmaxFraction * (set d - rise d)) +
          s * (1440 * (d + 1) + rise (d + 1)) →
        Reads j files c "temp" k i (273.15 + (hi d + (lo (d + 1) - hi d) * (s ^ 2 * (3 - 2 * s))))) := by
  obtain ⟨rise, set, s1, s2⟩ := C83_curve j hj fuel order ho files hrun hsub hutc hf hf1 c hc u hu lat hlat h90 tmin tmax hmin
    hmax lo hi hlo hhi before hb
  refine ⟨rise, set, s1, fun k hk i hi' => ⟨fun d hd v1 v2 v3 s h0 h1 ht => ?_, fun d hd v1 v2 v3 s h0 h1 ht => ?_⟩⟩
  · obtain ⟨o1, o2, o3⟩ := s1.order d hd
    have hw : 0 < j.shared.tmaxFraction * (set d - rise d) := mul_pos hf (by linarith)
    have x1 : turnTime j.shared.ts j.shared.tmaxFraction rise set j.n (2 * d + 1 + 1) = 1440 * d + rise d - j.shared.ts := by
      unfold turnTime
      rw [show (2 * d + 1 + 1) / 2 = d + 1 by omega, show (2 * d + 1 + 1) % 2 = 0 by omega, Nat.add_sub_cancel,
        min_eq_left (by omega)]
      push_cast; simp
    have x2 : turnTime j.shared.ts j.shared.tmaxFraction rise set j.n (2 * d + 1 + 2) =
        1440 * d + rise d + j.shared.tmaxFraction * (set d - rise d) - j.shared.ts := by
      unfold turnTime
      rw [show (2 * d + 1 + 2) / 2 = d + 1 by omega, show (2 * d + 1 + 2) % 2 = 1 by omega, Nat.add_sub_cancel,
        min_eq_left (by omega)]
      push_cast; simp; ring
    have x0 : turnTime j.shared.ts j.shared.tmaxFraction rise set j.n (2 * d + 1) < 1440 * d - j.shared.ts := by
      unfold turnTime
      rw [show (2 * d + 1) / 2 = d by omega, show (2 * d + 1) % 2 = 1 by omega]
      have := (s1.order (min (d - 1) (j.n - 1)) (by omega)).2.2
      simp only [one_ne_zero, if_false]
      linarith
    have x3 : 1440 * (d + 1) - j.shared.ts < turnTime j.shared.ts j.shared.tmaxFraction rise set j.n (2 * d + 1 + 3) := by
      unfold turnTime
      rw [show (2 * d + 1 + 3) / 2 = d + 2 by omega, show (2 * d + 1 + 3) % 2 = 0 by omega]
      have : 0 < rise (min (d + 1) (j.n - 1)) := (s1.order _ (by omega)).1
      simp only [if_true]
      push_cast
      linarith
    have y0 : turnValue before lo hi j.n (2 * d + 1) = if d = 0 then before.2 else hi (d - 1) := by
      unfold turnValue
      rw [show (2 * d + 1) / 2 = d by omega, if_neg (by omega), min_eq_left (by omega)]
    have y1 : turnValue before lo hi j.n (2 * d + 1 + 1) = lo d := by
      unfold turnValue
      rw [show (2 * d + 1 + 1) / 2 = d + 1 by omega, if_pos (by omega), if_neg (by omega), Nat.add_sub_cancel,
        min_eq_left (by omega)]
    have y2 : turnValue before lo hi j.n (2 * d + 1 + 2) = hi d := by
      unfold turnValue
      rw [show (2 * d + 1 + 2) / 2 = d + 1 by omega, if_neg (by omega), if_neg (by omega), Nat.add_sub_cancel,
        min_eq_left (by omega)]
    have y3 : turnValue before lo hi j.n (2 * d + 1 + 3) ≤ hi d := by
      unfold turnValue
      rw [show (2 * d + 1 + 3) / 2 = d + 2 by omega, if_pos (by omega), if_neg (by omega)]
      by_cases hl : d + 1 < j.n
      · rw [min_eq_left (by omega)]; exact v3 hl
      · rw [min_eq_right (by omega), show j.n - 1 = d by omega]; exact v2
    have hm : (1440 * k + j.shared.ts * i : ℝ) = 1440 * d + rise d + s * (j.shared.tmaxFraction * (set d - rise d))
        - j.shared.ts := by linarith
    have hsw := mul_nonneg h0 hw.le
    have hsw' := mul_le_mul_of_nonneg_right h1 hw.le
    have := (s2 k hk i hi').2 (2 * d + 1) (by omega) (by rw [x1]; linarith) (by rw [x2]; linarith)
    rw [curve_flat (by rw [x1, x2]; linarith) (by rw [x1]; linarith) (by rw [x2]; linarith)
      (by rw [y0, y1, y2]; exact mul_nonpos_of_nonpos_of_nonneg (by linarith) (by linarith))
      (by rw [y1, y2]; exact mul_nonpos_of_nonneg_of_nonpos (by linarith) (by linarith)), x1, x2, y1, y2, hm,
      show (1440 * d + rise d + s * (j.shared.tmaxFraction * (set d - rise d)) - j.shared.ts - (1440 * d + rise d - j.shared.ts)) /
        (1440 * d + rise d + j.shared.tmaxFraction * (set d - rise d) - j.shared.ts - (1440 * d + rise d - j.shared.ts)) = s by
          rw [div_eq_iff (by intro h; linarith)]; ring] at this
    exact this
  · obtain ⟨o1, o2, o3⟩ := s1.order d (by omega)
    obtain ⟨p1, p2, p3⟩ := s1.order (d + 1) hd
    have hw : 0 < j.shared.tmaxFraction * (set d - rise d) := mul_pos hf (by linarith)
    have hw' : 0 < j.shared.tmaxFraction * (set (d + 1) - rise (d + 1)) := mul_pos hf (by linarith)
    have x0 : turnTime j.shared.ts j.shared.tmaxFraction rise set j.n (2 * d + 2) = 1440 * d + rise d - j.shared.ts := by
      unfold turnTime
      rw [show (2 * d + 2) / 2 = d + 1 by omega, show (2 * d + 2) % 2 = 0 by omega, Nat.add_sub_cancel,
        min_eq_left (by omega)]
      push_cast; simp
    have x1 : turnTime j.shared.ts j.shared.tmaxFraction rise set j.n (2 * d + 2 + 1) =
        1440 * d + rise d + j.shared.tmaxFraction * (set d - rise d) - j.shared.ts := by
      unfold turnTime
      rw [show (2 * d + 2 + 1) / 2 = d + 1 by omega, show (2 * d + 2 + 1) % 2 = 1 by omega, Nat.add_sub_cancel,
        min_eq_left (by omega)]
      push_cast; simp; ring
    have x2 : turnTime j.shared.ts j.shared.tmaxFraction rise set j.n (2 * d + 2 + 2) =
        1440 * (d + 1) + rise (d + 1) - j.shared.ts := by
      unfold turnTime
      rw [show (2 * d + 2 + 2) / 2 = d + 1 + 1 by omega, show (2 * d + 2 + 2) % 2 = 0 by omega, Nat.add_sub_cancel,
        min_eq_left (by omega)]
      push_cast; simp
    have x3 : turnTime j.shared.ts j.shared.tmaxFraction rise set j.n (2 * d + 2 + 3) =
        1440 * (d + 1) + rise (d + 1) + j.shared.tmaxFraction * (set (d + 1) - rise (d + 1)) - j.shared.ts := by
      unfold turnTime
      rw [show (2 * d + 2 + 3) / 2 = d + 1 + 1 by omega, show (2 * d + 2 + 3) % 2 = 1 by omega, Nat.add_sub_cancel,
        min_eq_left (by omega)]
      push_cast; simp; ring
    have y0 : turnValue before lo hi j.n (2 * d + 2) = lo d := by
      unfold turnValue
      rw [show (2 * d + 2) / 2 = d + 1 by omega, if_pos (by omega), if_neg (by omega), Nat.add_sub_cancel,
        min_eq_left (by omega)]
    have y1 : turnValue before lo hi j.n (2 * d + 2 + 1) = hi d := by
      unfold turnValue
      rw [show (2 * d + 2 + 1) / 2 = d + 1 by omega, if_neg (by omega), if_neg (by omega), Nat.add_sub_cancel,
        min_eq_left (by omega)]
    have y2 : turnValue before lo hi j.n (2 * d + 2 + 2) = lo (d + 1) := by
      unfold turnValue
      rw [show (2 * d + 2 + 2) / 2 = d + 1 + 1 by omega, if_pos (by omega), if_neg (by omega), Nat.add_sub_cancel,
        min_eq_left (by omega)]
    have y3 : turnValue before lo hi j.n (2 * d + 2 + 3) = hi (d + 1) := by
      unfold turnValue
      rw [show (2 * d + 2 + 3) / 2 = d + 1 + 1 by omega, if_neg (by omega), if_neg (by omega), Nat.add_sub_cancel,
        min_eq_left (by omega)]
    set A : ℝ := 1440 * d + rise d + j.shared.tmaxFraction * (set d - rise d) with hA
    set B : ℝ := 1440 * (d + 1) + rise (d + 1) with hB
    have hAB : A < B := by linarith
    have hm : (1440 * k + j.shared.ts * i : ℝ) = A + s * (B - A) - j.shared.ts := by linarith
    have hsw := mul_nonneg h0 (sub_pos.2 hAB).le
    have hsw' := mul_le_mul_of_nonneg_right h1 (sub_pos.2 hAB).le
    have := (s2 k hk i hi').2 (2 * d + 2) (by omega) (by rw [x1]; linarith) (by rw [x2]; linarith)
    rw [curve_flat (by rw [x1, x2]; linarith) (by rw [x0, x1]; linarith) (by rw [x2, x3]; linarith)
      (by rw [y0, y1, y2]; exact mul_nonpos_of_nonneg_of_nonpos (by linarith) (by linarith))
      (by rw [y1, y2, y3]; exact mul_nonpos_of_nonpos_of_nonneg (by linarith) (by linarith)), x1, x2, y1, y2, hm,
      show (A + s * (B - A) - j.shared.ts - (A - j.shared.ts)) / (B - j.shared.ts - (A - j.shared.ts)) = s by
          rw [div_eq_iff (by intro h; linarith)]; ring] at this
    exact this

end C83

example : (demo .passthrough).Sane ∧ (demo .passthrough).shared.ts < 1440 ∧ (demo .passthrough).shared.utcOffset = false ∧
    0 < (demo .passthrough).shared.tmaxFraction ∧ (demo .passthrough).shared.tmaxFraction ≤ 1 ∧
    (demo .passthrough).Computed [0, 0] ∧ ((demo .passthrough).inp [0, 0]).lat = fin 45 ∧
    (demo .passthrough).shared.outVars.get? "temp" = some "K" ∧
    (∃ a b, Dict.get? ((demo .passthrough).inp [0, 0]).data.frame "t_min" = some a ∧
      Dict.get? ((demo .passthrough).inp [0, 0]).data.frame "t_max" = some b ∧ ∀ k, a k = fin 5 ∧ b k = fin 15) ∧
    ((demo .passthrough).inp [0, 0]).data.stateEnd = (fin 4, fin 14) ∧
    ∃ order files, (demo .passthrough).Schedule order ∧ (demo .passthrough).run 0 order = .ok files :=
  ⟨demo_sane _, by unfold demo; decide, rfl, by unfold demo; norm_num, by unfold demo; norm_num, ⟨by decide, 1, rfl, one_pos⟩,
    rfl, rfl, ⟨_, _, rfl, rfl, fun _ => ⟨rfl, rfl⟩⟩, rfl, demo_runs⟩

end Verif.Props
