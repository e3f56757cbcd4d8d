import Verif.Props.DailyFiles
import Verif.Props.Diurnal

/-!
# The humidity estimated for a day: C84
-/

namespace Verif.Props

open Flt Physics Methods Cell Np

/-- The rounds of the iteration, from the first to the last. -/
theorem iterate_seq {n : Nat} {d : Methods.Daily} {p : MParams} : ∀ {fuel : Nat} {old new r : Col},
    iterate n d p fuel old new = .ok (some r) → nextTdew d p old = .ok new →
    ∃ (N : Nat) (s : Nat → Col), s 0 = old ∧ (∀ k ≤ N, nextTdew d p (s k) = .ok (s (k + 1))) ∧ r = s (N + 1) ∧
      moved n (s (N + 1)) (s N) p.tdewTol = false ∧ ∀ k < N, moved n (s (k + 1)) (s k) p.tdewTol = true
  | 0, old, new, r, h, h0 => by
    unfold iterate at h
    cases hm : moved n new old p.tdewTol
    · rw [hm] at h
      simp only [Bool.false_eq_true, if_false, Except.ok.injEq, Option.some.injEq] at h
      subst h
      exact ⟨0, fun k => if k = 0 then old else new, rfl, fun k hk => by obtain rfl : k = 0 := by omega
                                                                         exact h0, rfl, hm, fun k hk => by omega⟩
    · rw [hm] at h; simp at h
  | fuel + 1, old, new, r, h, h0 => by
    unfold iterate at h
    cases hm : moved n new old p.tdewTol
    · rw [hm] at h
      simp only [Bool.false_eq_true, if_false, Except.ok.injEq, Option.some.injEq] at h
      subst h
      exact ⟨0, fun k => if k = 0 then old else new, rfl, fun k hk => by obtain rfl : k = 0 := by omega
                                                                         exact h0, rfl, hm, fun k hk => by omega⟩
    · rw [hm] at h
      simp only [if_true, bind_ok] at h
      obtain ⟨nx, h1, h2⟩ := h
      obtain ⟨N, s, e0, e1, e2, e3, e4⟩ := iterate_seq h2 h1
      refine ⟨N + 1, fun k => Nat.casesOn k old s, rfl, ?_, e2, e3, ?_⟩
      · intro k hk
        cases k with
        | zero => show nextTdew d p old = .ok (s 0); rw [e0]; exact h0
        | succ k => exact e1 k (by omega)
      · intro k hk
        cases k with
        | zero => show moved n (s 0) old _ = true; rw [e0]; exact hm
        | succ k => exact e4 k (by omega)

/-- The columns of the estimating method, with the rounds that led to them. -/
theorem mtclimRun_seq {n fuel : Nat} {df : Frame} {p : MParams} {out : Frame}
    (h : mtclimRun n fuel df p = .ok (some out)) {tMin tMax dtr sm prec tt pot dl sp : Col}
    (g1 : Dict.get? df "t_min" = some tMin) (g2 : Dict.get? df "t_max" = some tMax)
    (g3 : Dict.get? df "dtr" = some dtr) (g4 : Dict.get? df "smoothed_dtr" = some sm)
    (g5 : Dict.get? df "prec" = some prec) (g6 : Dict.get? df "tt_max" = some tt)
    (g7 : Dict.get? df "potrad" = some pot) (g8 : Dict.get? df "daylength" = some dl)
    (g9 : Dict.get? df "seasonal_prec" = some sp) :
    ∃ (N : Nat) (s : Nat → Col), s 0 = tMin ∧ (∀ k ≤ N,
      nextTdew { tMin := tMin, dtr := dtr, tfmax := fun i => tfmax (dtr i) (sm i) (prec i) p,
                 tDay := fun i => tDay (tMin i) (tMax i) p, ttMax := tt, potrad := pot,
                 daylength := dl, seasonal := sp } p (s k) = .ok (s (k + 1))) ∧
      moved n (s (N + 1)) (s N) p.tdewTol = false ∧ (∀ k < N, moved n (s (k + 1)) (s k) p.tdewTol = true) ∧
      Dict.get? out "vapor_pressure" = some (fun i => vaporPressure (s (N + 1) i)) := by
  unfold mtclimRun at h
  simp (decide := true) only [bind_ok, Dict.get_ok, Dict.get?_set, if_true, if_false, g1, g2, g3, g4, g5, g6, g7, g8, g9,
    Option.some.injEq, exists_eq_left'] at h
  obtain ⟨first, h1, res, h2, h⟩ := h
  cases res with
  | none => simp [pure, Except.pure] at h
  | some dew =>
    simp only [bind_ok, Dict.get_ok, Dict.get?_set_self, Option.some.injEq, exists_eq_left', pure_ok] at h
    obtain ⟨e, he, h⟩ := h
    obtain rfl := h
    obtain ⟨N, s, a1, a2, a3, a4, a5⟩ := iterate_seq h2 h1
    subst a3
    refine ⟨N, s, a1, a2, a4, a5, ?_⟩
    simp (decide := true) only [Dict.get?_set, if_true, if_false]

/-- Root of the mean square of the differences over `n` days. -/
noncomputable def rms (n : Nat) (a b : ℕ → ℝ) : ℝ := Real.sqrt (((List.range n).map fun i => (a i - b i) ^ 2).sum / n)

theorem moved_rms {n : Nat} (hn : 0 < n) {a b : Col} {x y : ℕ → ℝ} {tol : ℝ} (ha : ∀ i < n, a i = fin (x i))
    (hb : ∀ i < n, b i = fin (y i)) : moved n a b tol = decide (tol < rms n x y) := by
  have e : (List.range n).map (fun i => (a i - b i) * (a i - b i)) =
      ((List.range n).map fun i => (x i - y i) ^ 2).map fin := by
    rw [List.map_map]
    refine List.map_congr_left fun i hi => ?_
    rw [ha i (List.mem_range.1 hi), hb i (List.mem_range.1 hi)]
    simp only [sub_fin, mul_fin, Function.comp_apply, Flt.fin.injEq]
    ring
  have h0 : 0 ≤ ((List.range n).map fun i => (x i - y i) ^ 2).sum := List.sum_nonneg (by
    intro z hz
    obtain ⟨i, -, rfl⟩ := List.mem_map.1 hz
    exact sq_nonneg _)
  have hn' : (0 : ℝ) < n := by exact_mod_cast hn
  unfold moved mean rms
  rw [e, sum_map_fin, List.length_map, List.length_map, List.length_range, div_fin_ne hn'.ne',
    sqrt_fin (div_nonneg h0 hn'.le), lt_fin]

/-- What the estimates of a day start from: extremes and range of temperature, the mean range, the rain, and the rain of the
season. -/
structure DayRecord where
  (tmin tmax range mean rain season : ℝ)

/-- The columns of the frame hold the record. -/
structure HoldsRecord (n : Nat) (df : Frame) (rec : ℕ → DayRecord) : Prop where
  tmin : ∃ col, Dict.get? df "t_min" = some col ∧ ∀ i < n, col i = fin (rec i).tmin
  tmax : ∃ col, Dict.get? df "t_max" = some col ∧ ∀ i < n, col i = fin (rec i).tmax
  range : ∃ col, Dict.get? df "dtr" = some col ∧ ∀ i < n, col i = fin (rec i).range
  mean : ∃ col, Dict.get? df "smoothed_dtr" = some col ∧ ∀ i < n, col i = fin (rec i).mean
  rain : ∃ col, Dict.get? df "prec" = some col ∧ ∀ i < n, col i = fin (rec i).rain
  season : ∃ col, Dict.get? df "seasonal_prec" = some col ∧ ∀ i < n, col i = fin (rec i).season

/-- Extremes between -60 and 60 degrees, a range that is not negative and below 200 K. -/
structure DayRecord.Likely (r : DayRecord) : Prop where
  tmin : -60 ≤ r.tmin ∧ r.tmin ≤ 60
  tmax : -60 ≤ r.tmax ∧ r.tmax ≤ 60
  range : 0 ≤ r.range ∧ r.range ≤ 200

/-- Daylight temperature of the day. -/
noncomputable def DayRecord.daylight (r : DayRecord) (s : Shared) : ℝ :=
  (r.tmin + r.tmax) / 2 + s.tdayCoef * (r.tmax - (r.tmin + r.tmax) / 2)

/-- Radiation of a day with dewpoint `x`: potential radiation through a clear sky with the vapour of saturation at `x`, times
the transmittance of the day. -/
noncomputable def DayRecord.radiation (r : DayRecord) (s : Shared) (g : Solar.DayGeom) (tt x : ℝ) : ℝ :=
  g.potrad * max (tt - 6.1e-5 * Spec.saturation x) 0.0001 * skyOf s r.range r.mean r.rain

/-- Kimball's dewpoint of the day, with the evaporation of the radiation of a day with dewpoint `x`. -/
noncomputable def DayRecord.dewpoint (r : DayRecord) (s : Shared) (elev : ℝ) (g : Solar.DayGeom) (tt x : ℝ) : ℝ :=
  Spec.kimball r.tmin (Spec.evaporation (r.radiation s g tt x) (r.daylight s) g.daylength (Spec.barometric elev s.lapseRate) /
    max 80 r.season) r.range

theorem settled {fuel n : Nat} {s : Shared} {elev lat lon : ℝ} {d : Data} (q : Common fuel s elev lat lon d)
    (hn : d.days.length = n) (hn0 : 0 < n) (hm : s.method = .mtclim) (hs : SaneParams s) (hl : 0 < s.lapseRate)
    (hle : s.lapseRate * elev < 288.15) (hlat : |lat| ≤ 90) {rec : ℕ → DayRecord} (hr : HoldsRecord n d.frame rec)
    (hp : ∀ i < n, (rec i).Likely) {geom : List Solar.DayGeom} (hg : Solar.solarGeom elev lat s.lapseRate = .ok geom)
    {g : ℕ → Solar.DayGeom} {tt : ℕ → ℝ}
    (hgi : ∀ i < n, ∃ day, d.days[i]? = some day ∧ geom[doy day - 1]? = some (g i) ∧ (g i).ttMax = fin (tt i)) :
    ∃ N col, Dict.get? q.base "vapor_pressure" = some col ∧
      (∀ i < n, col i = fin (Spec.saturation (((rec i).dewpoint s elev (g i) (tt i))^[N + 1] (rec i).tmin))) ∧
      (∀ m, ∀ i < n, -115 ≤ ((rec i).dewpoint s elev (g i) (tt i))^[m] (rec i).tmin) ∧
      rms n (fun i => ((rec i).dewpoint s elev (g i) (tt i))^[N + 1] (rec i).tmin)
        (fun i => ((rec i).dewpoint s elev (g i) (tt i))^[N] (rec i).tmin) ≤ s.tdewTol ∧
      ∀ m < N, s.tdewTol < rms n (fun i => ((rec i).dewpoint s elev (g i) (tt i))^[m + 1] (rec i).tmin)
        (fun i => ((rec i).dewpoint s elev (g i) (tt i))^[m] (rec i).tmin) := by
  have hrun : mtclimRun n fuel (withGeom q.rows d.frame) (s.daily elev) = .ok (some q.base) := by
    have h := q.h_base
    rw [hn, hm] at h
    unfold runMethod at h
    simp only [bind_ok] at h
    obtain ⟨r, h1, h2⟩ := h
    cases r with
    | none => cases h2
    | some b =>
      have : b = q.base := Except.ok.inj h2
      rw [h1, this]
  obtain ⟨tMin, g1, e1⟩ := hr.tmin
  obtain ⟨tMax, g2, e2⟩ := hr.tmax
  obtain ⟨dtr, g3, e3⟩ := hr.range
  obtain ⟨sm, g4, e4⟩ := hr.mean
  obtain ⟨prec, g5, e5⟩ := hr.rain
  obtain ⟨sp, g9, e9⟩ := hr.season
  obtain ⟨N, σ, s0, s1, s2, s3, v1⟩ := mtclimRun_seq hrun
    (tMin := tMin) (tMax := tMax) (dtr := dtr) (sm := sm) (prec := prec) (tt := colOf (q.rows.map (·.ttMax)))
    (pot := colOf (q.rows.map fun g => fin g.potrad)) (dl := colOf (q.rows.map fun g => fin g.daylength)) (sp := sp)
    (by rw [withGeom_keeps _ _ (by decide), g1]) (by rw [withGeom_keeps _ _ (by decide), g2])
    (by rw [withGeom_keeps _ _ (by decide), g3]) (by rw [withGeom_keeps _ _ (by decide), g4])
    (by rw [withGeom_keeps _ _ (by decide), g5])
    (by unfold withGeom; simp (decide := true) only [Dict.get?_set, if_true, if_false])
    (by unfold withGeom; simp (decide := true) only [Dict.get?_set, if_true, if_false])
    (by unfold withGeom; simp (decide := true) only [Dict.get?_set, if_true, if_false])
    (by rw [withGeom_keeps _ _ (by decide), g9])
  obtain ⟨pa, hpa, hpa0⟩ : ∃ pa, atmPres (fin elev) s.lapseRate = .ok (fin pa) ∧ 0 < pa := by
    obtain ⟨pa, h1, h2, -⟩ := C40_atm_pres elev s.lapseRate hl hle
    exact ⟨pa, h1, h2⟩
  have hround : ∀ i < n, ∀ (old new : Col) (x : ℝ), old i = fin x → -115 ≤ x →
      nextTdew { tMin := tMin, dtr := dtr, tfmax := fun i => tfmax (dtr i) (sm i) (prec i) (s.daily elev),
                 tDay := fun i => tDay (tMin i) (tMax i) (s.daily elev), ttMax := colOf (q.rows.map (·.ttMax)),
                 potrad := colOf (q.rows.map fun g => fin g.potrad),
                 daylength := colOf (q.rows.map fun g => fin g.daylength), seasonal := sp } (s.daily elev) old = .ok new →
      new i = fin ((rec i).dewpoint s elev (g i) (tt i) x) ∧ -115 ≤ (rec i).dewpoint s elev (g i) (tt i) x := by
    intro i hi old new x hx hx0 h
    obtain ⟨day, w1, w2, w3⟩ := hgi i hi
    have r1 := row_of q hg w1 w2 (fun g => g.ttMax)
    have r2 := row_of q hg w1 w2 (fun g => fin g.potrad)
    have r3 := row_of q hg w1 w2 (fun g => fin g.daylength)
    rw [w3] at r1
    have hne : (237.3 : ℝ) + x ≠ 0 := by
      have : (0 : ℝ) < 237.3 + x := by linarith
      exact this.ne'
    have hmem := List.mem_of_getElem? w2
    obtain ⟨-, hb⟩ := C45_bounds_partial elev lat s.lapseRate hl hle geom hg
    obtain ⟨o1, -, o3, tt', o4, -, o5⟩ := hb _ hmem
    rw [w3] at o4
    obtain rfl := Flt.fin.inj o4
    have o6 : (g i).potrad * (g i).daylength ≤ 6.15e7 := by
      obtain ⟨tr, -, -, h2⟩ := solarGeom_ok hg
      obtain ⟨i', -, hi'⟩ := h2 _ hmem
      exact Solar.potrad_le (latRad_lt hlat) hi'
    obtain ⟨f, hf, f0, f1, -⟩ := tfmax_bounds (s.daily elev) (rec i).range (rec i).mean (rec i).rain (hp i hi).range.1
      hs.rain.1 hs.rain.2
    have hf' := hf
    rw [tfmax_sky s elev (hp i hi).range.1] at hf'
    have hta := tDay_within (p := s.daily elev) hs.coef.1 hs.coef.2 (a := fin (rec i).tmin) (b := fin (rec i).tmax)
      (fun r h => by rw [← Flt.fin.inj h]; exact (hp i hi).tmin) (fun r h => by rw [← Flt.fin.inj h]; exact (hp i hi).tmax)
      _ (C36_value _ _ _)
    replace hta : -60 ≤ (rec i).daylight s ∧ (rec i).daylight s ≤ 60 := hta
    obtain ⟨A, B, ρ, k1, k2⟩ := round_fin hpa0 (sp := (rec i).season) (hp i hi).tmin.1 (hp i hi).tmin.2 (hp i hi).range.1
      (hp i hi).range.2 f0 f1.le hta.1 hta.2 o5.le o3 o1 o6
    have k3 := k2 x hx0
    have h' := h
    unfold nextTdew at h
    simp only [bind_ok, pure_ok] at h
    obtain ⟨ev, hev, rfl⟩ := h
    obtain ⟨out, z1, z2⟩ := C40_pet_value (s.daily elev) elev rfl hl hle
      (fun i => shortwave (tfmax (dtr i) (sm i) (prec i) (s.daily elev)) (vaporPressure (old i)) (colOf (q.rows.map (·.ttMax)) i)
        (colOf (q.rows.map fun g => fin g.potrad) i)) (fun i => tDay (tMin i) (tMax i) (s.daily elev))
      (colOf (q.rows.map fun g => fin g.daylength))
    rw [z1] at hev
    obtain rfl := Except.ok.inj hev
    have z3 := z2 i ((rec i).radiation s (g i) (tt i) x) ((rec i).daylight s) (g i).daylength (by
        show shortwave (tfmax (dtr i) (sm i) (prec i) _) (vaporPressure (old i)) _ _ = _
        rw [hx, r1, r2, e3 i hi, e4 i hi, e5 i hi, tfmax_sky s elev (hp i hi).range.1]
        unfold vaporPressure
        rw [svp_fin hne, C43_value, ← saturation_eq]
        rfl) (by
        show tDay (tMin i) (tMax i) _ = _
        rw [e1 i hi, e2 i hi, C36_value]
        rfl) r3 (by linarith [hta.1]) (by linarith [hta.2])
    have z4 : tdew (out i) (tMin i) (sp i) (dtr i) = fin ((rec i).dewpoint s elev (g i) (tt i) x) := by
      rw [z3, e1 i hi, e9 i hi, e3 i hi, C41_dewpoint_value]
      rfl
    refine ⟨z4, ?_⟩
    obtain ⟨pa', hpa', hev'⟩ := pet_ok z1
    rw [show atmPres (s.daily elev).elev (s.daily elev).lapseRate = .ok (fin pa) from hpa] at hpa'
    obtain rfl := Except.ok.inj hpa'
    have hmm : (Cnst.MM_PER_CM : ℝ) = 10 := by unfold Cnst.MM_PER_CM; norm_num
    have z5 : tdew (out i) (tMin i) (sp i) (dtr i) = fin (roundR A B ρ (tt i) x) := by
      rw [hev' i, ← k3, hmm, e1 i hi, e9 i hi, e3 i hi, e2 i hi, e4 i hi, e5 i hi, hf, hx, r1, r2, r3, C36_value]
      rfl
    rw [z4] at z5
    rw [Flt.fin.inj z5]
    exact (roundR_range k1 x).1
  have hlow : ∀ m, ∀ i < n, -115 ≤ ((rec i).dewpoint s elev (g i) (tt i))^[m] (rec i).tmin := by
    intro m i hi
    induction m with
    | zero => exact (by linarith [(hp i hi).tmin.1] : -115 ≤ (rec i).tmin)
    | succ m ih =>
      rw [Function.iterate_succ_apply']
      obtain ⟨out, z1, -⟩ := C40_pet_value (s.daily elev) elev rfl hl hle
        (fun i => shortwave (tfmax (dtr i) (sm i) (prec i) (s.daily elev))
          (vaporPressure (fin (((rec i).dewpoint s elev (g i) (tt i))^[m] (rec i).tmin))) (colOf (q.rows.map (·.ttMax)) i)
          (colOf (q.rows.map fun g => fin g.potrad) i)) (fun i => tDay (tMin i) (tMax i) (s.daily elev))
        (colOf (q.rows.map fun g => fin g.daylength))
      refine (hround i hi (fun i => fin (((rec i).dewpoint s elev (g i) (tt i))^[m] (rec i).tmin))
        (fun i => tdew (out i) (tMin i) (sp i) (dtr i)) _ rfl ih ?_).2
      unfold nextTdew
      rw [z1]
      rfl
  have hseq : ∀ m ≤ N + 1, ∀ i < n, σ m i = fin (((rec i).dewpoint s elev (g i) (tt i))^[m] (rec i).tmin) := by
    intro m
    induction m with
    | zero => intro _ i hi; rw [s0, e1 i hi]; rfl
    | succ m ih =>
      intro hm' i hi
      rw [Function.iterate_succ_apply']
      exact (hround i hi _ _ _ (ih (by omega) i hi) (hlow m i hi) (s1 m (by omega))).1
  refine ⟨N, _, v1, fun i hi => ?_, hlow, ?_, fun m hm' => ?_⟩
  · show vaporPressure (σ (N + 1) i) = _
    have h0 := hlow (N + 1) i hi
    rw [hseq (N + 1) le_rfl i hi, saturation_eq]
    generalize ((rec i).dewpoint s elev (g i) (tt i))^[N + 1] (rec i).tmin = x at h0
    have hne : (237.3 : ℝ) + x ≠ 0 := by
      have : (0 : ℝ) < 237.3 + x := by linarith
      exact this.ne'
    unfold vaporPressure
    rw [svp_fin hne]
  · rw [moved_rms hn0 (hseq (N + 1) le_rfl) (hseq N (by omega))] at s2
    exact not_lt.1 (of_decide_eq_false s2)
  · have := s3 m hm'
    rw [moved_rms hn0 (hseq (m + 1) (by omega)) (hseq m (by omega))] at this
    exact of_decide_eq_true this

section C84

variable (j : Job) (hj : j.Sane) (fuel : Nat) (order : List (Dict String Chunk.Slice)) (ho : j.Schedule order)
  (files : Run.Files Output) (hrun : j.run fuel order = .ok files) (c : Run.Cell) (hc : j.Computed c)
  (u : String) (hu : j.shared.outVars.get? "vapor_pressure" = some u)

section Daily

variable (hm : j.shared.method = .mtclim) (hs : SaneParams j.shared) (hl : 0 < j.shared.lapseRate)
  (elev lat : ℝ) (p1 : (j.inp c).elev = fin elev) (p2 : (j.inp c).lat = fin lat)
  (hle : j.shared.lapseRate * elev < 288.15) (hlat : |lat| ≤ 90) (rec : ℕ → DayRecord)
  (hr : HoldsRecord j.n (j.inp c).data.frame rec) (hp : ∀ i < j.n, (rec i).Likely)
  (geom : List Solar.DayGeom) (hg : Solar.solarGeom elev lat j.shared.lapseRate = .ok geom) (g : ℕ → Solar.DayGeom) (tt : ℕ → ℝ)
  (hgi : ∀ i < j.n, geom[doy (j.d0 + i) - 1]? = some (g i) ∧ (g i).ttMax = fin (tt i))

include hj ho hrun hc hu hm hs hl p1 p2 hle hlat hr hp hg hgi

/-- **C84**: the vapour pressure a daily run writes is saturation at the dewpoint reached from the minimum temperature by
repeating Kimball's estimate until, for the first time, the days moved by no more than the tolerance in the mean square. -/
theorem C84_daily (hday : j.shared.ts = 1440) : ∃ N,
    (∀ k < j.n, Reads j files c "vapor_pressure" k 0
      (Spec.saturation (((rec k).dewpoint j.shared elev (g k) (tt k))^[N + 1] (rec k).tmin))) ∧
    rms j.n (fun i => ((rec i).dewpoint j.shared elev (g i) (tt i))^[N + 1] (rec i).tmin)
      (fun i => ((rec i).dewpoint j.shared elev (g i) (tt i))^[N] (rec i).tmin) ≤ j.shared.tdewTol ∧
    ∀ m < N, j.shared.tdewTol < rms j.n (fun i => ((rec i).dewpoint j.shared elev (g i) (tt i))^[m + 1] (rec i).tmin)
      (fun i => ((rec i).dewpoint j.shared elev (g i) (tt i))^[m] (rec i).tmin) := by
  obtain ⟨elev', lat', lon, q1, q2, -, q, rep, hrep, hread⟩ := readout_daily j hj ho hrun hday hc
  rw [p1] at q1
  rw [p2] at q2
  obtain rfl := Flt.fin.inj q1
  obtain rfl := Flt.fin.inj q2
  obtain ⟨N, col, v1, v2, -, v3, v4⟩ := settled q (by rw [hj.data c, length_consecutive]) hj.pos hm hs hl hle hlat hr hp hg
    (g := g) (tt := tt) (fun i hi => ⟨_, by rw [hj.data c]; simp [consecutive, hi], hgi i hi⟩)
  refine ⟨N, fun k hk => ?_, v3, v4⟩
  obtain ⟨sw, dl, rr, -, -, -, -, hkeep⟩ := daily_ok hrep
  obtain ⟨col', a1, a2⟩ := hread "vapor_pressure" u "Pa" .pressure hu (by decide) rfl (by simp)
  rw [hkeep _ (by decide), v1] at a1
  refine (a2 k hk).1 _ _ ?_ rfl
  rw [← Option.some.inj a1]
  exact v2 k hk

end Daily

section Steps

variable (hsub : j.shared.ts < 1440) (hutc : j.shared.utcOffset = false) (hs : Sound j.shared j.n (j.inp c)) (hn : 2 ≤ j.n)
  (lat : ℝ) (hlat : (j.inp c).lat = fin lat)

include hj ho hrun hc hu hsub hutc hs hn hlat

/-- Vapour pressure within the day, from the daily values. -/
theorem vapour_within (e : ℕ → ℝ)
    (he : ∀ elev lat lon (q : Common fuel j.shared elev lat lon (j.inp c).data), (j.inp c).elev = fin elev →
      (j.inp c).lat = fin lat → ∃ col, Dict.get? q.base "vapor_pressure" = some col ∧ ∀ k < j.n, col k = fin (e k)) :
    ∃ rise set : ℕ → ℝ, SunTimes lat j.d0 j.n j.shared.tmaxFraction rise set ∧
      (∀ k < j.n, ∀ i < 1440 / j.shared.ts, ∀ d, d + 1 < j.n → ∀ w : ℝ, 0 ≤ w → w ≤ 1 →
        (1440 * k + j.shared.ts * (i + 1) : ℝ) = (1 - w) * (1440 * d + rise d) + w * (1440 * (d + 1) + rise (d + 1)) →
        ∀ T, Reads j files c "temp" k i T → Reads j files c "vapor_pressure" k i
          (min ((1 - w) * e d + w * e (d + 1)) (Spec.saturation (T - 273.15)) / 1000)) ∧
      (∀ i i', i < i' → i' < 1440 / j.shared.ts → j.shared.ts * i' < rise 0 → rise 0 ≤ j.shared.ts * (i' + 1) → ∀ v,
        Reads j files c "vapor_pressure" 0 i' v → Reads j files c "vapor_pressure" 0 i v) ∧
      (∀ k < j.n, ∀ i < 1440 / j.shared.ts, 1440 * (j.n - 1) + rise (j.n - 1) < 1440 * k + j.shared.ts * (i + 1) →
        ∀ k' < j.n, ∀ i' < 1440 / j.shared.ts, 1440 * k' + j.shared.ts * (i' + 1) ≤ 1440 * (j.n - 1) + rise (j.n - 1) →
        1440 * (j.n - 1) + rise (j.n - 1) < 1440 * k' + j.shared.ts * (i' + 1 + 1) → ∀ v,
        Reads j files c "vapor_pressure" k' i' v → Reads j files c "vapor_pressure" k i v) := by
  obtain ⟨elev, lat0, lon, e1, e2, e3, q, daily, t, hd, ld, hnd, hread⟩ := readout j hj ho hrun hsub hc
  rw [hlat] at e2
  obtain rfl := Flt.fin.inj e2
  have hlen : (j.inp c).data.days.length = j.n := by rw [hj.data c, length_consecutive]
  have h90 := hs.lat lat hlat
  have hf : 0 < j.shared.tmaxFraction := lt_of_lt_of_le (by norm_num) hs.fraction.1
  have hus := usable_of q hd t hj.step.2 (by rw [hlen]; exact hj.pos) (by rw [hlen]; exact hs.record) ⟨hf, hs.fraction.2⟩ hs.storm
  have hTs := temp_sound hs hlat e3 q hlen hd t hus
  obtain ⟨w1, -, -, -, -, g6, -⟩ := dailyOf_ok hd
  obtain ⟨col, hcol, hce⟩ := he elev lat lon q e1 hlat
  obtain ⟨c1, hc1, w2⟩ := Cell.column_ok.1 g6
  rw [hcol] at hc1
  obtain rfl := Option.some.inj hc1
  have hvp : ∀ k < j.n, daily.vaporPressure[k]? = some (fin (e k)) := by
    intro k hk
    rw [w2, hlen, List.getElem?_map, List.getElem?_range hk, Option.map_some, hce k hk]
  have htimes := t.h_times
  rw [w1, List.map_map, hj.data c, consecutive, List.map_map] at htimes
  obtain ⟨rise, set, s1, s2, s3⟩ := sun_times (p := hours (j.shared.sub elev lon)) h90 q.h_geom hutc hf hs.fraction.2 j.d0 j.n
    htimes
  replace s3 : ∀ k < j.n, t.times[k]? = some (1440 * k + rise k - j.shared.ts,
    1440 * k + (rise k + j.shared.tmaxFraction * (set k - rise k)) - j.shared.ts) := s3
  have hmulZ := hj.step.mulZ
  have hm : ((1440 / j.shared.ts : Nat) : ℝ) * j.shared.ts = 1440 := by exact_mod_cast hmulZ
  have hpos : ∀ k i : Nat, (j.shared.ts : ℝ) * ((k * (1440 / j.shared.ts) + i : Nat) : ℝ) = 1440 * k + j.shared.ts * i := by
    intro k i
    clear hread hnd htimes hmulZ
    generalize 1440 / j.shared.ts = m at *
    push_cast
    linear_combination (k : ℝ) * hm
  have hts720 : (j.shared.ts : ℝ) ≤ 720 := by
    obtain ⟨m, hm⟩ := hj.step.2
    have : 2 ≤ m := by
      by_contra h
      have : m ≤ 1 := by omega
      interval_cases m <;> omega
    have : j.shared.ts ≤ 720 := by nlinarith
    exact_mod_cast this
  obtain ⟨-, l2, l3, -⟩ := vaporPressure_ok t.h_vp
  rw [List.length_map] at l2
  replace l2 : t.temp.length = j.n * (1440 / j.shared.ts) := l2.trans hnd
  replace l3 : t.vp.length = j.n * (1440 / j.shared.ts) := l3.trans hnd
  have hidx : ∀ k < j.n, ∀ i < 1440 / j.shared.ts, k * (1440 / j.shared.ts) + i < j.n * (1440 / j.shared.ts) := by
    intro k hk i hi
    have : (k + 1) * (1440 / j.shared.ts) ≤ j.n * (1440 / j.shared.ts) := Nat.mul_le_mul_right _ hk
    rw [Nat.add_mul, Nat.one_mul] at this
    omega
  have hn1 : ((j.n - 1 : ℕ) : ℝ) = (j.n : ℝ) - 1 := by rw [Nat.cast_sub (by omega)]; norm_num
  have hn2 : (2 : ℝ) ≤ j.n := by exact_mod_cast hn
  have h0 := s1.morning 0 (by omega)
  have hl0 := (s1.order (j.n - 1) (by omega)).1
  have hseg : ∀ I : ℕ, I < j.n * (1440 / j.shared.ts) → ∀ d, d + 1 < j.n → (1440 * d + rise d : ℝ) ≤ j.shared.ts * I + j.shared.ts →
      (j.shared.ts * I + j.shared.ts : ℝ) ≤ 1440 * (d + 1) + rise (d + 1) → ∃ T, t.temp[I]? = some T ∧ t.vp[I]? = some (fin (min
        (e d + (e (d + 1) - e d) * ((j.shared.ts * I + j.shared.ts - (1440 * d + rise d)) /
          (1440 * (d + 1) + rise (d + 1) - (1440 * d + rise d)))) (svpR T) / 1000)) := by
    intro I hI d hd' x1 x2
    have hT := List.getElem?_eq_getElem (show I < t.temp.length by omega)
    have := vp_between h90 q.h_geom hus t (s3 d (by omega)) (s3 (d + 1) hd') (hvp d (by omega)) (hvp (d + 1) hd')
      (show _ ≤ (j.shared.ts : ℝ) * (I : ℝ) by simp only; linarith)
      (show (j.shared.ts : ℝ) * (I : ℝ) ≤ _ by push_cast; linarith) hT
      (by linarith [(hTs _ (List.getElem_mem (show I < t.temp.length by omega))).1])
    refine ⟨_, hT, ?_⟩
    rw [this]
    congr 5
    push_cast
    show _ * ((j.shared.ts * (I : ℝ) - _) / _) = _
    congr 2 <;> ring
  have hnan : ∀ I : ℕ, I < j.n * (1440 / j.shared.ts) → ((j.shared.ts * I + j.shared.ts : ℝ) < rise 0 ∨
      (1440 * (j.n - 1) + rise (j.n - 1) : ℝ) < j.shared.ts * I + j.shared.ts) → t.vp[I]? = some nan := by
    intro I hI hout
    have hx := List.getElem?_eq_getElem (show I < t.vp.length by omega)
    cases hv : t.vp[I]'(by omega) with
    | nan => rw [hx, hv]
    | fin v =>
      exfalso
      rw [hv] at hx
      obtain ⟨T, -, ⟨k, a, b, f1, f2, f3, f4⟩ | ⟨f1, -⟩⟩ := vp_inside h90 q.h_geom hus t hx
      · have hk : k + 1 < j.n := by
          have := (List.getElem?_eq_some_iff.1 f2).1
          omega
        rw [s3 k (by omega)] at f1
        rw [s3 (k + 1) hk] at f2
        obtain rfl := Option.some.inj f1
        obtain rfl := Option.some.inj f2
        replace f3 : (1440 * k + rise k - j.shared.ts : ℝ) ≤ j.shared.ts * I := f3
        replace f4 : (j.shared.ts * I : ℝ) ≤ 1440 * (k + 1 : ℕ) + rise (k + 1) - j.shared.ts := f4
        rcases hout with hout | hout
        · rcases Nat.eq_zero_or_pos k with rfl | hk0
          · push_cast at f3
            linarith
          · have : (1 : ℝ) ≤ k := by exact_mod_cast hk0
            linarith [(s1.order k (by omega)).1]
        · rcases Nat.lt_or_ge (k + 1) (j.n - 1) with hlt | hge
          · have : ((k + 1 : ℕ) : ℝ) + 1 ≤ (j.n - 1 : ℕ) := by exact_mod_cast hlt
            rw [hn1] at this
            linarith [s1.morning (k + 1) hk]
          · have e' : k + 1 = j.n - 1 := by omega
            rw [e', hn1] at f4
            linarith
      · omega
  have hfin : ∀ I : ℕ, I < j.n * (1440 / j.shared.ts) → (rise 0 : ℝ) ≤ j.shared.ts * I + j.shared.ts →
      (j.shared.ts * I + j.shared.ts : ℝ) ≤ 1440 * (j.n - 1) + rise (j.n - 1) → ∃ v, t.vp[I]? = some (fin v) := by
    intro I hI x1 x2
    have hex : ∀ m : ℕ, 0 < m → (j.shared.ts * I + j.shared.ts : ℝ) ≤ 1440 * m + rise m →
        ∃ d < m, (1440 * d + rise d : ℝ) ≤ j.shared.ts * I + j.shared.ts ∧
          (j.shared.ts * I + j.shared.ts : ℝ) ≤ 1440 * (d + 1) + rise (d + 1) := by
      intro m
      induction m with
      | zero => intro h; omega
      | succ m ih =>
        intro _ hm'
        rcases le_or_gt (1440 * m + rise m : ℝ) (j.shared.ts * I + j.shared.ts) with h | h
        · exact ⟨m, by omega, h, by push_cast at hm'; linarith⟩
        · rcases Nat.eq_zero_or_pos m with rfl | hm0
          · push_cast at h
            linarith
          · obtain ⟨d, y1, y2⟩ := ih hm0 h.le
            exact ⟨d, by omega, y2⟩
    obtain ⟨d, y1, y2, y3⟩ := hex (j.n - 1) (by omega) (by rw [hn1]; exact x2)
    obtain ⟨T, -, hv⟩ := hseg I hI d (by omega) y2 y3
    exact ⟨_, hv⟩
  have hfill := fillBoth_filled t.vp
  obtain ⟨colV, b1, b2⟩ := hread "vapor_pressure" u "Pa" .pressure hu (by decide) rfl (by simp)
  have hV : colV = fillBoth t.vp := by rw [← Except.ok.inj b1]; exact vp_fill t
  subst hV
  have hts0 : (0 : ℝ) ≤ j.shared.ts := Nat.cast_nonneg _
  refine ⟨rise, set, s1, ?_, ?_, ?_⟩
  · intro k hk i hi d hd' w hw0 hw1 hw T hT
    have hT' := hT
    obtain ⟨uT, -, -, -, hT1, -⟩ := hT'
    obtain ⟨colT, a1, a2⟩ := hread "temp" uT "C" .temperature hT1 (by decide) rfl (by simp)
    obtain ⟨x, hx, hxs⟩ := (a2 k hk i hi).2 T hT
    rw [← Except.ok.inj a1] at hx
    replace hx := hx
    have e' : x + 273.15 = T := (Prod.mk.inj (Option.some.inj hxs)).2
    have hy := s1.order d (by omega)
    have hyy := s1.order (d + 1) hd'
    have hmo := s1.morning d (by omega)
    have hD : (0 : ℝ) < 1440 * (d + 1) + rise (d + 1) - (1440 * d + rise d) := by linarith
    have hτ : (j.shared.ts * (k * (1440 / j.shared.ts) + i : ℕ) + j.shared.ts : ℝ) =
        (1440 * d + rise d) + w * (1440 * (d + 1) + rise (d + 1) - (1440 * d + rise d)) := by
      rw [hpos]; linarith
    have hw' := mul_nonneg hw0 hD.le
    have hw'' := mul_le_mul_of_nonneg_right hw1 hD.le
    obtain ⟨T', hT', hv⟩ := hseg _ (hidx k hk i hi) d hd' (by rw [hτ]; linarith) (by rw [hτ]; linarith)
    have hxT : x = T' := by
      have : t.sub.temp[k * (1440 / j.shared.ts) + i]? = some (fin x) := hx
      rw [temp_fill, List.getElem?_map, hT', Option.map_some] at this
      exact (Flt.fin.inj (Option.some.inj this)).symm
    subst hxT
    refine (b2 k hk i hi).1 _ _ (fillBoth_keep hv) ?_
    simp only [Spec.si]
    rw [hτ, add_sub_cancel_left, mul_div_cancel_right₀ _ hD.ne', saturation_eq, ← e', add_sub_cancel_right]
    congr 4
    ring
  · intro i i' hii hi' x1 x2 v hv
    have hb : (j.shared.ts * (i' + 1) : ℝ) ≤ 1440 := by
      rw [← hm, mul_comm]
      refine mul_le_mul_of_nonneg_right ?_ hts0
      exact_mod_cast hi'
    have hi1 : i' < j.n * (1440 / j.shared.ts) := by simpa using hidx 0 (by omega) i' hi'
    obtain ⟨v0, hv0⟩ := hfin i' hi1 (by linarith) (by linarith)
    obtain ⟨x, hx, hxs⟩ := (b2 0 (by omega) i' hi').2 v hv
    rw [Nat.zero_mul, Nat.zero_add, hfill.keep i' v0 hv0] at hx
    obtain rfl := Flt.fin.inj (Option.some.inj hx)
    refine (b2 0 (by omega) i (by omega)).1 v0 v ?_ hxs
    rw [Nat.zero_mul, Nat.zero_add]
    refine hfill.after i i' v0 hii hv0 fun m hm' => hnan m (by omega) (Or.inl ?_)
    have : ((m + 1 : ℕ) : ℝ) ≤ i' := by exact_mod_cast hm'
    have := mul_le_mul_of_nonneg_left this hts0
    push_cast at this
    linarith
  · intro k hk i hi x1 k' hk' i' hi' x2 x3 v hv
    have p1 := hpos k i
    have p2 := hpos k' i'
    have hI := hidx k hk i hi
    have hI' := hidx k' hk' i' hi'
    obtain ⟨v0, hv0⟩ := hfin _ hI' (by rw [p2]; linarith) (by rw [p2]; linarith)
    obtain ⟨x, hx, hxs⟩ := (b2 k' hk' i' hi').2 v hv
    rw [hfill.keep _ v0 hv0] at hx
    obtain rfl := Flt.fin.inj (Option.some.inj hx)
    refine (b2 k hk i hi).1 v0 v ?_ hxs
    refine hfill.before _ _ v0 ?_ (by omega) hv0 fun m hm1 hm2 => hnan m (by omega) (Or.inr ?_)
    · by_contra hcon
      have : ((k * (1440 / j.shared.ts) + i : ℕ) : ℝ) ≤ (k' * (1440 / j.shared.ts) + i' : ℕ) := by
        exact_mod_cast (not_le.1 hcon).le
      have := mul_le_mul_of_nonneg_left this hts0
      rw [p1, p2] at this
      linarith
    · have : ((k' * (1440 / j.shared.ts) + i' + 1 : ℕ) : ℝ) ≤ m := by exact_mod_cast hm1
      rw [Nat.cast_add_one] at this
      have := mul_le_mul_of_nonneg_left this hts0
      rw [mul_add, p2] at this
      linarith

/-- **C85**, passing through: the vapour pressure written lies on the straight line between the daily values, each at the
sunrise of its day, but not above saturation at the temperature written; before the first sunrise it is that of the first
step after it, after the last sunrise that of the last step before it. The number written is a thousandth of that. -/
theorem C85_passthrough (hm : j.shared.method = .passthrough) (col : Col)
    (hcol : Dict.get? (j.inp c).data.frame "vapor_pressure" = some col) (e : ℕ → ℝ) (he : ∀ k < j.n, col k = fin (e k)) :
    ∃ rise set : ℕ → ℝ, SunTimes lat j.d0 j.n j.shared.tmaxFraction rise set ∧
      (∀ k < j.n, ∀ i < 1440 / j.shared.ts, ∀ d, d + 1 < j.n → ∀ w : ℝ, 0 ≤ w → w ≤ 1 →
        (1440 * k + j.shared.ts * (i + 1) : ℝ) = (1 - w) * (1440 * d + rise d) + w * (1440 * (d + 1) + rise (d + 1)) →
        ∀ T, Reads j files c "temp" k i T → Reads j files c "vapor_pressure" k i
          (min ((1 - w) * e d + w * e (d + 1)) (Spec.saturation (T - 273.15)) / 1000)) ∧
      (∀ i i', i < i' → i' < 1440 / j.shared.ts → j.shared.ts * i' < rise 0 → rise 0 ≤ j.shared.ts * (i' + 1) → ∀ v,
        Reads j files c "vapor_pressure" 0 i' v → Reads j files c "vapor_pressure" 0 i v) ∧
      (∀ k < j.n, ∀ i < 1440 / j.shared.ts, 1440 * (j.n - 1) + rise (j.n - 1) < 1440 * k + j.shared.ts * (i + 1) →
        ∀ k' < j.n, ∀ i' < 1440 / j.shared.ts, 1440 * k' + j.shared.ts * (i' + 1) ≤ 1440 * (j.n - 1) + rise (j.n - 1) →
        1440 * (j.n - 1) + rise (j.n - 1) < 1440 * k' + j.shared.ts * (i' + 1 + 1) → ∀ v,
        Reads j files c "vapor_pressure" k' i' v → Reads j files c "vapor_pressure" k i v) := by
  refine vapour_within j hj fuel order ho files hrun c hc u hu hsub hutc hs hn lat hlat e fun elev lat' lon q _ _ => ⟨col, ?_, he⟩
  have hrun' : passthroughRun (withGeom q.rows (j.inp c).data.frame) (j.shared.daily elev) = .ok q.base := by
    have h := q.h_base
    rw [hm] at h
    exact h
  exact ((C42_passthrough_partial _ _).2 _ hrun').1 _ _ (by rw [withGeom_keeps _ _ (by decide), hcol])
    (fun h => absurd h (by decide))

/-- **C85**, estimating: the same with the daily values of C84. -/
theorem C85_mtclim (hm : j.shared.method = .mtclim) (hsp : SaneParams j.shared) (elev : ℝ) (p1 : (j.inp c).elev = fin elev)
    (rec : ℕ → DayRecord) (hr : HoldsRecord j.n (j.inp c).data.frame rec) (hp : ∀ i < j.n, (rec i).Likely)
    (geom : List Solar.DayGeom) (hg : Solar.solarGeom elev lat j.shared.lapseRate = .ok geom) (g : ℕ → Solar.DayGeom) (tt : ℕ → ℝ)
    (hgi : ∀ i < j.n, geom[doy (j.d0 + i) - 1]? = some (g i) ∧ (g i).ttMax = fin (tt i)) :
    ∃ (N : ℕ) (rise set : ℕ → ℝ),
      rms j.n (fun i => ((rec i).dewpoint j.shared elev (g i) (tt i))^[N + 1] (rec i).tmin)
        (fun i => ((rec i).dewpoint j.shared elev (g i) (tt i))^[N] (rec i).tmin) ≤ j.shared.tdewTol ∧
      (∀ m < N, j.shared.tdewTol < rms j.n (fun i => ((rec i).dewpoint j.shared elev (g i) (tt i))^[m + 1] (rec i).tmin)
        (fun i => ((rec i).dewpoint j.shared elev (g i) (tt i))^[m] (rec i).tmin)) ∧
      SunTimes lat j.d0 j.n j.shared.tmaxFraction rise set ∧
      ∀ k < j.n, ∀ i < 1440 / j.shared.ts, ∀ d, d + 1 < j.n → ∀ w : ℝ, 0 ≤ w → w ≤ 1 →
        (1440 * k + j.shared.ts * (i + 1) : ℝ) = (1 - w) * (1440 * d + rise d) + w * (1440 * (d + 1) + rise (d + 1)) →
        ∀ T, Reads j files c "temp" k i T → Reads j files c "vapor_pressure" k i
          (min ((1 - w) * Spec.saturation (((rec d).dewpoint j.shared elev (g d) (tt d))^[N + 1] (rec d).tmin) +
            w * Spec.saturation (((rec (d + 1)).dewpoint j.shared elev (g (d + 1)) (tt (d + 1)))^[N + 1] (rec (d + 1)).tmin))
            (Spec.saturation (T - 273.15)) / 1000) := by
  have key : ∀ lon (q : Common fuel j.shared elev lat lon (j.inp c).data), _ := fun lon q =>
    settled q (by rw [hj.data c, length_consecutive]) hj.pos hm hsp hs.lapse.1 (hs.column elev p1) (hs.lat lat hlat) hr hp hg
      (g := g) (tt := tt) (fun i hi => ⟨_, by rw [hj.data c]; simp [consecutive, hi], hgi i hi⟩)
  obtain ⟨elev', lat', lon, q1, q2, q3, q, -⟩ := readout j hj ho hrun hsub hc
  rw [p1] at q1
  rw [hlat] at q2
  obtain rfl := Flt.fin.inj q1
  obtain rfl := Flt.fin.inj q2
  obtain ⟨N, col, v1, v2, -, v3, v4⟩ := key lon q
  obtain ⟨rise, set, s1, s2, -⟩ := vapour_within j hj fuel order ho files hrun c hc u hu hsub hutc hs hn lat hlat
    (fun i => Spec.saturation (((rec i).dewpoint j.shared elev (g i) (tt i))^[N + 1] (rec i).tmin)) (by
      intro elev' lat' lon' q' h1 h2
      rw [p1] at h1
      rw [hlat] at h2
      obtain rfl := Flt.fin.inj h1
      obtain rfl := Flt.fin.inj h2
      obtain ⟨N', col', v1', v2', -, v3', v4'⟩ := key lon' q'
      obtain rfl : N' = N := by
        rcases Nat.lt_trichotomy N' N with h | h | h
        · linarith [v4 N' h]
        · exact h
        · linarith [v4' N h]
      exact ⟨col', v1', v2'⟩)
  exact ⟨N, rise, set, v3, v4, s1, s2⟩

end Steps

end C84

theorem mild_rows : ∃ (geom : List Solar.DayGeom) (g : ℕ → Solar.DayGeom) (tt : ℕ → ℝ),
    Solar.solarGeom 100 45 0.0065 = .ok geom ∧
    ∀ i < 2, geom[doy ((0 : ℤ) + (i : ℕ)) - 1]? = some (g i) ∧ (g i).ttMax = fin (tt i) := by
  obtain ⟨rows, h1, h2, h3⟩ := C45_midlatitude_partial 100 45 0.0065 (by norm_num) (by norm_num) (by norm_num)
  have : ∀ i : ℕ, ∃ (g : Solar.DayGeom) (t : ℝ), rows[doy ((0 : ℤ) + i) - 1]? = some g ∧ g.ttMax = fin t := by
    intro i
    have hlt : doy ((0 : ℤ) + i) - 1 < rows.length := by
      have := doy_le ((0 : ℤ) + i)
      omega
    obtain ⟨-, -, -, t, ht, -⟩ := h3 _ (List.getElem_mem hlt)
    exact ⟨_, t, List.getElem?_eq_getElem hlt, ht⟩
  choose g tt hg using this
  exact ⟨rows, g, tt, h1, fun i _ => hg i⟩

/-- There are such runs, daily and with two steps a day. -/
example : ∃ (geom : List Solar.DayGeom) (g : ℕ → Solar.DayGeom) (tt : ℕ → ℝ), Solar.solarGeom 100 45 0.0065 = .ok geom ∧
    (∀ i < 2, geom[doy ((0 : ℤ) + (i : ℕ)) - 1]? = some (g i) ∧ (g i).ttMax = fin (tt i)) ∧
    ∀ j ∈ [yearly, demo .mtclim], j.Sane ∧ j.shared.method = .mtclim ∧ SaneParams j.shared ∧ j.shared.lapseRate = 0.0065 ∧
      j.n = 2 ∧ j.d0 = 0 ∧ j.Computed [0, 0] ∧ (j.inp [0, 0]).elev = fin 100 ∧ (j.inp [0, 0]).lat = fin 45 ∧
      HoldsRecord 2 (j.inp [0, 0]).data.frame (fun _ => ⟨5, 15, 10, 10, 24, 800⟩) ∧
      (∃ order fuel files, j.Schedule order ∧ j.run fuel order = .ok files) := by
  obtain ⟨geom, g, tt, h1, h2⟩ := mild_rows
  refine ⟨geom, g, tt, h1, h2, fun j hj => ?_⟩
  simp only [List.mem_cons, List.not_mem_nil, or_false] at hj
  rcases hj with rfl | rfl
  · exact ⟨yearly_sane, rfl, { demo_params with }, rfl, rfl, rfl, ⟨by decide, 1, rfl, one_pos⟩, rfl, rfl,
      ⟨⟨_, rfl, fun _ _ => rfl⟩, ⟨_, rfl, fun _ _ => rfl⟩, ⟨_, rfl, fun _ _ => rfl⟩, ⟨_, rfl, fun _ _ => rfl⟩,
        ⟨_, rfl, fun _ _ => rfl⟩, ⟨_, rfl, fun _ _ => rfl⟩⟩, yearly_runs⟩
  · exact ⟨demo_sane _, rfl, demo_params, rfl, rfl, rfl, ⟨by decide, 1, rfl, one_pos⟩, rfl, rfl,
      ⟨⟨_, rfl, fun _ _ => rfl⟩, ⟨_, rfl, fun _ _ => rfl⟩, ⟨_, rfl, fun _ _ => rfl⟩, ⟨_, rfl, fun _ _ => rfl⟩,
        ⟨_, rfl, fun _ _ => rfl⟩, ⟨_, rfl, fun _ _ => rfl⟩⟩, demo_mtclim_runs⟩

example : (⟨5, 15, 10, 10, 24, 800⟩ : DayRecord).Likely := ⟨by norm_num, by norm_num, by norm_num⟩

example : humid.Sane ∧ humid.shared.ts < 1440 ∧ humid.shared.utcOffset = false ∧ 2 ≤ humid.n ∧ humid.Computed [0, 0] ∧
    Sound humid.shared humid.n (humid.inp [0, 0]) ∧ (∃ col, Dict.get? (humid.inp [0, 0]).data.frame "vapor_pressure" = some col ∧
      ∀ k, col k = fin 600) ∧ ∃ order files, humid.Schedule order ∧ humid.run 0 order = .ok files :=
  ⟨humid_sane, by unfold humid demo; decide, rfl, le_refl 2, ⟨by unfold humid demo; decide, 1, rfl, one_pos⟩, humid_sound _,
    ⟨_, rfl, fun _ => rfl⟩, humid_runs⟩

end Verif.Props
