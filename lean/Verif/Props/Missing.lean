import Verif.Props.Humid
import Verif.Props.Restated

/-!
# A day without data and the humidity of the other days: C150
-/

namespace Verif.Props

open Flt Physics Methods Cell Np

/-- A day on which something the estimate of humidity starts from is missing. -/
def MissingDay (df : Frame) (m : ℕ) : Prop :=
  ∃ v ∈ ["t_min", "t_max", "dtr", "smoothed_dtr", "seasonal_prec"], ∃ col, Dict.get? df v = some col ∧ col m = nan

theorem svp_nan : svp (nan : Flt ℝ) = nan := by simp [svp]

theorem tDay_nan {a b : Flt ℝ} (p : MParams) (h : a = nan ∨ b = nan) : tDay a b p = nan := by
  unfold tDay
  rcases h with rfl | rfl <;> simp

theorem tfmax_nan {a b : Flt ℝ} (c : Flt ℝ) (p : MParams) (h : a = nan ∨ b = nan) : tfmax a b c p = nan := by
  cases hc : tfmax a b c p with
  | nan => rfl
  | fin x =>
    exfalso
    unfold tfmax at hc
    rcases h with rfl | rfl <;> simp at hc

theorem calcPet_nan {a b : Flt ℝ} (c d : Flt ℝ) (h : a = nan ∨ b = nan) : calcPet a b c d = nan := by
  unfold calcPet
  rcases h with rfl | rfl <;> simp

theorem tdew_nan {a b c d : Flt ℝ} (h : a = nan ∨ b = nan ∨ c = nan ∨ d = nan) : tdew a b c d = nan := by
  unfold tdew clampPrec
  rcases h with rfl | rfl | rfl | rfl <;> simp

/-- A round gives a day with missing data no dewpoint. -/
theorem next_nan {d : Methods.Daily} {p : MParams} {old new : Col} {m : ℕ} (h : nextTdew d p old = .ok new)
    (hm : d.tMin m = nan ∨ d.tDay m = nan ∨ d.dtr m = nan ∨ d.tfmax m = nan ∨ d.seasonal m = nan) : new m = nan := by
  unfold nextTdew at h
  simp only [bind_ok, pure_ok] at h
  obtain ⟨e, he, rfl⟩ := h
  obtain ⟨pa, -, hev⟩ := pet_ok he
  refine tdew_nan ?_
  rcases hm with h | h | h | h | h
  · exact Or.inr (Or.inl h)
  · refine Or.inl ?_
    rw [hev m, calcPet_nan _ _ (Or.inr h), nan_mul]
  · exact Or.inr (Or.inr (Or.inr h))
  · refine Or.inl ?_
    have : shortwave (d.tfmax m) (vaporPressure (old m)) (d.ttMax m) (d.potrad m) = nan := by
      unfold shortwave
      rw [h, mul_nan]
    rw [hev m, calcPet_nan _ _ (Or.inl this), nan_mul]
  · exact Or.inr (Or.inr (Or.inl h))

/-- The mean of the squares is missing, and nothing is larger than the tolerance. -/
theorem moved_nan {n m : ℕ} {a b : Col} (tol : ℝ) (hm : m < n) (h : a m = nan) : moved n a b tol = false := by
  have : (nan : Flt ℝ) ∈ (List.range n).map fun i => (a i - b i) * (a i - b i) :=
    List.mem_map.2 ⟨m, List.mem_range.2 hm, by rw [h]; simp⟩
  unfold moved mean
  rw [sum_of_mem_nan _ this]
  simp

section
variable {n fuel : ℕ} {df out : Frame} {p : MParams} {tMin tMax dtr sm prec tt pot dl sp : Col}

theorem mtclimRun_rounds (h : mtclimRun n fuel df p = .ok (some out))
    (g1 : Dict.get? df "t_min" = some tMin) (g2 : Dict.get? df "t_max" = some tMax)
    (g3 : Dict.get? df "dtr" = some dtr) (g4 : Dict.get? df "smoothed_dtr" = some sm)
    (g5 : Dict.get? df "prec" = some prec) (g6 : Dict.get? df "tt_max" = some tt)
    (g7 : Dict.get? df "potrad" = some pot) (g8 : Dict.get? df "daylength" = some dl)
    (g9 : Dict.get? df "seasonal_prec" = some sp) :
    ∃ (N : Nat) (s : Nat → Col), s 0 = tMin ∧ (∀ k ≤ N,
      nextTdew { tMin := tMin, dtr := dtr, tfmax := fun i => tfmax (dtr i) (sm i) (prec i) p,
                 tDay := fun i => tDay (tMin i) (tMax i) p, ttMax := tt, potrad := pot,
                 daylength := dl, seasonal := sp } p (s k) = .ok (s (k + 1))) ∧
      moved n (s (N + 1)) (s N) p.tdewTol = false ∧ (∀ k < N, moved n (s (k + 1)) (s k) p.tdewTol = true) ∧
      Dict.get? out "tdew" = some (s (N + 1)) ∧ Dict.get? out "vapor_pressure" = some (fun i => vaporPressure (s (N + 1) i)) := by
  unfold mtclimRun at h
  simp (decide := true) only [bind_ok, Dict.get_ok, Dict.get?_set, if_true, if_false, g1, g2, g3, g4, g5, g6, g7, g8, g9,
    Option.some.injEq, exists_eq_left'] at h
  obtain ⟨first, h1, res, h2, h⟩ := h
  cases res with
  | none => simp [pure, Except.pure] at h
  | some dew =>
    simp only [bind_ok, Dict.get_ok, Dict.get?_set_self, Option.some.injEq, exists_eq_left', pure_ok] at h
    obtain ⟨e, he, h⟩ := h
    obtain rfl := h
    obtain ⟨N, s, a1, a2, a3, a4, a5⟩ := iterate_seq h2 h1
    subst a3
    refine ⟨N, s, a1, a2, a4, a5, ?_, ?_⟩
    · simp (decide := true) only [Dict.get?_set, if_true, if_false]
    · simp (decide := true) only [Dict.get?_set, if_true, if_false]

/-- **C150**: if anything the estimate starts from is missing on one day, the dewpoint of every day is the first estimate, made with the
minimum temperature for the dewpoint, whatever the tolerance. -/
theorem C150_first_partial (h : mtclimRun n fuel df p = .ok (some out))
    (g1 : Dict.get? df "t_min" = some tMin) (g2 : Dict.get? df "t_max" = some tMax)
    (g3 : Dict.get? df "dtr" = some dtr) (g4 : Dict.get? df "smoothed_dtr" = some sm)
    (g5 : Dict.get? df "prec" = some prec) (g6 : Dict.get? df "tt_max" = some tt)
    (g7 : Dict.get? df "potrad" = some pot) (g8 : Dict.get? df "daylength" = some dl)
    (g9 : Dict.get? df "seasonal_prec" = some sp) {m : ℕ} (hm : m < n) (hmiss : MissingDay df m) :
    ∃ dew, nextTdew { tMin := tMin, dtr := dtr, tfmax := fun i => tfmax (dtr i) (sm i) (prec i) p,
                      tDay := fun i => tDay (tMin i) (tMax i) p, ttMax := tt, potrad := pot,
                      daylength := dl, seasonal := sp } p tMin = .ok dew ∧
      dew m = nan ∧ Dict.get? out "tdew" = some dew ∧ Dict.get? out "vapor_pressure" = some (fun i => vaporPressure (dew i)) := by
  obtain ⟨N, s, e0, e1, -, e3, e4, e5⟩ := mtclimRun_rounds h g1 g2 g3 g4 g5 g6 g7 g8 g9
  have hnan : s 1 m = nan := by
    refine next_nan (e1 0 (Nat.zero_le _)) ?_
    obtain ⟨v, hv, col, hc, hcm⟩ := hmiss
    simp only [List.mem_cons, List.not_mem_nil, or_false] at hv
    rcases hv with rfl | rfl | rfl | rfl | rfl
    · obtain rfl := Option.some.inj (g1.symm.trans hc)
      exact Or.inl hcm
    · obtain rfl := Option.some.inj (g2.symm.trans hc)
      exact Or.inr (Or.inl (tDay_nan _ (Or.inr hcm)))
    · obtain rfl := Option.some.inj (g3.symm.trans hc)
      exact Or.inr (Or.inr (Or.inl hcm))
    · obtain rfl := Option.some.inj (g4.symm.trans hc)
      exact Or.inr (Or.inr (Or.inr (Or.inl (tfmax_nan _ _ (Or.inr hcm)))))
    · obtain rfl := Option.some.inj (g9.symm.trans hc)
      exact Or.inr (Or.inr (Or.inr (Or.inr hcm)))
  obtain rfl : N = 0 := by
    by_contra hN
    have := e3 0 (Nat.pos_of_ne_zero hN)
    rw [moved_nan _ hm hnan] at this
    cases this
  refine ⟨s 1, ?_, hnan, e4, e5⟩
  have := e1 0 le_rfl
  rwa [e0] at this

end

/-- One round, for one day whose data are there. -/
theorem dewpoint_round {s : Shared} {elev : ℝ} (hs : SaneParams s) (hl : 0 < s.lapseRate) (hle : s.lapseRate * elev < 288.15)
    {r : DayRecord} (hp : r.Likely) {g : Solar.DayGeom} {tt : ℝ} {d : Methods.Daily} {i : ℕ} (e1 : d.tMin i = fin r.tmin)
    (e2 : d.dtr i = fin r.range) (e3 : d.tfmax i = fin (skyOf s r.range r.mean r.rain)) (e4 : d.tDay i = fin (r.daylight s))
    (e5 : d.ttMax i = fin tt) (e6 : d.potrad i = fin g.potrad) (e7 : d.daylength i = fin g.daylength)
    (e8 : d.seasonal i = fin r.season) {old new : Col} {x : ℝ} (hx : old i = fin x) (hx0 : -115 ≤ x)
    (h : nextTdew d (s.daily elev) old = .ok new) : new i = fin (r.dewpoint s elev g tt x) := by
  have hne : (237.3 : ℝ) + x ≠ 0 := by
    have : (0 : ℝ) < 237.3 + x := by linarith
    exact this.ne'
  have hta := tDay_within (p := s.daily elev) hs.coef.1 hs.coef.2 (a := fin r.tmin) (b := fin r.tmax)
    (fun r h => by rw [← Flt.fin.inj h]; exact hp.tmin) (fun r h => by rw [← Flt.fin.inj h]; exact hp.tmax)
    _ (C36_value _ _ _)
  replace hta : -60 ≤ r.daylight s ∧ r.daylight s ≤ 60 := hta
  unfold nextTdew at h
  simp only [bind_ok, pure_ok] at h
  obtain ⟨ev, hev, rfl⟩ := h
  obtain ⟨out, z1, z2⟩ := C40_pet_value (s.daily elev) elev rfl hl hle
    (fun i => shortwave (d.tfmax i) (vaporPressure (old i)) (d.ttMax i) (d.potrad i)) d.tDay d.daylength
  rw [z1] at hev
  obtain rfl := Except.ok.inj hev
  have z3 := z2 i (r.radiation s g tt x) (r.daylight s) g.daylength (by
      show shortwave (d.tfmax i) (vaporPressure (old i)) _ _ = _
      rw [hx, e3, e5, e6]
      unfold vaporPressure
      rw [svp_fin hne, C43_value, ← saturation_eq]
      rfl) e4 e7 (by linarith [hta.1]) (by linarith [hta.2])
  show tdew (out i) (d.tMin i) (d.seasonal i) (d.dtr i) = _
  rw [z3, e1, e2, e8, C41_dewpoint_value]
  rfl

/-- The frame has the record of the day. -/
structure HoldsDay (df : Frame) (k : ℕ) (r : DayRecord) : Prop where
  tmin : ∃ col, Dict.get? df "t_min" = some col ∧ col k = fin r.tmin
  tmax : ∃ col, Dict.get? df "t_max" = some col ∧ col k = fin r.tmax
  range : ∃ col, Dict.get? df "dtr" = some col ∧ col k = fin r.range
  mean : ∃ col, Dict.get? df "smoothed_dtr" = some col ∧ col k = fin r.mean
  rain : ∃ col, Dict.get? df "prec" = some col ∧ col k = fin r.rain
  season : ∃ col, Dict.get? df "seasonal_prec" = some col ∧ col k = fin r.season

/-- What a daily run that estimates the humidity has of one day of a cell; nothing is said about the other days. -/
structure EstimatesDay (j : Job) (c : Run.Cell) (elev lat : ℝ) (k : ℕ) (r : DayRecord) (g : Solar.DayGeom) (tt : ℝ) : Prop where
  sane : j.Sane
  unit : ∃ u, j.shared.outVars.get? "vapor_pressure" = some u
  daily : j.shared.ts = 1440
  method : j.shared.method = .mtclim
  params : SaneParams j.shared
  lapse : 0 < j.shared.lapseRate
  height : (j.inp c).elev = fin elev
  place : (j.inp c).lat = fin lat
  low : j.shared.lapseRate * elev < 288.15
  within : k < j.n
  holds : HoldsDay (j.inp c).data.frame k r
  likely : r.Likely
  sun : ∃ geom, Solar.solarGeom elev lat j.shared.lapseRate = .ok geom ∧ geom[doy (j.d0 + k) - 1]? = some g ∧ g.ttMax = fin tt

section C150

variable (j : Job) (fuel : Nat) (order : List (Dict String Chunk.Slice)) (ho : j.Schedule order)
  (files : Run.Files Output) (hrun : j.run fuel order = .ok files) (c : Run.Cell) (hc : j.Computed c)
  (elev lat : ℝ) (k : ℕ) (r : DayRecord) (g : Solar.DayGeom) (tt : ℝ) (he : EstimatesDay j c elev lat k r g tt)
  (m : ℕ) (hm : m < j.n) (hmiss : MissingDay (j.inp c).data.frame m)

include ho hrun hc he hm hmiss

/-- **C150**: then the vapour pressure a daily run writes for any other day is saturation at the first estimate of that day. -/
theorem C150_daily_partial (hx : -115 ≤ r.dewpoint j.shared elev g tt r.tmin) :
    Reads j files c "vapor_pressure" k 0 (Spec.saturation (r.dewpoint j.shared elev g tt r.tmin)) := by
  obtain ⟨geom, hg, w2, w3⟩ := he.sun
  obtain ⟨u, hu⟩ := he.unit
  have hk := he.within
  obtain ⟨elev', lat', lon, q1, q2, -, q, rep, hrep, hread⟩ := readout_daily j he.sane ho hrun he.daily hc
  rw [he.height] at q1
  rw [he.place] at q2
  obtain rfl := Flt.fin.inj q1
  obtain rfl := Flt.fin.inj q2
  have hrun' : mtclimRun j.n fuel (withGeom q.rows (j.inp c).data.frame) (j.shared.daily elev) = .ok (some q.base) := by
    have h := q.h_base
    rw [he.sane.data c, length_consecutive, he.method] at h
    unfold runMethod at h
    simp only [bind_ok] at h
    obtain ⟨r, h1, h2⟩ := h
    cases r with
    | none => cases h2
    | some b =>
      have : b = q.base := Except.ok.inj h2
      rw [h1, this]
  obtain ⟨tMin, g1, e1⟩ := he.holds.tmin
  obtain ⟨tMax, g2, e2⟩ := he.holds.tmax
  obtain ⟨dtr, g3, e3⟩ := he.holds.range
  obtain ⟨sm, g4, e4⟩ := he.holds.mean
  obtain ⟨prec, g5, e5⟩ := he.holds.rain
  obtain ⟨sp, g9, e9⟩ := he.holds.season
  obtain ⟨dew, v1, -, -, v2⟩ := C150_first_partial hrun'
    (tMin := tMin) (tMax := tMax) (dtr := dtr) (sm := sm) (prec := prec) (tt := colOf (q.rows.map (·.ttMax)))
    (pot := colOf (q.rows.map fun g => fin g.potrad)) (dl := colOf (q.rows.map fun g => fin g.daylength)) (sp := sp)
    (by rw [withGeom_keeps _ _ (by decide), g1]) (by rw [withGeom_keeps _ _ (by decide), g2])
    (by rw [withGeom_keeps _ _ (by decide), g3]) (by rw [withGeom_keeps _ _ (by decide), g4])
    (by rw [withGeom_keeps _ _ (by decide), g5])
    (by unfold withGeom; simp (decide := true) only [Dict.get?_set, if_true, if_false])
    (by unfold withGeom; simp (decide := true) only [Dict.get?_set, if_true, if_false])
    (by unfold withGeom; simp (decide := true) only [Dict.get?_set, if_true, if_false])
    (by rw [withGeom_keeps _ _ (by decide), g9]) hm (by
      obtain ⟨v, hv, col, hcol, hn⟩ := hmiss
      refine ⟨v, hv, col, ?_, hn⟩
      rw [withGeom_keeps _ _ (by
        simp only [List.mem_cons, List.not_mem_nil, or_false] at hv
        rcases hv with rfl | rfl | rfl | rfl | rfl <;> decide), hcol])
  have w1 : (j.inp c).data.days[k]? = some (j.d0 + k) := by rw [he.sane.data c]; simp [consecutive, hk]
  have r1 := row_of q hg w1 w2 (fun g => g.ttMax)
  have r2 := row_of q hg w1 w2 (fun g => fin g.potrad)
  have r3 := row_of q hg w1 w2 (fun g => fin g.daylength)
  rw [w3] at r1
  have hval := dewpoint_round he.params he.lapse he.low he.likely (g := g) (tt := tt) (i := k) e1 e3
    (by show tfmax (dtr k) (sm k) (prec k) _ = _; rw [e3, e4, e5, tfmax_sky j.shared elev he.likely.range.1])
    (by show tDay (tMin k) (tMax k) _ = _; rw [e1, e2, C36_value]; rfl) r1 r2 r3 e9 e1
    (by linarith [he.likely.tmin.1]) v1
  obtain ⟨sw, dl, rr, -, -, -, -, hkeep⟩ := daily_ok hrep
  obtain ⟨col', a1, a2⟩ := hread "vapor_pressure" u "Pa" .pressure hu (by decide) rfl (by simp)
  rw [hkeep _ (by decide), v2] at a1
  refine (a2 k hk).1 _ _ ?_ rfl
  rw [← Option.some.inj a1]
  show vaporPressure (dew k) = _
  rw [hval, saturation_eq]
  generalize r.dewpoint j.shared elev g tt r.tmin = x at hx
  have hne : (237.3 : ℝ) + x ≠ 0 := by
    have : (0 : ℝ) < 237.3 + x := by linarith
    exact this.ne'
  unfold vaporPressure
  rw [svp_fin hne]

/-- **C150**: where the evaporation of the day is small against the rain of its season, the first estimate is off the day's own dewpoint by no
more than a part of what the estimate moved it from the minimum temperature. -/
theorem C150_humid_partial (q : ℝ) (hq : q < 1) (hd : 40 * r.demand j.shared elev g ≤ q) :
    ∃ t, -115 ≤ t ∧ r.dewpoint j.shared elev g tt t = t ∧ ∃ x, Reads j files c "vapor_pressure" k 0 (Spec.saturation x) ∧
      |x - t| ≤ q / (1 - q) * |x - r.tmin| := by
  obtain ⟨geom, hg, w2, w3⟩ := he.sun
  obtain ⟨-, hb⟩ := C45_bounds_partial elev lat j.shared.lapseRate he.lapse he.low geom hg
  obtain ⟨o1, -, o3, tt', o4, -, o5⟩ := hb _ (List.mem_of_getElem? w2)
  rw [w3] at o4
  obtain rfl := Flt.fin.inj o4
  have hh : HumidDay r j.shared elev g tt q :=
    ⟨he.likely, o5.le, demand_nonneg he.params he.lapse he.low he.likely o3 o1, hd, hq⟩
  obtain ⟨t, t1, t2, -, t4⟩ := hh.settles
  exact ⟨t, t1, t2, _, C150_daily_partial j fuel order ho files hrun c hc elev lat k r g tt he m hm hmiss (hh.range _),
    t4 _ (by linarith [he.likely.tmin.1])⟩

end C150

/-- A value that is missing on one day leaves the dewpoint of the other days what it is, up to the tolerance. -/
def C150_full : Prop := ∀ (n fuel fuel' : ℕ) (df out out' : Frame) (p : MParams) (season season' dew dew' : Col) (m k : ℕ) (x x' : ℝ),
  m < n → k < n → k ≠ m → Dict.get? df "seasonal_prec" = some season → (∀ i, i ≠ m → season' i = season i) → season' m = nan →
  mtclimRun n fuel df p = .ok (some out) → mtclimRun n fuel' (Dict.set df "seasonal_prec" season') p = .ok (some out') →
  Dict.get? out "tdew" = some dew → Dict.get? out' "tdew" = some dew' → dew k = fin x → dew' k = fin x' →
  |x - x'| ≤ n * p.tdewTol

/-- Two days at freezing point. -/
noncomputable def frosty (season : Col) : Frame :=
  [("t_min", fun _ => fin 0), ("t_max", fun _ => fin 0), ("dtr", fun _ => fin 0), ("smoothed_dtr", fun _ => fin 0),
   ("prec", fun _ => fin 0), ("tt_max", fun _ => fin 0.6), ("potrad", fun _ => fin 1), ("daylength", fun _ => fin 40000),
   ("seasonal_prec", season)]

noncomputable def frostyDay : DayRecord := ⟨0, 0, 0, 0, 0, 2000⟩

def frostySun : Solar.DayGeom := ⟨fun _ => 0, 40000, 1, fin 0.6⟩

noncomputable def frostyShared (tol : ℝ) : Shared := { (demo .mtclim).shared with tdewTol := tol }

theorem frosty_params {tol : ℝ} (h : 0 < tol) : SaneParams (frostyShared tol) := ⟨h, demo_params.coef, demo_params.rain⟩

noncomputable def frostyDaily (season : Col) (p : MParams) : Methods.Daily :=
  { tMin := fun _ => fin 0, dtr := fun _ => fin 0, tfmax := fun _ => tfmax (fin 0) (fin 0) (fin 0) p,
    tDay := fun _ => tDay (fin 0) (fin 0) p, ttMax := fun _ => fin 0.6, potrad := fun _ => fin 1,
    daylength := fun _ => fin 40000, seasonal := season }

theorem frosty_ends {tol : ℝ} (h : 0 < tol) (season : Col) :
    ∃ fuel out, mtclimRun 2 fuel (frosty season) ((frostyShared tol).daily 100) = .ok (some out) := by
  set p := (frostyShared tol).daily 100 with hp
  have hl : 0 < p.lapseRate := by show (0 : ℝ) < 0.0065; norm_num
  have hle : p.lapseRate * 100 < 288.15 := by show (0.0065 : ℝ) * 100 < 288.15; norm_num
  have hpr := frosty_params h
  obtain ⟨first, hfirst⟩ : ∃ first, nextTdew (frostyDaily season p) p (fun _ => fin 0) = .ok first := by
    obtain ⟨e, he⟩ := pet_total hl.ne' (fun i => shortwave ((frostyDaily season p).tfmax i) (vaporPressure (fin 0))
      ((frostyDaily season p).ttMax i) ((frostyDaily season p).potrad i)) (frostyDaily season p).tDay (frostyDaily season p).daylength
    unfold nextTdew
    rw [he]
    exact ⟨_, rfl⟩
  have zero : Within (-60) 60 (fin 0) := fun r h => by rw [← Flt.fin.inj h]; norm_num
  have hday : ∀ i < 2, DayPlausible (frostyDaily season p) i := fun i _ =>
    { tMin := zero
      dtr := fun r h => by rw [← Flt.fin.inj h]; norm_num
      tfmax := (tfmax_within hpr.rain.1 hpr.rain.2 _ _ _).1
      tDay := tDay_within hpr.coef.1 hpr.coef.2 zero zero
      ttMax := fun r h => by rw [← Flt.fin.inj h]; norm_num
      geom := fun a b ha hb => by rw [← Flt.fin.inj ha, ← Flt.fin.inj hb]; norm_num }
  obtain ⟨fuel, dew, hit⟩ := iterate_ends rfl hl hle h hday hfirst
  obtain ⟨e, hpet⟩ := pet_total hl.ne' (fun i => shortwave ((frostyDaily season p).tfmax i) (vaporPressure (dew i))
    ((frostyDaily season p).ttMax i) ((frostyDaily season p).potrad i)) (frostyDaily season p).tDay (frostyDaily season p).daylength
  have hfirst' : nextTdew (Methods.Daily.mk (fun _ => fin 0) (fun _ => fin 0) (fun _ => tfmax (fin 0) (fin 0) (fin 0) p)
    (fun _ => tDay (fin 0) (fin 0) p) (fun _ => fin 0.6) (fun _ => fin 1) (fun _ => fin 40000) season) p (fun _ => fin 0) = .ok first := hfirst
  have hit' : iterate 2 (Methods.Daily.mk (fun _ => fin 0) (fun _ => fin 0) (fun _ => tfmax (fin 0) (fin 0) (fin 0) p)
    (fun _ => tDay (fin 0) (fin 0) p) (fun _ => fin 0.6) (fun _ => fin 1) (fun _ => fin 40000) season) p fuel (fun _ => fin 0) first = .ok (some dew) := hit
  have hpet' : pet (fun i => shortwave (tfmax (fin 0) (fin 0) (fin 0) p) (vaporPressure (dew i)) (fin 0.6) (fin 1))
    (fun _ => tDay (fin 0) (fin 0) p) (fun _ => fin 40000) p = .ok e := hpet
  refine ⟨fuel, ?_⟩
  unfold mtclimRun frosty
  simp (decide := true) only [bind_ok, Dict.get_ok, Dict.get?_set, Dict.get?_cons, if_true, if_false,
      Option.some.injEq, exists_eq_left', Except.ok.injEq, hfirst', hit', pure_ok, hpet']
  exact ⟨_, rfl⟩

theorem frosty_humid {tol : ℝ} (h : 0 < tol) : HumidDay frostyDay (frostyShared tol) 100 frostySun 0.6 (1 / 2) := by
  have hl : 0 < (frostyShared tol).lapseRate := by show (0 : ℝ) < 0.0065; norm_num
  have hle : (frostyShared tol).lapseRate * 100 < 288.15 := by show (0.0065 : ℝ) * 100 < 288.15; norm_num
  have lk : frostyDay.Likely := ⟨by norm_num [frostyDay], by norm_num [frostyDay], by norm_num [frostyDay]⟩
  exact ⟨lk, by norm_num, demand_nonneg (frosty_params h) hl hle lk (by norm_num [frostySun]) (by norm_num [frostySun]),
    demand_wet (frosty_params h) hl hle lk (by norm_num [frostySun]) (by norm_num [frostySun]) (by norm_num [frostySun])
      (by norm_num [frostyDay]), by norm_num⟩

noncomputable def frostyDew : ℝ → ℝ := frostyDay.dewpoint (frostyShared 1) 100 frostySun 0.6

theorem frosty_demand : 0 < frostyDay.demand (frostyShared 1) 100 frostySun := by
  have hb : 0 < Spec.barometric 100 0.0065 := by
    obtain ⟨x, x1, x2, -⟩ := C40_atm_pres 100 0.0065 (by norm_num) (by norm_num)
    rw [C40_atm_pres_value 100 0.0065 (by norm_num) (by norm_num)] at x1
    rw [Flt.fin.inj (Except.ok.inj x1)]
    exact x2
  have hsky : 0 < skyOf (frostyShared 1) 0 0 0 := by
    have h1 : (0 : ℝ) < 1 - 0.9 := by norm_num
    unfold skyOf Spec.transmittance
    rw [if_neg (show ¬ (frostyShared 1).swPrecThresh < 0 from lt_irrefl (0 : ℝ))]
    norm_num
  have hdl : frostyDay.daylight (frostyShared 1) = 0 := by
    unfold DayRecord.daylight frostyDay
    norm_num
  unfold DayRecord.demand
  rw [hdl]
  exact div_pos (evaporation_pos (mul_pos (by norm_num [frostySun]) hsky) (by norm_num [frostySun]) hb (by norm_num) (by norm_num))
    (lt_of_lt_of_le (by norm_num) (le_max_left _ _))

theorem frosty_step {x y : ℝ} (hx : -115 ≤ x) (hxy : x < y) (hy : y ≤ 0) : frostyDew x < frostyDew y := by
  have hh := frosty_humid one_pos
  have hd := frosty_demand
  have k1 := hh.ratio x
  have k2 := hh.ratio y
  unfold frostyDew
  rw [dewpoint_eq, dewpoint_eq]
  have s0 : svpR 0 ≤ 611 := by
    unfold svpR waterR iceR
    norm_num
  have s1 := svpR_le (s := y) (t := 0) (by linarith) hy
  have s2 := svpR_lt (s := x) (t := y) (by linarith) hxy
  have e1 : max (0.6 - 6.1e-5 * svpR x) 0.0001 = 0.6 - 6.1e-5 * svpR x := max_eq_left (by norm_num at *; linarith)
  have e2 : max (0.6 - 6.1e-5 * svpR y) 0.0001 = 0.6 - 6.1e-5 * svpR y := max_eq_left (by norm_num at *; linarith)
  rw [e1] at k1 ⊢
  rw [e2] at k2 ⊢
  have hlt : frostyDay.demand (frostyShared 1) 100 frostySun * (0.6 - 6.1e-5 * svpR y) <
      frostyDay.demand (frostyShared 1) 100 frostySun * (0.6 - 6.1e-5 * svpR x) :=
    mul_lt_mul_of_pos_left (by norm_num at *; linarith) hd
  generalize frostyDay.demand (frostyShared 1) 100 frostySun * (0.6 - 6.1e-5 * svpR y) = a at *
  generalize frostyDay.demand (frostyShared 1) 100 frostySun * (0.6 - 6.1e-5 * svpR x) = b at *
  have e : aridity a - aridity b = (b - a) * (1.444 - 12.312 * (a + b) + 32.766 * (a * a + a * b + b * b)) := by
    unfold aridity
    ring
  have hf : 0 < 1.444 - 12.312 * (a + b) + 32.766 * (a * a + a * b + b * b) := by
    have h1 := mul_nonneg k2.1 k2.1
    have h2 := mul_nonneg k2.1 k1.1
    have h3 := mul_nonneg k1.1 k1.1
    norm_num at *
    linarith
  have := mul_pos (sub_pos.2 hlt) hf
  rw [← e] at this
  simp only [frostyDay]
  norm_num
  linarith

theorem frosty_below : frostyDew 0 < 0 := by
  have hh := frosty_humid one_pos
  have k := hh.ratio 0
  have e : frostyDew 0 = (0 + 273.15) * (-0.127 + 0.0006 * 0 + 1.121 * aridity (frostyDay.demand (frostyShared 1) 100 frostySun *
      max (0.6 - 6.1e-5 * svpR 0) 0.0001)) - 273.15 := dewpoint_eq _ _ _ _ _ _
  rw [e]
  generalize frostyDay.demand (frostyShared 1) 100 frostySun * max (0.6 - 6.1e-5 * svpR 0) 0.0001 = a at *
  have : aridity a ≤ 1.003 := by
    unfold aridity
    have h1 := mul_nonneg k.1 k.1
    have h2 := mul_nonneg h1 k.1
    have h3 : a * a ≤ 1 / 40 * a := mul_le_mul_of_nonneg_right k.2 k.1
    norm_num at *
    nlinarith
  norm_num at *
  linarith

theorem frosty_orbit (N : ℕ) : -115 ≤ frostyDew^[N] 0 ∧ frostyDew^[N] 0 ≤ 0 ∧ frostyDew^[N + 1] 0 < frostyDew^[N] 0 := by
  induction N with
  | zero => exact ⟨by norm_num, le_rfl, frosty_below⟩
  | succ N ih =>
    obtain ⟨h1, h2, h3⟩ := ih
    have h4 : -115 ≤ frostyDew^[N + 1] 0 := by
      rw [Function.iterate_succ_apply']
      exact (frosty_humid one_pos).range _
    refine ⟨h4, by linarith, ?_⟩
    rw [Function.iterate_succ_apply' _ (N + 1)]
    conv_rhs => rw [Function.iterate_succ_apply']
    exact frosty_step h4 h3 h2

/-- **C150**: a day without data in the record stops the rounds for all the days. -/
theorem C150_refuted : ¬ C150_full := by
  intro H
  have p0 := (frosty_orbit 0).2.2
  have p1 := (frosty_orbit 1).2.2
  simp only [zero_add, Function.iterate_zero, id_eq, Function.iterate_one] at p0 p1
  obtain ⟨tol, t0, t1, t2⟩ : ∃ tol : ℝ, 0 < tol ∧ tol < -frostyDew 0 ∧ 2 * tol < frostyDew 0 - frostyDew^[2] 0 := by
    refine ⟨min (-frostyDew 0) (frostyDew 0 - frostyDew^[2] 0) / 3, ?_, ?_, ?_⟩
    · have := lt_min (neg_pos.2 p0) (sub_pos.2 p1)
      linarith
    · have := min_le_left (-frostyDew 0) (frostyDew 0 - frostyDew^[2] 0)
      linarith
    · have := min_le_right (-frostyDew 0) (frostyDew 0 - frostyDew^[2] 0)
      linarith
  have hpr := frosty_params t0
  have hl : 0 < (frostyShared tol).lapseRate := by show (0 : ℝ) < 0.0065; norm_num
  have hle : (frostyShared tol).lapseRate * 100 < 288.15 := by show (0.0065 : ℝ) * 100 < 288.15; norm_num
  have hround : ∀ (season : Col) (i : ℕ), season i = fin 2000 → ∀ (old new : Col) (x : ℝ), old i = fin x → -115 ≤ x →
      nextTdew { tMin := fun _ => fin 0, dtr := fun _ => fin 0,
                 tfmax := fun _ => tfmax (fin 0) (fin 0) (fin 0) ((frostyShared tol).daily 100),
                 tDay := fun _ => tDay (fin 0) (fin 0) ((frostyShared tol).daily 100), ttMax := fun _ => fin 0.6,
                 potrad := fun _ => fin 1, daylength := fun _ => fin 40000, seasonal := season }
        ((frostyShared tol).daily 100) old = .ok new → new i = fin (frostyDew x) := by
    intro season i hs old new x hx hx0 h
    exact dewpoint_round (r := frostyDay) (g := frostySun) (tt := 0.6) (i := i) hpr hl hle (frosty_humid t0).likely rfl rfl
      (tfmax_sky _ _ le_rfl) (C36_value _ _ _) rfl rfl rfl hs hx hx0 h
  obtain ⟨fuel, out, hrun⟩ := frosty_ends t0 fun _ => fin 2000
  obtain ⟨fuel', out', hrun'⟩ := frosty_ends t0 fun i => if i = 1 then nan else fin 2000
  obtain ⟨N, s, e0, e1, e2, e3, e4, -⟩ := mtclimRun_rounds hrun rfl rfl rfl rfl rfl rfl rfl rfl rfl
  obtain ⟨dew', f1, -, f2, -⟩ := C150_first_partial hrun' rfl rfl rfl rfl rfl rfl rfl rfl rfl (m := 1) (by norm_num)
    ⟨"seasonal_prec", by decide, _, rfl, rfl⟩
  have hseq : ∀ k ≤ N + 1, ∀ i, s k i = fin (frostyDew^[k] 0) := by
    intro k
    induction k with
    | zero => intro _ i; rw [e0]; rfl
    | succ k ih =>
      intro hk i
      rw [Function.iterate_succ_apply']
      exact hround _ i rfl _ _ _ (ih (by omega) i) (frosty_orbit k).1 (e1 k (by omega))
  have hN : 1 ≤ N := by
    rcases N.eq_zero_or_pos with rfl | h
    · exfalso
      rw [moved_rms (by norm_num) (fun i _ => hseq 1 le_rfl i) (fun i _ => hseq 0 (by omega) i)] at e2
      have h1 : rms 2 (fun _ => frostyDew^[1] 0) (fun _ => frostyDew^[0] 0) ≤ tol := not_lt.1 (of_decide_eq_false e2)
      have h2 : rms 2 (fun _ => frostyDew^[1] 0) (fun _ => frostyDew^[0] 0) = -frostyDew 0 := by
        unfold rms
        rw [show ((List.range 2).map fun _ => (frostyDew^[1] 0 - frostyDew^[0] 0) ^ 2).sum / ((2 : ℕ) : ℝ) = (-frostyDew 0) ^ 2 by
          simp [List.range_succ]]
        exact Real.sqrt_sq (by linarith)
      linarith
    · exact h
  have hle2 : ∀ M, 1 ≤ M → frostyDew^[M + 1] 0 ≤ frostyDew^[2] 0 := by
    intro M hM
    induction M, hM using Nat.le_induction with
    | base => exact le_rfl
    | succ M hM ih => exact (frosty_orbit (M + 1)).2.2.le.trans ih
  have hset : Dict.set (frosty fun _ => fin 2000) "seasonal_prec" (fun i => if i = 1 then nan else fin 2000) =
      frosty fun i => if i = 1 then nan else fin 2000 := by
    simp [frosty, Dict.set]
  have hfin := H 2 fuel fuel' (frosty fun _ => fin 2000) out out' ((frostyShared tol).daily 100) (fun _ => fin 2000)
    (fun i => if i = 1 then nan else fin 2000) _ _ 1 0 _ _ (by norm_num) (by norm_num) (by norm_num) rfl
    (fun i hi => if_neg hi) rfl hrun (by rw [hset]; exact hrun') e4 f2 (hseq (N + 1) le_rfl 0)
    (hround _ 0 rfl _ _ 0 rfl (by norm_num) f1)
  have h1 := (abs_le.1 hfin).1
  have h2 := hle2 N hN
  have h3 : ((2 : ℕ) : ℝ) * ((frostyShared tol).daily 100).tdewTol = 2 * tol := by push_cast; rfl
  rw [h3] at h1
  linarith

/-- The run of C147, without the rain of the season on its second day. -/
noncomputable def patchy : Job :=
  { soaked with
    inp := fun _ => ⟨fin 100, fin 45, fin (-120), ⟨consecutive 0 2,
      [("t_min", fun _ => fin 5), ("t_max", fun _ => fin 15), ("prec", fun _ => fin 24), ("dtr", fun _ => fin 10),
       ("smoothed_dtr", fun _ => fin 10), ("seasonal_prec", fun i => if i = 1 then nan else fin 2000),
       ("shortwave", fun _ => fin 200)], (fin 4, fin 14)⟩⟩ }

theorem patchy_sane : patchy.Sane := { soaked_sane with data := fun _ => rfl }

theorem patchy_runs : ∃ order fuel files, patchy.Schedule order ∧ patchy.run fuel order = .ok files := by
  refine ⟨[[("lat", none), ("lon", none)]], ?_⟩
  obtain ⟨fuel, h⟩ := C72_run patchy patchy_sane [[("lat", none), ("lon", none)]] ⟨_, rfl, List.Perm.refl _⟩
    { demo_params with } (fun c _ =>
      { soaked_complete c with
        columns := by
          intro k hk
          simp only [List.mem_cons, List.not_mem_nil, or_false] at hk
          rcases hk with rfl | rfl | rfl | rfl | rfl | rfl <;> simp [patchy, Dict.get?_cons]
        radiation := fun _ => by simp [patchy, Dict.get?_cons]
        storm := by
          have h : ¬ (Lw.upperS "uniform" = "TRIANGLE" ∨ Lw.upperS "uniform" = "MIX") := by decide
          exact fun h' => absurd h' h }) (fun c _ => { demo_plausible c with })
  obtain ⟨files, hf⟩ := (h 0).2 (fun c _ q hq => by
    have hq : q ∈ [("tskc", "fraction"), ("shortwave", "W m-2"), ("daylength", "s"), ("pet", "mm s-1"),
      ("vapor_pressure", "hPa")] := hq
    unfold Offers
    rw [if_neg (show ¬ (patchy.shared.ts < 1440) from lt_irrefl 1440)]
    simp only [List.mem_cons, List.not_mem_nil, or_false] at hq
    rcases hq with rfl | rfl | rfl | rfl | rfl <;> exact ⟨Or.inl (by decide), _, _, rfl, rfl⟩)
  exact ⟨fuel, files, ⟨_, rfl, List.Perm.refl _⟩, hf⟩

/-- **C150**: there are such runs. -/
example : ∃ g tt, EstimatesDay patchy [0, 0] 100 45 0 ⟨5, 15, 10, 10, 24, 2000⟩ g tt ∧ patchy.Computed [0, 0] ∧
    MissingDay (patchy.inp [0, 0]).data.frame 1 ∧ ∃ order fuel files, patchy.Schedule order ∧ patchy.run fuel order = .ok files := by
  obtain ⟨geom, g, tt, h1, h2⟩ := mild_rows
  exact ⟨g 0, tt 0, { sane := patchy_sane, unit := ⟨_, rfl⟩, daily := rfl, method := rfl, params := { demo_params with },
                      lapse := (soaked_complete [0, 0]).lapse, height := rfl, place := rfl,
                      low := by show (0.0065 : ℝ) * 100 < 288.15; norm_num, within := by show 0 < 2; norm_num,
                      holds := ⟨⟨_, rfl, rfl⟩, ⟨_, rfl, rfl⟩, ⟨_, rfl, rfl⟩, ⟨_, rfl, rfl⟩, ⟨_, rfl, rfl⟩, ⟨_, rfl, rfl⟩⟩,
                      likely := ⟨by norm_num, by norm_num, by norm_num⟩, sun := ⟨geom, h1, h2 0 (by norm_num)⟩ },
    ⟨by decide, 1, rfl, one_pos⟩, ⟨"seasonal_prec", by decide, _, rfl, rfl⟩, patchy_runs⟩

end Verif.Props
