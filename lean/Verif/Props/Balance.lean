import Verif.Lemmas.Written
import Verif.Props.Insolation

/-!
# What a run writes, compared with its forcing: C75, C76
-/

namespace Verif.Props

open Flt Cell Methods Np

/-- The daily methods and the geometry leave the other columns of the forcing alone. -/
theorem base_keeps {fuel : Nat} {s : Shared} {elev lat lon : ℝ} {d : Data} (k : Common fuel s elev lat lon d) {name : String}
    (h1 : name ∉ ["t_day", "tfmax", "tskc", "seasonal_prec", "tdew", "vapor_pressure", "shortwave", "pet"])
    (h2 : name ∉ ["daylength", "potrad", "tt_max"]) : Dict.get? k.base name = Dict.get? d.frame name := by
  rw [runMethod_keeps k.h_base h1, withGeom_keeps _ _ h2]

theorem fin_of_sum {xs : List (Flt ℝ)} {b : ℝ} (h : Flt.sum xs = fin b) : ∃ ys : List ℝ, xs = ys.map fin ∧ ys.sum = b := by
  obtain ⟨ys, rfl⟩ := Flt.exists_map_fin xs (fun x hx => by
    cases x with
    | nan => rw [Flt.sum_of_mem_nan _ hx] at h; cases h
    | fin v => rfl)
  rw [sum_map_fin] at h
  exact ⟨ys, rfl, Flt.fin.inj h⟩

theorem sum_getD (ys : List ℝ) : ∑ i ∈ Finset.range ys.length, ys.getD i 0 = ys.sum := by
  induction ys with
  | nil => simp
  | cons y ys ih => rw [List.length_cons, Finset.sum_range_succ', List.sum_cons]; simp [← ih, add_comm]

/-! ## C75 -/
section C75

/-- On day `k` the rain is not given to an empty storm: storms are not asked for, or it is cold enough for even rain in a
mixture, or the storm of that day covers some minutes of the day. -/
def Falls (s : Shared) (f : Frame) (k : Nat) : Prop :=
  (Lw.upperS s.precType ≠ "TRIANGLE" ∧ Lw.upperS s.precType ≠ "MIX") ∨
  (Lw.upperS s.precType = "MIX" ∧ ∃ c t, Dict.get? f "t_min" = some c ∧ c k = fin t ∧ t < 0) ∨
  ∃ lp ld tp du, Dict.get? f "t_pk" = some lp ∧ Dict.get? f "dur" = some ld ∧ lp k = fin tp ∧ ld k = fin du ∧ HasWeight tp du

theorem falls_spreads {fuel : Nat} {s : Shared} {elev lat lon : ℝ} {d : Data} (q : Common fuel s elev lat lon d)
    {daily : Disaggregate.Daily} (hd : dailyOf d.days q.base = .ok daily) {k : Nat} (hk : k < d.days.length)
    (h : Falls s d.frame k) : Spreads s.precType daily.tMin daily.tPk daily.dur k := by
  obtain ⟨-, -, -, htm, -, -, -, -, -, -, htp, hdu⟩ := dailyOf_ok hd
  obtain ⟨c, hc, e⟩ := Cell.column_ok.1 htm
  rw [base_keeps q (by decide) (by decide)] at hc
  unfold column? at htp hdu
  rw [base_keeps q (by decide) (by decide)] at htp hdu
  rcases h with h | ⟨h1, c', t, h2, h3, h4⟩ | ⟨lp, ld, tp, du, h1, h2, h3, h4, h5⟩
  · exact Or.inl h
  · refine Or.inr (Or.inl ⟨h1, t, ?_, h4⟩)
    rw [hc] at h2
    obtain rfl := Option.some.inj h2
    rw [e, List.getElem?_map, List.getElem?_range hk, Option.map_some, h3]
  · refine Or.inr (Or.inr ⟨_, _, tp, du, by rw [htp, h1]; rfl, by rw [hdu, h2]; rfl, ?_, ?_, h5⟩)
    · rw [List.getElem?_map, List.getElem?_range hk, Option.map_some, h3]
    · rw [List.getElem?_map, List.getElem?_range hk, Option.map_some, h4]

/-- The written rain as a flux. -/
theorem prec_si {u : String} {ts : Nat} (hts : 0 < ts) {x : ℝ} {r : Flt ℝ}
    (h : Units.convert "prec" u (fin x) (ts : Int) = .ok r) :
    ∃ y, r = fin y ∧ Spec.si u (ts : ℝ) y = some (.waterFlux, x / (ts * 60)) := by
  obtain ⟨y, s, k, h1, h2, h3, h4⟩ := convert_si (by rintro ⟨h, -⟩; revert h; decide) (dflt := "mm timestep-1") (by decide) hts h
  have e : some (Spec.Kind.waterFlux, x / ((ts : ℝ) * 60)) = some (k, s) := h4
  exact ⟨y, h1, by rw [h3, ← e]⟩

/-- **C75**: the rain written for a day, in whatever unit, is the rain of the forcing: the fluxes of its steps, each over
the length of a step, add up to the millimetres of the day; and none of them is negative unless the forcing is. -/
theorem C75_daily_rain (j : Job) (hj : j.Sane) (fuel : Nat) (order : List (Dict String Chunk.Slice)) (ho : j.Schedule order)
    (files : Run.Files Output) (hrun : j.run fuel order = .ok files) (hutc : j.shared.utcOffset = false)
    (c : Run.Cell) (hc : j.Computed c) (u : String) (hu : j.shared.outVars.get? "prec" = some u) :
    ∃ val, Recorded j files "prec" c val ∧
      ∀ k < j.n, ∀ rain p, Dict.get? (j.inp c).data.frame "prec" = some rain → rain k = fin p →
        (j.shared.ts < 1440 → Falls j.shared (j.inp c).data.frame k) →
        ∃ flux : ℕ → ℝ, (∀ i < 1440 / j.shared.ts, ∃ x, val (j.stamp k i) = fin x ∧
            Spec.si u (j.shared.ts : ℝ) x = some (.waterFlux, flux i) ∧ (0 ≤ p → 0 ≤ flux i)) ∧
          ∑ i ∈ Finset.range (1440 / j.shared.ts), flux i * (j.shared.ts * 60) = p := by
  have hts0 := hj.step.1
  have htsR : (0 : ℝ) < (j.shared.ts : ℝ) * 60 := by positivity
  by_cases hsub : j.shared.ts < 1440
  · obtain ⟨elev, lat, lon, -, -, -, q, daily, sub, hd, hs, hcol⟩ := written_sub j hj ho hrun hsub hc
    obtain ⟨col, val, a1, a2, a3⟩ := hcol "prec" u hu
    refine ⟨val, a2, ?_⟩
    intro k hk rain p hrain hp hf
    have hlen : (j.inp c).data.days.length = j.n := by rw [hj.data c, length_consecutive]
    obtain ⟨t, rfl⟩ := disaggregate_ok.1 hs
    have hsp := falls_spreads q hd (by rw [hlen]; exact hk) (hf hsub)
    obtain ⟨-, -, -, -, -, -, -, hpr, -, -, -, -⟩ := dailyOf_ok hd
    obtain ⟨c', hc', e⟩ := Cell.column_ok.1 hpr
    rw [base_keeps q (by decide) (by decide), hrain] at hc'
    obtain rfl := Option.some.inj hc'
    have hP : daily.prec[k]? = some (fin p) := by
      rw [e, List.getElem?_map, List.getElem?_range (by rw [hlen]; exact hk), Option.map_some, hp]
    have h_prec := t.h_prec
    have hutc' : (j.shared.sub elev lon).utcOffset = false := hutc
    rw [hutc'] at h_prec
    obtain ⟨b1, b2⟩ := C46_daily_total (ts := j.shared.ts) hj.step.2 h_prec hP hsp
    obtain ⟨ys, b3, b4⟩ := fin_of_sum b1
    have hl : t.prec.length = j.n * (1440 / j.shared.ts) := by
      rw [t.l_prec]
      obtain ⟨e1, -⟩ := dailyOf_ok hd
      rw [e1, List.length_map, hlen]
      exact Nat.mul_div_assoc _ hj.step.2
    have hl' : ys.length = 1440 / j.shared.ts := by
      have := congrArg List.length b3
      rw [List.length_map, List.length_take, List.length_drop, hl] at this
      rw [← this]
      apply min_eq_left
      have : (k + 1) * (1440 / j.shared.ts) ≤ j.n * (1440 / j.shared.ts) := Nat.mul_le_mul_right _ hk
      rw [Nat.add_mul, Nat.one_mul] at this
      omega
    have hat : ∀ i < 1440 / j.shared.ts, t.prec[k * (1440 / j.shared.ts) + i]? = some (fin (ys.getD i 0)) := by
      intro i hi
      have : ((t.prec.drop (k * (1440 / j.shared.ts))).take (1440 / j.shared.ts))[i]? = some (fin (ys.getD i 0)) := by
        rw [b3, List.getElem?_map, List.getElem?_eq_getElem (by omega)]
        simp [List.getD_eq_getElem?_getD, List.getElem?_eq_getElem (show i < ys.length by omega)]
      rw [List.getElem?_take_of_lt hi, List.getElem?_drop] at this
      exact this
    refine ⟨fun i => ys.getD i 0 / (j.shared.ts * 60), ?_, ?_⟩
    · intro i hi
      have hx := a3 k hk i hi
      have ecol : col = fillBoth t.prec := by
        have : subColumn t.sub "prec" = .ok (fillBoth t.prec) := rfl
        rw [this] at a1
        exact (Except.ok.inj a1).symm
      rw [ecol, List.getD_eq_getElem?_getD, fillBoth_keep (hat i hi), Option.getD_some] at hx
      obtain ⟨y, g1, g2⟩ := prec_si hts0 hx
      refine ⟨y, g1, g2, fun hp0 => ?_⟩
      obtain ⟨v, hv, hv0⟩ := b2 hp0 (fin (ys.getD i 0)) (by
        refine List.mem_of_getElem? (i := i) ?_
        rw [List.getElem?_take_of_lt hi, List.getElem?_drop]
        exact hat i hi)
      obtain rfl := Flt.fin.inj hv
      exact div_nonneg hv0 htsR.le
    · rw [← b4, ← sum_getD ys, hl']
      refine Finset.sum_congr rfl fun i _ => ?_
      field_simp
  · have hday : j.shared.ts = 1440 := le_antisymm hj.step.le (not_lt.1 hsub)
    obtain ⟨elev, lat, lon, -, -, -, q, rep, hr, hcol⟩ := written_daily j hj ho hrun hday hc
    obtain ⟨col, val, a1, a2, a3⟩ := hcol "prec" u hu
    refine ⟨val, a2, ?_⟩
    intro k hk rain p hrain hp _
    obtain ⟨sw, dl, r, -, -, -, -, hkeep⟩ := daily_ok hr
    rw [hkeep "prec" (by decide), base_keeps q (by decide) (by decide), hrain] at a1
    obtain rfl := Option.some.inj a1
    have hx := a3 k hk
    rw [hp] at hx
    obtain ⟨y, g1, g2⟩ := prec_si hts0 hx
    have hone : 1440 / j.shared.ts = 1 := by rw [hday]
    refine ⟨fun _ => p / (j.shared.ts * 60), ?_, ?_⟩
    · intro i hi
      obtain rfl : i = 0 := by omega
      exact ⟨y, g1, g2, fun hp0 => div_nonneg hp0 htsR.le⟩
    · rw [hone, Finset.sum_range_one]
      field_simp

/-- **C75**: with output in universal time the days are cut elsewhere, but over the whole record the rain written is the rain
of the forcing. -/
theorem C75_total_rain (j : Job) (hj : j.Sane) (fuel : Nat) (order : List (Dict String Chunk.Slice)) (ho : j.Schedule order)
    (files : Run.Files Output) (hrun : j.run fuel order = .ok files) (hsub : j.shared.ts < 1440)
    (c : Run.Cell) (hc : j.Computed c) (u : String) (hu : j.shared.outVars.get? "prec" = some u)
    (rain : Col) (hrain : Dict.get? (j.inp c).data.frame "prec" = some rain) (p : ℕ → ℝ)
    (hp : ∀ k < j.n, rain k = fin (p k)) (hf : ∀ k < j.n, Falls j.shared (j.inp c).data.frame k) :
    ∃ val, Recorded j files "prec" c val ∧ ∃ flux : ℕ → ℕ → ℝ,
      (∀ k < j.n, ∀ i < 1440 / j.shared.ts, ∃ x, val (j.stamp k i) = fin x ∧
        Spec.si u (j.shared.ts : ℝ) x = some (.waterFlux, flux k i)) ∧
      ∑ k ∈ Finset.range j.n, ∑ i ∈ Finset.range (1440 / j.shared.ts), flux k i * (j.shared.ts * 60) =
        ∑ k ∈ Finset.range j.n, p k := by
  have hts0 := hj.step.1
  have htsR : (0 : ℝ) < (j.shared.ts : ℝ) * 60 := by positivity
  obtain ⟨elev, lat, lon, -, -, -, q, daily, sub, hd, hs, hcol⟩ := written_sub j hj ho hrun hsub hc
  obtain ⟨col, val, a1, a2, a3⟩ := hcol "prec" u hu
  refine ⟨val, a2, ?_⟩
  have hlen : (j.inp c).data.days.length = j.n := by rw [hj.data c, length_consecutive]
  obtain ⟨t, rfl⟩ := disaggregate_ok.1 hs
  obtain ⟨-, -, -, -, -, -, -, hpr, -, -, -, -⟩ := dailyOf_ok hd
  obtain ⟨c', hc', e⟩ := Cell.column_ok.1 hpr
  rw [base_keeps q (by decide) (by decide), hrain] at hc'
  obtain rfl := Option.some.inj hc'
  have hP : daily.prec = ((List.range j.n).map p).map fin := by
    rw [e, List.map_map, hlen]
    exact List.map_congr_left fun k hk => hp k (List.mem_range.1 hk)
  have h_prec := t.h_prec
  rw [hP] at h_prec
  have b1 := C47_total h_prec (by
    intro k hk
    rw [List.length_map, List.length_range] at hk
    exact falls_spreads q hd (by rw [hlen]; exact hk) (hf k hk))
  obtain ⟨ys, b3, b4⟩ := fin_of_sum b1
  set N := 1440 / j.shared.ts with hN
  have hl : ys.length = j.n * N := by
    have := t.l_prec
    rw [b3, List.length_map] at this
    rw [this]
    obtain ⟨e1, -⟩ := dailyOf_ok hd
    rw [e1, List.length_map, hlen]
    exact Nat.mul_div_assoc _ hj.step.2
  have ecol : col = ys.map fin := by
    have : subColumn t.sub "prec" = .ok (fillBoth t.prec) := rfl
    rw [this, b3, fillBoth_of_fin (by
      intro x hx
      obtain ⟨y, -, rfl⟩ := List.mem_map.1 hx
      rfl)] at a1
    exact (Except.ok.inj a1).symm
  refine ⟨fun k i => ys.getD (k * N + i) 0 / (j.shared.ts * 60), ?_, ?_⟩
  · intro k hk i hi
    have hx := a3 k hk i hi
    have hlt : k * N + i < ys.length := by
      have : (k + 1) * N ≤ j.n * N := Nat.mul_le_mul_right _ hk
      rw [Nat.add_mul, Nat.one_mul] at this
      omega
    have ex : col.getD (k * N + i) nan = fin (ys.getD (k * N + i) 0) := by
      rw [ecol, List.getD_eq_getElem?_getD, List.getElem?_map, List.getD_eq_getElem?_getD, List.getElem?_eq_getElem hlt]
      rfl
    rw [ex] at hx
    exact prec_si hts0 hx
  · have e1 : ∀ k i, ys.getD (k * N + i) 0 / ((j.shared.ts : ℝ) * 60) * (j.shared.ts * 60) = ys.getD (k * N + i) 0 :=
      fun k i => div_mul_cancel₀ _ htsR.ne'
    simp only [e1]
    have e2 : ∑ k ∈ Finset.range j.n, ∑ i ∈ Finset.range N, ys.getD (k * N + i) 0 = ys.sum := by
      rw [← sum_getD ys, hl]
      generalize j.n = m
      induction m with
      | zero => simp
      | succ m ih => rw [Finset.sum_range_succ, ih, Nat.add_mul, Nat.one_mul, Finset.sum_range_add]
    rw [e2, b4]
    generalize j.n = m
    induction m with
    | zero => simp
    | succ m ih => rw [List.range_succ, List.map_append, List.sum_append, ih, Finset.sum_range_succ]; simp

/-- **C75**: a run with 24 mm a day. -/
example : (demo .passthrough).Sane ∧ (demo .passthrough).shared.utcOffset = false ∧ (demo .passthrough).Computed [0, 0] ∧
    (demo .passthrough).shared.outVars.get? "prec" = some "mm h-1" ∧
    (∃ rain, Dict.get? ((demo .passthrough).inp [0, 0]).data.frame "prec" = some rain ∧ rain 1 = fin 24) ∧
    (∀ k, Falls (demo .passthrough).shared ((demo .passthrough).inp [0, 0]).data.frame k) ∧
    ∃ order files, (demo .passthrough).Schedule order ∧ (demo .passthrough).run 0 order = .ok files :=
  ⟨demo_sane _, rfl, ⟨by decide, 1, rfl, one_pos⟩, rfl, ⟨_, rfl, rfl⟩, fun _ => Or.inl (by unfold demo; decide), demo_runs⟩

end C75

/-! ## C76 -/
section C76

/-- `j'` is the same run with daily output: the same cells and days, parameters that differ at most in the time step, the
variables and the time axis. -/
structure DailyRunOf (j j' : Job) : Prop where
  ts : j'.shared.ts = 1440
  shared : ∃ cal pe ov, j'.shared = { j.shared with ts := 1440, calendar := cal, periodEnding := pe, outVars := ov }
  n : j'.n = j.n
  d0 : j'.d0 = j.d0
  inp : j'.inp = j.inp

/-- The number of rounds allowed plays no role once it is enough. -/
theorem runMethod_unique {f f' n : Nat} {m : Method} {df a b : Frame} {p : MParams} (h : runMethod f n m df p = .ok a)
    (h' : runMethod f' n m df p = .ok b) : a = b := by
  cases m with
  | passthrough => exact Except.ok.inj (h.symm.trans h')
  | mtclim =>
    unfold runMethod at h h'
    simp only [bind_ok] at h h'
    obtain ⟨r, h1, h2⟩ := h
    obtain ⟨r', h1', h2'⟩ := h'
    cases r with
    | none => cases h2
    | some a' =>
      cases r' with
      | none => cases h2'
      | some b' =>
        obtain rfl := Except.ok.inj h2
        obtain rfl := Except.ok.inj h2'
        have e1 := C41_rounds n f f' df p _ h1
        have e2 := C41_rounds n f' f df p _ h1'
        rw [Nat.add_comm, e1] at e2
        exact Option.some.inj (Except.ok.inj e2)

theorem common_unique {f f' : Nat} {s s' : Shared} {elev lat lon lon' : ℝ} {d : Data} (k : Common f s elev lat lon d)
    (k' : Common f' s' elev lat lon' d) (hm : s'.method = s.method) (hl : s'.lapseRate = s.lapseRate)
    (hp : s'.daily elev = s.daily elev) : k'.geom = k.geom ∧ k'.rows = k.rows ∧ k'.base = k.base := by
  have e1 : k'.geom = k.geom := by
    have := k'.h_geom
    rw [hl, k.h_geom] at this
    exact (Except.ok.inj this).symm
  have e2 : k'.rows = k.rows := by
    have := k'.h_rows
    rw [e1, k.h_rows] at this
    exact (Except.ok.inj this).symm
  refine ⟨e1, e2, ?_⟩
  have := k'.h_base
  rw [hm, e2, hp] at this
  exact runMethod_unique this k.h_base

/-- The row of the geometry of day `k`, and the daylength in the daily frame. -/
theorem base_daylength {fuel : Nat} {s : Shared} {elev lat lon : ℝ} {d : Data} (q : Common fuel s elev lat lon d) {k : Nat}
    {day : Int} (hk : d.days[k]? = some day) :
    ∃ g dl, q.geom[doy day - 1]? = some g ∧ Dict.get? q.base "daylength" = some dl ∧ dl k = fin g.daylength := by
  obtain ⟨h1, h2⟩ := mapM_getElem q.h_rows
  have hlt : k < q.rows.length := by rw [h1]; exact (List.getElem?_eq_some_iff.1 hk).1
  have h3 := h2 k day _ hk (List.getElem?_eq_getElem hlt)
  cases hg : q.geom[doy day - 1]? with
  | none => rw [hg] at h3; cases h3
  | some g =>
    rw [hg] at h3
    have e : g = q.rows[k] := Except.ok.inj h3
    refine ⟨g, colOf (q.rows.map fun g => fin g.daylength), rfl, ?_, ?_⟩
    · rw [runMethod_keeps q.h_base (by decide)]
      unfold withGeom
      simp only
      rw [Dict.get?_set_ne _ _ (by decide), Dict.get?_set_ne _ _ (by decide), Dict.get?_set_self]
    · unfold colOf
      rw [List.getD_eq_getElem?_getD, List.getElem?_map, List.getElem?_eq_getElem hlt, e]
      rfl

theorem days_getElem (j : Job) (hj : j.Sane) (c : Run.Cell) {k : Nat} (hk : k < j.n) :
    (j.inp c).data.days[k]? = some (j.d0 + k) := by
  rw [hj.data c, consecutive, List.getElem?_map, List.getElem?_range hk]
  rfl

theorem shortwave_ident {u : String} {x r : Flt ℝ} {ts : Int} (h : Units.convert "shortwave" u x ts = .ok r) : r = x := by
  obtain ⟨table, f, h1, h2, rfl⟩ := convert_ok h
  simp (decide := true) only [Units.converters, Dict.get?_cons, if_true, if_false, Option.some.injEq] at h1
  subst h1
  simp only [Dict.get?_cons] at h2
  split at h2
  · obtain rfl := Option.some.inj h2
    rfl
  · cases h2

/-- Seconds of daylight in the textbook, at latitude `lat` on the day `d` (counted from 2000-01-01). -/
noncomputable def daylight (lat : ℝ) (d : Int) : ℝ :=
  86400 * Spec.sunset (Spec.radians lat) (Spec.declination (min (doy d - 1) 364)) / Real.pi

/-- The daylight a day's radiation is taken to be the mean of: 24 hours for passed-through radiation, unless `sw_averaging`
is `daylight`. -/
noncomputable def averagedOver (s : Shared) (g : Solar.DayGeom) : ℝ :=
  if s.method = .passthrough ∧ s.swAveraging ≠ "daylight" then 86400 else g.daylength

/-- The daily mean of the shortwave radiation written step by step. -/
theorem written_shortwave (j : Job) (hj : j.Sane) (fuel : Nat) (order : List (Dict String Chunk.Slice)) (ho : j.Schedule order)
    (files : Run.Files Output) (hrun : j.run fuel order = .ok files) (hsub : j.shared.ts < 1440)
    (hutc : j.shared.utcOffset = false) (c : Run.Cell) (hc : j.Computed c) (u : String)
    (hu : j.shared.outVars.get? "shortwave" = some u) :
    ∃ elev lat lon, (j.inp c).elev = fin elev ∧ (j.inp c).lat = fin lat ∧ (j.inp c).lon = fin lon ∧
    ∃ q : Common fuel j.shared elev lat lon (j.inp c).data, ∃ val, Recorded j files "shortwave" c val ∧
      ∀ k < j.n, ∀ sw a g, Dict.get? q.base "shortwave" = some sw → sw k = fin a →
        q.geom[doy (j.d0 + k) - 1]? = some g →
        ∃ flux : ℕ → ℝ, (∀ i < 1440 / j.shared.ts, val (j.stamp k i) = fin (flux i)) ∧
          (∑ i ∈ Finset.range (1440 / j.shared.ts), flux i) / (1440 / j.shared.ts : ℕ) =
            a * (averagedOver j.shared g / 86400) * ∑ i ∈ Finset.range 2880, g.fract i := by
  obtain ⟨elev, lat, lon, e1, e2, e3, q, daily, sub, hdl, hs, hcol⟩ := written_sub j hj ho hrun hsub hc
  obtain ⟨col, val, a1, a2, a3⟩ := hcol "shortwave" u hu
  refine ⟨elev, lat, lon, e1, e2, e3, q, val, a2, ?_⟩
  intro k hk sw a g c1 ha d1
  have hlen : (j.inp c).data.days.length = j.n := by rw [hj.data c, length_consecutive]
  obtain ⟨g', dl', d1', d2, d3⟩ := base_daylength q (days_getElem j hj c hk)
  rw [d1] at d1'
  obtain rfl := Option.some.inj d1'
  obtain ⟨t, rfl⟩ := disaggregate_ok.1 hs
  obtain ⟨w1, w2, w3, -⟩ := dailyOf_ok hdl
  obtain ⟨s1, k1, w2⟩ := Cell.column_ok.1 w2
  rw [c1] at k1
  obtain rfl := Option.some.inj k1
  obtain ⟨s2, k2, w3⟩ := Cell.column_ok.1 w3
  rw [d2] at k2
  obtain rfl := Option.some.inj k2
  have hdlen : (Disaggregate.daylengthOf daily (j.shared.sub elev lon))[k]? = some (fin (averagedOver j.shared g)) := by
    have hb : daily.daylength[k]? = some (fin g.daylength) := by
      rw [w3, List.getElem?_map, List.getElem?_range (by rw [hlen]; exact hk), Option.map_some, d3]
    unfold Disaggregate.daylengthOf averagedOver
    by_cases h : j.shared.method = .passthrough ∧ j.shared.swAveraging ≠ "daylight"
    · rw [if_pos (by simpa [Shared.sub] using h), if_pos h, List.getElem?_map, hb]
      rfl
    · rw [if_neg (by simpa [Shared.sub] using h), if_neg h, hb]
  have h_sw := t.h_sw
  have hutc' : (j.shared.sub elev lon).utcOffset = false := hutc
  rw [hutc'] at h_sw
  have hrow : (q.geom.map fun g => (List.range Disagg.slotsPerDay).map g.fract)[doy (j.d0 + k) - 1]? =
      some ((List.range Disagg.slotsPerDay).map g.fract) := by
    rw [List.getElem?_map, d1]; rfl
  have hmean := C51_daily_mean (ts := j.shared.ts) (d := k) (y := doy (j.d0 + k)) (a := a) (b := averagedOver j.shared g)
    (by rw [daylengthOf_length, w2, w3]; simp) (by
      intro r hr
      obtain ⟨g', -, rfl⟩ := List.mem_map.1 hr
      rw [List.length_map, List.length_range]; rfl) h_sw
    (by rw [w2, List.getElem?_map, List.getElem?_range (by rw [hlen]; exact hk), Option.map_some, ha])
    hdlen (by rw [w1, List.getElem?_map, days_getElem j hj c hk, Option.map_some]) hrow
  obtain ⟨ys, b3, b4, -⟩ := fin_of_mean hmean
  have hl : t.sw.length = j.n * (1440 / j.shared.ts) := by
    rw [t.l_sw, w1, List.length_map, hlen]
    exact Nat.mul_div_assoc _ hj.step.2
  have hl' : ys.length = 1440 / j.shared.ts := by
    have := congrArg List.length b3
    rw [List.length_map, List.length_take, List.length_drop, hl] at this
    rw [← this]
    apply min_eq_left
    have : (k + 1) * (1440 / j.shared.ts) ≤ j.n * (1440 / j.shared.ts) := Nat.mul_le_mul_right _ hk
    rw [Nat.add_mul, Nat.one_mul] at this
    omega
  have hat : ∀ i < 1440 / j.shared.ts, t.sw[k * (1440 / j.shared.ts) + i]? = some (fin (ys.getD i 0)) := by
    intro i hi
    have : ((t.sw.drop (k * (1440 / j.shared.ts))).take (1440 / j.shared.ts))[i]? = some (fin (ys.getD i 0)) := by
      rw [b3, List.getElem?_map, List.getElem?_eq_getElem (by omega)]
      simp [List.getD_eq_getElem?_getD, List.getElem?_eq_getElem (show i < ys.length by omega)]
    rw [List.getElem?_take_of_lt hi, List.getElem?_drop] at this
    exact this
  refine ⟨fun i => ys.getD i 0, ?_, ?_⟩
  · intro i hi
    have hx := shortwave_ident (a3 k hk i hi)
    have ecol : col = fillBoth t.sw := by
      have : subColumn t.sub "shortwave" = .ok (fillBoth t.sw) := rfl
      rw [this] at a1
      exact (Except.ok.inj a1).symm
    rw [ecol, List.getD_eq_getElem?_getD, fillBoth_keep (hat i hi), Option.getD_some] at hx
    exact hx
  · rw [← hl', sum_getD, b4]
    congr 1

/-- The value written for a day. -/
theorem written_shortwave_daily (j : Job) (hj : j.Sane) (fuel : Nat) (order : List (Dict String Chunk.Slice))
    (ho : j.Schedule order) (files : Run.Files Output) (hrun : j.run fuel order = .ok files) (hday : j.shared.ts = 1440)
    (c : Run.Cell) (hc : j.Computed c) (u : String) (hu : j.shared.outVars.get? "shortwave" = some u) :
    ∃ elev lat lon, (j.inp c).elev = fin elev ∧ (j.inp c).lat = fin lat ∧ (j.inp c).lon = fin lon ∧
    ∃ q : Common fuel j.shared elev lat lon (j.inp c).data, ∃ val, Recorded j files "shortwave" c val ∧
      ∀ k < j.n, ∃ sw g, Dict.get? q.base "shortwave" = some sw ∧ q.geom[doy (j.d0 + k) - 1]? = some g ∧
        val (j.stamp k 0) = sw k * fin (g.daylength / 86400) := by
  obtain ⟨elev, lat, lon, e1, e2, e3, q, rep, hr, hcol⟩ := written_daily j hj ho hrun hday hc
  obtain ⟨col, val, a1, a2, a3⟩ := hcol "shortwave" u hu
  refine ⟨elev, lat, lon, e1, e2, e3, q, val, a2, ?_⟩
  intro k hk
  obtain ⟨g, dl, d1, d2, d3⟩ := base_daylength q (days_getElem j hj c hk)
  unfold dailyShortwave at hr
  simp only [bind_ok, Dict.get_ok, pure_ok] at hr
  obtain ⟨sw, k1, dl', k2, rfl⟩ := hr
  rw [d2] at k2
  obtain rfl := Option.some.inj k2
  refine ⟨sw, g, k1, d1, ?_⟩
  have b1 := shortwave_ident (a3 k hk)
  rw [Dict.get?_set_self] at a1
  obtain rfl := Option.some.inj a1
  have h86 : ((Cnst.SEC_PER_DAY : ℕ) : ℝ) = 86400 := by norm_num [Cnst.SEC_PER_DAY]
  rw [b1]
  show sw k * (dl k / _) = _
  rw [d3, h86, div_fin_ne (by norm_num)]

/-- The fractions of a day. -/
theorem day_fractions {elev lat lr : ℝ} (h90 : |lat| ≤ 90) {geom : List Solar.DayGeom}
    (hg : Solar.solarGeom elev lat lr = .ok geom) {d : Int} {g : Solar.DayGeom} (h : geom[doy d - 1]? = some g) :
    |g.daylength - daylight lat d| ≤ 0.001 ∧ 0 ≤ g.daylength ∧ ∑ i ∈ Finset.range 2880, g.fract i ≤ 1 ∧
      (g.daylength < 86400 → g.daylength ≠ 0 → ∑ i ∈ Finset.range 2880, g.fract i = 1) := by
  obtain ⟨tr, htr, hday⟩ := solarGeom_row hg h
  obtain ⟨f1, f2, f3, f4⟩ := C44_fractions_partial elev lat lr tr _ g h90 htr hday
  have hpos : 0 ≤ g.daylength ∧ g.daylength ≤ 86400 := by
    have := Solar.solarDay_row hday (latRad_lt h90)
    by_cases h0 : g.daylength = 0
    · rw [h0]; norm_num
    · rcases this.shape h0 with ⟨u, u1, u2, -, u3, -⟩ | ⟨u1, -⟩
      · rw [u3]; constructor <;> linarith
      · rw [u1]; norm_num
  refine ⟨(C73_insolation elev lat lr h90 _ hg _ g h).1, hpos.1, ?_, fun h1 h0 => f2 (lt_of_le_of_ne hpos.1 (Ne.symm h0)) h1⟩
  rcases eq_or_lt_of_le hpos.1 with h | h
  · rw [f4 h.symm]; exact zero_le_one
  · rcases eq_or_lt_of_le hpos.2 with h2 | h2
    · exact f3 h2
    · exact (f2 h h2).le

/-- **C76** as listed: step by step or day by day, the same radiation is written. -/
def C76_full : Prop := ∀ (j j' : Job), j.Sane → j'.Sane → DailyRunOf j j' → ∀ (fuel fuel' : Nat)
  (order order' : List (Dict String Chunk.Slice)), j.Schedule order → j'.Schedule order' →
  ∀ files files', j.run fuel order = .ok files → j'.run fuel' order' = .ok files' →
  j.shared.ts < 1440 → j.shared.utcOffset = false → ∀ c, j.Computed c → j'.Computed c →
  ∀ u u', j.shared.outVars.get? "shortwave" = some u → j'.shared.outVars.get? "shortwave" = some u' →
  ∃ val val', Recorded j files "shortwave" c val ∧ Recorded j' files' "shortwave" c val' ∧
    ∀ k < j.n, ∀ x, val' (j'.stamp k 0) = fin x →
      ∃ flux : ℕ → ℝ, (∀ i < 1440 / j.shared.ts, val (j.stamp k i) = fin (flux i)) ∧
        (∑ i ∈ Finset.range (1440 / j.shared.ts), flux i) / (1440 / j.shared.ts : ℕ) = x

/-- **C76 (partial)**: the shortwave radiation a run writes step by step has, on each day, the daily mean that the same run
writes when its output is daily; on days without night it is at most that.  Missing: passed-through radiation for which
`sw_averaging` is not `daylight` (see `C76_refuted`), and equality on days without night. -/
theorem C76_shortwave_partial (j j' : Job) (hj : j.Sane) (hj' : j'.Sane) (hd : DailyRunOf j j') (fuel fuel' : Nat)
    (order order' : List (Dict String Chunk.Slice)) (ho : j.Schedule order) (ho' : j'.Schedule order')
    (files files' : Run.Files Output) (hrun : j.run fuel order = .ok files) (hrun' : j'.run fuel' order' = .ok files')
    (hsub : j.shared.ts < 1440) (hutc : j.shared.utcOffset = false)
    (hm : j.shared.method = .mtclim ∨ j.shared.swAveraging = "daylight") (c : Run.Cell) (hc : j.Computed c)
    (hc' : j'.Computed c) (u u' : String) (hu : j.shared.outVars.get? "shortwave" = some u)
    (hu' : j'.shared.outVars.get? "shortwave" = some u') (lat : ℝ) (hlat : (j.inp c).lat = fin lat) (h90 : |lat| ≤ 90) :
    ∃ val val', Recorded j files "shortwave" c val ∧ Recorded j' files' "shortwave" c val' ∧
      ∀ k < j.n, ∀ x, val' (j'.stamp k 0) = fin x →
        ∃ flux : ℕ → ℝ, (∀ i < 1440 / j.shared.ts, val (j.stamp k i) = fin (flux i)) ∧
          (daylight lat (j.d0 + k) ≤ 86399 →
            (∑ i ∈ Finset.range (1440 / j.shared.ts), flux i) / (1440 / j.shared.ts : ℕ) = x) ∧
          (0 ≤ x → (∑ i ∈ Finset.range (1440 / j.shared.ts), flux i) / (1440 / j.shared.ts : ℕ) ≤ x) := by
  obtain ⟨elev, lat0, lon, e1, e2, e3, q, val, r1, r2⟩ := written_shortwave j hj fuel order ho files hrun hsub hutc c hc u hu
  obtain ⟨elev', lat', lon', e1', e2', e3', q', val', r1', r2'⟩ :=
    written_shortwave_daily j' hj' fuel' order' ho' files' hrun' hd.ts c hc' u' hu'
  obtain rfl : lat0 = lat := by rw [e2] at hlat; exact Flt.fin.inj hlat
  rw [hd.inp] at e1' e2'
  obtain rfl : elev = elev' := by rw [e1] at e1'; exact Flt.fin.inj e1'
  obtain rfl : lat0 = lat' := by rw [e2] at e2'; exact Flt.fin.inj e2'
  obtain ⟨cal, pe, ov, hsh⟩ := hd.shared
  obtain ⟨g1, g2, g3⟩ : q'.geom = q.geom ∧ q'.rows = q.rows ∧ q'.base = q.base := by
    have key : ∀ (d : Data) (_ : d = (j.inp c).data) (q' : Common fuel' j'.shared elev lat0 lon' d),
        q'.geom = q.geom ∧ q'.rows = q.rows ∧ q'.base = q.base := by
      rintro d rfl q'
      exact common_unique q q' (by rw [hsh]) (by rw [hsh]) (by rw [hsh]; rfl)
    exact key _ (by rw [hd.inp]) q'
  refine ⟨val, val', r1, r1', ?_⟩
  intro k hk x hx
  obtain ⟨sw, g, s1, s2, s3⟩ := r2' k (by rw [hd.n]; exact hk)
  rw [g3] at s1
  rw [g1, hd.d0] at s2
  rw [hx] at s3
  obtain ⟨a, ha⟩ : ∃ a, sw k = fin a := by
    cases h : sw k with
    | nan => rw [h] at s3; simp at s3
    | fin a => exact ⟨a, rfl⟩
  have hxa : x = a * (g.daylength / 86400) := by
    rw [ha, mul_fin] at s3
    exact Flt.fin.inj s3
  obtain ⟨flux, f1, f2⟩ := r2 k hk sw a g s1 ha s2
  refine ⟨flux, f1, ?_⟩
  rw [f2, show averagedOver j.shared g = g.daylength from if_neg (by
    rintro ⟨h1, h2⟩
    rcases hm with h | h
    · rw [h] at h1; cases h1
    · exact h2 h), ← hxa]
  obtain ⟨hb, h0, hle, hone⟩ := day_fractions h90 q.h_geom s2
  constructor
  · intro hlit
    have hlt : g.daylength < 86400 := by
      have := (abs_le.1 hb).2
      linarith
    by_cases h : g.daylength = 0
    · rw [hxa, h]; ring
    · rw [hone hlt h]; ring
  · intro hx0
    nlinarith

/-- **C76**: passed-through radiation that is not an average over daylight is written, step by step, with the mean the forcing
has, on every day with both light and night. -/
theorem C76_passthrough (j : Job) (hj : j.Sane) (fuel : Nat) (order : List (Dict String Chunk.Slice)) (ho : j.Schedule order)
    (files : Run.Files Output) (hrun : j.run fuel order = .ok files) (hsub : j.shared.ts < 1440)
    (hutc : j.shared.utcOffset = false) (hm : j.shared.method = .passthrough) (hs : j.shared.swAveraging ≠ "daylight")
    (c : Run.Cell) (hc : j.Computed c) (u : String) (hu : j.shared.outVars.get? "shortwave" = some u) (lat : ℝ)
    (hlat : (j.inp c).lat = fin lat) (h90 : |lat| ≤ 90) (sw : Col)
    (hsw : Dict.get? (j.inp c).data.frame "shortwave" = some sw) :
    ∃ val, Recorded j files "shortwave" c val ∧ ∀ k < j.n, ∀ a, sw k = fin a →
      ∃ flux : ℕ → ℝ, (∀ i < 1440 / j.shared.ts, val (j.stamp k i) = fin (flux i)) ∧
        (1 ≤ daylight lat (j.d0 + k) → daylight lat (j.d0 + k) ≤ 86399 →
          (∑ i ∈ Finset.range (1440 / j.shared.ts), flux i) / (1440 / j.shared.ts : ℕ) = a) := by
  obtain ⟨elev, lat0, lon, e1, e2, e3, q, val, r1, r2⟩ := written_shortwave j hj fuel order ho files hrun hsub hutc c hc u hu
  obtain rfl : lat0 = lat := by rw [e2] at hlat; exact Flt.fin.inj hlat
  refine ⟨val, r1, ?_⟩
  intro k hk a ha
  obtain ⟨g, dl, d1, -, -⟩ := base_daylength q (days_getElem j hj c hk)
  have hbase : Dict.get? q.base "shortwave" = some sw := by
    have hb := q.h_base
    unfold runMethod at hb
    rw [hm] at hb
    simp only at hb
    refine ((C42_passthrough_partial _ _).2 _ hb).1 "shortwave" sw ?_ (fun h => absurd h (by decide))
    rw [withGeom_keeps _ _ (by decide)]
    exact hsw
  obtain ⟨flux, f1, f2⟩ := r2 k hk sw a g hbase ha d1
  refine ⟨flux, f1, ?_⟩
  intro hl1 hl2
  rw [f2, show averagedOver j.shared g = 86400 from if_pos ⟨hm, hs⟩]
  obtain ⟨hb, h0, hle, hone⟩ := day_fractions h90 q.h_geom d1
  have hb' := abs_le.1 hb
  rw [hone (by linarith [hb'.2]) (by intro h; rw [h] at hb'; linarith [hb'.1])]
  ring

/-- One cell on the equator that receives 200 W/m2 on average, with steps of `ts` minutes. -/
noncomputable def equator (ts : Nat) : Job :=
  { demo .passthrough with
    shared := { (demo .passthrough).shared with ts := ts, swAveraging := "day", outVars := [("shortwave", "W m-2")] }
    inp := fun c => { (demo .passthrough).inp c with lat := fin 0 } }

theorem equator_sane (ts : Nat) (hts : ts = 720 ∨ ts = 1440) : (equator ts).Sane where
  step := by rcases hts with rfl | rfl <;> exact ⟨by decide, by decide⟩
  pos := (demo_sane .passthrough).pos
  calendar := regular_standard _ _
  data := (demo_sane .passthrough).data
  freq := (demo_sane .passthrough).freq
  years := by
    intro T h t ht
    rcases hts with rfl | rfl
    · have e : Times.outputTimes (equator 720).shared.cfg (consecutive 0 2) = .ok [0, 720, 1440, 2160] := by
        show Times.outputTimes ⟨720, "standard", false⟩ (consecutive 0 2) = _
        decide +kernel
      have h' : Times.outputTimes (equator 720).shared.cfg (consecutive 0 2) = .ok T := h
      rw [e] at h'
      injection h' with h'
      subst h'
      revert t
      decide +kernel
    · have e : Times.outputTimes (equator 1440).shared.cfg (consecutive 0 2) = .ok [0, 1440] := by
        show Times.outputTimes ⟨1440, "standard", false⟩ (consecutive 0 2) = _
        decide +kernel
      have h' : Times.outputTimes (equator 1440).shared.cfg (consecutive 0 2) = .ok T := h
      rw [e] at h'
      injection h' with h'
      subst h'
      revert t
      decide +kernel
  vars := by
    show (Dict.keys [("shortwave", "W m-2")]).Nodup
    decide
  names := by
    show ((Dict.keys [("shortwave", "W m-2")]).map (demo .passthrough).names).Nodup
    simp [Dict.keys]
  dims := (demo_sane .passthrough).dims
  dims_pos := (demo_sane .passthrough).dims_pos
  chunks := (demo_sane .passthrough).chunks
  chunks_pos := (demo_sane .passthrough).chunks_pos
  same := (demo_sane .passthrough).same

theorem equator_complete (ts : Nat) (c : Run.Cell) : CompleteCell (equator ts).shared 2 ((equator ts).inp c) :=
  { demo_complete .passthrough c with
    place := ⟨100, 0, -120, rfl, rfl, rfl, by norm_num, by unfold equator demo; norm_num⟩ }

theorem equator_runs (ts : Nat) (hts : ts = 720 ∨ ts = 1440) : ∃ order files, (equator ts).Schedule order ∧
    (equator ts).run 0 order = .ok files := by
  obtain ⟨files, h⟩ := (C71_run (equator ts) (equator_sane ts hts) 0 [[("lat", none), ("lon", none)]]
    ⟨_, rfl, List.Perm.refl _⟩ (fun c _ => equator_complete ts c) (fun h => by cases h)).2 (by
      intro c _ q hq
      have hq : q = ("shortwave", "W m-2") := by simpa [equator] using hq
      subst hq
      refine ⟨?_, _, _, rfl, rfl⟩
      unfold Offers
      split
      · exact Or.inl (by decide)
      · exact Or.inl (by decide))
  exact ⟨_, files, ⟨_, rfl, List.Perm.refl _⟩, h⟩

theorem equator_daylight (d : Int) : daylight 0 d = 43200 := by
  unfold daylight Spec.sunset Spec.radians
  simp only [zero_mul, Real.tan_zero, neg_zero]
  rw [max_eq_left (by norm_num), min_eq_left (by norm_num), Real.arccos_zero]
  have := Real.pi_pos
  field_simp
  norm_num

/-- **C76**: a 24-hour mean of 200 W/m2 is written as about 100 W/m2 when output is daily. -/
theorem C76_refuted : ¬ C76_full := by
  intro h
  have s1 : 720 = 720 ∨ 720 = 1440 := Or.inl rfl
  have s2 : 1440 = 720 ∨ 1440 = 1440 := Or.inr rfl
  obtain ⟨o1, f1, q1, r1⟩ := equator_runs 720 s1
  obtain ⟨o2, f2, q2, r2⟩ := equator_runs 1440 s2
  have hc : (equator 720).Computed [0, 0] := ⟨by unfold equator demo; decide, 1, rfl, one_pos⟩
  have hc' : (equator 1440).Computed [0, 0] := ⟨by unfold equator demo; decide, 1, rfl, one_pos⟩
  have hlt : (equator 720).shared.ts < 1440 := by unfold equator; decide
  obtain ⟨val, val', k1, k2, k3⟩ := h (equator 720) (equator 1440) (equator_sane _ s1) (equator_sane _ s2)
    ⟨rfl, ⟨_, _, _, rfl⟩, rfl, rfl, rfl⟩ 0 0 o1 o2 q1 q2 f1 f2 r1 r2 hlt rfl [0, 0] hc hc' "W m-2" "W m-2" rfl rfl
  obtain ⟨elev, lat, lon, e1, e2, e3, q, w', t1, t2⟩ := written_shortwave_daily (equator 1440) (equator_sane _ s2) 0 o2 q2 f2 r2
    rfl [0, 0] hc' "W m-2" rfl
  obtain rfl : (0 : ℝ) = lat := Flt.fin.inj e2
  obtain ⟨sw, g, m1, m2, m3⟩ := t2 0 (by unfold equator demo; decide)
  have hsw : sw = fun _ => fin 200 := by
    have hb : passthroughRun (withGeom q.rows ((equator 1440).inp [0, 0]).data.frame) ((equator 1440).shared.daily elev) =
        .ok q.base := q.h_base
    have := ((C42_passthrough_partial _ _).2 _ hb).1 "shortwave" (fun _ => fin 200)
      (by rw [withGeom_keeps _ _ (by decide)]; rfl) (fun h => absurd h (by decide))
    rw [m1] at this
    exact Option.some.inj this
  have hb := abs_le.1 (day_fractions (by norm_num) q.h_geom m2).1
  rw [equator_daylight] at hb
  have hx : val' ((equator 1440).stamp 0 0) = fin (200 * (g.daylength / 86400)) := by
    rw [recorded_unique _ (equator_sane _ s2) k2 t1 (by unfold equator demo; decide) (by unfold equator; decide), m3, hsw]
    rfl
  obtain ⟨flux, n1, n2⟩ := k3 0 (by unfold equator demo; decide) _ hx
  obtain ⟨v, p1, p2⟩ := C76_passthrough (equator 720) (equator_sane _ s1) 0 o1 q1 f1 r1 hlt rfl rfl
    (by unfold equator; decide) [0, 0] hc "W m-2" rfl 0 rfl (by norm_num) (fun _ => fin 200) rfl
  obtain ⟨flux', p3, p4⟩ := p2 0 (by unfold equator demo; decide) 200 rfl
  rw [equator_daylight] at p4
  have p5 := p4 (by norm_num) (by norm_num)
  have hff : ∑ i ∈ Finset.range (1440 / (equator 720).shared.ts), flux i =
      ∑ i ∈ Finset.range (1440 / (equator 720).shared.ts), flux' i := by
    refine Finset.sum_congr rfl fun i hi => ?_
    have hi := Finset.mem_range.1 hi
    have := recorded_unique _ (equator_sane _ s1) k1 p1 (k := 0) (by unfold equator demo; decide) hi
    rw [n1 i hi, p3 i hi] at this
    exact Flt.fin.inj this
  rw [hff, p5] at n2
  linarith [hb.1, hb.2]

/-- **C76**: runs at noon and midnight, and daily, of radiation averaged over daylight. -/
example : ∃ order files, (equator 720).Schedule order ∧ (equator 720).run 0 order = .ok files ∧
    (equator 720).Computed [0, 0] ∧ DailyRunOf (equator 720) (equator 1440) := by
  obtain ⟨o, f, h1, h2⟩ := equator_runs 720 (Or.inl rfl)
  exact ⟨o, f, h1, h2, ⟨by unfold equator demo; decide, 1, rfl, one_pos⟩, ⟨rfl, ⟨_, _, _, rfl⟩, rfl, rfl, rfl⟩⟩

end C76

end Verif.Props
