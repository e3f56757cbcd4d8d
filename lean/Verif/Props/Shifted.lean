import Verif.Props.Steps

/-!
# Universal time is local time, whole steps later: C137
-/

namespace Verif.Props

open Flt Physics Methods Cell Np
open Disaggregate (Par nDisagg windOf)
open Solar (DayGeom)

/-- The same job in local time. -/
def Job.inLocal (j : Job) : Job := { j with shared := { j.shared with utcOffset := false } }

/-! ## Filling gaps at either end -/

/-- Two windows onto one series that is defined on a stretch of its steps: if some defined step is seen through both, the gaps
at the ends are filled alike. -/
theorem fill_shift {xs ys : List (Flt ℝ)} {N : ℕ} {q : ℤ} (hx : xs.length = N) (hy : ys.length = N) {F : ℤ → Prop}
    (hconv : ∀ a b c, F a → F c → a ≤ b → b ≤ c → F b) (hxF : ∀ i < N, (∃ v, xs[i]? = some (fin v)) ↔ F i)
    (hyF : ∀ i < N, (∃ v, ys[i]? = some (fin v)) ↔ F (i + q))
    (heq : ∀ i i' : ℕ, (i' : ℤ) = i + q → i < N → i' < N → ys[i]? = xs[i']?) {c : ℤ} (hc : F c) (c0 : 0 ≤ c) (c1 : c < N)
    (c2 : 0 ≤ c - q) (c3 : c - q < N) {i i' : ℕ} (hii : (i' : ℤ) = i + q) (hi : i < N) (hi' : i' < N) :
    (fillBoth ys)[i]? = (fillBoth xs)[i']? := by
  obtain ⟨a, ha⟩ : ∃ a, (fillBoth ys)[i]? = some a := ⟨_, List.getElem?_eq_getElem (by rw [length_fillBoth]; omega)⟩
  obtain ⟨b, hb⟩ : ∃ b, (fillBoth xs)[i']? = some b := ⟨_, List.getElem?_eq_getElem (by rw [length_fillBoth]; omega)⟩
  have inx : ∀ {j : ℕ} {v : ℝ}, xs[j]? = some (fin v) → j < N ∧ F j := fun {j v} h => by
    have hj : j < N := by have := (List.getElem?_eq_some_iff.1 h).1; omega
    exact ⟨hj, (hxF j hj).1 ⟨v, h⟩⟩
  have iny : ∀ {j : ℕ} {v : ℝ}, ys[j]? = some (fin v) → j < N ∧ F (j + q) := fun {j v} h => by
    have hj : j < N := by have := (List.getElem?_eq_some_iff.1 h).1; omega
    exact ⟨hj, (hyF j hj).1 ⟨v, h⟩⟩
  have nox : ∀ {j : ℕ}, xs[j]? = some nan → j < N → ¬ F j := fun {j} h hj hF => by
    obtain ⟨v, hv⟩ := (hxF j hj).2 hF
    rw [h] at hv; cases hv
  have noy : ∀ {j : ℕ}, ys[j]? = some nan → j < N → ¬ F (j + q) := fun {j} h hj hF => by
    obtain ⟨v, hv⟩ := (hyF j hj).2 hF
    rw [h] at hv; cases hv
  by_cases hF : F i'
  · obtain ⟨v, hv⟩ := (hxF i' hi').2 hF
    rw [fillBoth_keep hv, fillBoth_keep ((heq i i' hii hi hi').trans hv)]
  have hcx : ∃ v, xs[c.toNat]? = some (fin v) := (hxF c.toNat (by omega)).2 (by rwa [Int.toNat_of_nonneg c0])
  have hcy : ∃ v, ys[(c - q).toNat]? = some (fin v) :=
    (hyF (c - q).toNat (by omega)).2 (by rwa [Int.toNat_of_nonneg c2, sub_add_cancel])
  obtain ⟨vx, hvx⟩ := hcx
  obtain ⟨vy, hvy⟩ := hcy
  rw [ha, hb]
  congr 1
  rcases lt_or_ge (i' : ℤ) c with hlt | hge
  · -- before
    have before : ∀ g, F g → (i' : ℤ) < g := fun g hg => by
      by_contra h
      exact hF (hconv g i' c hg hc (by omega) hlt.le)
    rcases fillBoth_spec ha with ⟨j, w, hj, h1, -, -⟩ | ⟨j, w, hj, h1, h2, h3⟩ | ⟨-, h⟩
    · have := before _ (iny h1).2
      omega
    · rcases fillBoth_spec hb with ⟨j', w', hj', g1, -, -⟩ | ⟨j', w', hj', g1, g2, g3⟩ | ⟨-, g⟩
      · have := before _ (inx g1).2
        omega
      · have e : (j' : ℤ) = j + q := by
          obtain ⟨p1, p2⟩ := iny h1
          obtain ⟨r1, r2⟩ := inx g1
          rcases lt_trichotomy (j' : ℤ) (j + q) with h | h | h
          · exfalso
            have e1 : (((j' - q : ℤ).toNat : ℕ) : ℤ) = j' - q := Int.toNat_of_nonneg (by omega)
            refine noy (h3 (j' - q : ℤ).toNat (by omega)) (by omega) ?_
            rwa [e1, sub_add_cancel]
          · exact h
          · exfalso
            have e1 : (((j + q : ℤ).toNat : ℕ) : ℤ) = j + q := Int.toNat_of_nonneg (by omega)
            refine nox (g3 (j + q : ℤ).toNat (by omega)) (by omega) ?_
            rwa [e1]
        have := heq j j' e (iny h1).1 (inx g1).1
        rw [h1, g1] at this
        rw [h2, g2, Option.some.inj this]
      · exact absurd (g _ (List.mem_of_getElem? hvx)) (by simp)
    · exact absurd (h _ (List.mem_of_getElem? hvy)) (by simp)
  · -- after
    have after : ∀ g, F g → g < (i' : ℤ) := fun g hg => by
      by_contra h
      exact hF (hconv c i' g hc hg hge (by omega))
    rcases fillBoth_spec ha with ⟨j, w, hj, h1, h2, h3⟩ | ⟨j, w, hj, h1, -, -⟩ | ⟨-, h⟩
    · rcases fillBoth_spec hb with ⟨j', w', hj', g1, g2, g3⟩ | ⟨j', w', hj', g1, -, -⟩ | ⟨-, g⟩
      · have e : (j' : ℤ) = j + q := by
          obtain ⟨p1, p2⟩ := iny h1
          obtain ⟨r1, r2⟩ := inx g1
          have p3 := after _ p2
          have r3 := after _ r2
          rcases lt_trichotomy (j' : ℤ) (j + q) with h | h | h
          · exfalso
            have e1 : (((j + q : ℤ).toNat : ℕ) : ℤ) = j + q := Int.toNat_of_nonneg (by omega)
            refine nox (g3 (j + q : ℤ).toNat (by omega) (by omega)) (by omega) ?_
            rwa [e1]
          · exact h
          · exfalso
            have e1 : (((j' - q : ℤ).toNat : ℕ) : ℤ) = j' - q := Int.toNat_of_nonneg (by omega)
            refine noy (h3 (j' - q : ℤ).toNat (by omega) (by omega)) (by omega) ?_
            rwa [e1, sub_add_cancel]
        have := heq j j' e (iny h1).1 (inx g1).1
        rw [h1, g1] at this
        rw [h2, g2, Option.some.inj this]
      · have := after _ (inx g1).2
        omega
      · exact absurd (g _ (List.mem_of_getElem? hvx)) (by simp)
    · have := after _ (iny h1).2
      omega
    · exact absurd (h _ (List.mem_of_getElem? hvy)) (by simp)

/-! ## The clock of the extremes -/

/-- In local time the extremes come later by the shift. -/
theorem minMax_local {p : Disagg.HourParams ℝ} {table : List (Nat → ℝ)} {yday : List Nat} {out out' : List (ℝ × ℝ)}
    (h : Disagg.setMinMaxHour p table yday = .ok out)
    (h' : Disagg.setMinMaxHour { p with utcOffset := false } table yday = .ok out') :
    out' = out.map fun q => (q.1 + (Disagg.utcShift p : ℝ), q.2 + (Disagg.utcShift p : ℝ)) := by
  unfold Disagg.setMinMaxHour at h h'
  obtain ⟨l, f⟩ := mapM_range_ok h
  obtain ⟨l', f'⟩ := mapM_range_ok h'
  apply List.ext_getElem?
  intro i
  by_cases hi : i < yday.length
  · have e := f i _ (List.getElem?_eq_getElem (by omega))
    have e' := f' i _ (List.getElem?_eq_getElem (by omega))
    rw [List.getElem?_map, List.getElem?_eq_getElem (by omega), List.getElem?_eq_getElem (by omega), Option.map_some]
    congr 1
    split at e
    · rename_i row hr
      rw [hr] at e'
      simp only at e'
      have z : Disagg.utcShift { p with utcOffset := false } = 0 := by unfold Disagg.utcShift; simp
      rw [← Except.ok.inj e, ← Except.ok.inj e', minMaxTime_eq, minMaxTime_eq, z]
      simp only [Prod.mk.injEq, Int.cast_zero]
      constructor <;> ring
    · cases e
  · rw [List.getElem?_eq_none (by omega), List.getElem?_eq_none (by rw [List.length_map]; omega)]

theorem riseTime_mem (row : Nat → ℝ) : 0 < Disagg.riseTime row ∧ Disagg.riseTime row < 1440 := by
  rw [Disagg.riseTime_eq]
  split
  · norm_num
  · rename_i h
    have h1 : Disagg.lastRise row < 2880 := by
      unfold Disagg.lastRise
      rcases hl : ((List.range (Disagg.slotsPerDay - 1)).filter fun j => decide (¬ 0 < row j ∧ 0 < row (j + 1))).getLast? with _ | a
      · rw [List.getLastD_eq_getLast?, hl]; norm_num
      · have := List.mem_range.1 (List.mem_filter.1 (List.mem_of_getLast? hl)).1
        rw [List.getLastD_eq_getLast?, hl]
        have e : Disagg.slotsPerDay = 2880 := by decide
        rw [e] at this
        simp only [Option.getD_some]
        omega
    have h0 : (0 : ℝ) < Disagg.lastRise row := by exact_mod_cast Nat.pos_of_ne_zero h
    have h2 : (Disagg.lastRise row : ℝ) < 2880 := by exact_mod_cast h1
    constructor <;> linarith

/-- The minima of a run in local time, one within each day. -/
theorem minima_local {p : Disagg.HourParams ℝ} (hp : p.utcOffset = false) {table : List (Nat → ℝ)} {yday : List Nat}
    {out : List (ℝ × ℝ)} (h : Disagg.setMinMaxHour p table yday = .ok out) : out.length = yday.length ∧
      ∀ i < yday.length, ∃ r, 0 < r ∧ r < 1440 ∧ (out.map (·.1)).getD i 0 = 1440 * i + r - p.ts := by
  unfold Disagg.setMinMaxHour at h
  obtain ⟨l, f⟩ := mapM_range_ok h
  refine ⟨l, fun i hi => ?_⟩
  have e := f i _ (List.getElem?_eq_getElem (by omega))
  split at e
  · rename_i row hr
    have z : Disagg.utcShift p = 0 := by unfold Disagg.utcShift; simp [hp]
    refine ⟨Disagg.riseTime row, (riseTime_mem row).1, (riseTime_mem row).2, ?_⟩
    rw [List.getD_eq_getElem?_getD, List.getElem?_map, List.getElem?_eq_getElem (by omega), ← Except.ok.inj e, minMaxTime_eq, z]
    simp only [Option.map_some, Option.getD_some, Int.cast_zero]
    ring
  · cases e

/-! ## Rolled series -/

theorem rolled_row {xs : List (Flt ℝ)} {ts : ℕ} {q : ℤ} {i i' : ℕ} (hii : (i' : ℤ) = i + q) (hi : i * ts + ts ≤ xs.length)
    (hi' : i' * ts + ts ≤ xs.length) : ((roll xs (-(q * ts))).drop (i * ts)).take ts = (xs.drop (i' * ts)).take ts := by
  apply List.ext_getElem?
  intro m
  rw [List.getElem?_take, List.getElem?_take]
  split
  · rename_i hm
    rw [List.getElem?_drop, List.getElem?_drop, getElem?_roll xs (q * ts) (by omega)]
    congr 1
    have e : ((i * ts + m : ℕ) : ℤ) + q * ts = ((i' * ts + m : ℕ) : ℤ) := by
      push_cast
      rw [hii]; ring
    rw [e, Int.emod_eq_of_lt (by positivity) (by exact_mod_cast (by omega : i' * ts + m < xs.length)), Int.toNat_natCast]
  · rfl

theorem wind_shift {xs out out' : List (Flt ℝ)} {ts : ℕ} {lon lon' : ℝ} {q : ℤ} (h : Disagg.wind xs ts true lon = .ok out)
    (h' : Disagg.wind xs ts false lon' = .ok out') (hq : minutesOf lon = q * ts) {i i' : ℕ} (hii : (i' : ℤ) = i + q)
    (hi : i < out.length) (hi' : i' < out'.length) : out[i]? = out'[i']? := by
  unfold Disagg.wind at h h'
  simp only [bind_ok, pure_ok, reshape_ok] at h h'
  obtain ⟨S, ⟨h1, h2, rfl⟩, rfl⟩ := h
  obtain ⟨S', ⟨h1', h2', rfl⟩, rfl⟩ := h'
  rw [offsetMin_eq, hq] at *
  simp only [if_true, Bool.false_eq_true, if_false] at *
  generalize repeatEach xs Cnst.MIN_PER_DAY = sd at *
  rw [length_roll] at h2
  have hle : ∀ {k : ℕ}, k < sd.length / ts → k * ts + ts ≤ sd.length := fun {k} hk => by
    have := Nat.mul_le_mul_right ts hk
    rw [Nat.div_mul_cancel h2] at this
    calc k * ts + ts = (k + 1) * ts := by ring
      _ ≤ _ := this
  rw [List.length_map, length_rows] at hi hi'
  rw [List.getElem?_map, List.getElem?_map, getElem?_rows hi, getElem?_rows hi']
  rw [length_roll] at hi
  rw [rolled_row hii (hle hi) (hle hi')]

theorem prec_shift {xs tmin out out' : List (Flt ℝ)} {ts : ℕ} {ty : String} {lon lon' : ℝ} {pk dur : Option (List (Flt ℝ))} {q : ℤ}
    (h : Disagg.prec xs tmin ts ty true lon pk dur = .ok out) (h' : Disagg.prec xs tmin ts ty false lon' pk dur = .ok out')
    (hq : minutesOf lon = q * ts) {i i' : ℕ} (hii : (i' : ℤ) = i + q) (hi : i < out.length) (hi' : i' < out'.length) :
    out[i]? = out'[i']? := by
  unfold Disagg.prec at h h'
  simp only [bind_ok, pure_ok, reshape_ok] at h h'
  obtain ⟨M, hM, S, ⟨h1, h2, rfl⟩, rfl⟩ := h
  obtain ⟨M', hM', S', ⟨h1', h2', rfl⟩, rfl⟩ := h'
  obtain rfl := Except.ok.inj (hM.symm.trans hM')
  rw [offsetMin_eq, hq] at *
  simp only [if_true, Bool.false_eq_true, if_false] at *
  rw [length_roll] at h2
  have hle : ∀ {k : ℕ}, k < M.length / ts → k * ts + ts ≤ M.length := fun {k} hk => by
    have := Nat.mul_le_mul_right ts hk
    rw [Nat.div_mul_cancel h2] at this
    calc k * ts + ts = (k + 1) * ts := by ring
      _ ≤ _ := this
  rw [List.length_map, length_rows] at hi hi'
  rw [List.getElem?_map, List.getElem?_map, getElem?_rows hi, getElem?_rows hi']
  rw [length_roll] at hi
  rw [rolled_row hii (hle hi) (hle hi')]

/-- Not above saturation, and defined if it was. -/
theorem cap_defined (v : ℝ) (x : Flt ℝ) : ∃ w, Humidity.capAtSaturation (fin v) x = fin w := by
  unfold Humidity.capAtSaturation
  simp only
  split
  · rename_i h
    cases hs : svp x / fin Cnst.MBAR_PER_BAR with
    | nan => rw [hs] at h; simp at h
    | fin w => exact ⟨w, rfl⟩
  · exact ⟨v, rfl⟩

/-- Values given for increasing times are defined in between. -/
theorem linear_defined {x : ℕ → ℝ} {y : ℕ → Flt ℝ} {n : ℕ} (hn : 2 ≤ n) (hx : ∀ a b, a < b → b < n → x a < x b)
    (hy : ∀ i < n, ∃ v, y i = fin v) (t : ℝ) : (∃ v, Interp.linear x y n t = fin v) ↔ x 0 ≤ t ∧ t ≤ x (n - 1) := by
  constructor
  · rintro ⟨v, hv⟩
    exact (Interp.linear_fin hv).2
  · rintro ⟨h1, h2⟩
    obtain ⟨j, hj, a1, a2⟩ := exists_segment x (n - 2) t h1 (by rwa [show n - 2 + 1 = n - 1 by omega])
    obtain ⟨a, ha⟩ := hy j (by omega)
    obtain ⟨b, hb⟩ := hy (j + 1) (by omega)
    exact ⟨_, Interp.linear_chord hx (by omega) a1 a2 ha hb⟩

/-! ## The two frames -/

section frames

variable {d : Disaggregate.Daily} {p : Par} {geom : List DayGeom} {tb te : Option (List (Flt ℝ))}
  (t : Trace d p geom tb te) (t' : Trace d { p with utcOffset := false } geom tb te) {q : ℤ}
  (hq : Disagg.utcShift (hours p) = q * p.ts)

include hq

theorem times_local : t'.times = t.times.map fun x => (x.1 + (q * p.ts : ℝ), x.2 + (q * p.ts : ℝ)) := by
  rw [minMax_local (p := hours p) t.h_times t'.h_times, hq]
  push_cast
  rfl

theorem temp_shift {i i' : ℕ} (hii : (i' : ℤ) = i + q) (hi : i < nDisagg d.doy.length p.ts) (hi' : i' < nDisagg d.doy.length p.ts) :
    t'.temp[i']? = t.temp[i]? := by
  refine Interp.temp_later t.h_temp t'.h_temp (times_local t t' hq) hi hi' ?_
  have : (i' : ℝ) = i + q := by exact_mod_cast hii
  show (p.ts : ℝ) * i' = _
  rw [this]; ring

theorem vp_shift {i i' : ℕ} (hii : (i' : ℤ) = i + q) (hi : i < nDisagg d.doy.length p.ts) (hi' : i' < nDisagg d.doy.length p.ts) :
    t'.vp[i']? = t.vp[i]? := by
  obtain ⟨l1, l2, l3, l4⟩ := vaporPressure_ok t.h_vp
  obtain ⟨l1', l2', l3', l4'⟩ := vaporPressure_ok t'.h_vp
  rw [List.length_map] at l2 l2'
  have e := temp_shift t t' hq hii hi hi'
  have hT : t.temp[i]? = some (t.temp[i]'(by omega)) := List.getElem?_eq_getElem _
  rw [hT] at e
  rw [l4 i (fin (t.temp[i]'(by omega))) (by rw [List.getElem?_map, hT]; rfl),
    l4' i' (fin (t.temp[i]'(by omega))) (by rw [List.getElem?_map, e]; rfl)]
  congr 2
  have : (i' : ℝ) = i + q := by exact_mod_cast hii
  show Interp.linear _ _ _ ((p.ts : ℝ) * _) = _
  rw [this, show (p.ts : ℝ) * ((i : ℝ) + q) = p.ts * i + q * p.ts by ring]
  apply Interp.linear_later
  intro i hi
  rw [times_local t t' hq, List.map_map]
  rw [List.length_map] at l1
  simp only [List.getD_eq_getElem?_getD, List.getElem?_map, List.getElem?_eq_getElem (show i < t.times.length by omega), Option.map_some,
    Option.getD_some, Function.comp]

/-- With the gaps filled. -/
theorem vp_fill_shift (hvp : ∀ x ∈ d.vaporPressure, ∃ v, x = fin v ∧ 0 ≤ v) (hn : 2 ≤ d.doy.length) (hts : p.ts ∣ 1440)
    (h0 : -1440 < q * p.ts) (h1 : q * p.ts < 1440) {i i' : ℕ} (hii : (i' : ℤ) = i + q) (hi : i < nDisagg d.doy.length p.ts)
    (hi' : i' < nDisagg d.doy.length p.ts) : (fillBoth t.vp)[i]? = (fillBoth t'.vp)[i']? := by
  obtain ⟨l1, l2, l3, l4⟩ := vaporPressure_ok t.h_vp
  obtain ⟨l1', l2', l3', l4'⟩ := vaporPressure_ok t'.h_vp
  rw [List.length_map] at l2 l2' l1 l1'
  obtain ⟨m1, m2⟩ := minima_local (p := hours { p with utcOffset := false }) rfl t'.h_times
  rw [List.length_map] at m1 m2
  have hlen : d.vaporPressure.length = d.doy.length := by rw [← m1, l1']
  have ts0 : 0 < p.ts := Nat.pos_of_ne_zero t.ts_ne
  have tsR : (0 : ℝ) < p.ts := by exact_mod_cast ts0
  have ts1 : (p.ts : ℝ) ≤ 1440 := by exact_mod_cast Nat.le_of_dvd (by norm_num) hts
  set x : ℕ → ℝ := fun j => (t'.times.map (·.1)).getD j 0 with hxdef
  have hmin : ∀ k < d.doy.length, ∃ r, 0 < r ∧ r < 1440 ∧ x k = 1440 * k + r - p.ts := m2
  have hx : ∀ a b, a < b → b < d.vaporPressure.length → x a < x b := by
    intro a b hab hb
    rw [hlen] at hb
    obtain ⟨r, r1, r2, r3⟩ := hmin a (by omega)
    obtain ⟨s, s1, s2, s3⟩ := hmin b hb
    have : (a : ℝ) + 1 ≤ b := by exact_mod_cast hab
    rw [r3, s3]
    linarith
  have hy : ∀ k < d.vaporPressure.length, ∃ v, d.vaporPressure.getD k nan / fin 1000 = fin v := by
    intro k hk
    obtain ⟨v, hv, -⟩ := hvp _ (List.getElem_mem hk)
    rw [List.getD_eq_getElem?_getD, List.getElem?_eq_getElem hk, Option.getD_some, hv, div_fin_ne (by norm_num)]
    exact ⟨_, rfl⟩
  have hlin := linear_defined (by omega) hx hy
  have hday : (1440 / p.ts) * p.ts = 1440 := Nat.div_mul_cancel hts
  have hN : nDisagg d.doy.length p.ts = d.doy.length * (1440 / p.ts) := Nat.mul_div_assoc _ hts
  have hqS : q < (1440 / p.ts : ℕ) ∧ -((1440 / p.ts : ℕ) : ℤ) < q := by
    have hd' : ((1440 / p.ts : ℕ) : ℤ) * p.ts = 1440 := by exact_mod_cast hday
    have tz : (0 : ℤ) < p.ts := by exact_mod_cast ts0
    constructor
    · by_contra h
      push Not at h
      have := mul_le_mul_of_nonneg_right h tz.le
      omega
    · by_contra h
      push Not at h
      have := mul_le_mul_of_nonneg_right h tz.le
      rw [neg_mul] at this
      omega
  have hS0 : 0 < 1440 / p.ts := Nat.div_pos (Nat.le_of_dvd (by norm_num) hts) ts0
  have hbig : 2 * (1440 / p.ts) ≤ nDisagg d.doy.length p.ts := by rw [hN]; exact Nat.mul_le_mul_right _ hn
  refine fill_shift (N := nDisagg d.doy.length p.ts) (q := q) l3' l3
    (F := fun g => x 0 ≤ p.ts * (g : ℝ) ∧ p.ts * (g : ℝ) ≤ x (d.vaporPressure.length - 1)) ?_ ?_ ?_
    (fun a a' haa ha ha' => (vp_shift t t' hq haa ha ha').symm) (c := ((1440 / p.ts : ℕ) : ℤ) - 1) ?_ (by omega) ?_ ?_ ?_ hii hi hi'
  · rintro a b c ⟨ha, -⟩ ⟨-, hc⟩ hab hbc
    have hab' : (a : ℝ) ≤ b := by exact_mod_cast hab
    have hbc' : (b : ℝ) ≤ c := by exact_mod_cast hbc
    constructor <;> nlinarith
  · intro i hi
    obtain ⟨T, hT⟩ : ∃ T, t'.temp[i]? = some T := ⟨_, List.getElem?_eq_getElem (lt_of_lt_of_eq hi l2'.symm)⟩
    rw [l4' i (fin T) (by rw [List.getElem?_map, hT]; rfl)]
    show _ ↔ x 0 ≤ p.ts * (((i : ℕ) : ℤ) : ℝ) ∧ p.ts * (((i : ℕ) : ℤ) : ℝ) ≤ _
    rw [Int.cast_natCast, ← hlin]
    constructor
    · rintro ⟨v, hv⟩
      exact cap_of_fin (Option.some.inj hv)
    · rintro ⟨v, hv⟩
      obtain ⟨w, hw⟩ := cap_defined v (fin T)
      exact ⟨w, by rw [← hw, ← hv]⟩
  · intro i hi
    obtain ⟨T, hT⟩ : ∃ T, t.temp[i]? = some T := ⟨_, List.getElem?_eq_getElem (lt_of_lt_of_eq hi l2.symm)⟩
    rw [l4 i (fin T) (by rw [List.getElem?_map, hT]; rfl)]
    rw [← hlin]
    have e : Interp.linear x (fun j => d.vaporPressure.getD j nan / fin 1000) d.vaporPressure.length (p.ts * (((i : ℤ) + q : ℤ) : ℝ)) =
        Interp.linear (fun j => (t.times.map (·.1)).getD j 0) (fun j => d.vaporPressure.getD j nan / fin 1000)
          d.vaporPressure.length (p.ts * (i : ℝ)) := by
      rw [show (p.ts : ℝ) * (((i : ℤ) + q : ℤ) : ℝ) = p.ts * i + q * p.ts by push_cast; ring]
      apply Interp.linear_later
      intro k hk
      rw [hxdef]
      simp only
      rw [times_local t t' hq, List.map_map]
      simp only [List.getD_eq_getElem?_getD, List.getElem?_map, List.getElem?_eq_getElem (show k < t.times.length by omega), Option.map_some,
        Option.getD_some, Function.comp]
    rw [e]
    constructor
    · rintro ⟨v, hv⟩
      exact cap_of_fin (Option.some.inj hv)
    · rintro ⟨v, hv⟩
      obtain ⟨w, hw⟩ := cap_defined v (fin T)
      exact ⟨w, by rw [← hw, ← hv]⟩
  · obtain ⟨r, r1, r2, r3⟩ := hmin 0 (by omega)
    obtain ⟨s, s1, s2, s3⟩ := hmin (d.doy.length - 1) (by omega)
    have e : ∀ S : ℕ, S * p.ts = 1440 → (p.ts : ℝ) * (((S : ℤ) - 1 : ℤ) : ℝ) = 1440 - p.ts := by
      intro S h
      have h' : (S : ℝ) * p.ts = 1440 := by exact_mod_cast h
      push_cast
      linarith
    have hn' : (1 : ℝ) ≤ ((d.doy.length - 1 : ℕ) : ℝ) := by exact_mod_cast (by omega : 1 ≤ d.doy.length - 1)
    show x 0 ≤ p.ts * ((((1440 / p.ts : ℕ) : ℤ) - 1 : ℤ) : ℝ) ∧ p.ts * ((((1440 / p.ts : ℕ) : ℤ) - 1 : ℤ) : ℝ) ≤ _
    rw [e _ hday, hlen, r3, s3]
    push_cast
    constructor
    · linarith
    · linarith
  · omega
  · omega
  · omega

end frames

theorem utcShift_minutes {p : Disagg.HourParams ℝ} (hu : p.utcOffset = true) :
    Disagg.utcShift p = minutesOf (p.lon - p.thetaS) := by
  rw [← offsetMin_eq]
  unfold Disagg.utcShift Disagg.offsetMin
  rw [if_pos hu]

/-- The daily values do not depend on the clock. -/
theorem base_local {fuel : Nat} {j : Job} {elev lat lon : ℝ} {d : Data} (q : Common fuel j.shared elev lat lon d)
    (q' : Common fuel j.inLocal.shared elev lat lon d) : q'.base = q.base := by
  have h1 : q'.geom = q.geom := Except.ok.inj (q'.h_geom.symm.trans q.h_geom)
  have h2 : q'.rows = q.rows := by
    have := q'.h_rows
    rw [h1] at this
    exact Except.ok.inj (this.symm.trans q.h_rows)
  have h3 := q'.h_base
  rw [h2] at h3
  exact Except.ok.inj (h3.symm.trans q.h_base)

/-! ## The two runs -/

/-! ## Solar radiation -/

/-- Sums over slots a whole number of steps later, if the table has the same fractions there. -/
theorem sw_shift {sw dl : List (Flt ℝ)} {doy : List Nat} {table : List (List ℝ)} {ts : Nat} {lon : ℝ} {out out' : List (Flt ℝ)}
    {q : ℤ} (hl : dl.length = sw.length) (h : Disagg.shortwave sw dl doy table ts true lon = .ok out)
    (h' : Disagg.shortwave sw dl doy table ts false lon = .ok out') (hts : ts ∣ 1440) (hq : slotsOf lon = q * (2 * ts))
    (hrows : ∀ r ∈ table, r.length = 2880) (hlen : table.length = 366) {k i k' i' : ℕ} (hk : k < sw.length)
    (hk' : k' < sw.length) (hi : i < 1440 / ts) (hi' : i' < 1440 / ts)
    (hlater : ((k' * (1440 / ts) + i' : ℕ) : ℤ) = (k * (1440 / ts) + i : ℕ) + q) {a : ℕ} {r : List ℝ}
    (ha : (((doy.getD k 1 - 1 : ℕ) : ℤ) + k' - k) % 366 = a) (h1 : table[a]? = some r)
    (h2 : table[doy.getD k' 1 - 1]? = some r) : out[k * (1440 / ts) + i]? = out'[k' * (1440 / ts) + i']? := by
  rw [shortwave_step hl h hk hi, shortwave_step hl h' hk' hi']
  refine congrArg some (congrArg Flt.sum (List.map_congr_left fun m hm => ?_))
  rw [List.mem_range] at hm
  have hday : (1440 / ts) * (2 * ts) = 2880 := by
    calc 1440 / ts * (2 * ts) = 1440 / ts * ts * 2 := by ring
      _ = 2880 := by rw [Nat.div_mul_cancel hts]
  have hs : i' * (2 * ts) + m < 2880 := by
    calc i' * (2 * ts) + m < (i' + 1) * (2 * ts) := by rw [Nat.add_mul]; omega
      _ ≤ 1440 / ts * (2 * ts) := Nat.mul_le_mul_right _ hi'
      _ = 2880 := hday
  have key : ((k' * 2880 + (i' * (2 * ts) + m) : ℕ) : ℤ) = ((k * 2880 + (i * (2 * ts) + m) : ℕ) : ℤ) + q * (2 * ts) := by
    rw [← hday]
    push_cast at hlater ⊢
    linear_combination (2 * (ts : ℤ)) * hlater
  have hf := length_flatten_const 2880 table hrows
  rw [hlen] at hf
  have e1 : slotDay sw.length true lon k (i * (2 * ts) + m) = slotDay sw.length false lon k' (i' * (2 * ts) + m) := by
    unfold slotDay swShift
    rw [if_pos rfl, hq, ← key]
    simp
  have e2 : slotFrac table true lon (doy.getD k 1) (i * (2 * ts) + m) =
      slotFrac table false lon (doy.getD k' 1) (i' * (2 * ts) + m) := by
    rw [slotFrac_false hrows h2 hs, ← slotFrac_false (lon := lon) (doy := a + 1) hrows h1 hs]
    unfold slotFrac swShift
    rw [if_pos rfl, hq, Nat.add_sub_cancel, hf]
    refine congrArg (fun z : ℤ => table.flatten.getD z.toNat 0) ?_
    rw [if_neg Bool.false_ne_true, add_zero]
    have : (((doy.getD k 1 - 1) * 2880 + (i * (2 * ts) + m) : ℕ) : ℤ) + q * (2 * ts) =
        ((a * 2880 + (i' * (2 * ts) + m) : ℕ) : ℤ) +
          ((366 * 2880 : ℕ) : ℤ) * ((((doy.getD k 1 - 1 : ℕ) : ℤ) + k' - k) / 366) := by
      have := Int.emod_add_mul_ediv (((doy.getD k 1 - 1 : ℕ) : ℤ) + k' - k) 366
      rw [ha] at this
      push_cast at key this ⊢
      linear_combination (-2880) * this - key
    rw [this, Int.add_mul_emod_self_left]
  rw [e1, e2]

theorem rows_length {elev lat lr : ℝ} {geom : List Solar.DayGeom} (h : Solar.solarGeom elev lat lr = .ok geom) : geom.length = 366 := by
  obtain ⟨tr, htr, h1, h2⟩ := solarGeom_ok h
  exact h1

/-- The last two rows of the tables of the sun are the same. -/
theorem last_row {elev lat lr : ℝ} {geom : List Solar.DayGeom} (h : Solar.solarGeom elev lat lr = .ok geom) : geom[365]? = geom[364]? := by
  have hl : geom.length = 366 := rows_length h
  have e : ∀ n (hn : n < geom.length), ∃ tr, Solar.trans elev lr = .ok tr ∧ Solar.solarDay tr (Solar.latRad lat) (min n 364) = .ok geom[n] :=
    fun n hn => solarGeom_row h (List.getElem?_eq_getElem hn)
  obtain ⟨t1, a1, a2⟩ := e 365 (by omega)
  obtain ⟨t2, b1, b2⟩ := e 364 (by omega)
  obtain rfl := Except.ok.inj (a1.symm.trans b1)
  rw [List.getElem?_eq_getElem (by omega), List.getElem?_eq_getElem (by omega)]
  exact congrArg some (Except.ok.inj (a2.symm.trans b2))

/-- The row of the table that a shifted step reads is that of its own day: within the year, westward, and in leap years. -/
theorem row_shift {elev lat lr : ℝ} {geom : List Solar.DayGeom} (h : Solar.solarGeom elev lat lr = .ok geom) (d : Int) {k k' : ℕ}
    (hnear : (k : ℤ) ≤ k' + 1 ∧ (k' : ℤ) ≤ k + 1) (hyear : Cal.yearOf (d + k' + 730120) = Cal.yearOf (d + k + 730120) ∨ k' ≤ k ∨
      Cal.leap (Cal.yearOf (d + k + 730120)) = true) :
    ∃ (a : ℕ) (g : Solar.DayGeom), (((Cell.doy (d + k) - 1 : ℕ) : ℤ) + k' - k) % 366 = a ∧ geom[a]? = some g ∧
      geom[Cell.doy (d + k') - 1]? = some g := by
  have hl : geom.length = 366 := rows_length h
  have hlast := last_row h
  have get : ∀ n : ℕ, n < 366 → ∃ g, geom[n]? = some g := fun n hn => ⟨_, List.getElem?_eq_getElem (by omega)⟩
  have b1 := Cal.dayOfYear_bounds (d + k + 730120)
  have b2 := Cal.dayOfYear_bounds (d + k' + 730120)
  have y1 : Cal.yearLen (Cal.yearOf (d + k + 730120)) ≤ 366 := by unfold Cal.yearLen; split <;> omega
  have y2 : Cal.yearLen (Cal.yearOf (d + k' + 730120)) ≤ 366 := by unfold Cal.yearLen; split <;> omega
  have same : Cal.yearOf (d + k' + 730120) = Cal.yearOf (d + k + 730120) →
      Cal.dayOfYear (d + k' + 730120) = Cal.dayOfYear (d + k + 730120) + k' - k := fun e => by
    unfold Cal.dayOfYear
    rw [e]
    ring
  unfold Cell.doy
  by_cases e : Cal.yearOf (d + k' + 730120) = Cal.yearOf (d + k + 730120)
  · have := same e
    obtain ⟨g, hg⟩ := get ((Cal.dayOfYear (d + k' + 730120)).toNat - 1) (by omega)
    exact ⟨_, g, by omega, hg, hg⟩
  · have hne : k ≠ k' := fun h => e (by rw [h])
    rcases Nat.lt_or_gt_of_ne hne with hlt | hgt
    · have hk : (k' : ℤ) = k + 1 := by omega
      rcases Cal.yearOf_succ (d + k + 730120) with ⟨s1, -⟩ | ⟨s1, s2, s3⟩
      · exact absurd (by rw [← s1, hk]; congr 1; ring) e
      · have hleap := (hyear.resolve_left e).resolve_left (by omega)
        have hd' : Cal.dayOfYear (d + k' + 730120) = 1 := by rw [← s2, hk]; congr 1; ring
        have : Cal.yearLen (Cal.yearOf (d + k + 730120)) = 366 := by unfold Cal.yearLen; rw [if_pos hleap]
        obtain ⟨g, hg⟩ := get 0 (by omega)
        refine ⟨0, g, by omega, hg, ?_⟩
        rw [hd']
        exact hg
    · have hk : (k : ℤ) = k' + 1 := by omega
      rcases Cal.yearOf_succ (d + k' + 730120) with ⟨s1, -⟩ | ⟨s1, s2, s3⟩
      · exact absurd (by rw [← s1, hk]; congr 1; ring) e
      · have hd' : Cal.dayOfYear (d + k + 730120) = 1 := by rw [← s2, hk]; congr 1; ring
        obtain ⟨g, hg⟩ := get 365 (by omega)
        refine ⟨365, g, by omega, hg, ?_⟩
        rw [s3]
        by_cases hleap : Cal.leap (Cal.yearOf (d + k' + 730120)) = true
        · have : Cal.yearLen (Cal.yearOf (d + k' + 730120)) = 366 := by unfold Cal.yearLen; rw [if_pos hleap]
          rw [this]; exact hg
        · have : Cal.yearLen (Cal.yearOf (d + k' + 730120)) = 365 := by unfold Cal.yearLen; rw [if_neg hleap]
          rw [this, ← hg, hlast]; rfl

section C137

variable (j : Job) (hj : j.Sane) (hj' : j.inLocal.Sane) (fuel : Nat) (order order' : List (Dict String Chunk.Slice))
  (ho : j.Schedule order) (ho' : j.inLocal.Schedule order')
  (files files' : Run.Files Output) (hrun : j.run fuel order = .ok files) (hrun' : j.inLocal.run fuel order' = .ok files')
  (hsub : j.shared.ts < 1440) (hutc : j.shared.utcOffset = true) (c : Run.Cell) (hc : j.Computed c)
  (lon : ℝ) (hlon : (j.inp c).lon = fin lon) (q : ℤ)

include hj hj' ho ho' hrun hrun' hsub hc hlon

/-- Both runs, read against the frames of the cell. -/
theorem both_local : ∃ elev lat, (j.inp c).elev = fin elev ∧ (j.inp c).lat = fin lat ∧
    ∃ (k : Common fuel j.shared elev lat lon (j.inp c).data) (daily : Disaggregate.Daily)
      (t : Trace daily (j.shared.sub elev lon) k.geom (some [(j.inp c).data.stateEnd.1, (j.inp c).data.stateEnd.2]) none)
      (t' : Trace daily { j.shared.sub elev lon with utcOffset := false } k.geom
        (some [(j.inp c).data.stateEnd.1, (j.inp c).data.stateEnd.2]) none),
      dailyOf (j.inp c).data.days k.base = .ok daily ∧ daily.doy.length = j.n ∧
      nDisagg daily.doy.length j.shared.ts = j.n * (1440 / j.shared.ts) ∧
      FrameRead j files c t.sub ∧ FrameRead j.inLocal files' c t'.sub := by
  obtain ⟨elev, lat, lon', h1, h2, h3, k, daily, t, hd, ld, hnd, hread⟩ := readout j hj ho hrun hsub hc
  obtain rfl := Flt.fin.inj (hlon.symm.trans h3)
  obtain ⟨elev', lat', lon', h1', h2', h3', k', daily', t', hd', ld', hnd', hread'⟩ :=
    readout j.inLocal hj' ho' hrun' hsub (c := c) hc
  obtain rfl := Flt.fin.inj ((show fin elev = fin elev' from h1.symm.trans h1'))
  obtain rfl := Flt.fin.inj ((show fin lat = fin lat' from h2.symm.trans h2'))
  obtain rfl := Flt.fin.inj ((show fin lon = fin lon' from hlon.symm.trans h3'))
  have hb := base_local k k'
  have hg : k'.geom = k.geom := Except.ok.inj (k'.h_geom.symm.trans k.h_geom)
  obtain ⟨geom', rows', base', axis', p1, p2, p3, p4⟩ := k'
  simp only at hb hg t' hd'
  subst hb hg
  obtain rfl := Except.ok.inj (hd.symm.trans hd')
  exact ⟨elev, lat, h1, h2, k, daily, t, t', hd, ld, hnd, hread, hread'⟩

omit hj hj' ho ho' hrun hrun' hsub hc hlon in
/-- The same value in both frames is the same value in the files. -/
theorem read_shift {sub sub' : Disaggregate.Sub} (hr : FrameRead j files c sub) (hr' : FrameRead j.inLocal files' c sub')
    {v u dflt : String} {kd : Spec.Kind} (hu : j.shared.outVars.get? v = some u) (hdf : Units.importAttrs.get? v = some dflt)
    (hkd : Spec.kindOf v = some kd) (hv : ¬ (v = "air_pressure" ∧ u = "hPa")) {out out' : List (Flt ℝ)}
    (h : subColumn sub v = .ok out) (h' : subColumn sub' v = .ok out') {k i k' i' : Nat} (hk : k < j.n)
    (hi : i < 1440 / j.shared.ts) (hk' : k' < j.n) (hi' : i' < 1440 / j.shared.ts)
    (he : out[k * (1440 / j.shared.ts) + i]? = out'[k' * (1440 / j.shared.ts) + i']?) (s : ℝ) :
    Reads j files c v k i s ↔ Reads j.inLocal files' c v k' i' s := by
  obtain ⟨col, a1, a2⟩ := hr v u dflt kd hu hdf hkd hv
  obtain ⟨col', b1, b2⟩ := hr' v u dflt kd hu hdf hkd hv
  obtain rfl := Except.ok.inj (h.symm.trans a1)
  obtain rfl := Except.ok.inj (h'.symm.trans b1)
  have a := a2 k hk i hi
  have b := b2 k' hk' i' hi'
  constructor
  · intro h
    obtain ⟨x, x1, x2⟩ := a.2 s h
    exact b.1 x s (he ▸ x1) x2
  · intro h
    obtain ⟨x, x1, x2⟩ := b.2 s h
    exact a.1 x s (he.symm ▸ x1) x2

include hutc

/-- **C137**, temperature: if the longitude makes a whole number of steps, the temperature written in universal time is the
one written in local time that many steps later. -/
theorem C137_temp (hq : minutesOf (Disagg.remainder360 lon - j.shared.thetaS) = q * j.shared.ts) (u : String)
    (hu : j.shared.outVars.get? "temp" = some u) (k : Nat) (hk : k < j.n) (i : Nat) (hi : i < 1440 / j.shared.ts) (k' : Nat)
    (hk' : k' < j.n) (i' : Nat) (hi' : i' < 1440 / j.shared.ts)
    (hlater : ((k' * (1440 / j.shared.ts) + i' : ℕ) : ℤ) = (k * (1440 / j.shared.ts) + i : ℕ) + q) (s : ℝ) :
    Reads j files c "temp" k i s ↔ Reads j.inLocal files' c "temp" k' i' s := by
  obtain ⟨elev, lat, h1, h2, K, daily, t, t', hd, ld, hnd, hread, hread'⟩ := both_local j hj hj' fuel order order' ho ho' files files'
    hrun hrun' hsub c hc lon hlon
  have hS : Disagg.utcShift (hours (j.shared.sub elev lon)) = q * j.shared.ts := by rw [utcShift_minutes hutc]; exact hq
  have key := temp_shift t t' hS hlater (by rw [ld, show (j.shared.sub elev lon).ts = j.shared.ts from rfl, ← ld, hnd]; exact (step_lt hj hk hi).1)
    (by rw [ld, show (j.shared.sub elev lon).ts = j.shared.ts from rfl, ← ld, hnd]; exact (step_lt hj hk' hi').1)
  refine read_shift j files files' c hread hread' hu (dflt := "C") (kd := .temperature) (by decide) rfl (by simp)
    (out := t.temp.map fin) (out' := t'.temp.map fin) ?_ ?_ hk hi hk' hi' ?_ s
  · exact congrArg Except.ok (temp_fill t)
  · exact congrArg Except.ok (temp_fill t')
  · rw [List.getElem?_map, List.getElem?_map, key]

/-- **C137**: so is everything else but the solar radiation, for records of two days or more. -/
theorem C137_shift (hq : minutesOf (Disagg.remainder360 lon - j.shared.thetaS) = q * j.shared.ts)
    (hq' : minutesOf (Disagg.remainder360 lon) = q * j.shared.ts) (hgood : GoodDays j c) (hs : Sound j.shared j.n (j.inp c))
    (hn : 2 ≤ j.n) (v : String) (hv : v ∈ ["air_pressure", "vapor_pressure", "rel_humid", "spec_humid", "tskc", "longwave", "prec", "wind"])
    (u : String) (hu : j.shared.outVars.get? v = some u) (hbug : ¬ (v = "air_pressure" ∧ u = "hPa")) (k : Nat) (hk : k < j.n)
    (i : Nat) (hi : i < 1440 / j.shared.ts) (k' : Nat) (hk' : k' < j.n) (i' : Nat) (hi' : i' < 1440 / j.shared.ts)
    (hlater : ((k' * (1440 / j.shared.ts) + i' : ℕ) : ℤ) = (k * (1440 / j.shared.ts) + i : ℕ) + q) (s : ℝ) :
    Reads j files c v k i s ↔ Reads j.inLocal files' c v k' i' s := by
  obtain ⟨elev, lat, h1, h2, K, daily, t, t', hd, ld, hnd, hread, hread'⟩ := both_local j hj hj' fuel order order' ho ho' files files'
    hrun hrun' hsub c hc lon hlon
  have hS : Disagg.utcShift (hours (j.shared.sub elev lon)) = q * j.shared.ts := by rw [utcShift_minutes hutc]; exact hq
  have hlen : (j.inp c).data.days.length = j.n := by rw [hj.data c, length_consecutive]
  have h90 := hs.lat lat h2
  have hgd : DailyGood j.n K.base := by
    rcases hgood with ⟨hm, hp, hde, hcols⟩ | ⟨hm, hg⟩
    · exact mtclim_good K hlen hm hp hs.lapse.1 (hs.column elev h1) h90 hs.record hcols hde
    · exact passthrough_good K hm hg
  have hDG := dayGood_of hs h1 K hlen hd hgd
  have hus := usable_of K hd t hj.step.2 (by rw [hlen]; exact hj.pos) (by rw [hlen]; exact hs.record)
    ⟨lt_of_lt_of_le (by norm_num) hs.fraction.1, hs.fraction.2⟩ hs.storm
  have hTs := temp_sound hs h2 hlon K hlen hd t hus
  have hhalf := utcShift_half (p := hours (j.shared.sub elev lon)) (hs.lon lon hlon)
  have hVs := good_vp h90 K.h_geom hus t hDG.vapor hTs (vp_defined h90 K.h_geom hus t hsub (by omega) hhalf hDG.vapor fun T h => by
    linarith [(hTs T h).1])
  have hI : k * (1440 / j.shared.ts) + i < nDisagg daily.doy.length j.shared.ts := by rw [hnd]; exact (step_lt hj hk hi).1
  have hI' : k' * (1440 / j.shared.ts) + i' < nDisagg daily.doy.length j.shared.ts := by rw [hnd]; exact (step_lt hj hk' hi').1
  have hT' := temp_shift t t' hS hlater hI hI'
  have hb : -1440 < q * j.shared.ts ∧ q * j.shared.ts < 1440 := by
    have b1 : (-719 : ℤ) ≤ Disagg.utcShift (hours (j.shared.sub elev lon)) := by exact_mod_cast hhalf.1
    have b2 : Disagg.utcShift (hours (j.shared.sub elev lon)) ≤ (719 : ℤ) := by exact_mod_cast hhalf.2
    rw [hS] at b1 b2
    omega
  have hV' := vp_fill_shift t t' hS hDG.vapor (by omega) hj.step.2 hb.1 hb.2 hlater hI hI'
  obtain ⟨-, l2, l3, -⟩ := vaporPressure_ok t.h_vp
  rw [List.length_map] at l2
  obtain ⟨-, l2', l3', -⟩ := vaporPressure_ok t'.h_vp
  rw [List.length_map] at l2'
  obtain ⟨T, hT⟩ : ∃ T, t.temp[k * (1440 / j.shared.ts) + i]? = some T := ⟨_, List.getElem?_eq_getElem (lt_of_lt_of_eq hI l2.symm)⟩
  obtain ⟨V, hV, hV0, hV1⟩ := hVs _ hI
  rw [hT] at hT'
  rw [hV] at hV'
  obtain ⟨hT60, -⟩ := hTs T (List.mem_of_getElem? hT)
  have hutc' : (j.shared.sub elev lon).utcOffset = true := hutc
  have both : ∀ {a b : List (Flt ℝ)} {y : ℝ}, a[k * (1440 / j.shared.ts) + i]? = some (fin y) →
      b[k' * (1440 / j.shared.ts) + i']? = some (fin y) →
      (fillBoth a)[k * (1440 / j.shared.ts) + i]? = (fillBoth b)[k' * (1440 / j.shared.ts) + i']? := fun ha hb => by
    rw [fillBoth_keep ha, fillBoth_keep hb]
  -- pressure
  obtain ⟨P, hP, hP21⟩ := pressure_ge hT60 hs.lapse.1 hs.lapse.2 (hs.elev elev h1)
  have hA : t.airPressure[k * (1440 / j.shared.ts) + i]? = some (fin P) := by
    unfold Trace.airPressure
    rw [List.getElem?_map, List.getElem?_map, hT]
    exact congrArg some hP
  have hA' : t'.airPressure[k' * (1440 / j.shared.ts) + i']? = some (fin P) := by
    unfold Trace.airPressure
    rw [List.getElem?_map, List.getElem?_map, hT']
    exact congrArg some hP
  -- cloud cover
  have hcl := t.h_cloud
  rw [hutc', C50_same] at hcl
  have hC' := wind_shift hcl (show Disagg.wind daily.tskc _ false _ = .ok t'.cloud from t'.h_cloud) hq' hlater (by rw [t.l_cloud]; exact hI) (by rw [t'.l_cloud]; exact hI')
  obtain ⟨C, hC, hC0, hC1⟩ : ∃ C, t.cloud[k * (1440 / j.shared.ts) + i]? = some (fin C) ∧ 0 ≤ C ∧ C ≤ 1 := by
    have hlt : k * (1440 / j.shared.ts) + i < t.cloud.length := by rw [t.l_cloud]; exact hI
    obtain ⟨x, g1, g2⟩ := C50_bounds t.h_cloud hDG.cloud _ (List.getElem_mem hlt)
    exact ⟨x, by rw [List.getElem?_eq_getElem hlt, g1], g2⟩
  rw [hC] at hC'
  simp only [List.mem_cons, List.not_mem_nil, or_false] at hv
  rcases hv with rfl | rfl | rfl | rfl | rfl | rfl | rfl | rfl
  · exact read_shift j files files' c hread hread' hu (dflt := "kPa") (kd := .pressure) (by decide) rfl hbug
      (out := fillBoth t.airPressure) (out' := fillBoth t'.airPressure) rfl rfl hk hi hk' hi' (both hA hA') s
  · exact read_shift j files files' c hread hread' hu (dflt := "Pa") (kd := .pressure) (by decide) rfl (by simp)
      (out := fillBoth (fillBoth t.vp)) (out' := fillBoth (fillBoth t'.vp)) rfl rfl hk hi hk' hi' (both hV hV'.symm) s
  · obtain ⟨x, x1, -⟩ := C57_percentage V T hV0 (by linarith)
    refine read_shift j files files' c hread hread' hu (dflt := "%") (kd := .ratio) (by decide) rfl (by simp)
      (out := fillBoth t.relHumid) (out' := fillBoth t'.relHumid) rfl rfl hk hi hk' hi' (both (y := x) ?_ ?_) s
    · unfold Trace.relHumid
      rw [List.getElem?_zipWith, List.getElem?_map, hT, hV]
      exact congrArg some x1
    · unfold Trace.relHumid
      rw [List.getElem?_zipWith, List.getElem?_map, hT', ← hV']
      exact congrArg some x1
  · obtain ⟨x, x1, -⟩ := C58_fraction V P hV0 (by linarith)
    refine read_shift j files files' c hread hread' hu (dflt := "g g-1") (kd := .ratio) (by decide) rfl (by simp)
      (out := fillBoth t.specHumid) (out' := fillBoth t'.specHumid) rfl rfl hk hi hk' hi' (both (y := x) ?_ ?_) s
    · unfold Trace.specHumid
      rw [List.getElem?_zipWith, hA, hV]
      exact congrArg some x1
    · unfold Trace.specHumid
      rw [List.getElem?_zipWith, hA', ← hV']
      exact congrArg some x1
  · exact read_shift j files files' c hread hread' hu (dflt := "fraction") (kd := .ratio) (by decide) rfl (by simp)
      (out := fillBoth t.cloud) (out' := fillBoth t'.cloud) rfl rfl hk hi hk' hi' (both hC hC'.symm) s
  · obtain ⟨ty, hty⟩ := hus.lwType
    obtain ⟨cl, hcl⟩ := hus.lwCloud
    obtain ⟨x, x1, -⟩ := C60_nonneg ty cl T V C hV0 hC0 hC1 (by linarith)
    refine read_shift j files files' c hread hread' hu (dflt := "W m-2") (kd := .energyFlux) (by decide) rfl (by simp)
      (out := fillBoth t.lw) (out' := fillBoth t'.lw) rfl rfl hk hi hk' hi' (both (y := x) ?_ ?_) s
    · obtain ⟨lw, g1, g2, g3⟩ := C60_series (t.temp.map fin) (fillBoth t.vp) t.cloud _ _ j.shared.ts ty cl hty hcl
        (by rw [List.length_map, l2, length_fillBoth, l3]) (by rw [List.length_map, l2, t.l_cloud])
      have hlw := t.h_lw
      rw [hDG.longwave] at hlw
      obtain rfl := Except.ok.inj (g1.symm.trans hlw)
      rw [g3 _ _ _ _ (by rw [List.getElem?_map, hT]; rfl) hV hC, x1]
    · obtain ⟨lw, g1, g2, g3⟩ := C60_series (t'.temp.map fin) (fillBoth t'.vp) t'.cloud _ _ j.shared.ts ty cl hty hcl
        (by rw [List.length_map, l2', length_fillBoth, l3']) (by rw [List.length_map, l2', t'.l_cloud])
      have hlw := t'.h_lw
      rw [hDG.longwave] at hlw
      obtain rfl := Except.ok.inj (g1.symm.trans hlw)
      rw [g3 _ _ _ _ (by rw [List.getElem?_map, hT']; rfl) hV'.symm hC'.symm, x1]
  · have hsp : ∀ d < daily.prec.length, Spreads j.shared.precType daily.tMin daily.tPk daily.dur d := by
      intro d hd'
      rw [hus.prec, ld] at hd'
      exact falls_spreads K hd (by rw [hlen]; exact hd') (hs.rain d hd')
    have hp := t.h_prec
    rw [hutc'] at hp
    have hlt : k * (1440 / j.shared.ts) + i < t.prec.length := by rw [t.l_prec]; exact hI
    have hp' := prec_shift hp t'.h_prec hq' hlater hlt (by rw [t'.l_prec]; exact hI')
    obtain ⟨x, x1, -⟩ := prec_nonneg t.h_prec hsp hDG.prec _ (List.getElem_mem hlt)
    rw [List.getElem?_eq_getElem hlt, x1] at hp'
    exact read_shift j files files' c hread hread' hu (dflt := "mm timestep-1") (kd := .waterFlux) (by decide) rfl (by simp)
      (out := fillBoth t.prec) (out' := fillBoth t'.prec) rfl rfl hk hi hk' hi'
      (both (y := x) (by rw [List.getElem?_eq_getElem hlt, x1]) hp'.symm) s
  · have hw1 := t.h_wind
    have hw2 := t'.h_wind
    unfold windOf at hw1 hw2
    cases hdw : daily.wind with
    | none =>
      exfalso
      rw [hdw] at hw1
      obtain ⟨col, a1, -⟩ := hread "wind" u "m s-1" .speed hu (by decide) rfl (by simp)
      have hn : t.sub.wind = none := by show t.wind.map fillBoth = none; rw [← Except.ok.inj hw1]; rfl
      unfold subColumn at a1
      rw [hn] at a1
      cases a1
    | some xs =>
      rw [hdw] at hw1 hw2
      simp only [bind_ok, pure_ok, Props.column_ok] at hw1 hw2
      obtain ⟨o, g1, o', ⟨g2, rfl⟩, g3⟩ := hw1
      obtain ⟨M, g1', M', ⟨g2', rfl⟩, g3'⟩ := hw2
      have hn : t.sub.wind = some (fillBoth o') := by show t.wind.map fillBoth = _; rw [← g3]; rfl
      have hn' : t'.sub.wind = some (fillBoth M') := by show t'.wind.map fillBoth = _; rw [← g3']; rfl
      have hlt : k * (1440 / j.shared.ts) + i < o'.length := by rw [g2]; exact hI
      obtain ⟨x, x1, -⟩ := wind_nonneg g1 (hDG.wind xs hdw) _ (List.getElem_mem hlt)
      rw [hutc'] at g1
      have hp' := wind_shift g1 g1' hq' hlater hlt (by rw [g2']; exact hI')
      rw [List.getElem?_eq_getElem hlt, x1] at hp'
      exact read_shift j files files' c hread hread' hu (dflt := "m s-1") (kd := .speed) (by decide) rfl (by simp)
        (out := fillBoth o') (out' := fillBoth M') (by unfold subColumn; simp only [hn]) (by unfold subColumn; simp only [hn'])
        hk hi hk' hi' (both (y := x) (by rw [List.getElem?_eq_getElem hlt, x1]) hp'.symm) s

/-- **C137**, solar radiation: so is the solar radiation, west of Greenwich, within a year and in leap years. -/
theorem C137_shortwave (hq : slotsOf (Disagg.remainder360 lon) = q * (2 * j.shared.ts)) (hgood : GoodDays j c)
    (hs : Sound j.shared j.n (j.inp c)) (u : String) (hu : j.shared.outVars.get? "shortwave" = some u) (k : Nat) (hk : k < j.n)
    (i : Nat) (hi : i < 1440 / j.shared.ts) (k' : Nat) (hk' : k' < j.n) (i' : Nat) (hi' : i' < 1440 / j.shared.ts)
    (hlater : ((k' * (1440 / j.shared.ts) + i' : ℕ) : ℤ) = (k * (1440 / j.shared.ts) + i : ℕ) + q)
    (hyear : Cal.yearOf (j.d0 + k' + 730120) = Cal.yearOf (j.d0 + k + 730120) ∨ q ≤ 0 ∨
      Cal.leap (Cal.yearOf (j.d0 + k + 730120)) = true) (s : ℝ) :
    Reads j files c "shortwave" k i s ↔ Reads j.inLocal files' c "shortwave" k' i' s := by
  obtain ⟨elev, lat, h1, h2, K, daily, t, t', hd, ld, hnd, hread, hread'⟩ := both_local j hj hj' fuel order order' ho ho' files files'
    hrun hrun' hsub c hc lon hlon
  have hlen : (j.inp c).data.days.length = j.n := by rw [hj.data c, length_consecutive]
  have h90 := hs.lat lat h2
  have hgd : DailyGood j.n K.base := by
    rcases hgood with ⟨hm, hp, hde, hcols⟩ | ⟨hm, hg⟩
    · exact mtclim_good K hlen hm hp hs.lapse.1 (hs.column elev h1) h90 hs.record hcols hde
    · exact passthrough_good K hm hg
  have hDG := dayGood_of hs h1 K hlen hd hgd
  have hus := usable_of K hd t hj.step.2 (by rw [hlen]; exact hj.pos) (by rw [hlen]; exact hs.record)
    ⟨lt_of_lt_of_le (by norm_num) hs.fraction.1, hs.fraction.2⟩ hs.storm
  have hdl : ∀ p : Disaggregate.Par, ∀ x ∈ Disaggregate.daylengthOf daily p, ∃ v, x = fin v ∧ 0 ≤ v := by
    intro p
    unfold Disaggregate.daylengthOf
    split
    · intro x hx
      obtain ⟨-, -, rfl⟩ := List.mem_map.1 hx
      exact ⟨_, rfl, by norm_num⟩
    · exact hDG.daylength
  have hl : ∀ p, (Disaggregate.daylengthOf daily p).length = daily.shortwave.length := fun p => by
    rw [daylengthOf_length, hus.daylength, hus.shortwave]
  have hS := hj.step.2
  have hS0 : 0 < 1440 / j.shared.ts := lt_of_le_of_lt (Nat.zero_le _) hi
  have hqb : -(1440 / j.shared.ts : ℕ) ≤ q ∧ q ≤ (1440 / j.shared.ts : ℕ) := by
    have hle : |8 * Disagg.remainder360 lon| ≤ 1440 := by
      have := C53_remainder lon
      rw [abs_le]
      constructor <;> linarith [this.1, this.2.1]
    have hsl : -1440 ≤ slotsOf (Disagg.remainder360 lon) ∧ slotsOf (Disagg.remainder360 lon) ≤ 1440 := by
      rw [abs_le] at hle
      unfold slotsOf
      split
      · exact ⟨Int.le_floor.2 (by push_cast; linarith), Int.floor_le_iff.2 (by push_cast; linarith)⟩
      · exact ⟨Int.le_ceil_iff.2 (by push_cast; linarith), Int.ceil_le.2 (by push_cast; linarith)⟩
    rw [hq] at hsl
    have hday : ((1440 / j.shared.ts : ℕ) : ℤ) * j.shared.ts = 1440 := by exact_mod_cast Nat.div_mul_cancel hS
    have hpos : (0 : ℤ) < j.shared.ts := by exact_mod_cast hj.step.1
    constructor <;> nlinarith
  have hnear : (k : ℤ) ≤ k' + 1 ∧ (k' : ℤ) ≤ k + 1 := by
    push_cast at hlater
    constructor <;> by_contra hcon
    · have : (k' : ℤ) + 2 ≤ k := by omega
      have := mul_le_mul_of_nonneg_right this (Int.natCast_nonneg (1440 / j.shared.ts))
      push_cast at this hqb
      have : ((i' : ℕ) : ℤ) < (1440 / j.shared.ts : ℕ) := by exact_mod_cast hi'
      push_cast at this
      nlinarith
    · have : (k : ℤ) + 2 ≤ k' := by omega
      have := mul_le_mul_of_nonneg_right this (Int.natCast_nonneg (1440 / j.shared.ts))
      push_cast at this hqb
      have : ((i : ℕ) : ℤ) < (1440 / j.shared.ts : ℕ) := by exact_mod_cast hi
      push_cast at this
      nlinarith
  have hwest : q ≤ 0 → k' ≤ k := fun hq0 => by
    by_contra hcon
    have : (k : ℤ) + 1 ≤ k' := by omega
    have := mul_le_mul_of_nonneg_right this (Int.natCast_nonneg (1440 / j.shared.ts))
    have hi2 : ((i : ℕ) : ℤ) < (1440 / j.shared.ts : ℕ) := by exact_mod_cast hi
    push_cast at this hlater hi2
    nlinarith
  obtain ⟨a, g, r1, r2, r3⟩ := row_shift K.h_geom j.d0 hnear (hyear.imp_right (Or.imp_left hwest))
  have hdoy : ∀ k < j.n, daily.doy.getD k 1 = Cell.doy (j.d0 + k) := fun k hk => by
    rw [(dailyOf_ok hd).1, List.getD_eq_getElem?_getD, List.getElem?_map, days_getElem j hj c hk]
    rfl
  have htab : ∀ r ∈ K.geom.map fun g => (List.range Disagg.slotsPerDay).map g.fract, r.length = 2880 := by
    intro r hr
    obtain ⟨g', -, rfl⟩ := List.mem_map.1 hr
    rw [List.length_map, List.length_range]; rfl
  have hI : k * (1440 / j.shared.ts) + i < nDisagg daily.doy.length j.shared.ts := by rw [hnd]; exact (step_lt hj hk hi).1
  have hsw := t.h_sw
  have hutc' : (j.shared.sub elev lon).utcOffset = true := hutc
  rw [hutc'] at hsw
  have key := sw_shift (hl _) hsw t'.h_sw hS hq htab (by rw [List.length_map]; exact rows_length K.h_geom) (k := k) (k' := k')
    (by rw [hus.shortwave, ld]; exact hk) (by rw [hus.shortwave, ld]; exact hk') hi hi' hlater (a := a)
    (r := (List.range Disagg.slotsPerDay).map g.fract) (by rw [hdoy k hk]; exact r1) (by rw [List.getElem?_map, r2]; rfl)
    (by rw [hdoy k' hk', List.getElem?_map, r3]; rfl)
  have hlt : k * (1440 / j.shared.ts) + i < t.sw.length := by rw [t.l_sw]; exact hI
  obtain ⟨x, x1, -⟩ := C52_nonneg (hl _) t.h_sw hDG.shortwave (hdl _) (by
    intro r hr f hf
    obtain ⟨g, hgm, rfl⟩ := List.mem_map.1 hr
    obtain ⟨s, -, rfl⟩ := List.mem_map.1 hf
    exact (geom_rows h90 K.h_geom g hgm).nonneg s) _ (List.getElem_mem hlt)
  have hx : t.sw[k * (1440 / j.shared.ts) + i]? = some (fin x) := by rw [List.getElem?_eq_getElem hlt, x1]
  have hx' : t'.sw[k' * (1440 / j.shared.ts) + i']? = some (fin x) := key.symm.trans hx
  exact read_shift j files files' c hread hread' hu (dflt := "W m-2") (kd := .energyFlux) (by decide) rfl (by simp)
    (out := fillBoth t.sw) (out' := fillBoth t'.sw) rfl rfl hk hi hk' hi' (by rw [fillBoth_keep hx, fillBoth_keep hx']) s

end C137

/-! ## Runs every four hours at 120 degrees west -/

/-- Universal time is eight hours, two steps, ahead. -/
noncomputable def shifter : Job := { windy with shared := { windy.shared with ts := 240, outVars := stepVars } }

theorem shifter_sane : shifter.Sane := { stepper_fine with }

theorem shifter_sane' : shifter.inLocal.Sane := { stepper_fine with }

theorem shifter_sound (c : Run.Cell) : Sound shifter.shared 2 (shifter.inp c) := { windy_sound c with }

theorem shifter_minutes : minutesOf (Disagg.remainder360 (-120 : ℝ)) = -2 * ((240 : ℕ) : ℤ) := by
  rw [(C53_remainder (-120 : ℝ)).2.2.2 (by norm_num) (by norm_num)]
  unfold minutesOf
  rw [if_neg (by norm_num), Int.ceil_eq_iff]
  norm_num

theorem shifter_slots : slotsOf (Disagg.remainder360 (-120 : ℝ)) = -2 * (2 * ((240 : ℕ) : ℤ)) := by
  rw [(C53_remainder (-120 : ℝ)).2.2.2 (by norm_num) (by norm_num)]
  unfold slotsOf
  rw [if_neg (by norm_num), Int.ceil_eq_iff]
  norm_num

/-- **C137**: there are such runs, and the one in universal time writes every variable for every step. -/
example : shifter.Sane ∧ shifter.inLocal.Sane ∧ shifter.shared.ts < 1440 ∧ shifter.shared.utcOffset = true ∧
    shifter.Computed [0, 0] ∧ (shifter.inp [0, 0]).lon = fin (-120) ∧
    minutesOf (Disagg.remainder360 (-120 : ℝ) - shifter.shared.thetaS) = -2 * (shifter.shared.ts : ℤ) ∧
    minutesOf (Disagg.remainder360 (-120 : ℝ)) = -2 * (shifter.shared.ts : ℤ) ∧
    slotsOf (Disagg.remainder360 (-120 : ℝ)) = -2 * (2 * (shifter.shared.ts : ℤ)) ∧ GoodDays shifter [0, 0] ∧
    Sound shifter.shared shifter.n (shifter.inp [0, 0]) ∧ 2 ≤ shifter.n ∧
    (∃ order files, shifter.inLocal.Schedule order ∧ shifter.inLocal.run 0 order = .ok files) ∧
    ∃ order files, shifter.Schedule order ∧ shifter.run 0 order = .ok files ∧
      ∀ p ∈ stepVars, ∀ d < shifter.n, ∀ m < 6, ∃ w, Reads shifter files [0, 0] p.1 d m w := by
  have hc : shifter.Computed [0, 0] := ⟨by unfold shifter windy humid demo; decide, 1, rfl, one_pos⟩
  have hg : DailyGood 2 (shifter.inp [0, 0]).data.frame :=
    ⟨(humid_given [0, 0]).shortwave, (humid_given [0, 0]).vapor, (humid_given [0, 0]).cloud⟩
  obtain ⟨files, hrun⟩ := (C71_run shifter shifter_sane 0 [[("lat", none), ("lon", none)]]
    ⟨_, rfl, List.Perm.refl _⟩ (fun c _ => { windy_complete c with }) (fun h => by cases h)).2
      (fun c _ q hq => ⟨stepper_offers c (by show 240 < 1440; decide) hq, stepper_vars q hq⟩)
  obtain ⟨files', hrun'⟩ := (C71_run shifter.inLocal shifter_sane' 0 [[("lat", none), ("lon", none)]]
    ⟨_, rfl, List.Perm.refl _⟩ (fun c _ => { windy_complete c with }) (fun h => by cases h)).2
      (fun c _ q hq => ⟨stepper_offers c (by show 240 < 1440; decide) hq, stepper_vars q hq⟩)
  have h0 : shifter.shared.thetaS = 0 := rfl
  refine ⟨shifter_sane, shifter_sane', by show 240 < 1440; decide, rfl, hc, rfl, by rw [h0, sub_zero]; exact shifter_minutes,
    shifter_minutes, shifter_slots, Or.inr ⟨rfl, hg⟩, shifter_sound _, by decide, ⟨_, files', ⟨_, rfl, List.Perm.refl _⟩, hrun'⟩,
    _, files, ⟨_, rfl, List.Perm.refl _⟩, hrun, ?_⟩
  intro p hp d hd m hm
  have hu : shifter.shared.outVars.get? p.1 = some p.2 := by
    show stepVars.get? p.1 = some p.2
    revert p
    decide
  have hb : ¬ (p.1 = "air_pressure" ∧ p.2 = "hPa") := by
    revert p
    decide
  obtain ⟨val, kd, h1, h2, h3⟩ := C78_passthrough_partial shifter shifter_sane 0 _ ⟨_, rfl, List.Perm.refl _⟩ files hrun
    (by show 240 < 1440; decide) (by decide) rfl [0, 0] hc (shifter_sound [0, 0]) hg p.1 p.2 hu hb
  obtain ⟨x, s, h4, h5, -⟩ := h3 d hd m hm
  exact ⟨s, p.2, val, x, kd, hu, h1, h4, h2, h5⟩

end Verif.Props
