import Verif.Lemmas.Interp
import Verif.Lemmas.RiseSet
import Verif.Props.Solar

/-!
# Times of the temperature extremes, and the interpolated temperature
-/

set_option linter.unusedSectionVars false

namespace Verif.Props

open Flt Np Verif.Interp Verif.Disagg Verif.Solar

section generic
variable {K : Type} [Field K] [LinearOrder K] [IsStrictOrderedRing K]

/-! ### Interleaving -/

theorem interleave_cons {α : Type} (p : α × α) (ps : List (α × α)) :
    interleave (p :: ps) = p.1 :: p.2 :: interleave ps := rfl

theorem interleave_append {α : Type} (ps qs : List (α × α)) :
    interleave (ps ++ qs) = interleave ps ++ interleave qs := List.flatMap_append ..

theorem length_interleave {α : Type} : ∀ ps : List (α × α), (interleave ps).length = 2 * ps.length
  | [] => rfl
  | p :: ps => by
    rw [interleave_cons, List.length_cons, List.length_cons, length_interleave ps, List.length_cons]; omega

theorem getElem?_interleave {α : Type} : ∀ (ps : List (α × α)) (i : Nat),
    (interleave ps)[2 * i]? = ps[i]?.map (·.1) ∧ (interleave ps)[2 * i + 1]? = ps[i]?.map (·.2)
  | [], i => by simp [interleave]
  | p :: ps, 0 => by simp [interleave_cons]
  | p :: ps, i + 1 => by
    have := getElem?_interleave ps i
    rw [interleave_cons]
    exact ⟨by rw [show 2 * (i + 1) = 2 * i + 1 + 1 by ring]; simpa using this.1,
      by rw [show 2 * (i + 1) + 1 = (2 * i + 1) + 1 + 1 by ring]; simpa using this.2⟩

theorem drop_interleave {α : Type} (ps : List (α × α)) (q : α × α) :
    (interleave (ps ++ [q])).drop ((interleave (ps ++ [q])).length - 2) = [q.1, q.2] := by
  rw [interleave_append, List.length_append]
  have : (interleave [q]).length = 2 := rfl
  rw [this, Nat.add_sub_cancel, List.drop_left]
  rfl

theorem take_interleave {α : Type} (p : α × α) (ps : List (α × α)) :
    (interleave (p :: ps)).take 2 = [p.1, p.2] := rfl

/-- The knot times are those of the record with its first day repeated before and its last day after. -/
theorem knotTimes_eq (times : List (K × K)) (p q : K × K) (hp : times.head? = some p)
    (hq : times.getLast? = some q) :
    knotTimes times = interleave ((p.1 - 1440, p.2 - 1440) :: times ++ [(q.1 + 1440, q.2 + 1440)]) := by
  have hc : (((Cnst.MIN_PER_HOUR * Cnst.HOURS_PER_DAY : Nat) : Nat) : K) = 1440 := by
    unfold Cnst.MIN_PER_HOUR Cnst.HOURS_PER_DAY; norm_num
  obtain ⟨tl, rfl⟩ : ∃ tl, times = p :: tl := by
    cases times with
    | nil => cases hp
    | cons a tl => simp only [List.head?_cons, Option.some.injEq] at hp; exact ⟨tl, by rw [hp]⟩
  obtain ⟨ini, hini⟩ : ∃ ini, p :: tl = ini ++ [q] := List.getLast?_eq_some_iff.1 hq
  unfold knotTimes
  simp only
  rw [hc, take_interleave, hini, drop_interleave, interleave_append (_ :: _)]
  rfl

theorem knotValues_eq (tMin tMax : List (Flt K)) (tb te : Option (List (Flt K))) (p q r s : Flt K × Flt K)
    (hp : (tMin.zip tMax).head? = some p) (hq : (tMin.zip tMax).getLast? = some q)
    (hr : tb.getD [p.1, p.2] = [r.1, r.2]) (hs : te.getD [q.1, q.2] = [s.1, s.2]) :
    knotValues tMin tMax tb te = interleave (r :: tMin.zip tMax ++ [s]) := by
  unfold knotValues
  simp only
  generalize tMin.zip tMax = l at *
  obtain ⟨tl, rfl⟩ : ∃ tl, l = p :: tl := by
    cases l with
    | nil => cases hp
    | cons a tl => simp only [List.head?_cons, Option.some.injEq] at hp; exact ⟨tl, by rw [hp]⟩
  obtain ⟨ini, hini⟩ : ∃ ini, p :: tl = ini ++ [q] := List.getLast?_eq_some_iff.1 hq
  rw [take_interleave, hini, drop_interleave, hr, hs, interleave_append (_ :: _)]
  rfl

/-- Days that lie one after the other give increasing times. -/
theorem interleave_increasing (c : K) : ∀ (ps : List (K × K)) (s : K),
    (∀ (i : Nat) p, ps[i]? = some p → 1440 * (s + i) - c < p.1 ∧ p.1 < p.2 ∧ p.2 < 1440 * (s + i + 1) - c) →
    (interleave ps).Pairwise (· < ·) ∧ ∀ t ∈ interleave ps, 1440 * s - c < t
  | [], s, _ => ⟨List.Pairwise.nil, fun t ht => by cases ht⟩
  | p :: ps, s, h => by
    obtain ⟨h1, h2, h3⟩ := h 0 p rfl
    obtain ⟨i1, i2⟩ := interleave_increasing c ps (s + 1) fun i q hq => by
      have := h (i + 1) q (by simpa using hq)
      push_cast at this
      rw [show s + 1 + (i : K) = s + (i + 1) by ring]
      exact this
    simp only [Nat.cast_zero, add_zero] at h1 h3
    rw [interleave_cons]
    refine ⟨List.pairwise_cons.2 ⟨?_, List.pairwise_cons.2 ⟨?_, i1⟩⟩, ?_⟩
    · intro t ht
      rcases List.mem_cons.1 ht with rfl | ht
      · exact h2
      · exact (h2.trans h3).trans (i2 t ht)
    · intro t ht
      exact h3.trans (i2 t ht)
    · intro t ht
      rcases List.mem_cons.1 ht with rfl | ht
      · exact h1
      rcases List.mem_cons.1 ht with rfl | ht
      · exact h1.trans h2
      · refine lt_trans ?_ (i2 t ht)
        linarith

/-- Times that lie each in its own day. -/
def InDays (c : K) (times : List (K × K)) : Prop :=
  ∀ (i : Nat) p, times[i]? = some p → 1440 * (i : K) - c < p.1 ∧ p.1 < p.2 ∧ p.2 < 1440 * ((i : K) + 1) - c

theorem knotTimes_increasing {c : K} {times : List (K × K)} (h : InDays c times) :
    (knotTimes times).Pairwise (· < ·) := by
  by_cases hne : times = []
  · subst hne
    exact List.Pairwise.nil
  obtain ⟨p, hp⟩ : ∃ p, times.head? = some p := Option.isSome_iff_exists.1 (by
    cases times with
    | nil => exact absurd rfl hne
    | cons a l => rfl)
  obtain ⟨q, hq⟩ : ∃ q, times.getLast? = some q := ⟨_, List.getLast?_eq_some_getLast hne⟩
  rw [knotTimes_eq times p q hp hq]
  refine (interleave_increasing c _ (-1) ?_).1
  intro i r hr
  rcases i with _ | i
  · simp only [List.cons_append, List.getElem?_cons_zero, Option.some.injEq] at hr
    subst hr
    have hp0 : times[0]? = some p := by rw [← List.head?_eq_getElem?]; exact hp
    obtain ⟨h1, h2, h3⟩ := h 0 p hp0
    simp only [Nat.cast_zero, mul_zero] at *
    refine ⟨by linarith, by linarith, by linarith⟩
  · rw [List.cons_append, List.getElem?_cons_succ] at hr
    by_cases hi : i < times.length
    · rw [List.getElem?_append_left hi] at hr
      obtain ⟨h1, h2, h3⟩ := h i r hr
      push_cast
      refine ⟨by linarith, h2, by linarith⟩
    · rw [List.getElem?_append_right (by omega)] at hr
      have hi' : i = times.length := by
        by_contra hc
        rw [List.getElem?_eq_none (by simp; omega)] at hr
        cases hr
      subst hi'
      simp only [Nat.sub_self, List.getElem?_cons_zero, Option.some.injEq] at hr
      subst hr
      have hl : times[times.length - 1]? = some q := by rw [← List.getLast?_eq_getElem?]; exact hq
      obtain ⟨h1, h2, h3⟩ := h _ q hl
      have e : ((times.length - 1 : Nat) : K) = (times.length : K) - 1 := by
        rw [Nat.cast_sub (List.length_pos_iff.2 hne)]; simp
      rw [e] at h1 h3
      push_cast
      refine ⟨by linarith, by linarith, by linarith⟩

end generic

/-! ### C54 -/

theorem minMaxTime_eq (p : HourParams ℝ) (row : Nat → ℝ) (i : Nat) : minMaxTime p row i =
    (riseTime row + 1440 * (i : ℝ) - (utcShift p + p.ts),
      riseTime row + p.tmaxFraction * (setTime row - riseTime row) + 1440 * (i : ℝ) - (utcShift p + p.ts)) := by
  have hc : ((i * (Cnst.MIN_PER_HOUR * Cnst.HOURS_PER_DAY) : Nat) : ℝ) = 1440 * (i : ℝ) := by
    unfold Cnst.MIN_PER_HOUR Cnst.HOURS_PER_DAY; push_cast; ring
  unfold minMaxTime
  simp only
  rw [hc]
  refine Prod.ext ?_ ?_
  · simp only; ring
  · simp only; ring

theorem setMinMaxHour_inDays {rows : List DayGeom} (hr : ∀ g ∈ rows, Row g) {p : HourParams ℝ}
    (hf : 0 < p.tmaxFraction) (hf1 : p.tmaxFraction ≤ 1) {yday : List Nat} {times : List (ℝ × ℝ)}
    (h : setMinMaxHour p (rows.map (·.fract)) yday = .ok times) :
    times.length = yday.length ∧ ∀ (i : Nat) q, times[i]? = some q → ∃ g ∈ rows, rows[yday.getD i 0]? = some g ∧
      q = minMaxTime p g.fract i ∧
      1440 * (i : ℝ) - (utcShift p + p.ts) < q.1 ∧ q.1 < q.2 ∧ q.2 < 1440 * ((i : ℝ) + 1) - (utcShift p + p.ts) := by
  unfold setMinMaxHour at h
  obtain ⟨h1, h2⟩ := mapM_range_ok h
  refine ⟨h1, fun i q hq => ?_⟩
  have hi : i < yday.length := by
    rw [← h1]; exact (List.getElem?_eq_some_iff.1 hq).1
  have hget := h2 i q hq
  rw [List.getElem?_map] at hget
  cases hrow : rows[yday.getD i 0]? with
  | none => rw [hrow] at hget; cases hget
  | some g =>
    rw [hrow] at hget
    simp only [Option.map_some] at hget
    obtain rfl := Except.ok.inj hget
    have hmem := List.mem_of_getElem? hrow
    refine ⟨g, hmem, rfl, rfl, ?_⟩
    rw [minMaxTime_eq]
    simp only
    have hd : 0 < riseTime g.fract ∧ riseTime g.fract < setTime g.fract ∧ setTime g.fract < 1440 := by
      rcases rise_set (hr g hmem) with ⟨a, b⟩ | ⟨a, b⟩ | ⟨a, b, c, -⟩
      · rw [a, b]; norm_num
      · rw [a, b]; norm_num
      · exact ⟨a, b, by linarith⟩
    obtain ⟨d1, d2, d3⟩ := hd
    have m1 : 0 < p.tmaxFraction * (setTime g.fract - riseTime g.fract) := mul_pos hf (by linarith)
    have m2 : p.tmaxFraction * (setTime g.fract - riseTime g.fract) ≤ setTime g.fract - riseTime g.fract :=
      mul_le_of_le_one_left (by linarith) hf1
    refine ⟨by linarith, by linarith, by linarith⟩

/-- The rows of the solar tables of a cell are well formed. -/
theorem geom_rows {elev lat lr : ℝ} {rows : List DayGeom} (hlat : |lat| ≤ 90)
    (h : solarGeom elev lat lr = .ok rows) : ∀ g ∈ rows, Row g := fun g hg => by
  obtain ⟨tr, -, -, h2⟩ := solarGeom_ok h
  obtain ⟨i, -, hi⟩ := h2 g hg
  exact solarDay_row hi (latRad_lt hlat)

/-- **C54**: the interpolation times of every record at every place are strictly increasing. -/
theorem C54_increasing (elev lat lr : ℝ) (hlat : |lat| ≤ 90) (rows : List DayGeom)
    (h : solarGeom elev lat lr = .ok rows) (p : HourParams ℝ) (hf : 0 < p.tmaxFraction) (hf1 : p.tmaxFraction ≤ 1)
    (yday : List Nat) (times : List (ℝ × ℝ)) (ht : setMinMaxHour p (rows.map (·.fract)) yday = .ok times) :
    (knotTimes times).Pairwise (· < ·) := by
  obtain ⟨-, h2⟩ := setMinMaxHour_inDays (geom_rows hlat h) hf hf1 ht
  refine knotTimes_increasing (c := (utcShift p : ℝ) + p.ts) fun i q hq => ?_
  obtain ⟨g, -, -, -, hh⟩ := h2 i q hq
  exact hh

/-- **C54**: the times exist for every day of the year, and the interpolator accepts them. -/
theorem C54_accepted (elev lat lr : ℝ) (hlat : |lat| ≤ 90) (rows : List DayGeom)
    (h : solarGeom elev lat lr = .ok rows) (p : HourParams ℝ) (hf : 0 < p.tmaxFraction) (hf1 : p.tmaxFraction ≤ 1)
    (yday : List Nat) (hy : ∀ d ∈ yday, d < 366) (hne : yday ≠ []) :
    ∃ times, setMinMaxHour p (rows.map (·.fract)) yday = .ok times ∧ times.length = yday.length ∧
      ∀ (tMin tMax : List (Flt ℝ)) (n : Nat), tMin.length = yday.length → tMax.length = yday.length →
        (∀ v ∈ tMin, isFin v = true) → (∀ v ∈ tMax, isFin v = true) → ∀ (tb te : Option (ℝ × ℝ)),
        ∃ out, temp tMin tMax n times p.ts (tb.map fun q => [fin q.1, fin q.2]) (te.map fun q => [fin q.1, fin q.2])
          = .ok out ∧ out.length = n := by
  obtain ⟨-, -, hrl, -⟩ := solarGeom_ok h
  obtain ⟨times, ht⟩ : ∃ times, setMinMaxHour p (rows.map (·.fract)) yday = .ok times := by
    unfold setMinMaxHour
    refine mapM_total fun i hi => ?_
    have hi' := List.mem_range.1 hi
    have hlt : yday.getD i 0 < (rows.map (·.fract)).length := by
      rw [List.length_map, hrl, List.getD_eq_getElem?_getD, List.getElem?_eq_getElem hi']
      exact hy _ (List.getElem_mem _)
    rw [List.getElem?_eq_getElem hlt]
    exact ⟨_, rfl⟩
  have hlen := (setMinMaxHour_inDays (geom_rows hlat h) hf hf1 ht).1
  refine ⟨times, ht, hlen, fun tMin tMax n l1 l2 f1 f2 tb te => ?_⟩
  have hinc := C54_increasing elev lat lr hlat rows h p hf hf1 yday times ht
  have hy0 : 0 < yday.length := List.length_pos_iff.2 hne
  have htne : times ≠ [] := List.length_pos_iff.1 (by omega)
  have hzl : (tMin.zip tMax).length = yday.length := by rw [List.length_zip, l1, l2, Nat.min_self]
  have hzne : tMin.zip tMax ≠ [] := List.length_pos_iff.1 (by omega)
  have hkt : (knotTimes times).length = 2 * (yday.length + 2) := by
    rw [knotTimes_eq times _ _ (List.head?_eq_some_head htne) (List.getLast?_eq_some_getLast htne), length_interleave]
    simp [hlen]
  have hkv : knotValues tMin tMax (tb.map fun q => [fin q.1, fin q.2]) (te.map fun q => [fin q.1, fin q.2]) =
      interleave ((tb.map fun q => (fin q.1, fin q.2)).getD ((tMin.zip tMax).head hzne) :: tMin.zip tMax ++
        [(te.map fun q => (fin q.1, fin q.2)).getD ((tMin.zip tMax).getLast hzne)]) := by
    refine knotValues_eq tMin tMax _ _ _ _ _ _ (List.head?_eq_some_head hzne) (List.getLast?_eq_some_getLast hzne) ?_ ?_
    · cases tb <;> rfl
    · cases te <;> rfl
  have hfz : ∀ q ∈ tMin.zip tMax, isFin q.1 = true ∧ isFin q.2 = true := fun q hq =>
    ⟨f1 _ (List.of_mem_zip (a := q.1) (b := q.2) hq).1, f2 _ (List.of_mem_zip (a := q.1) (b := q.2) hq).2⟩
  have hfin : ∀ y ∈ knotValues tMin tMax (tb.map fun q => [fin q.1, fin q.2]) (te.map fun q => [fin q.1, fin q.2]),
      isFin y = true := by
    rw [hkv]
    have : ∀ q ∈ ((tb.map fun q => (fin q.1, fin q.2)).getD ((tMin.zip tMax).head hzne) :: tMin.zip tMax ++
        [(te.map fun q => (fin q.1, fin q.2)).getD ((tMin.zip tMax).getLast hzne)]),
        isFin q.1 = true ∧ isFin q.2 = true := by
      intro q hq
      rw [List.cons_append] at hq
      rcases List.mem_cons.1 hq with rfl | hq
      · cases tb with
        | none => exact hfz _ (List.head_mem hzne)
        | some r => exact ⟨rfl, rfl⟩
      rcases List.mem_append.1 hq with hq | hq
      · exact hfz q hq
      · rw [List.mem_singleton] at hq
        subst hq
        cases te with
        | none => exact hfz _ (List.getLast_mem hzne)
        | some r => exact ⟨rfl, rfl⟩
    intro y hy
    unfold interleave at hy
    obtain ⟨q, hq, hy⟩ := List.mem_flatMap.1 hy
    rcases List.mem_cons.1 hy with rfl | hy
    · exact (this q hq).1
    · rw [List.mem_singleton] at hy; subst hy; exact (this q hq).2
  have hkl : (knotValues tMin tMax (tb.map fun q => [fin q.1, fin q.2]) (te.map fun q => [fin q.1, fin q.2])).length
      = 2 * (yday.length + 2) := by
    rw [hkv, length_interleave]
    simp only [List.cons_append, List.length_cons, List.length_append, List.length_nil, hzl]
  unfold temp mkPchip
  rw [if_neg (by
    push Not
    exact ⟨by rw [hkt, hkl], by omega, hinc, hfin⟩)]
  exact ⟨_, rfl, by simp⟩

/-- **C54**: on a day whose sun rises and sets (and whose night lasts a minute or more) the times are those of
sunrise and of the point `tmax_daylength_fraction` of the way to sunset, noon being at minute 720, to within a minute. -/
theorem C54_times (elev lat lr : ℝ) (hlat : |lat| ≤ 90) (rows : List DayGeom)
    (h : solarGeom elev lat lr = .ok rows) (p : HourParams ℝ) (hf : 0 < p.tmaxFraction) (hf1 : p.tmaxFraction ≤ 1)
    (yday : List Nat) (times : List (ℝ × ℝ)) (ht : setMinMaxHour p (rows.map (·.fract)) yday = .ok times)
    (i : Nat) (q : ℝ × ℝ) (hq : times[i]? = some q) : ∃ g, rows[yday.getD i 0]? = some g ∧ ∃ rise set : ℝ,
      q.1 = rise + 1440 * i - utcShift p - p.ts ∧
      q.2 = rise + p.tmaxFraction * (set - rise) + 1440 * i - utcShift p - p.ts ∧
      (g.daylength ≠ 0 → g.daylength ≤ 86340 →
        |rise - (720 - g.daylength / 120)| ≤ 1 ∧ |set - (720 + g.daylength / 120)| ≤ 1) ∧
      (g.daylength = 0 → rise = 240 ∧ set = 960) ∧
      ((∀ j < 2880, 0 < g.fract j) → rise = 240 ∧ set = 960) := by
  obtain ⟨-, h2⟩ := setMinMaxHour_inDays (geom_rows hlat h) hf hf1 ht
  obtain ⟨g, hg, hrow, rfl, -⟩ := h2 i q hq
  have hr := geom_rows hlat h g hg
  refine ⟨g, hrow, riseTime g.fract, setTime g.fract, ?_, ?_, ?_, ?_, ?_⟩
  · rw [minMaxTime_eq]; ring
  · rw [minMaxTime_eq]; ring
  · intro h0 h1
    obtain ⟨a, b, hab, hiff, h3, h4, h5, h6, h7, h8⟩ := row_block hr h0 (by intro e; rw [e] at h1; norm_num at h1)
    have ha : a ≠ 0 := by
      intro e
      rw [e] at h6
      norm_num at h6
      linarith
    rw [riseTime_eq, setTime_eq, lastRise_block hab hiff, lastSet_block hab hiff, if_pos (show a < 2879 by omega),
      if_neg ha, if_pos (show b - 1 < 2879 by omega), if_neg (show ¬ b - 1 = 0 by omega)]
    have e : ((b - 1 : Nat) : ℝ) = (b : ℝ) - 1 := by rw [Nat.cast_sub (by omega)]; simp
    rw [e, abs_le, abs_le]
    refine ⟨⟨by linarith, by linarith⟩, ⟨by linarith, by linarith⟩⟩
  · intro h0
    obtain ⟨h1, h2⟩ := row_none hr (Or.inl h0)
    rw [riseTime_eq, setTime_eq, h1, h2]; exact ⟨if_pos rfl, if_pos rfl⟩
  · intro h0
    obtain ⟨h1, h2⟩ := row_none hr (Or.inr h0)
    rw [riseTime_eq, setTime_eq, h1, h2]; exact ⟨if_pos rfl, if_pos rfl⟩

/-! ### C55 -/

section generic
variable {K : Type} [Field K] [LinearOrder K] [IsStrictOrderedRing K]

/-- Knots, as pairs of time and temperature. -/
def points (tMin tMax : List (Flt K)) (times : List (K × K)) (tb te : Option (List (Flt K))) : List (K × Flt K) :=
  (knotTimes times).zip (knotValues tMin tMax tb te)

theorem temp_ok {tMin tMax : List (Flt K)} {n ts : Nat} {times : List (K × K)} {tb te : Option (List (Flt K))}
    {out : List K} (h : temp tMin tMax n times ts tb te = .ok out) :
    ∃ k : Knots K, k.Increasing ∧ 2 ≤ k.n ∧ k.n = (points tMin tMax times tb te).length ∧
      (∀ i < k.n, (points tMin tMax times tb te)[i]? = some (k.x i, fin (k.y i))) ∧
      out = (List.range n).map fun (i : Nat) => pchip k ((ts : K) * (i : K)) := by
  unfold temp at h
  simp only [bind_ok, pure_ok] at h
  obtain ⟨k, hk, rfl⟩ := h
  obtain ⟨h1, h2, h3, h4, h5⟩ := mkPchip_ok hk
  refine ⟨k, h4, by omega, ?_, fun i hi => ?_, rfl⟩
  · unfold points; rw [List.length_zip, ← h1, Nat.min_self, h3]
  · unfold points
    rw [List.getElem?_zip_eq_some]
    exact h5 i (by omega)

/-- **C55**: the prescribed points: the extremes of each day at their times, and those of a day before and after the
record. -/
theorem C55_points (tMin tMax : List (Flt K)) (times : List (K × K)) (tb te : Option (Flt K × Flt K))
    (hl : tMin.length = times.length) (hl' : tMax.length = times.length) (hne : times ≠ []) :
    let ps := points tMin tMax times (tb.map fun q => [q.1, q.2]) (te.map fun q => [q.1, q.2])
    ps.length = 2 * (times.length + 2) ∧
    (∀ (d : Nat) (q : K × K) (lo hi : Flt K), times[d]? = some q → tMin[d]? = some lo → tMax[d]? = some hi →
      ps[2 * (d + 1)]? = some (q.1, lo) ∧ ps[2 * (d + 1) + 1]? = some (q.2, hi) ∧
      (d = 0 → ps[0]? = some (q.1 - 1440, (tb.getD (lo, hi)).1) ∧ ps[1]? = some (q.2 - 1440, (tb.getD (lo, hi)).2)) ∧
      (d + 1 = times.length → ps[2 * (d + 2)]? = some (q.1 + 1440, (te.getD (lo, hi)).1) ∧
        ps[2 * (d + 2) + 1]? = some (q.2 + 1440, (te.getD (lo, hi)).2))) := by
  intro ps
  have ht0 : 0 < times.length := List.length_pos_iff.2 hne
  have hzl : (tMin.zip tMax).length = times.length := by rw [List.length_zip, hl, hl', Nat.min_self]
  have hzne : tMin.zip tMax ≠ [] := List.length_pos_iff.1 (by omega)
  have e1 := knotTimes_eq times _ _ (List.head?_eq_some_head hne) (List.getLast?_eq_some_getLast hne)
  have e2 : knotValues tMin tMax (tb.map fun q => [q.1, q.2]) (te.map fun q => [q.1, q.2]) =
      interleave (tb.getD ((tMin.zip tMax).head hzne) :: tMin.zip tMax ++
        [te.getD ((tMin.zip tMax).getLast hzne)]) := by
    refine knotValues_eq tMin tMax _ _ _ _ _ _ (List.head?_eq_some_head hzne) (List.getLast?_eq_some_getLast hzne) ?_ ?_
    · cases tb <;> rfl
    · cases te <;> rfl
  have hps : ps = (interleave ((((times.head hne).1 - 1440, (times.head hne).2 - 1440) : K × K) :: times ++
      [((times.getLast hne).1 + 1440, (times.getLast hne).2 + 1440)])).zip
      (interleave (tb.getD ((tMin.zip tMax).head hzne) :: tMin.zip tMax ++
        [te.getD ((tMin.zip tMax).getLast hzne)])) := by
    show points _ _ _ _ _ = _
    unfold points
    rw [e1, e2]
  constructor
  · rw [hps, List.length_zip, length_interleave, length_interleave]
    simp only [List.cons_append, List.length_cons, List.length_append, List.length_nil, hzl]
    omega
  intro d q lo hi hq hlo hhi
  have hd : d < times.length := (List.getElem?_eq_some_iff.1 hq).1
  have hz : (tMin.zip tMax)[d]? = some (lo, hi) := List.getElem?_zip_eq_some.2 ⟨hlo, hhi⟩
  have key : ∀ (j : Nat) (a : K × K) (b : Flt K × Flt K),
      ((((times.head hne).1 - 1440, (times.head hne).2 - 1440) : K × K) :: times ++
        [((times.getLast hne).1 + 1440, (times.getLast hne).2 + 1440)])[j]? = some a →
      (tb.getD ((tMin.zip tMax).head hzne) :: tMin.zip tMax ++ [te.getD ((tMin.zip tMax).getLast hzne)])[j]? = some b →
      ps[2 * j]? = some (a.1, b.1) ∧ ps[2 * j + 1]? = some (a.2, b.2) := by
    intro j a b ha hb
    rw [hps, List.getElem?_zip_eq_some, List.getElem?_zip_eq_some, (getElem?_interleave _ j).1,
      (getElem?_interleave _ j).1, (getElem?_interleave _ j).2, (getElem?_interleave _ j).2, ha, hb]
    exact ⟨⟨rfl, rfl⟩, ⟨rfl, rfl⟩⟩
  obtain ⟨k1, k2⟩ := key (d + 1) q (lo, hi)
    (by rw [List.cons_append, List.getElem?_cons_succ, List.getElem?_append_left hd]; exact hq)
    (by rw [List.cons_append, List.getElem?_cons_succ, List.getElem?_append_left (by omega)]; exact hz)
  refine ⟨k1, k2, ?_, ?_⟩
  · rintro rfl
    have h1 : times.head hne = q := by
      have := List.head?_eq_some_head hne
      rw [List.head?_eq_getElem?, hq] at this
      exact (Option.some.inj this).symm
    have h2 : (tMin.zip tMax).head hzne = (lo, hi) := by
      have := List.head?_eq_some_head hzne
      rw [List.head?_eq_getElem?, hz] at this
      exact (Option.some.inj this).symm
    have := key 0 (q.1 - 1440, q.2 - 1440) (tb.getD (lo, hi)) (by rw [h1]; rfl) (by rw [h2]; rfl)
    exact this
  · intro hlast
    have h1 : times.getLast hne = q := by
      have := List.getLast?_eq_some_getLast hne
      rw [List.getLast?_eq_getElem?, ← hlast, Nat.add_sub_cancel, hq] at this
      exact (Option.some.inj this).symm
    have h2 : (tMin.zip tMax).getLast hzne = (lo, hi) := by
      have := List.getLast?_eq_some_getLast hzne
      rw [List.getLast?_eq_getElem?, hzl, ← hlast, Nat.add_sub_cancel, hz] at this
      exact (Option.some.inj this).symm
    have := key (d + 2) (q.1 + 1440, q.2 + 1440) (te.getD (lo, hi))
      (by rw [h1, List.cons_append, List.getElem?_cons_succ, List.getElem?_append_right (by omega), ← hlast]; simp)
      (by rw [h2, List.cons_append, List.getElem?_cons_succ, List.getElem?_append_right (by omega), hzl, ← hlast]; simp)
    exact this

/-- **C55**: each output is the value at its time of a function which lies between neighbouring prescribed values,
equals them at their times and is monotone between them. -/
theorem C55_curve (tMin tMax : List (Flt K)) (n ts : Nat) (times : List (K × K)) (tb te : Option (List (Flt K)))
    (out : List K) (h : temp tMin tMax n times ts tb te = .ok out) :
    ∃ f : K → K, out.length = n ∧ (∀ (i : Nat) v, out[i]? = some v → v = f ((ts : K) * (i : K))) ∧
      ∀ (j : Nat) (s t : K) (x y : Flt K), (points tMin tMax times tb te)[j]? = some (s, x) →
        (points tMin tMax times tb te)[j + 1]? = some (t, y) →
        s < t ∧ fin (f s) = x ∧ fin (f t) = y ∧
        (∀ r, s ≤ r → r ≤ t → min (f s) (f t) ≤ f r ∧ f r ≤ max (f s) (f t)) ∧
        (∀ r r', s ≤ r → r ≤ r' → r' ≤ t → (f s ≤ f t → f r ≤ f r') ∧ (f t ≤ f s → f r' ≤ f r)) := by
  obtain ⟨k, hk, h2, hn, hpt, rfl⟩ := temp_ok h
  refine ⟨pchip k, by simp, fun i v hv => ?_, ?_⟩
  · rw [List.getElem?_map] at hv
    obtain ⟨a, ha, rfl⟩ := Option.map_eq_some_iff.1 hv
    obtain ⟨_, ha⟩ := List.getElem?_eq_some_iff.1 ha
    rw [List.getElem_range] at ha
    rw [ha]
  · intro j s t x y hs ht
    have hj : j + 1 < k.n := by rw [hn]; exact (List.getElem?_eq_some_iff.1 ht).1
    rw [hpt j (by omega)] at hs
    rw [hpt (j + 1) hj] at ht
    obtain ⟨rfl, rfl⟩ := Prod.mk.inj (Option.some.inj hs)
    obtain ⟨rfl, rfl⟩ := Prod.mk.inj (Option.some.inj ht)
    have e0 := pchip_knot hk h2 (Nat.lt_of_succ_lt hj)
    have e1 := pchip_knot hk h2 hj
    refine ⟨hk j (j + 1) (Nat.lt_succ_self j) hj, by rw [e0], by rw [e1], fun r h0 h1 => ?_, fun r r' h0 h1 h3 => ?_⟩
    · rw [e0, e1]; exact pchip_between hk h2 hj h0 h1
    · rw [e0, e1]; exact pchip_mono hk h2 hj h0 h1 h3

/-- **C55**: each temperature at a time between two prescribed points lies between their values. -/
theorem C55_between (tMin tMax : List (Flt K)) (n ts : Nat) (times : List (K × K)) (tb te : Option (List (Flt K)))
    (out : List K) (h : temp tMin tMax n times ts tb te = .ok out) (i : Nat) (v : K) (hv : out[i]? = some v)
    (j : Nat) (s t x y : K) (hj : (points tMin tMax times tb te)[j]? = some (s, fin x))
    (hj' : (points tMin tMax times tb te)[j + 1]? = some (t, fin y)) (h0 : s ≤ (ts : K) * (i : K))
    (h1 : (ts : K) * (i : K) ≤ t) : min x y ≤ v ∧ v ≤ max x y := by
  obtain ⟨f, -, hf, hc⟩ := C55_curve tMin tMax n ts times tb te out h
  obtain ⟨-, e1, e2, hb, -⟩ := hc j s t _ _ hj hj'
  rw [hf i v hv]
  have := hb _ h0 h1
  rw [Flt.fin.inj e1, Flt.fin.inj e2] at this
  exact this

/-- A time inside the range of the points lies between two neighbours. -/
theorem exists_segment (x : Nat → K) : ∀ n, ∀ t, x 0 ≤ t → t ≤ x (n + 1) → ∃ j ≤ n, x j ≤ t ∧ t ≤ x (j + 1)
  | 0, t, h0, h1 => ⟨0, le_rfl, h0, h1⟩
  | n + 1, t, h0, h1 => by
    rcases le_total t (x (n + 1)) with h | h
    · obtain ⟨j, hj, a, b⟩ := exists_segment x n t h0 h
      exact ⟨j, by omega, a, b⟩
    · exact ⟨n + 1, le_rfl, h, h1⟩

end generic

/-- The shift is by less than half a day, if the meridian is less than half a turn away. -/
theorem utcShift_half {p : HourParams ℝ} (hu : p.utcOffset = false ∨ |p.lon - p.thetaS| < 180) :
    (-719 : ℝ) ≤ utcShift p ∧ (utcShift p : ℝ) ≤ 719 := by
  unfold utcShift
  rcases hu with hu | hu
  · rw [hu]; simp
  · by_cases hb : p.utcOffset = true
    · rw [if_pos hb]
      have hx : (p.lon - p.thetaS) / Cnst.DEG_PER_REV * ((Cnst.MIN_PER_DAY : Nat) : ℝ) = (p.lon - p.thetaS) * 4 := by
        unfold Cnst.DEG_PER_REV Cnst.MIN_PER_DAY; norm_num; ring
      rw [hx]
      have hab := abs_lt.1 hu
      unfold trunc
      by_cases h0 : 0 ≤ (p.lon - p.thetaS) * 4
      · rw [if_pos h0]
        have h1 : ⌊(p.lon - p.thetaS) * 4⌋ < 720 := Int.floor_lt.2 (by push_cast; linarith)
        have h3 : 0 ≤ ⌊(p.lon - p.thetaS) * 4⌋ := Int.floor_nonneg.2 h0
        have h4 : ⌊(p.lon - p.thetaS) * 4⌋ ≤ 719 := by omega
        constructor
        · have : (0 : ℝ) ≤ ⌊(p.lon - p.thetaS) * 4⌋ := by exact_mod_cast h3
          linarith
        · exact_mod_cast h4
      · rw [if_neg h0]
        push Not at h0
        have h1 : -720 < ⌈(p.lon - p.thetaS) * 4⌉ := Int.lt_ceil.2 (by push_cast; linarith)
        have h3 : ⌈(p.lon - p.thetaS) * 4⌉ ≤ 0 := Int.ceil_nonpos.2 h0.le
        have h4 : -719 ≤ ⌈(p.lon - p.thetaS) * 4⌉ := by omega
        constructor
        · exact_mod_cast h4
        · have : (⌈(p.lon - p.thetaS) * 4⌉ : ℝ) ≤ 0 := by exact_mod_cast h3
          linarith
    · rw [if_neg hb]; norm_num

/-- **C55**: for `tmax_daylength_fraction` at least 2/3 (the default is 0.67) and no shift, or a shift by less than
half a day, every time step lies inside the range of the prescribed points, so that nothing is extrapolated: all
temperatures lie between the smallest and the largest of the prescribed values. -/
theorem C55_within (elev lat lr : ℝ) (hlat : |lat| ≤ 90) (rows : List DayGeom)
    (h : solarGeom elev lat lr = .ok rows) (p : HourParams ℝ) (hf : 2 / 3 ≤ p.tmaxFraction) (hf1 : p.tmaxFraction ≤ 1)
    (hu : p.utcOffset = false ∨ |p.lon - p.thetaS| < 180)
    (yday : List Nat) (times : List (ℝ × ℝ)) (ht : setMinMaxHour p (rows.map (·.fract)) yday = .ok times)
    (tMin tMax : List (Flt ℝ)) (hl : tMin.length = times.length) (hl' : tMax.length = times.length)
    (n : Nat) (hn : p.ts * n ≤ 1440 * yday.length) (tb te : Option (Flt ℝ × Flt ℝ)) (out : List ℝ)
    (ho : temp tMin tMax n times p.ts (tb.map fun q => [q.1, q.2]) (te.map fun q => [q.1, q.2]) = .ok out)
    (L U : ℝ) (hL : ∀ q ∈ points tMin tMax times (tb.map fun q => [q.1, q.2]) (te.map fun q => [q.1, q.2]),
      le (fin L) q.2 = true ∧ le q.2 (fin U) = true) : ∀ v ∈ out, L ≤ v ∧ v ≤ U := by
  obtain ⟨hlen, h2⟩ := setMinMaxHour_inDays (geom_rows hlat h) (by linarith) hf1 ht
  intro v hv
  obtain ⟨i, hi, rfl⟩ := List.getElem_of_mem hv
  obtain ⟨k, hk, hk2, hkn, hpt, hout⟩ := temp_ok ho
  have hil : i < n := by rw [hout] at hi; simpa using hi
  have htne : times ≠ [] := by
    intro e
    rw [e] at hlen
    have : yday.length = 0 := by rw [← hlen]; rfl
    rw [this, Nat.mul_zero] at hn
    have hz : p.ts = 0 := by
      rcases Nat.mul_eq_zero.1 (Nat.le_zero.1 hn) with h | h
      · exact h
      · omega
    subst e
    rw [hkn] at hk2
    revert hk2
    unfold points knotTimes interleave
    simp
  obtain ⟨hpl, hp⟩ := C55_points tMin tMax times tb te hl hl' htne
  have ht0 : 0 < times.length := List.length_pos_iff.2 htne
  have hshift := utcShift_half hu
  -- first and last point
  obtain ⟨q0, hq0⟩ : ∃ q, times[0]? = some q := ⟨_, List.getElem?_eq_getElem ht0⟩
  obtain ⟨ql, hql⟩ : ∃ q, times[times.length - 1]? = some q := ⟨_, List.getElem?_eq_getElem (by omega)⟩
  obtain ⟨-, -, p0, -⟩ := hp 0 q0 _ _ hq0 (List.getElem?_eq_getElem (by omega)) (List.getElem?_eq_getElem (by omega))
  obtain ⟨-, -, -, pl⟩ := hp _ ql _ _ hql (List.getElem?_eq_getElem (by omega)) (List.getElem?_eq_getElem (by omega))
  have x0 : k.x 0 = q0.1 - 1440 := by
    have := (p0 rfl).1
    rw [hpt 0 (by omega)] at this
    exact (Prod.mk.inj (Option.some.inj this)).1
  have xl : k.x (k.n - 1) = ql.2 + 1440 := by
    have := (pl (by omega)).2
    rw [hkn, hpl]
    rw [show 2 * (times.length - 1 + 2) + 1 = 2 * (times.length + 2) - 1 by omega,
      hpt _ (by rw [hkn, hpl]; omega)] at this
    exact (Prod.mk.inj (Option.some.inj this)).1
  have hts0 : (0 : ℝ) ≤ p.ts := Nat.cast_nonneg _
  have b0 : q0.1 - 1440 ≤ 0 := by
    obtain ⟨g, hg, -, rfl, -⟩ := h2 0 q0 hq0
    rw [minMaxTime_eq]
    simp only [Nat.cast_zero, mul_zero]
    have : riseTime g.fract ≤ 720 := by
      rcases rise_set (geom_rows hlat h g hg) with ⟨a, -⟩ | ⟨a, -⟩ | ⟨a, b, c, -, d⟩
      · rw [a]; norm_num
      · rw [a]; norm_num
      · linarith
    linarith
  have bl : (p.ts : ℝ) * i ≤ ql.2 + 1440 := by
    obtain ⟨g, hg, -, rfl, -⟩ := h2 _ ql hql
    rw [minMaxTime_eq]
    simp only
    have hb : (719.5 : ℝ) ≤ riseTime g.fract + p.tmaxFraction * (setTime g.fract - riseTime g.fract) := by
      rcases rise_set (geom_rows hlat h g hg) with ⟨a, b⟩ | ⟨a, b⟩ | ⟨a, b, c, d, -⟩
      · rw [a, b]; linarith
      · rw [a, b]; linarith
      · nlinarith
    have e : ((times.length - 1 : Nat) : ℝ) = (times.length : ℝ) - 1 := by
      rw [Nat.cast_sub (by omega)]; simp
    rw [e, hlen]
    have hi1 : p.ts * (i + 1) ≤ 1440 * yday.length := le_trans (Nat.mul_le_mul_left _ (by omega)) hn
    have hi2 : (p.ts : ℝ) * (i + 1) ≤ 1440 * yday.length := by exact_mod_cast hi1
    linarith
  obtain ⟨j, hj, a, b⟩ := exists_segment k.x (k.n - 2) ((p.ts : ℝ) * i) (by rw [x0]; linarith [mul_nonneg hts0 (Nat.cast_nonneg (α := ℝ) i)])
    (by rw [show k.n - 2 + 1 = k.n - 1 by omega, xl]; exact bl)
  have c := C55_between tMin tMax n p.ts times _ _ out ho i _ (List.getElem?_eq_getElem hi) j _ _ _ _
    (hpt j (by omega)) (hpt (j + 1) (by omega)) a b
  have m1 := hL _ (List.mem_of_getElem? (hpt j (by omega)))
  have m2 := hL _ (List.mem_of_getElem? (hpt (j + 1) (by omega)))
  simp only [le_fin, decide_eq_true_eq] at m1 m2
  exact ⟨le_trans (le_min m1.1 m2.1) c.1, le_trans c.2 (max_le m1.2 m2.2)⟩

/-- Two days, minima at 6 h and maxima at 15 h. -/
example : (temp [fin 0, fin 2] [fin 10, fin (12 : ℚ)] 16 [(360, 900), (1800, 2340)] 180 none none).toOption.map
    (fun l => (l[2]?, l[5]?, l[10]?, l[13]?)) = some (some 0, some 10, some 2, some 12) := by decide +kernel
/-- A missing value makes the interpolator fail. -/
example : (temp [fin 0, nan] [fin 10, fin (12 : ℚ)] 16 [(360, 900), (1800, 2340)] 180 none none).toOption = none := by
  decide +kernel

end Verif.Props
