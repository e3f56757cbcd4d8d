import Verif.Spec.Storm
import Verif.Props.Consistent

/-!
# C123: the storms of a triangle or mix run
-/

namespace Verif.Props

open Flt Cell Methods Np Disagg
open Disaggregate (nDisagg)

attribute [local irreducible] triangleShape

theorem eq_range'_of {l : List Nat} (hl : l.Pairwise (· < ·)) {a n : Nat} (h : ∀ m, m ∈ l ↔ a ≤ m ∧ m < a + n) :
    l = List.range' a n := by
  refine List.Perm.eq_of_pairwise (le := (· < ·)) (fun _ _ _ _ h1 h2 => absurd h1 (by omega)) hl List.pairwise_lt_range' ?_
  refine (List.perm_ext_iff_of_nodup (nodup_of_pairwise_lt hl) List.nodup_range').2 fun m => ?_
  rw [h, List.mem_range'_1]

theorem tPlus_eq (tp du : ℝ) (h0 : 0 ≤ tp) :
    tPlus tp du = List.range' ⌈tp - du / 2⌉₊ (min 1439 ⌊tp⌋₊ + 1 - ⌈tp - du / 2⌉₊) := by
  refine eq_range'_of (pairwise_tPlus _ _) fun m => ?_
  rw [mem_tPlus, ← Nat.ceil_le, ← Nat.le_floor_iff h0]
  omega

theorem tMinus_eq (tp du : ℝ) (h0 : 0 ≤ tp + du / 2) :
    tMinus tp du = List.range' ⌈tp⌉₊ (min 1439 ⌊tp + du / 2⌋₊ + 1 - ⌈tp⌉₊) := by
  refine eq_range'_of (pairwise_tMinus _ _) fun m => ?_
  rw [mem_tMinus, ← Nat.ceil_le, ← Nat.le_floor_iff h0]
  omega

/-- The weights of the minutes of a storm. -/
theorem shape_squeezed (tp du : ℝ) {m : Nat} (hm : m < 1440) :
    (triangleShape (fin tp) (fin du))[m]? = some (Spec.squeezed tp du m) := by
  unfold Spec.squeezed
  by_cases h1 : tp ≤ m ∧ m ≤ tp + du / 2
  · rw [if_pos h1]
    have h0 : (0 : ℝ) ≤ tp + du / 2 := le_trans (Nat.cast_nonneg m) h1.2
    have hmem : m ∈ tMinus tp du := mem_tMinus.2 ⟨hm, h1⟩
    have hc : ⌈tp⌉₊ ≤ m := Nat.ceil_le.2 h1.1
    have he : m ≤ ⌊tp + du / 2⌋₊ := (Nat.le_floor_iff h0).2 h1.2
    have hidx : (tMinus tp du)[m - ⌈tp⌉₊]? = some m := by
      rw [tMinus_eq tp du h0, List.getElem?_range' (by omega)]
      congr 1; omega
    rw [shape_minus hidx, tMinus_eq tp du h0, List.length_range', Nat.cast_sub hc, Nat.cast_sub (by omega), Nat.cast_add,
      Nat.cast_one]
    congr 3
    ring
  · rw [if_neg h1]
    have hn : m ∉ tMinus tp du := fun h => h1 (mem_tMinus.1 h).2
    by_cases h2 : tp - du / 2 ≤ m ∧ m ≤ tp
    · rw [if_pos h2]
      have h0 : (0 : ℝ) ≤ tp := le_trans (Nat.cast_nonneg m) h2.2
      have hc : ⌈tp - du / 2⌉₊ ≤ m := Nat.ceil_le.2 h2.1
      have he : m ≤ ⌊tp⌋₊ := (Nat.le_floor_iff h0).2 h2.2
      have hidx : (tPlus tp du)[m - ⌈tp - du / 2⌉₊]? = some m := by
        rw [tPlus_eq tp du h0, List.getElem?_range' (by omega)]
        congr 1; omega
      rw [shape_plus hidx hn, tPlus_eq tp du h0, List.length_range', Nat.cast_sub hc, Nat.cast_sub (by omega), Nat.cast_add,
        Nat.cast_one]
      congr 2
      ring
    · rw [if_neg h2]
      exact shape_out hm (fun h => h2 ⟨(mem_tPlus.1 h).2.2, (mem_tPlus.1 h).2.1⟩) hn

theorem shape_eq (tp du : ℝ) : triangleShape (fin tp) (fin du) = (List.range 1440).map (Spec.squeezed tp du) := by
  apply List.ext_getElem?
  intro m
  by_cases hm : m < 1440
  · rw [shape_squeezed tp du hm, List.getElem?_map, List.getElem?_range hm, Option.map_some]
  · rw [List.getElem?_eq_none (by rw [length_triangleShape]; omega), List.getElem?_eq_none (by simpa using hm)]

theorem sum_map_range (f : ℕ → ℝ) (n : ℕ) : ((List.range n).map f).sum = ∑ m ∈ Finset.range n, f m := by
  induction n with
  | zero => simp
  | succ n ih => rw [List.range_succ, List.map_append, List.sum_append, ih, Finset.sum_range_succ]; simp

theorem slice_map_range {α : Type} (f : ℕ → α) {n a t : ℕ} (h : a + t ≤ n) :
    (((List.range n).map f).drop a).take t = (List.range t).map fun m => f (a + m) := by
  apply List.ext_getElem?
  intro m
  by_cases hm : m < t
  · rw [List.getElem?_take_of_lt hm, List.getElem?_drop, List.getElem?_map, List.getElem?_map, List.getElem?_range (by omega),
      List.getElem?_range hm]
    rfl
  · rw [List.getElem?_eq_none (by rw [List.length_take]; omega), List.getElem?_eq_none (by simpa using hm)]

/-- A storm of whole minutes within the day is not squeezed. -/
theorem squeezed_whole {T h : ℕ} (h0 : 0 < h) (h1 : h ≤ T) (h2 : T + h ≤ 1439) (m : ℕ) :
    Spec.squeezed T (2 * h) m = Spec.isosceles T (2 * h) m := by
  have e : (2 * h : ℝ) / 2 = h := by ring
  have hh : (0 : ℝ) < h := by exact_mod_cast h0
  unfold Spec.squeezed Spec.isosceles
  have c1 : (T : ℝ) + h = ((T + h : ℕ) : ℝ) := by push_cast; ring
  have c2 : (T : ℝ) - h = ((T - h : ℕ) : ℝ) := by rw [Nat.cast_sub h1]
  rw [e, c1, c2, Nat.ceil_natCast, Nat.ceil_natCast, Nat.floor_natCast, Nat.floor_natCast, min_eq_right h2, min_eq_right (by omega)]
  rw [← c1, ← c2]
  by_cases a1 : (T : ℝ) ≤ m ∧ (m : ℝ) ≤ T + h
  · rw [if_pos a1, abs_of_nonneg (by linarith [a1.1]), show (T : ℝ) + h - T = h by ring, max_eq_right]
    rw [sub_nonneg, div_le_one hh]; linarith [a1.2]
  · rw [if_neg a1]
    by_cases a2 : (T : ℝ) - h ≤ m ∧ (m : ℝ) ≤ T
    · rw [if_pos a2, abs_of_nonpos (by linarith [a2.2]), show (T : ℝ) - (T - h) = h by ring, max_eq_right]
      · field_simp; ring
      · rw [sub_nonneg, div_le_one hh]; linarith [a2.1]
    · rw [if_neg a2, max_eq_left]
      rw [sub_nonpos, one_le_div hh]
      by_contra hc
      have hc' := abs_lt.1 (not_le.1 hc)
      rcases le_total (T : ℝ) m with b | b
      · exact a1 ⟨b, by linarith [hc'.2]⟩
      · exact a2 ⟨by linarith [hc'.1], b⟩

/-- Such a storm has half its duration for its area. -/
theorem sum_isosceles {T h : ℕ} (h0 : 0 < h) (h1 : h ≤ T) (h2 : T + h ≤ 1439) :
    ∑ m ∈ Finset.range 1440, Spec.isosceles T (2 * h) m = h := by
  have hh : (0 : ℝ) < h := by exact_mod_cast h0
  have e : (2 * h : ℝ) / 2 = h := by ring
  obtain ⟨a, rfl⟩ : ∃ a, T = a + h := ⟨T - h, by omega⟩
  obtain ⟨b, hb⟩ : ∃ b, 1440 = a + (h + (h + b)) := ⟨1440 - a - h - h, by omega⟩
  rw [hb, Finset.sum_range_add, Finset.sum_range_add, Finset.sum_range_add]
  unfold Spec.isosceles
  rw [e]
  have z1 : ∑ m ∈ Finset.range a, max 0 (1 - |(m : ℝ) - ((a + h : ℕ) : ℝ)| / h) = 0 := by
    refine Finset.sum_eq_zero fun m hm => max_eq_left ?_
    have : (m : ℝ) ≤ a := by exact_mod_cast (Finset.mem_range.1 hm).le
    rw [sub_nonpos, one_le_div hh, abs_of_nonpos (by push_cast; linarith)]
    push_cast; linarith
  have z2 : ∑ m ∈ Finset.range h, max 0 (1 - |((a + m : ℕ) : ℝ) - ((a + h : ℕ) : ℝ)| / h) = ∑ m ∈ Finset.range h, (m : ℝ) / h := by
    refine Finset.sum_congr rfl fun m hm => ?_
    have : (m : ℝ) ≤ h := by exact_mod_cast (Finset.mem_range.1 hm).le
    rw [abs_of_nonpos (by push_cast; linarith), max_eq_right]
    · push_cast; field_simp; ring
    · rw [sub_nonneg, div_le_one hh]; push_cast; linarith [Nat.cast_nonneg (α := ℝ) m]
  have z3 : ∑ m ∈ Finset.range h, max 0 (1 - |((a + (h + m) : ℕ) : ℝ) - ((a + h : ℕ) : ℝ)| / h) =
      ∑ m ∈ Finset.range h, (1 - (m : ℝ) / h) := by
    refine Finset.sum_congr rfl fun m hm => ?_
    have hm' : (m : ℝ) ≤ h := by exact_mod_cast (Finset.mem_range.1 hm).le
    have : ((a + (h + m) : ℕ) : ℝ) - ((a + h : ℕ) : ℝ) = m := by push_cast; ring
    rw [this, abs_of_nonneg (Nat.cast_nonneg _), max_eq_right]
    rw [sub_nonneg, div_le_one hh]; exact hm'
  have z4 : ∑ m ∈ Finset.range b, max 0 (1 - |((a + (h + (h + m)) : ℕ) : ℝ) - ((a + h : ℕ) : ℝ)| / h) = 0 := by
    refine Finset.sum_eq_zero fun m _ => max_eq_left ?_
    have : ((a + (h + (h + m)) : ℕ) : ℝ) - ((a + h : ℕ) : ℝ) = h + m := by push_cast; ring
    rw [this, abs_of_nonneg (by positivity), sub_nonpos, one_le_div hh]
    linarith [Nat.cast_nonneg (α := ℝ) m]
  rw [z1, z2, z3, z4, zero_add, add_zero, ← Finset.sum_add_distrib]
  simp

/-- The rain of a step of a day with a storm. -/
theorem storm_step {P tMin : List (Flt ℝ)} {ts : Nat} {ptype : String} {lon : ℝ} {lp ld : List (Flt ℝ)} {out : List (Flt ℝ)}
    (hts : ts ∣ 1440) (h : prec P tMin ts ptype false lon (some lp) (some ld) = .ok out) {d : Nat} {p tp du : ℝ}
    (ht : Lw.upperS ptype = "TRIANGLE" ∨ Lw.upperS ptype = "MIX" ∧ ∃ t, tMin[d]? = some (fin t) ∧ 0 ≤ t)
    (hp : P[d]? = some (fin p)) (htp : lp[d]? = some (fin tp)) (hdu : ld[d]? = some (fin du)) (hw : HasWeight tp du)
    {k : Nat} (hk : k < 1440 / ts) :
    out[d * (1440 / ts) + k]? = some (fin (p * (∑ m ∈ Finset.range ts, Spec.squeezed tp du (k * ts + m)) /
      ∑ m ∈ Finset.range 1440, Spec.squeezed tp du m)) := by
  obtain ⟨days, hlen, hdays, hl, hts0, hdvd, rfl⟩ := prec_inv h
  have hd : d < P.length := (List.getElem?_eq_some_iff.1 hp).1
  obtain ⟨day, hday⟩ : ∃ day, days[d]? = some day := ⟨_, List.getElem?_eq_getElem (by omega)⟩
  simp only [Bool.false_eq_true, if_false]
  rw [step_of_day hl hts hday hk]
  have hdy : day = (triangleShape (fin tp) (fin du)).map
      fun x => fin p / fin (triangleShape (fin tp) (fin du)).sum * fin x := by
    rcases ht with ht | ⟨ht, t, ht1, ht0⟩
    · exact triangle_day_of (hdays d day hday) ht hp htp hdu
    · have h := hdays d day hday
      unfold dayOf at h
      rw [if_pos (.inr ht), ht, List.getD_eq_getElem?_getD, hp, Option.getD_some, List.getD_eq_getElem?_getD, ht1,
        Option.getD_some] at h
      unfold triangleDay at h
      simp only [Option.map_some, List.getD_eq_getElem?_getD, htp, hdu, Option.getD_some] at h
      rw [if_neg (by simp [ht0])] at h
      exact (Except.ok.inj h).symm
  have hne := (shape_sum_ne_zero tp du).2 hw
  rw [hdy, div_fin_ne hne]
  rw [shape_eq] at hne ⊢
  rw [sum_map_range] at hne ⊢
  have hkt : k * ts + ts ≤ 1440 := by
    calc k * ts + ts = (k + 1) * ts := by ring
      _ ≤ 1440 / ts * ts := Nat.mul_le_mul_right _ hk
      _ = 1440 := Nat.div_mul_cancel hts
  rw [List.map_map, slice_map_range _ hkt]
  simp only [Function.comp_apply, mul_fin]
  rw [show ((List.range ts).map fun m => fin (p / (∑ m ∈ Finset.range 1440, Spec.squeezed tp du m) * Spec.squeezed tp du (k * ts + m))) =
    ((List.range ts).map fun m => p / (∑ m ∈ Finset.range 1440, Spec.squeezed tp du m) * Spec.squeezed tp du (k * ts + m)).map fin from by
      rw [List.map_map]; rfl, sum_map_fin, sum_map_range, ← Finset.mul_sum]
  congr 2
  ring

section C123

variable (j : Job) (hj : j.Sane) (fuel : Nat) (order : List (Dict String Chunk.Slice)) (ho : j.Schedule order)
  (files : Run.Files Output) (hrun : j.run fuel order = .ok files) (hsub : j.shared.ts < 1440) (hutc : j.shared.utcOffset = false)
  (c : Run.Cell) (hc : j.Computed c) (u : String) (hu : j.shared.outVars.get? "prec" = some u) (k : Nat) (hk : k < j.n)
  (rain : Col) (hrain : Dict.get? (j.inp c).data.frame "prec" = some rain) (p : ℝ) (hp : rain k = fin p)

include hj ho hrun hsub hutc hc hu hk hrain hp

/-- **C123**: on days with a storm, rain falls on each step as its share of the storm squeezed into the day. -/
theorem C123_storm (ht : Lw.upperS j.shared.precType = "TRIANGLE" ∨ Lw.upperS j.shared.precType = "MIX" ∧
      ∃ x t, Dict.get? (j.inp c).data.frame "t_min" = some x ∧ x k = fin t ∧ 0 ≤ t)
    (peak width : Col) (h1 : Dict.get? (j.inp c).data.frame "t_pk" = some peak)
    (h2 : Dict.get? (j.inp c).data.frame "dur" = some width) (tp du : ℝ) (h3 : peak k = fin tp) (h4 : width k = fin du)
    (hw : HasWeight tp du) (i : Nat) (hi : i < 1440 / j.shared.ts) :
    Reads j files c "prec" k i (p * (∑ m ∈ Finset.range j.shared.ts, Spec.squeezed tp du (i * j.shared.ts + m)) /
      (∑ m ∈ Finset.range 1440, Spec.squeezed tp du m) / (j.shared.ts * 60)) := by
  obtain ⟨elev, lat, lon, e1, e2, e3, q, daily, t, hd, ld, hnd, hread⟩ := readout j hj ho hrun hsub hc
  have hlen : (j.inp c).data.days.length = j.n := by rw [hj.data c, length_consecutive]
  obtain ⟨-, -, -, htm, -, -, -, hpr, -, -, htp, hdu⟩ := dailyOf_ok hd
  obtain ⟨x1, g1, w1⟩ := Cell.column_ok.1 htm
  obtain ⟨x2, g2, w2⟩ := Cell.column_ok.1 hpr
  unfold column? at htp hdu
  rw [base_keeps q (by decide) (by decide)] at htp hdu g1 g2
  rw [h1] at htp
  rw [h2] at hdu
  obtain rfl := Option.some.inj (hrain.symm.trans g2)
  have at' : ∀ x : Col, ((List.range (j.inp c).data.days.length).map x)[k]? = some (x k) := fun x => by
    rw [List.getElem?_map, List.getElem?_range (by rw [hlen]; exact hk), Option.map_some]
  have h_prec := t.h_prec
  rw [show (j.shared.sub elev lon).utcOffset = false from hutc] at h_prec
  rw [show daily.tPk = some _ from htp, show daily.dur = some _ from hdu] at h_prec
  have key := storm_step (ts := j.shared.ts) hj.step.2 h_prec (d := k) (p := p) (tp := tp) (du := du)
    (ht.imp id fun ⟨a, x, t, b1, b2, b3⟩ => ⟨a, t, by
      obtain rfl := Option.some.inj (b1.symm.trans g1)
      rw [w1, at', b2], b3⟩)
    (by rw [w2, at', hp]) (by rw [at', h3]) (by rw [at', h4]) hw hi
  obtain ⟨col, b1, b2⟩ := hread "prec" u "mm timestep-1" .waterFlux hu (by decide) rfl (by simp)
  refine (b2 k hk i hi).1 _ _ (by rw [← Except.ok.inj b1]; exact fillBoth_keep key) ?_
  rfl

/-- **C123**, as far as it holds: the storm of a day whose peak, beginning and end are minutes of the day is an isosceles triangle
as wide as the duration, with the rain of the day for its area. -/
theorem C123_isosceles_partial (ht : Lw.upperS j.shared.precType = "TRIANGLE" ∨ Lw.upperS j.shared.precType = "MIX" ∧
      ∃ x t, Dict.get? (j.inp c).data.frame "t_min" = some x ∧ x k = fin t ∧ 0 ≤ t)
    (peak width : Col) (h1 : Dict.get? (j.inp c).data.frame "t_pk" = some peak)
    (h2 : Dict.get? (j.inp c).data.frame "dur" = some width) (T h : ℕ) (h3 : peak k = fin (T : ℝ)) (h4 : width k = fin (2 * h : ℝ))
    (w0 : 0 < h) (w1 : h ≤ T) (w2 : T + h ≤ 1439) (i : Nat) (hi : i < 1440 / j.shared.ts) :
    Reads j files c "prec" k i ((∑ m ∈ Finset.range j.shared.ts, p / h * Spec.isosceles T (2 * h) (i * j.shared.ts + m)) /
      (j.shared.ts * 60)) := by
  have := C123_storm j hj fuel order ho files hrun hsub hutc c hc u hu k hk rain hrain p hp ht peak width h1 h2 T (2 * h) h3 h4
    (Or.inl ⟨T, by omega, le_rfl, by
      have : (0 : ℝ) ≤ h := Nat.cast_nonneg _
      linarith⟩) i hi
  simp only [squeezed_whole w0 w1 w2, sum_isosceles w0 w1 w2] at this
  rw [← Finset.mul_sum]
  convert this using 2
  ring

/-- **C123**: in a mix run, and in runs without storms, rain falls evenly on the days with a minimum below freezing. -/
theorem C123_even (ht : Lw.upperS j.shared.precType = "UNIFORM" ∨ Lw.upperS j.shared.precType = "MIX" ∧
      ∃ x t, Dict.get? (j.inp c).data.frame "t_min" = some x ∧ x k = fin t ∧ t < 0) (i : Nat) (hi : i < 1440 / j.shared.ts) :
    Reads j files c "prec" k i (p / 86400) := by
  obtain ⟨elev, lat, lon, e1, e2, e3, q, daily, t, hd, ld, hnd, hread⟩ := readout j hj ho hrun hsub hc
  have hlen : (j.inp c).data.days.length = j.n := by rw [hj.data c, length_consecutive]
  obtain ⟨-, -, -, htm, -, -, -, hpr, -, -, -, -⟩ := dailyOf_ok hd
  obtain ⟨x1, g1, w1⟩ := Cell.column_ok.1 htm
  obtain ⟨x2, g2, w2⟩ := Cell.column_ok.1 hpr
  rw [base_keeps q (by decide) (by decide)] at g1 g2
  obtain rfl := Option.some.inj (hrain.symm.trans g2)
  have at' : ∀ x : Col, ((List.range (j.inp c).data.days.length).map x)[k]? = some (x k) := fun x => by
    rw [List.getElem?_map, List.getElem?_range (by rw [hlen]; exact hk), Option.map_some]
  have h_prec := t.h_prec
  rw [show (j.shared.sub elev lon).utcOffset = false from hutc] at h_prec
  have key := C49_uniform (ts := j.shared.ts) hj.step.2 h_prec (d := k) (p := p) (by rw [w2, at', hp])
    (ht.imp id fun ⟨a, x, t, b1, b2, b3⟩ => ⟨a, t, by
      obtain rfl := Option.some.inj (b1.symm.trans g1)
      rw [w1, at', b2], b3⟩) hi
  obtain ⟨col, b1, b2⟩ := hread "prec" u "mm timestep-1" .waterFlux hu (by decide) rfl (by simp)
  refine (b2 k hk i hi).1 _ _ (by rw [← Except.ok.inj b1]; exact fillBoth_keep key) ?_
  have h0 : (j.shared.ts : ℝ) ≠ 0 := by exact_mod_cast hj.step.1.ne'
  refine Eq.trans (b := some (Spec.Kind.waterFlux, p * j.shared.ts / 1440 / (j.shared.ts * 60))) rfl ?_
  rw [show p * j.shared.ts / 1440 / (j.shared.ts * 60) = p / 86400 by rw [div_div, div_eq_div_iff (by positivity) (by norm_num)]; ring]

end C123

/-- **C123**, stated in full: the minutes of every storm that touches the day share the rain of the day as the minutes of the
triangle do. -/
def C123_full : Prop := ∀ (p tp du : ℝ) (out : List (Flt ℝ)), HasWeight tp du →
  prec [fin p] [fin 10] 1 "triangle" false 0 (some [fin tp]) (some [fin du]) = .ok out → ∀ m < 1440,
    out[m]? = some (fin (p * Spec.isosceles tp du m / ∑ m ∈ Finset.range 1440, Spec.isosceles tp du m))

/-- A storm that begins before midnight is squeezed into the day: nothing falls in the first minute. -/
theorem C123_refuted : ¬ C123_full := by
  intro hf
  have hw : HasWeight (1 : ℝ) 4 := Or.inl ⟨1, by norm_num, by norm_num, by norm_num⟩
  obtain ⟨out, ho⟩ : ∃ out, prec [fin (1 : ℝ)] [fin 10] 1 "triangle" false 0 (some [fin 1]) (some [fin 4]) = .ok out := by
    unfold prec precMinutes precTriangle
    rw [if_pos (by decide)]
    simp only [List.length_singleton, List.range_one, List.mapM_cons, List.mapM_nil, bind_ok, pure_ok]
    unfold triangleDay
    simp only [Option.map_some]
    rw [if_neg (by decide)]
    refine ⟨_, _, ⟨_, ⟨_, rfl, _, rfl, rfl⟩, rfl⟩, _, reshape_ok.2 ⟨one_pos, one_dvd _, rfl⟩, rfl⟩
  have h1 := hf 1 1 4 out hw ho 0 (by norm_num)
  have h2 := storm_step (one_dvd _) ho (d := 0) (p := 1) (tp := 1) (du := 4) (Or.inl (by decide)) rfl rfl rfl hw
    (k := 0) (by norm_num)
  simp only [Nat.zero_mul, Nat.add_zero] at h2
  rw [h2] at h1
  have h3 := Flt.fin.inj (Option.some.inj h1)
  have z : Spec.squeezed 1 4 0 = 0 := by
    unfold Spec.squeezed
    norm_num
  have z' : Spec.isosceles 1 4 0 = 1 / 2 := by
    unfold Spec.isosceles
    norm_num
  rw [Finset.sum_range_one, Nat.add_zero, z, z', mul_zero, zero_div] at h3
  have : 0 < ∑ m ∈ Finset.range 1440, Spec.isosceles 1 4 m := by
    refine Finset.sum_pos' (fun m _ => le_max_left _ _) ⟨0, by norm_num, by rw [z']; norm_num⟩
  have : 0 < 1 * (1 / 2 : ℝ) / ∑ m ∈ Finset.range 1440, Spec.isosceles 1 4 m :=
    div_pos (by norm_num) this
  rw [← h3] at this
  exact lt_irrefl _ this

/-- A mixed run of two days: a storm from four to eight on the first, even rain on the second, which is cold. -/
noncomputable def stormy : Job :=
  { demo .passthrough with
    shared := { (demo .passthrough).shared with precType := "mix" }
    inp := fun _ => ⟨fin 100, fin 45, fin (-120), ⟨consecutive 0 2,
      [("t_min", fun i => if i = 0 then fin 5 else fin (-5)), ("t_max", fun _ => fin 15), ("prec", fun _ => fin 24),
       ("dtr", fun _ => fin 10), ("smoothed_dtr", fun _ => fin 10), ("seasonal_prec", fun _ => fin 800),
       ("shortwave", fun _ => fin 200), ("t_pk", fun _ => fin ((360 : ℕ) : ℝ)), ("dur", fun _ => fin (2 * (120 : ℕ) : ℝ))],
       (fin 4, fin 14)⟩⟩ }

theorem stormy_sane : stormy.Sane where
  step := (demo_sane .passthrough).step
  pos := (demo_sane .passthrough).pos
  calendar := regular_standard _ _
  data := fun _ => rfl
  freq := (demo_sane .passthrough).freq
  years := (demo_sane .passthrough).years
  vars := (demo_sane .passthrough).vars
  names := (demo_sane .passthrough).names
  dims := (demo_sane .passthrough).dims
  dims_pos := (demo_sane .passthrough).dims_pos
  chunks := (demo_sane .passthrough).chunks
  chunks_pos := (demo_sane .passthrough).chunks_pos
  same := (demo_sane .passthrough).same

theorem stormy_complete (c : Run.Cell) : CompleteCell stormy.shared 2 (stormy.inp c) where
  place := (demo_complete .passthrough c).place
  lapse := (demo_complete .passthrough c).lapse
  columns := by
    intro k hk
    simp only [List.mem_cons, List.not_mem_nil, or_false] at hk
    rcases hk with rfl | rfl | rfl | rfl | rfl | rfl <;> simp [stormy, Dict.get?_cons]
  radiation := fun _ => by simp [stormy, Dict.get?_cons]
  tMin := fun col h i _ => by
    simp (decide := true) only [stormy, Dict.get?_cons, if_true, if_false, Option.some.injEq] at h
    subst h
    by_cases hi : i = 0
    · exact ⟨5, if_pos hi⟩
    · exact ⟨-5, if_neg hi⟩
  tMax := fun col h i _ => by
    simp (decide := true) only [stormy, Dict.get?_cons, if_true, if_false, Option.some.injEq] at h
    subst h; exact ⟨15, rfl⟩
  state := ⟨4, 14, rfl⟩
  fraction := (demo_complete .passthrough c).fraction
  lwType := (demo_complete .passthrough c).lwType
  lwCloud := (demo_complete .passthrough c).lwCloud
  storm := fun _ => ⟨by simp [stormy, Dict.get?_cons], by simp [stormy, Dict.get?_cons]⟩

theorem stormy_runs : ∃ order files, stormy.Schedule order ∧ stormy.run 0 order = .ok files := by
  obtain ⟨files, h⟩ := (C71_run stormy stormy_sane 0 [[("lat", none), ("lon", none)]]
    ⟨_, rfl, List.Perm.refl _⟩ (fun c _ => stormy_complete c) (fun h => by cases h)).2
    (fun c _ => demo_offers (by show (720 : Nat) < 1440; decide) _)
  exact ⟨_, files, ⟨_, rfl, List.Perm.refl _⟩, h⟩

/-- **C123**: there is such a run. -/
example : ∃ order files, stormy.Schedule order ∧ stormy.run 0 order = .ok files ∧
    Reads stormy files [0, 0] "prec" 0 0 ((∑ m ∈ Finset.range stormy.shared.ts,
      24 / (120 : ℕ) * Spec.isosceles (360 : ℕ) (2 * (120 : ℕ)) (0 * stormy.shared.ts + m)) / (stormy.shared.ts * 60)) ∧
    Reads stormy files [0, 0] "prec" 1 0 (24 / 86400) := by
  obtain ⟨order, files, ho, hr⟩ := stormy_runs
  have hc : stormy.Computed [0, 0] := ⟨by show _ ∈ gridCells [("lat", 1), ("lon", 2)]; decide, 1, rfl, one_pos⟩
  exact ⟨order, files, ho, hr, C123_isosceles_partial stormy stormy_sane 0 order ho files hr (by show (720 : Nat) < 1440; decide) rfl
    [0, 0] hc _ rfl 0 (by show 0 < 2; decide) _ rfl 24 rfl (Or.inr ⟨by show Lw.upperS "mix" = _; decide, _, 5, rfl, rfl, by norm_num⟩)
    _ _ rfl rfl 360 120 rfl rfl (by decide) (by decide) (by decide) 0 (by show 0 < 1440 / 720; decide),
    C123_even stormy stormy_sane 0 order ho files hr (by show (720 : Nat) < 1440; decide) rfl [0, 0] hc _ rfl 1
      (by show 1 < 2; decide) _ rfl 24 rfl (Or.inr ⟨by show Lw.upperS "mix" = _; decide, _, -5, rfl, rfl, by norm_num⟩) 0
      (by show 0 < 1440 / 720; decide)⟩

end Verif.Props
