import Verif.Lemmas.Interp
import Verif.Lemmas.Disagg
import Mathlib.Algebra.BigOperators.Intervals

/-!
# The same curve on another clock, the same record in finer steps
-/

namespace Verif

open Flt Np

namespace Interp

variable {K : Type} [Field K] [LinearOrder K] [IsStrictOrderedRing K]

/-- Knots that lie `τ` later. -/
structure Later (τ : K) (k k' : Knots K) : Prop where
  n : k'.n = k.n
  x : ∀ i < k.n, k'.x i = k.x i + τ
  y : ∀ i < k.n, k'.y i = k.y i

theorem Later.h {τ : K} {k k' : Knots K} (l : Later τ k k') {i : Nat} (hi : i + 1 < k.n) : k'.h i = k.h i := by
  unfold Knots.h
  rw [l.x _ hi, l.x _ (by omega)]
  ring

theorem Later.m {τ : K} {k k' : Knots K} (l : Later τ k k') {i : Nat} (hi : i + 1 < k.n) : k'.m i = k.m i := by
  unfold Knots.m
  rw [l.y _ hi, l.y _ (by omega), l.h hi]

theorem Later.deriv {τ : K} {k k' : Knots K} (l : Later τ k k') (h2 : 2 ≤ k.n) {i : Nat} (hi : i < k.n) : deriv k' i = deriv k i := by
  unfold Interp.deriv
  rw [l.n]
  by_cases h : k.n = 2
  · rw [if_pos h, if_pos h, l.m (by omega)]
  rw [if_neg h, if_neg h]
  by_cases h0 : i = 0
  · rw [if_pos h0, if_pos h0, l.h (by omega), l.h (by omega), l.m (by omega), l.m (by omega)]
  rw [if_neg h0, if_neg h0]
  by_cases h1 : i = k.n - 1
  · rw [if_pos h1, if_pos h1, l.h (by omega), l.h (by omega), l.m (by omega), l.m (by omega)]
  rw [if_neg h1, if_neg h1, l.h (by omega), l.h (by omega), l.m (by omega), l.m (by omega)]

theorem Later.segment {τ : K} {k k' : Knots K} (l : Later τ k k') (t : K) : segment k' (t + τ) = segment k t := by
  unfold Interp.segment
  rw [l.n]
  congr 1
  apply List.filter_congr
  intro j hj
  rw [List.mem_range] at hj
  rw [l.x _ (by omega)]
  simp only [add_le_add_iff_right]

/-- The curve through later knots is the curve, later. -/
theorem Later.pchip {τ : K} {k k' : Knots K} (l : Later τ k k') (h2 : 2 ≤ k.n) (t : K) : pchip k' (t + τ) = pchip k t := by
  unfold Interp.pchip
  rw [l.segment]
  have hs : Interp.segment k t ≤ k.n - 2 := by
    unfold Interp.segment
    exact (List.length_filter_le _ _).trans (by simp)
  generalize Interp.segment k t = i at *
  unfold hermite
  rw [l.x _ (by omega), l.h (by omega), l.m (by omega), l.deriv h2 (by omega), l.deriv h2 (by omega), l.y _ (by omega),
    add_sub_add_right_eq_sub]

theorem linear_later {x x' : Nat → K} {y : Nat → Flt K} {n : Nat} {τ : K} (hx : ∀ i < n, x' i = x i + τ) (t : K) :
    linear x' y n (t + τ) = linear x y n t := by
  unfold linear
  by_cases hn : n = 0
  · rw [if_pos (Or.inl hn), if_pos (Or.inl hn)]
  have e : knotBefore x' n (t + τ) = knotBefore x n t := by
    unfold knotBefore
    congr 1
    apply List.filter_congr
    intro j hj
    rw [List.mem_range] at hj
    rw [hx _ (by omega)]
    simp only [add_le_add_iff_right]
  rw [hx 0 (by omega), hx (n - 1) (by omega), e]
  simp only [add_lt_add_iff_right]
  have hs : knotBefore x n t ≤ n - 1 := by
    unfold knotBefore
    exact (List.length_filter_le _ _).trans (by simp)
  have hl : knotBefore x n t = n - 1 → ∀ j < n - 1, x (j + 1) ≤ t := by
    intro h j hj
    unfold knotBefore at h
    have h' : ((List.range (n - 1)).filter fun j => decide (x (j + 1) ≤ t)).length = (List.range (n - 1)).length := by
      rw [h, List.length_range]
    rw [List.length_filter_eq_length_iff] at h'
    exact of_decide_eq_true (h' j (List.mem_range.2 hj))
  generalize knotBefore x n t = j at *
  rw [hx j (by omega)]
  by_cases ho : n = 0 ∨ t < x 0 ∨ x (n - 1) < t
  · rw [if_pos ho, if_pos ho]
  rw [if_neg ho, if_neg ho]
  simp only [add_left_inj]
  by_cases ht : t = x j
  · rw [if_pos ht, if_pos ht]
  rw [if_neg ht, if_neg ht, add_sub_add_right_eq_sub]
  by_cases hj : j + 1 < n
  · rw [hx _ hj, add_sub_add_right_eq_sub]
  · exfalso
    obtain rfl : j = n - 1 := by omega
    push Not at ho
    apply ht
    refine le_antisymm ho.2.2 ?_
    rcases Nat.eq_zero_or_pos (n - 1) with h | h
    · rw [h]; exact ho.2.1
    · have := hl rfl (n - 1 - 1) (by omega)
      rwa [Nat.sub_add_cancel h] at this

/-- Times that are all `τ` later give knots that are all `τ` later. -/
theorem later_times {times times' : List (K × K)} {τ : K} (h : times' = times.map fun p => (p.1 + τ, p.2 + τ)) :
    knotTimes times' = (knotTimes times).map (· + τ) := by
  have e : interleave times' = (interleave times).map (· + τ) := by
    subst h
    unfold interleave
    rw [List.flatMap_map, List.map_flatMap]
    rfl
  unfold knotTimes
  rw [e]
  simp only [List.map_append, List.map_take, List.map_drop, List.map_map, List.length_map]
  congr 2
  · congr 2
    funext x
    simp only [Function.comp]
    ring
  · congr 1
    funext x
    simp only [Function.comp]
    ring

/-- Temperatures on a clock `τ` later. -/
theorem temp_later [FloorRing K] {tMin tMax : List (Flt K)} {n n' ts ts' : Nat} {times times' : List (K × K)} {tb te : Option (List (Flt K))}
    {out out' : List K} {τ : K} (h : temp tMin tMax n times ts tb te = .ok out) (h' : temp tMin tMax n' times' ts' tb te = .ok out')
    (ht : times' = times.map fun p => (p.1 + τ, p.2 + τ)) {i i' : Nat} (hi : i < n) (hi' : i' < n')
    (e : (ts' : K) * (i' : K) = ts * i + τ) : out'[i']? = out[i]? := by
  unfold temp at h h'
  simp only [bind_ok, pure_ok] at h h'
  obtain ⟨k, hk, rfl⟩ := h
  obtain ⟨k', hk', rfl⟩ := h'
  rw [later_times ht] at hk'
  unfold mkPchip at hk hk'
  split at hk
  · cases hk
  rename_i hc
  split at hk'
  · cases hk'
  obtain rfl := Except.ok.inj hk
  obtain rfl := Except.ok.inj hk'
  push Not at hc
  rw [List.getElem?_map, List.getElem?_map, List.getElem?_range hi, List.getElem?_range hi', Option.map_some, Option.map_some, e]
  congr 1
  apply Later.pchip
  · refine ⟨by simp, fun a ha => ?_, fun a ha => rfl⟩
    simp only at ha
    simp only [List.getD_eq_getElem?_getD, List.getElem?_map, List.getElem?_eq_getElem ha, Option.map_some, Option.getD_some]
  · exact hc.2.1

end Interp

namespace Disagg

variable {K : Type} [Field K] [LinearOrder K] [IsStrictOrderedRing K] [FloorRing K]

/-- With another step the extremes come at the same time of day, but are written down earlier or later by the difference. -/
theorem setMinMaxHour_later {p : HourParams K} {ts' : Nat} {table : List (Nat → K)} {yday : List Nat} {out out' : List (K × K)}
    (h : setMinMaxHour p table yday = .ok out) (h' : setMinMaxHour { p with ts := ts' } table yday = .ok out') :
    out' = out.map fun q => (q.1 + ((p.ts : K) - ts'), q.2 + ((p.ts : K) - ts')) := by
  unfold setMinMaxHour at h h'
  obtain ⟨l, f⟩ := mapM_range_ok h
  obtain ⟨l', f'⟩ := mapM_range_ok h'
  apply List.ext_getElem?
  intro i
  by_cases hi : i < yday.length
  · have e := f i _ (List.getElem?_eq_getElem (by omega))
    have e' := f' i _ (List.getElem?_eq_getElem (by omega))
    rw [List.getElem?_map, List.getElem?_eq_getElem (by omega), List.getElem?_eq_getElem (by omega), Option.map_some]
    congr 1
    split at e
    · rename_i row hr
      rw [hr] at e'
      simp only at e'
      rw [← Except.ok.inj e, ← Except.ok.inj e']
      unfold minMaxTime utcShift
      simp only [Prod.mk.injEq]
      constructor <;> ring
    · cases e
  · rw [List.getElem?_eq_none (by omega), List.getElem?_eq_none (by rw [List.length_map]; omega)]

/-- The sum over a coarse row is the sum of the sums over the fine rows in it. -/
theorem sum_rows_refine {xs : List (Flt K)} {q b : Nat} {w : Nat → K} :
    ∀ {i : Nat}, (i * q + q) * b ≤ xs.length → (∀ r < q, Flt.sum ((xs.drop ((i * q + r) * b)).take b) = fin (w r)) →
    Flt.sum ((xs.drop (i * (q * b))).take (q * b)) = fin (∑ r ∈ Finset.range q, w r) := by
  intro i hl h
  have key : ∀ m ≤ q, Flt.sum ((xs.drop (i * (q * b))).take (m * b)) = fin (∑ r ∈ Finset.range m, w r) := by
    intro m
    induction m with
    | zero => intro _; simp
    | succ m ih =>
      intro hm
      rw [Nat.succ_mul, List.take_add, sum_append, ih (by omega), List.drop_drop, Finset.sum_range_succ,
        show i * (q * b) + m * b = (i * q + m) * b by ring, h m (by omega), add_fin]
  exact key q le_rfl

end Disagg
end Verif
