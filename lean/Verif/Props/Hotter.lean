import Verif.Props.Diurnal
import Verif.Props.Warmer

/-!
# C122: a warmer record is nowhere colder
-/

namespace Verif.Props

open Flt Physics Methods Cell Np Solar Interp
open Disagg (setMinMaxHour utcShift HourParams)
open Disaggregate (nDisagg)

/-- No daily minimum of the record is above the maximum of its day or of the day before. -/
structure Alternating (n : ℕ) (before : ℝ × ℝ) (lo hi : ℕ → ℝ) : Prop where
  state : before.1 ≤ before.2
  first : lo 0 ≤ before.2
  day : ∀ d < n, lo d ≤ hi d
  night : ∀ d, d + 1 < n → lo (d + 1) ≤ hi d

theorem Alternating.up {n : ℕ} (hn : 0 < n) {before : ℝ × ℝ} {lo hi : ℕ → ℝ} (h : Alternating n before lo hi) {m : ℕ}
    (hm : m % 2 = 0) : turnValue before lo hi n m ≤ turnValue before lo hi n (m + 1) := by
  unfold turnValue
  rw [if_pos hm, if_neg (show ¬ (m + 1) % 2 = 0 by omega), show (m + 1) / 2 = m / 2 by omega]
  by_cases h0 : m / 2 = 0
  · rw [if_pos h0, if_pos h0]; exact h.state
  · rw [if_neg h0, if_neg h0]; exact h.day _ (by omega)

theorem Alternating.down {n : ℕ} (hn : 0 < n) {before : ℝ × ℝ} {lo hi : ℕ → ℝ} (h : Alternating n before lo hi) {m : ℕ}
    (hm : m % 2 = 1) : turnValue before lo hi n (m + 1) ≤ turnValue before lo hi n m := by
  unfold turnValue
  rw [if_pos (by omega), if_neg (by omega), if_neg (by omega), show (m + 1) / 2 = m / 2 + 1 by omega, Nat.add_sub_cancel]
  by_cases h0 : m / 2 = 0
  · rw [if_pos h0, h0, Nat.zero_min]; exact h.first
  · rw [if_neg h0]
    obtain ⟨e, he⟩ : ∃ e, m / 2 = e + 1 := ⟨m / 2 - 1, by omega⟩
    rw [he, Nat.add_sub_cancel]
    by_cases hl : e + 1 < n
    · rw [min_eq_left (by omega), min_eq_left (by omega)]; exact h.night e hl
    · rw [min_eq_right (by omega), min_eq_right (by omega)]; exact h.day _ (by omega)

theorem Alternating.turns {n : ℕ} (hn : 0 < n) {before : ℝ × ℝ} {lo hi : ℕ → ℝ} (h : Alternating n before lo hi) (m : ℕ) :
    (turnValue before lo hi n (m + 1) - turnValue before lo hi n m) *
      (turnValue before lo hi n (m + 2) - turnValue before lo hi n (m + 1)) ≤ 0 := by
  rcases Nat.mod_two_eq_zero_or_one m with e | e
  · exact mul_nonpos_of_nonneg_of_nonpos (sub_nonneg.2 (h.up hn e)) (sub_nonpos.2 (h.down hn (by omega)))
  · exact mul_nonpos_of_nonpos_of_nonneg (sub_nonpos.2 (h.down hn e)) (sub_nonneg.2 (h.up hn (by omega)))

/-- Every mean of two differences in `S` is in `S`. -/
def ClosedByMeans (S : ℝ → Prop) : Prop := ∀ x y w, S x → S y → 0 ≤ w → w ≤ 1 → S (x + w * (y - x))

/-- The curves through two alternating records differ by a mean of the differences of the records. -/
theorem curve_between {x y y' : ℕ → ℝ} {m : ℕ} {t : ℝ} (hx : x (m + 1) < x (m + 2)) (hx' : x m < x (m + 1))
    (hx'' : x (m + 2) < x (m + 3)) (h1 : (y (m + 1) - y m) * (y (m + 2) - y (m + 1)) ≤ 0)
    (h2 : (y (m + 2) - y (m + 1)) * (y (m + 3) - y (m + 2)) ≤ 0) (h1' : (y' (m + 1) - y' m) * (y' (m + 2) - y' (m + 1)) ≤ 0)
    (h2' : (y' (m + 2) - y' (m + 1)) * (y' (m + 3) - y' (m + 2)) ≤ 0) (ht : x (m + 1) ≤ t) (ht' : t ≤ x (m + 2))
    {S : ℝ → Prop} (hS : ClosedByMeans S) (ha : ∀ i, S (y' i - y i)) : S (Spec.curve x y' m t - Spec.curve x y m t) := by
  rw [curve_flat hx hx' hx'' h1 h2, curve_flat hx hx' hx'' h1' h2']
  have hd : 0 < x (m + 2) - x (m + 1) := sub_pos.2 hx
  obtain ⟨s, hs⟩ : ∃ s, s = (t - x (m + 1)) / (x (m + 2) - x (m + 1)) := ⟨_, rfl⟩
  have s0 : 0 ≤ s := by rw [hs]; exact div_nonneg (by linarith) hd.le
  have s1 : s ≤ 1 := by rw [hs, div_le_one hd]; linarith
  rw [← hs]
  have w0 : 0 ≤ s ^ 2 * (3 - 2 * s) := mul_nonneg (sq_nonneg _) (by linarith)
  have w1 : 0 ≤ 1 - s ^ 2 * (3 - 2 * s) := by
    have : 1 - s ^ 2 * (3 - 2 * s) = (1 - s) ^ 2 * (1 + 2 * s) := by ring
    rw [this]; exact mul_nonneg (sq_nonneg _) (by linarith)
  have := hS _ _ _ (ha (m + 1)) (ha (m + 2)) w0 (by linarith)
  convert this using 1
  ring

/-- The daily extremes of a cell, and those of the last day before the run. -/
structure Extremes (j : Job) (c : Run.Cell) (lo hi : ℕ → ℝ) (before : ℝ × ℝ) : Prop where
  tMin : ∃ x, Dict.get? (j.inp c).data.frame "t_min" = some x ∧ ∀ k < j.n, x k = fin (lo k)
  tMax : ∃ x, Dict.get? (j.inp c).data.frame "t_max" = some x ∧ ∀ k < j.n, x k = fin (hi k)
  state : (j.inp c).data.stateEnd = (fin before.1, fin before.2)

/-- Two cells with the same settings, days and latitude. -/
structure SamePlace (j j' : Job) (c c' : Run.Cell) : Prop where
  shared : j.shared = j'.shared
  first : j.d0 = j'.d0
  days : j.n = j'.n
  lat : (j.inp c).lat = (j'.inp c').lat

section C122

variable (j j' : Job) (hj : j.Sane) (hj' : j'.Sane) (fuel fuel' : Nat) (order order' : List (Dict String Chunk.Slice))
  (ho : j.Schedule order) (ho' : j'.Schedule order') (files files' : Run.Files Output) (hrun : j.run fuel order = .ok files)
  (hrun' : j'.run fuel' order' = .ok files') (hsub : j.shared.ts < 1440) (hutc : j.shared.utcOffset = false)
  (hf : 0 < j.shared.tmaxFraction) (hf1 : j.shared.tmaxFraction ≤ 1) (c c' : Run.Cell) (hc : j.Computed c) (hc' : j'.Computed c')
  (hs : SamePlace j j' c c') (h90 : ∀ x, (j.inp c).lat = fin x → |x| ≤ 90)
  (lo hi lo' hi' : ℕ → ℝ) (before before' : ℝ × ℝ) (he : Extremes j c lo hi before) (he' : Extremes j' c' lo' hi' before')
  (halt : Alternating j.n before lo hi) (halt' : Alternating j.n before' lo' hi')

include hj hj' ho ho' hrun hrun' hsub hutc hf hf1 hc hc' hs h90 he he' halt halt'

/-- **C122**: each difference of the temperatures written for two alternating records is a mean of two differences of their
extremes. -/
theorem C122_mean (S : ℝ → Prop) (hS : ClosedByMeans S) (hlo : ∀ d < j.n, S (lo' d - lo d)) (hhi : ∀ d < j.n, S (hi' d - hi d))
    (hb1 : S (before'.1 - before.1)) (hb2 : S (before'.2 - before.2)) (u : String) (hu : j.shared.outVars.get? "temp" = some u) (k : Nat) (hk : k < j.n) (i : Nat)
    (hi0 : i < 1440 / j.shared.ts) :
    ∃ T T', Reads j files c "temp" k i T ∧ Reads j' files' c' "temp" k i T' ∧ S (T' - T) := by
  obtain ⟨elev, lat, lon, e1, e2, e3, q, daily, t, hd, ld, hnd, hread⟩ := readout j hj ho hrun hsub hc
  have hr' := readout j' hj' ho' hrun' (hs.shared ▸ hsub) hc'
  rw [← hs.shared, ← hs.days] at hr'
  obtain ⟨elev', lat', lon', e1', e2', e3', q', daily', t', hd', ld', hnd', hread'⟩ := hr'
  have hlat : lat = lat' := by
    have := hs.lat
    rw [e2, e2'] at this
    exact Flt.fin.inj this
  subst hlat
  have h90 := h90 lat e2
  have hdays : (j.inp c).data.days = (j'.inp c').data.days := by rw [hj.data c, hj'.data c', hs.first, hs.days]
  have hlen : (j.inp c).data.days.length = j.n := by rw [hj.data c, length_consecutive]
  have twin : Twin q q' daily daily' := ⟨hdays, hd, hd', fun hx => by rw [hutc] at hx; cases hx⟩
  have htt := twin.times rfl t t'
  obtain ⟨w1, -, -, g1, g2, -⟩ := dailyOf_ok hd
  obtain ⟨-, -, -, g1', g2', -⟩ := dailyOf_ok hd'
  obtain ⟨c1, hc1, w2⟩ := Cell.column_ok.1 g1
  obtain ⟨c2, hc2, w3⟩ := Cell.column_ok.1 g2
  obtain ⟨c1', hc1', w2'⟩ := Cell.column_ok.1 g1'
  obtain ⟨c2', hc2', w3'⟩ := Cell.column_ok.1 g2'
  rw [base_keeps _ (by decide) (by decide)] at hc1 hc2 hc1' hc2'
  obtain ⟨x1, y1, z1⟩ := he.tMin
  obtain ⟨x2, y2, z2⟩ := he.tMax
  obtain ⟨x1', y1', z1'⟩ := he'.tMin
  obtain ⟨x2', y2', z2'⟩ := he'.tMax
  obtain rfl := Option.some.inj (y1.symm.trans hc1)
  obtain rfl := Option.some.inj (y2.symm.trans hc2)
  obtain rfl := Option.some.inj (y1'.symm.trans hc1')
  obtain rfl := Option.some.inj (y2'.symm.trans hc2')
  have htemp := t.h_temp
  have htimes := t.h_times
  have htemp' := t'.h_temp
  rw [← twin.doy, ← htt] at htemp'
  generalize hT : t.times = times at htemp htimes htemp'
  have htf := temp_fill t
  have htf' := temp_fill t'
  generalize hV : t.temp = temps at htemp htf
  generalize hV' : t'.temp = temps' at htemp' htf'
  have hts1 : (j.shared.sub elev lon).ts = j.shared.ts := rfl
  have hts2 : (j.shared.sub elev' lon').ts = j.shared.ts := rfl
  rw [w2, w3, hlen, hts1, hnd, he.state] at htemp
  rw [w2', w3', ← hdays, hlen, hts2, hnd, he'.state] at htemp'
  rw [hs.days] at z1 z2
  rw [show (List.range j.n).map x1 = (List.range j.n).map fun k => fin (lo k) from
      List.map_congr_left fun k hk => z1 k (hs.days ▸ List.mem_range.1 hk),
    show (List.range j.n).map x2 = (List.range j.n).map fun k => fin (hi k) from
      List.map_congr_left fun k hk => z2 k (hs.days ▸ List.mem_range.1 hk)] at htemp
  rw [show (List.range j.n).map x1' = (List.range j.n).map fun k => fin (lo' k) from
      List.map_congr_left fun k hk => z1' k (hs.days ▸ List.mem_range.1 hk),
    show (List.range j.n).map x2' = (List.range j.n).map fun k => fin (hi' k) from
      List.map_congr_left fun k hk => z2' k (hs.days ▸ List.mem_range.1 hk)] at htemp'
  rw [w1, List.map_map, hj.data c, consecutive, List.map_map] at htimes
  obtain ⟨rise, set, s1, s2, s3⟩ := sun_times (p := hours (j.shared.sub elev lon)) h90 q.h_geom hutc hf hf1 j.d0 j.n htimes
  have hol : temps.length = j.n * (1440 / j.shared.ts) := (C55_curve _ _ _ _ _ _ _ _ htemp).choose_spec.1
  have hol' : temps'.length = j.n * (1440 / j.shared.ts) := (C55_curve _ _ _ _ _ _ _ _ htemp').choose_spec.1
  have hlt : k * (1440 / j.shared.ts) + i < j.n * (1440 / j.shared.ts) := by
    have : (k + 1) * (1440 / j.shared.ts) ≤ j.n * (1440 / j.shared.ts) := Nat.mul_le_mul_right _ hk
    rw [Nat.add_mul, Nat.one_mul] at this
    omega
  have hmulZ := hj.step.mulZ
  have hm : ((1440 / j.shared.ts : Nat) : ℝ) * j.shared.ts = 1440 := by exact_mod_cast hmulZ
  have hin : (j.shared.ts : ℝ) * ((k * (1440 / j.shared.ts) + i : Nat) : ℝ) + j.shared.ts ≤ 1440 * j.n := by
    have h1 : ((k * (1440 / j.shared.ts) + i + 1 : Nat) : ℝ) ≤ ((j.n * (1440 / j.shared.ts) : Nat) : ℝ) := by exact_mod_cast hlt
    have h2 := mul_le_mul_of_nonneg_right h1 (Nat.cast_nonneg (α := ℝ) j.shared.ts)
    have h3 : ((j.n * (1440 / j.shared.ts) : Nat) : ℝ) * j.shared.ts = 1440 * j.n := by
      rw [Nat.cast_mul, mul_assoc, hm]; ring
    rw [h3] at h2
    rw [Nat.cast_add, Nat.cast_one] at h2
    linarith
  obtain ⟨r1, ⟨m, hm', m1, m2⟩, r3⟩ := temp_curve hj.pos s2 s3 s1.order before htemp
    (List.getElem?_eq_getElem (by rw [hol]; exact hlt)) hin
  obtain ⟨-, -, r3'⟩ := temp_curve hj.pos s2 s3 s1.order before' htemp'
    (List.getElem?_eq_getElem (by rw [hol']; exact hlt)) hin
  rw [show (hours (j.shared.sub elev lon)).ts = j.shared.ts from rfl] at r1 m1 m2 r3 r3'
  obtain ⟨col, b1, b2⟩ := hread "temp" u "C" .temperature hu (by decide) rfl (by simp)
  obtain ⟨col', b1', b2'⟩ := hread' "temp" u "C" .temperature hu (by decide) rfl (by simp)
  have hx : col[k * (1440 / j.shared.ts) + i]? = some (fin (temps[k * (1440 / j.shared.ts) + i]'(by rw [hol]; exact hlt))) := by
    rw [← Except.ok.inj b1, htf, List.getElem?_map, List.getElem?_eq_getElem (by rw [hol]; exact hlt), Option.map_some]
  have hx' : col'[k * (1440 / j.shared.ts) + i]? = some (fin (temps'[k * (1440 / j.shared.ts) + i]'(by rw [hol']; exact hlt))) := by
    rw [← Except.ok.inj b1', htf', List.getElem?_map, List.getElem?_eq_getElem (by rw [hol']; exact hlt), Option.map_some]
  refine ⟨_, _, (b2 k hk i hi0).1 _ _ hx rfl, (b2' k hk i hi0).1 _ _ hx' rfl, ?_⟩
  have key := curve_between (t := (j.shared.ts : ℝ) * ((k * (1440 / j.shared.ts) + i : Nat) : ℝ)) (S := S)
    (r1 (m + 1) (m + 2) (by omega) (by omega)) (r1 m (m + 1) (by omega) (by omega)) (r1 (m + 2) (m + 3) (by omega) (by omega))
    (halt.turns hj.pos m) (halt.turns hj.pos (m + 1)) (halt'.turns hj.pos m) (halt'.turns hj.pos (m + 1)) m1 m2 hS
    (fun i => ?_)
  · rw [← r3 m hm' m1 m2, ← r3' m hm' m1 m2] at key
    convert key using 1
    ring
  · have hp := hj.pos
    unfold turnValue
    split_ifs
    · exact hb1
    · exact hlo _ (by omega)
    · exact hb2
    · exact hhi _ (by omega)

/-- **C122**: if no extreme of the second record is below that of the first, no temperature is. -/
theorem C122_warmer (hlo : ∀ d < j.n, lo d ≤ lo' d) (hhi : ∀ d < j.n, hi d ≤ hi' d) (hb1 : before.1 ≤ before'.1)
    (hb2 : before.2 ≤ before'.2) (u : String) (hu : j.shared.outVars.get? "temp" = some u) (k : Nat) (hk : k < j.n) (i : Nat)
    (hi0 : i < 1440 / j.shared.ts) :
    ∃ T T', Reads j files c "temp" k i T ∧ Reads j' files' c' "temp" k i T' ∧ T ≤ T' := by
  obtain ⟨T, T', h1, h2, h3⟩ := C122_mean j j' hj hj' fuel fuel' order order' ho ho' files files' hrun hrun' hsub hutc hf hf1 c c' hc
    hc' hs h90 lo hi lo' hi' before before' he he' halt halt' (fun x => 0 ≤ x)
    (fun x y w hx hy h0 h1 => by
      have := mul_nonneg h0 hy
      have := mul_nonneg (sub_nonneg.2 h1) hx
      linarith)
    (fun d hd => sub_nonneg.2 (hlo d hd)) (fun d hd => sub_nonneg.2 (hhi d hd)) (sub_nonneg.2 hb1) (sub_nonneg.2 hb2) u hu k hk i hi0
  exact ⟨T, T', h1, h2, sub_nonneg.1 h3⟩

/-- **C122**: an error in the extremes of no more than `b` makes an error in the temperatures of no more than `b`. -/
theorem C122_error (b : ℝ) (hlo : ∀ d < j.n, |lo' d - lo d| ≤ b) (hhi : ∀ d < j.n, |hi' d - hi d| ≤ b)
    (hb1 : |before'.1 - before.1| ≤ b) (hb2 : |before'.2 - before.2| ≤ b) (u : String)
    (hu : j.shared.outVars.get? "temp" = some u) (k : Nat) (hk : k < j.n) (i : Nat) (hi0 : i < 1440 / j.shared.ts) :
    ∃ T T', Reads j files c "temp" k i T ∧ Reads j' files' c' "temp" k i T' ∧ |T' - T| ≤ b :=
  C122_mean j j' hj hj' fuel fuel' order order' ho ho' files files' hrun hrun' hsub hutc hf hf1 c c' hc
    hc' hs h90 lo hi lo' hi' before before' he he' halt halt' (fun x => |x| ≤ b)
    (fun x y w hx hy h0 h1 => by
      obtain ⟨x1, x2⟩ := abs_le.1 hx
      obtain ⟨y1, y2⟩ := abs_le.1 hy
      have p1 := mul_le_mul_of_nonneg_left y1 h0
      have p2 := mul_le_mul_of_nonneg_left y2 h0
      have q1 := mul_le_mul_of_nonneg_left x1 (sub_nonneg.2 h1)
      have q2 := mul_le_mul_of_nonneg_left x2 (sub_nonneg.2 h1)
      exact abs_le.2 ⟨by linarith, by linarith⟩)
    hlo hhi hb1 hb2 u hu k hk i hi0

/-- **C122**: the air pressure of the warmer of two records for the same elevation is nowhere lower. -/
theorem C122_pressure (hlo : ∀ d < j.n, lo d ≤ lo' d) (hhi : ∀ d < j.n, hi d ≤ hi' d) (hb1 : before.1 ≤ before'.1)
    (hb2 : before.2 ≤ before'.2) (u : String) (hu : j.shared.outVars.get? "temp" = some u) (elev : ℝ) (helev : 0 ≤ elev)
    (h1 : (j.inp c).elev = fin elev) (h1' : (j'.inp c').elev = fin elev) (v : String)
    (hv : j.shared.outVars.get? "air_pressure" = some v) (hbug : v ≠ "hPa") (k : Nat) (hk : k < j.n) (i : Nat)
    (hi0 : i < 1440 / j.shared.ts) (hwarm : ∀ T, Reads j files c "temp" k i T → 0 < T - j.shared.lapseRate * elev / 2) :
    ∃ p p', Reads j files c "air_pressure" k i p ∧ Reads j' files' c' "air_pressure" k i p' ∧ p ≤ p' := by
  obtain ⟨T, T', r1, r2, r3⟩ := C122_warmer j j' hj hj' fuel fuel' order order' ho ho' files files' hrun hrun' hsub hutc hf hf1 c c' hc
    hc' hs h90 lo hi lo' hi' before before' he he' halt halt' hlo hhi hb1 hb2 u hu k hk i hi0
  have p0 := hwarm T r1
  refine ⟨_, _, C79_pressure j hj fuel order ho files hrun hsub c hc elev h1 v hv hbug k hk i hi0 T r1 p0,
    C79_pressure j' hj' fuel' order' ho' files' hrun' (hs.shared ▸ hsub) c' hc' elev h1' v (hs.shared ▸ hv) hbug k (hs.days ▸ hk) i
      (hs.shared ▸ hi0) T' r2 (by rw [← hs.shared]; linarith), ?_⟩
  rw [← hs.shared]
  unfold Spec.hypsometric
  refine mul_le_mul_of_nonneg_left (Real.exp_le_exp.2 ?_) (by norm_num)
  rw [neg_div, neg_div, neg_le_neg_iff]
  exact div_le_div_of_nonneg_left (by positivity) (by linarith) (by linarith)

end C122

/-- **C122**: there are two such runs. -/
example (b : ℝ) (hb : 0 ≤ b) : (warm 0).Sane ∧ (warm b).Sane ∧ (warm 0).Computed [0, 0] ∧ (warm b).Computed [0, 0] ∧
    (warm 0).shared.ts < 1440 ∧ (warm 0).shared.utcOffset = false ∧ 0 < (warm 0).shared.tmaxFraction ∧
    (warm 0).shared.tmaxFraction ≤ 1 ∧ (warm 0).shared.outVars.get? "temp" = some "K" ∧
    SamePlace (warm 0) (warm b) [0, 0] [0, 0] ∧ (∀ x, ((warm 0).inp [0, 0]).lat = fin x → |x| ≤ 90) ∧
    Extremes (warm 0) [0, 0] (fun _ => 5) (fun _ => 15) (4, 14) ∧
    Extremes (warm b) [0, 0] (fun _ => 5 + b) (fun _ => 15 + b) (4 + b, 14 + b) ∧
    Alternating (warm 0).n (4, 14) (fun _ => 5) (fun _ => 15) ∧
    Alternating (warm 0).n (4 + b, 14 + b) (fun _ => 5 + b) (fun _ => 15 + b) ∧
    (∃ order files, (warm 0).Schedule order ∧ (warm 0).run 0 order = .ok files) ∧
    (∃ order files, (warm b).Schedule order ∧ (warm b).run 0 order = .ok files) := by
  refine ⟨warm_sane _, warm_sane _, ⟨by show _ ∈ gridCells [("lat", 1), ("lon", 2)]; decide, 1, rfl, one_pos⟩,
    ⟨by show _ ∈ gridCells [("lat", 1), ("lon", 2)]; decide, 1, rfl, one_pos⟩, by show (720 : Nat) < 1440; decide, rfl,
    by unfold warm demo; norm_num, by unfold warm demo; norm_num, rfl, ⟨rfl, rfl, rfl, rfl⟩, fun x hx => ?_,
    ⟨⟨_, rfl, fun _ _ => by simp⟩, ⟨_, rfl, fun _ _ => by simp⟩, by simp [warm]⟩,
    ⟨⟨_, rfl, fun _ _ => rfl⟩, ⟨_, rfl, fun _ _ => rfl⟩, rfl⟩,
    ⟨by norm_num, by norm_num, fun _ _ => by norm_num, fun _ _ => by norm_num⟩,
    ⟨by norm_num, by norm_num, fun _ _ => by norm_num, fun _ _ => by norm_num⟩, warm_runs _, warm_runs _⟩
  rw [← Flt.fin.inj hx, abs_le]
  constructor <;> norm_num

/-- **C122** needs records that alternate: where the minimum is above the maximum of the day before, a warmer afternoon makes the
night before it colder. -/
example : (do
    let out ← Interp.temp (K := ℚ) [fin 1] [fin 2] 4 [(240, 720)] 60 (some [fin (-1), fin 0]) none
    let out' ← Interp.temp (K := ℚ) [fin 1] [fin 4] 4 [(240, 720)] 60 (some [fin (-1), fin 0]) none
    pure (decide (out'.getD 2 0 < out.getD 2 0)) : Except PyErr Bool) = .ok true := by decide +kernel

end Verif.Props
