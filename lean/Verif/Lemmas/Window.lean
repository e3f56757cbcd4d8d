import Verif.Props.Physical

/-!
# Which days a value depends on

A sub-daily series computed from two records whose days agree around a day.
-/

namespace Verif.Props

open Flt Physics Methods Cell Np Solar Interp
open Disaggregate (nDisagg windOf daylengthOf)

section generic
variable {K : Type} [Field K] [LinearOrder K] [IsStrictOrderedRing K]

/-- The interpolant on a piece depends on the ends of the piece and of its neighbours. -/
theorem pchip_window {k k' : Knots K} (hk : k.Increasing) (hk' : k'.Increasing) {a b : Nat} {τ : K}
    (hx : ∀ e ≤ 3, k'.x (b + e) = k.x (a + e) + τ) (hy : ∀ e ≤ 3, k'.y (b + e) = k.y (a + e))
    (ha : a + 3 < k.n) (hb : b + 3 < k'.n) {t : K} (h0 : k.x (a + 1) ≤ t) (h1 : t ≤ k.x (a + 2)) :
    pchip k' (t + τ) = pchip k t := by
  have hh : ∀ e ≤ 2, k'.h (b + e) = k.h (a + e) := fun e he => by
    unfold Knots.h
    rw [show b + e + 1 = b + (e + 1) from rfl, show a + e + 1 = a + (e + 1) from rfl, hx _ (by omega), hx _ (by omega)]
    ring
  have hm : ∀ e ≤ 2, k'.m (b + e) = k.m (a + e) := fun e he => by
    unfold Knots.m
    rw [show b + e + 1 = b + (e + 1) from rfl, show a + e + 1 = a + (e + 1) from rfl, hy _ (by omega), hy _ (by omega), hh e he]
  have hd : ∀ e ≤ 1, Interp.deriv k' (b + e + 1) = Interp.deriv k (a + e + 1) := fun e he => by
    unfold Interp.deriv
    rw [if_neg (by omega), if_neg (by omega), if_neg (by omega), if_neg (by omega), if_neg (by omega), if_neg (by omega),
      Nat.add_sub_cancel, Nat.add_sub_cancel, show b + e + 1 = b + (e + 1) from rfl, show a + e + 1 = a + (e + 1) from rfl,
      hh e (by omega), hh (e + 1) (by omega), hm e (by omega), hm (e + 1) (by omega)]
  rw [pchip_eq hk (by omega) (i := a + 1) (by omega) h0 h1,
    pchip_eq hk' (by omega) (i := b + 1) (by omega) (by rw [hx 1 (by omega)]; linarith)
      (by rw [show b + 1 + 1 = b + 2 from rfl, hx 2 (by omega)]; linarith)]
  unfold hermite
  simp only
  rw [show b + 1 + 1 = b + 1 + 1 from rfl, hd 0 (by omega), hd 1 (by omega), hx 1 (by omega), hy 1 (by omega), hh 1 (by omega), hm 1 (by omega)]
  ring

end generic

variable {d d' : Disaggregate.Daily} {p : Disaggregate.Par} {geom : List DayGeom} {tb te tb' te' : Option (List (Flt ℝ))}

/-- In local time there is no shift. -/
theorem utcShift_local (h : p.utcOffset = false) : Disagg.utcShift (hours p) = 0 := by
  unfold Disagg.utcShift
  rw [if_neg (by unfold hours; simp [h])]

/-- Times of the extremes of one and the same day of the year in two records. -/
theorem times_window {elev lat lr : ℝ} (hlat : |lat| ≤ 90) (hg : Solar.solarGeom elev lat lr = .ok geom) (hu : Usable d p)
    (hu' : Usable d' p) (t : Trace d p geom tb te) (t' : Trace d' p geom tb' te') {a b : Nat} (ha : a < d.doy.length)
    (hab : d.doy[a]? = d'.doy[b]?) :
    ∃ q q' : ℝ × ℝ, t.times[a]? = some q ∧ t'.times[b]? = some q' ∧ q'.1 = q.1 + 1440 * ((b : ℝ) - a) ∧
      q'.2 = q.2 + 1440 * ((b : ℝ) - a) ∧
      1440 * (a : ℝ) - (Disagg.utcShift (hours p) + p.ts) < q.1 ∧ q.1 < q.2 ∧
        q.2 < 1440 * ((a : ℝ) + 1) - (Disagg.utcShift (hours p) + p.ts) := by
  obtain ⟨l1, h1⟩ := setMinMaxHour_inDays (geom_rows hlat hg) (p := hours p) hu.frac hu.frac1 t.h_times
  obtain ⟨l2, h2⟩ := setMinMaxHour_inDays (geom_rows hlat hg) (p := hours p) hu'.frac hu'.frac1 t'.h_times
  rw [List.length_map] at l1 l2
  have hb : b < d'.doy.length := by
    rw [List.getElem?_eq_getElem ha] at hab
    exact (List.getElem?_eq_some_iff.1 hab.symm).1
  have e1 := List.getElem?_eq_getElem (show a < t.times.length by omega)
  have e2 := List.getElem?_eq_getElem (show b < t'.times.length by omega)
  obtain ⟨g, -, r1, q1, i1⟩ := h1 a _ e1
  obtain ⟨g', -, r2, q2, -⟩ := h2 b _ e2
  have hy : (d.doy.map (· - 1)).getD a 0 = (d'.doy.map (· - 1)).getD b 0 := by
    rw [List.getD_eq_getElem?_getD, List.getD_eq_getElem?_getD, List.getElem?_map, List.getElem?_map, hab]
  rw [hy, r2] at r1
  obtain rfl := Option.some.inj r1
  refine ⟨_, _, e1, e2, ?_, ?_, i1⟩
  · rw [q1, q2, minMaxTime_eq, minMaxTime_eq]; simp only; ring
  · rw [q1, q2, minMaxTime_eq, minMaxTime_eq]; simp only; ring

/-- Two days of two records alike in what temperature is computed from. -/
structure SameTemp (d d' : Disaggregate.Daily) (a b : Nat) : Prop where
  doy : d.doy[a]? = d'.doy[b]?
  tMin : d.tMin[a]? = d'.tMin[b]?
  tMax : d.tMax[a]? = d'.tMax[b]?

theorem SameTemp.lt {a b : Nat} (h : SameTemp d d' a b) (ha : a < d.doy.length) : b < d'.doy.length := by
  have := h.doy
  rw [List.getElem?_eq_getElem ha] at this
  exact (List.getElem?_eq_some_iff.1 this.symm).1

/-- How two records continue one another before a day: by a day alike, or, both beginning there, by the same state. -/
def SameBefore (d d' : Disaggregate.Daily) (sb sb' : Flt ℝ × Flt ℝ) (a b : Nat) : Prop :=
  (∃ a' b', a = a' + 1 ∧ b = b' + 1 ∧ SameTemp d d' a' b') ∨ a = 0 ∧ b = 0 ∧ sb = sb'

/-- Temperature during a day depends on that day, the one before and the one after. -/
theorem temp_window {sb sb' : Flt ℝ × Flt ℝ} {elev lat lr : ℝ} (hlat : |lat| ≤ 90)
    (hg : Solar.solarGeom elev lat lr = .ok geom) (hu : Usable d p) (hu' : Usable d' p) (hloc : p.utcOffset = false)
    (t : Trace d p geom (some [sb.1, sb.2]) none) (t' : Trace d' p geom (some [sb'.1, sb'.2]) none) {a b : Nat}
    (hbefore : SameBefore d d' sb sb' a b) (hday : SameTemp d d' a b) (hafter : SameTemp d d' (a + 1) (b + 1))
    (ha : a + 1 < d.doy.length) {i : Nat} (hi : i < 1440 / p.ts) :
    ∃ T, t.temp[a * (1440 / p.ts) + i]? = some T ∧ t'.temp[b * (1440 / p.ts) + i]? = some T := by
  obtain ⟨k, k1, k2, k3, k4, k5⟩ := temp_ok t.h_temp
  obtain ⟨k', k1', k2', k3', k4', k5'⟩ := temp_ok t'.h_temp
  have hb : b + 1 < d'.doy.length := hafter.lt ha
  have lt : t.times.length = d.doy.length := (tmin_lt hlat hg hu t).1
  have lt' : t'.times.length = d'.doy.length := (tmin_lt hlat hg hu' t').1
  obtain ⟨c1, c2⟩ := C55_points d.tMin d.tMax t.times (some sb) none (by rw [lt, hu.tMin]) (by rw [lt, hu.tMax])
    (List.length_pos_iff.1 (by omega))
  obtain ⟨c1', c2'⟩ := C55_points d'.tMin d'.tMax t'.times (some sb') none (by rw [lt', hu'.tMin]) (by rw [lt', hu'.tMax])
    (List.length_pos_iff.1 (by omega))
  have hn : k.n = 2 * (d.doy.length + 2) := by rw [k3, ← lt]; exact c1
  have hn' : k'.n = 2 * (d'.doy.length + 2) := by rw [k3', ← lt']; exact c1'
  have hS : Disagg.utcShift (hours p) = 0 := utcShift_local hloc
  -- the two points of a day
  have key : ∀ x y, SameTemp d d' x y → x < d.doy.length → ∃ q : ℝ × ℝ, ∃ lo hi : Flt ℝ,
      t.times[x]? = some q ∧ t'.times[y]? = some (q.1 + 1440 * ((y : ℝ) - x), q.2 + 1440 * ((y : ℝ) - x)) ∧
      d.tMin[x]? = some lo ∧ d'.tMin[y]? = some lo ∧ d.tMax[x]? = some hi ∧ d'.tMax[y]? = some hi ∧
      1440 * (x : ℝ) - p.ts < q.1 ∧ q.1 < q.2 ∧ q.2 < 1440 * ((x : ℝ) + 1) - p.ts := by
    intro x y h hx
    obtain ⟨q, q', h1, h2, h3, h4, h5⟩ := times_window hlat hg hu hu' t t' hx h.doy
    have m1 := List.getElem?_eq_getElem (show x < d.tMin.length by rw [hu.tMin]; exact hx)
    have m2 := List.getElem?_eq_getElem (show x < d.tMax.length by rw [hu.tMax]; exact hx)
    rw [hS, Int.cast_zero, zero_add] at h5
    refine ⟨q, _, _, h1, ?_, m1, h.tMin ▸ m1, m2, h.tMax ▸ m2, h5⟩
    rw [h2, ← h3, ← h4]
  have knots : ∀ x y, SameTemp d d' x y → x < d.doy.length → 
      k'.x (2 * (y + 1)) = k.x (2 * (x + 1)) + 1440 * ((y : ℝ) - x) ∧
      k'.x (2 * (y + 1) + 1) = k.x (2 * (x + 1) + 1) + 1440 * ((y : ℝ) - x) ∧
      k'.y (2 * (y + 1)) = k.y (2 * (x + 1)) ∧ k'.y (2 * (y + 1) + 1) = k.y (2 * (x + 1) + 1) ∧
      1440 * (x : ℝ) - p.ts < k.x (2 * (x + 1)) ∧ k.x (2 * (x + 1) + 1) < 1440 * ((x : ℝ) + 1) - p.ts := by
    intro x y h hx
    obtain ⟨q, lo, hi, h1, h2, m1, m1', m2, m2', o1, o2, o3⟩ := key x y h hx
    have hy := h.lt hx
    obtain ⟨e1, e2, -⟩ := c2 x q lo hi h1 m1 m2
    obtain ⟨e1', e2', -⟩ := c2' y _ lo hi h2 m1' m2'
    have f1 := k4 (2 * (x + 1)) (by omega)
    have f2 := k4 (2 * (x + 1) + 1) (by omega)
    have f1' := k4' (2 * (y + 1)) (by omega)
    have f2' := k4' (2 * (y + 1) + 1) (by omega)
    obtain ⟨g1, g2⟩ := Prod.mk.inj (Option.some.inj (e1.symm.trans f1))
    obtain ⟨g3, g4⟩ := Prod.mk.inj (Option.some.inj (e2.symm.trans f2))
    obtain ⟨g1', g2'⟩ := Prod.mk.inj (Option.some.inj (e1'.symm.trans f1'))
    obtain ⟨g3', g4'⟩ := Prod.mk.inj (Option.some.inj (e2'.symm.trans f2'))
    exact ⟨by rw [← g1', ← g1], by rw [← g3', ← g3], Flt.fin.inj (g2'.symm.trans g2), Flt.fin.inj (g4'.symm.trans g4),
      by rw [← g1]; exact o1, by rw [← g3]; exact o3⟩
  obtain ⟨x2, x3, y2, y3, -, -⟩ := knots a b hday (by omega)
  obtain ⟨x4, x5, y4, y5, o4, -⟩ := knots (a + 1) (b + 1) hafter ha
  have hτ : ((b + 1 : Nat) : ℝ) - ((a + 1 : Nat) : ℝ) = (b : ℝ) - a := by push_cast; ring
  rw [hτ] at x4 x5
  -- the two points before
  have before : k'.x (2 * b) = k.x (2 * a) + 1440 * ((b : ℝ) - a) ∧ k'.x (2 * b + 1) = k.x (2 * a + 1) + 1440 * ((b : ℝ) - a) ∧
      k'.y (2 * b) = k.y (2 * a) ∧ k'.y (2 * b + 1) = k.y (2 * a + 1) ∧ k.x (2 * a + 1) < 1440 * (a : ℝ) - p.ts := by
    rcases hbefore with ⟨a', b', rfl, rfl, h⟩ | ⟨rfl, rfl, hsb⟩
    · obtain ⟨x0, x1, y0, y1, -, o⟩ := knots a' b' h (by omega)
      have e : ((b' + 1 : Nat) : ℝ) - ((a' + 1 : Nat) : ℝ) = (b' : ℝ) - a' := by push_cast; ring
      rw [e]
      refine ⟨x0, x1, y0, y1, ?_⟩
      push_cast
      exact o
    · obtain ⟨q, lo, hi, h1, h2, m1, m1', m2, m2', o1, o2, o3⟩ := key 0 0 hday (by omega)
      obtain ⟨-, -, e, -⟩ := c2 0 q lo hi h1 m1 m2
      obtain ⟨-, -, e', -⟩ := c2' 0 _ lo hi h2 m1' m2'
      obtain ⟨e1, e2⟩ := e rfl
      obtain ⟨e1', e2'⟩ := e' rfl
      have f1 := k4 0 (by omega)
      have f2 := k4 1 (by omega)
      have f1' := k4' 0 (by omega)
      have f2' := k4' 1 (by omega)
      obtain ⟨g1, g2⟩ := Prod.mk.inj (Option.some.inj (e1.symm.trans f1))
      obtain ⟨g3, g4⟩ := Prod.mk.inj (Option.some.inj (e2.symm.trans f2))
      obtain ⟨g1', g2'⟩ := Prod.mk.inj (Option.some.inj (e1'.symm.trans f1'))
      obtain ⟨g3', g4'⟩ := Prod.mk.inj (Option.some.inj (e2'.symm.trans f2'))
      subst hsb
      simp only [Nat.cast_zero, sub_self, mul_zero, add_zero, zero_add, zero_sub] at *
      exact ⟨by rw [← g1', ← g1], by rw [← g3', ← g3], Flt.fin.inj (g2'.symm.trans g2), Flt.fin.inj (g4'.symm.trans g4),
        by rw [← g3]; linarith⟩
  obtain ⟨x0, x1, y0, y1, o1⟩ := before
  have hts : p.ts * (1440 / p.ts) = 1440 := Nat.mul_div_cancel' hu.ts
  have hts0 : 0 < p.ts := Nat.pos_of_dvd_of_pos hu.ts (by norm_num)
  have htR : (p.ts : ℝ) * ((1440 / p.ts : Nat) : ℝ) = 1440 := by exact_mod_cast hts
  have len : ∀ (n c : Nat), c + 1 < n → c * (1440 / p.ts) + i < nDisagg n p.ts := fun n c hc => by
    have h1 : nDisagg n p.ts = n * (1440 / p.ts) := Nat.mul_div_assoc _ hu.ts
    have h2 : (c + 1) * (1440 / p.ts) ≤ n * (1440 / p.ts) := Nat.mul_le_mul_right _ (by omega)
    rw [h1]
    rw [Nat.add_mul, Nat.one_mul] at h2
    omega
  have ht : (p.ts : ℝ) * ((a * (1440 / p.ts) + i : Nat) : ℝ) = 1440 * a + p.ts * i := by
    push_cast
    linear_combination (a : ℝ) * htR
  have ht' : (p.ts : ℝ) * ((b * (1440 / p.ts) + i : Nat) : ℝ) = 1440 * a + p.ts * i + 1440 * ((b : ℝ) - a) := by
    push_cast
    linear_combination (b : ℝ) * htR
  have hlast : (p.ts : ℝ) * i + p.ts ≤ 1440 := by
    have : p.ts * (i + 1) ≤ p.ts * (1440 / p.ts) := Nat.mul_le_mul_left _ hi
    rw [hts] at this
    have h : ((p.ts * (i + 1) : Nat) : ℝ) ≤ 1440 := by exact_mod_cast this
    push_cast at h
    linarith
  have hi0 : (0 : ℝ) ≤ p.ts * i := by positivity
  have hp0 : (0 : ℝ) < p.ts := by exact_mod_cast hts0
  push_cast at o4
  obtain ⟨j, hj, s0, s1⟩ := exists_segment (fun j => k.x (2 * a + 1 + j)) 2 (1440 * (a : ℝ) + p.ts * i)
    (by simp only [add_zero]; linarith)
    (by
      show _ ≤ k.x (2 * a + 1 + 3)
      rw [show 2 * a + 1 + 3 = 2 * (a + 1 + 1) by ring]
      linarith)
  have hX : ∀ e ≤ 5, k'.x (2 * b + e) = k.x (2 * a + e) + 1440 * ((b : ℝ) - a) := by
    intro e he
    interval_cases e
    exacts [x0, x1, x2, x3, x4, x5]
  have hY : ∀ e ≤ 5, k'.y (2 * b + e) = k.y (2 * a + e) := by
    intro e he
    interval_cases e
    exacts [y0, y1, y2, y3, y4, y5]
  have main := pchip_window k1 k1' (a := 2 * a + j) (b := 2 * b + j) (τ := 1440 * ((b : ℝ) - a))
    (fun e he => by rw [Nat.add_assoc, Nat.add_assoc]; exact hX _ (by omega))
    (fun e he => by rw [Nat.add_assoc, Nat.add_assoc]; exact hY _ (by omega)) (by omega) (by omega)
    (t := 1440 * (a : ℝ) + p.ts * i) (by rw [show 2 * a + j + 1 = 2 * a + 1 + j by omega]; exact s0)
    (by rw [show 2 * a + j + 2 = 2 * a + 1 + (j + 1) by omega]; exact s1)
  refine ⟨pchip k (1440 * (a : ℝ) + p.ts * i), ?_, ?_⟩
  · rw [k5, List.getElem?_map, List.getElem?_range (len _ _ ha), Option.map_some, ht]
  · rw [k5', List.getElem?_map, List.getElem?_range (len _ _ hb), Option.map_some, ht', main]

theorem day_index {n ts c i : Nat} (hts : ts ∣ 1440) (hc : c < n) (hi : i < 1440 / ts) : c * (1440 / ts) + i < nDisagg n ts := by
  have h1 : nDisagg n ts = n * (1440 / ts) := Nat.mul_div_assoc _ hts
  have h2 : (c + 1) * (1440 / ts) ≤ n * (1440 / ts) := Nat.mul_le_mul_right _ (by omega)
  rw [h1]
  rw [Nat.add_mul, Nat.one_mul] at h2
  omega

theorem step_minute {ts : Nat} (hts : ts ∣ 1440) (a i : Nat) :
    (ts : ℝ) * ((a * (1440 / ts) + i : Nat) : ℝ) = 1440 * a + ts * i := by
  have htR : (ts : ℝ) * ((1440 / ts : Nat) : ℝ) = 1440 := by exact_mod_cast Nat.mul_div_cancel' hts
  push_cast
  linear_combination (a : ℝ) * htR

/-- Filling a gap at the beginning. -/
theorem fill_front {xs ys : List (Flt ℝ)} {i m : Nat} (hm : ∀ k ≤ m, xs[k]? = ys[k]?) (him : i ≤ m)
    (hnan : ∀ k ≤ i, xs[k]? = some nan) {v : ℝ} (hv : xs[m]? = some (fin v)) : (fillBoth xs)[i]? = (fillBoth ys)[i]? := by
  have one : ∀ zs : List (Flt ℝ), (∀ k ≤ m, xs[k]? = zs[k]?) → ∃ j w, i < j ∧ j ≤ m ∧ xs[j]? = some (fin w) ∧
      (∀ k < j, xs[k]? = some nan) ∧ (fillBoth zs)[i]? = some (fin w) := by
    intro zs hz
    have hi : i < zs.length := (List.getElem?_eq_some_iff.1 ((hz i him).symm.trans (hnan i le_rfl))).1
    have hy := List.getElem?_eq_getElem (show i < (fillBoth zs).length by rw [length_fillBoth]; exact hi)
    rcases fillBoth_spec hy with ⟨j, w, hj, hx, -, -⟩ | ⟨j, w, hj, hx, he, hk⟩ | ⟨-, hk⟩
    · rw [← hz j (by omega), hnan j hj] at hx
      cases hx
    · have hjm : j ≤ m := by
        by_contra hc
        have := hk m (by omega)
        rw [← hz m le_rfl, hv] at this
        cases this
      refine ⟨j, w, hj, hjm, (hz j hjm).trans hx, fun k hkj => (hz k (by omega)).trans (hk k hkj), ?_⟩
      rw [hy, he]
    · have := hk _ (List.mem_of_getElem? ((hz m le_rfl).symm.trans hv))
      cases this
  obtain ⟨j, w, -, -, h1, h2, h3⟩ := one xs fun _ _ => rfl
  obtain ⟨j', w', -, -, h1', h2', h3'⟩ := one ys hm
  have : j = j' := by
    rcases Nat.lt_trichotomy j j' with h | h | h
    · rw [h2' j h] at h1; cases h1
    · exact h
    · rw [h2 j' h] at h1'; cases h1'
  subst this
  rw [h1] at h1'
  rw [h3, h3', h1']

/-- Two days alike in what vapour pressure is computed from. -/
structure SameVapor (d d' : Disaggregate.Daily) (a b : Nat) : Prop extends SameTemp d d' a b where
  vapor : d.vaporPressure[a]? = d'.vaporPressure[b]?

/-- Vapour pressure during a day depends on that day, the one before and the one after. -/
theorem vp_window {sb sb' : Flt ℝ × Flt ℝ} {elev lat lr : ℝ} (hlat : |lat| ≤ 90)
    (hg : Solar.solarGeom elev lat lr = .ok geom) (hu : Usable d p) (hu' : Usable d' p) (hloc : p.utcOffset = false)
    (t : Trace d p geom (some [sb.1, sb.2]) none) (t' : Trace d' p geom (some [sb'.1, sb'.2]) none) {a b : Nat}
    (hbefore : (∃ a' b', a = a' + 1 ∧ b = b' + 1 ∧ SameVapor d d' a' b') ∨ a = 0 ∧ b = 0 ∧ sb = sb')
    (hday : SameVapor d d' a b) (hafter : SameVapor d d' (a + 1) (b + 1)) (ha : a + 1 < d.doy.length)
    (hvp : ∀ x ∈ d.vaporPressure, ∃ v, x = fin v) (hT : ∀ T ∈ t.temp, -237.3 < T) {i : Nat} (hi : i < 1440 / p.ts) :
    (fillBoth t.vp)[a * (1440 / p.ts) + i]? = (fillBoth t'.vp)[b * (1440 / p.ts) + i]? := by
  have hb : b + 1 < d'.doy.length := hafter.lt ha
  have hbef : SameBefore d d' sb sb' a b := by
    rcases hbefore with ⟨a', b', h1, h2, h3⟩ | h
    · exact Or.inl ⟨a', b', h1, h2, h3.toSameTemp⟩
    · exact Or.inr h
  have htemp := fun (i : Nat) (hi : i < 1440 / p.ts) =>
    temp_window hlat hg hu hu' hloc t t' hbef hday.toSameTemp hafter.toSameTemp ha hi
  have hS : Disagg.utcShift (hours p) = 0 := utcShift_local hloc
  have hts : p.ts * (1440 / p.ts) = 1440 := Nat.mul_div_cancel' hu.ts
  have hts0 : 0 < p.ts := Nat.pos_of_dvd_of_pos hu.ts (by norm_num)
  have hp0 : (0 : ℝ) < p.ts := by exact_mod_cast hts0
  have hlast : ∀ i < 1440 / p.ts, (p.ts : ℝ) * i + p.ts ≤ 1440 := fun i hi => by
    have : p.ts * (i + 1) ≤ p.ts * (1440 / p.ts) := Nat.mul_le_mul_left _ hi
    rw [hts] at this
    have h : ((p.ts * (i + 1) : Nat) : ℝ) ≤ 1440 := by exact_mod_cast this
    push_cast at h
    linarith
  -- between the minima of two neighbouring days
  have seg : ∀ x y, SameVapor d d' x y → SameVapor d d' (x + 1) (y + 1) → x + 1 < d.doy.length →
      (y : ℝ) - x = (b : ℝ) - a → ∀ i < 1440 / p.ts, (∀ q, t.times[x]? = some q → q.1 ≤ 1440 * (a : ℝ) + p.ts * i) →
      (∀ q, t.times[x + 1]? = some q → 1440 * (a : ℝ) + p.ts * i ≤ q.1) →
      ∃ v, t.vp[a * (1440 / p.ts) + i]? = some (fin v) ∧ t'.vp[b * (1440 / p.ts) + i]? = some (fin v) := by
    intro x y h1 h2 hx hxy i hi hlo hhi
    obtain ⟨q, q', e1, e2, e3, e4, -⟩ := times_window hlat hg hu hu' t t' (a := x) (by omega) h1.doy
    obtain ⟨r, r', f1, f2, f3, f4, -⟩ := times_window hlat hg hu hu' t t' hx h2.doy
    have hxy1 : ((y + 1 : Nat) : ℝ) - ((x + 1 : Nat) : ℝ) = (b : ℝ) - a := by push_cast; linarith
    rw [hxy] at e3
    rw [hxy1] at f3
    obtain ⟨T, g1, g2⟩ := htemp i hi
    have m1 := List.getElem?_eq_getElem (show x < d.vaporPressure.length by rw [hu.vaporPressure]; omega)
    have m2 := List.getElem?_eq_getElem (show x + 1 < d.vaporPressure.length by rw [hu.vaporPressure]; exact hx)
    obtain ⟨α, hα⟩ := hvp _ (List.getElem_mem (show x < d.vaporPressure.length by rw [hu.vaporPressure]; omega))
    obtain ⟨β, hβ⟩ := hvp _ (List.getElem_mem (show x + 1 < d.vaporPressure.length by rw [hu.vaporPressure]; exact hx))
    rw [hα] at m1
    rw [hβ] at m2
    have hTi := hT T (List.mem_of_getElem? g1)
    have s0 := hlo q e1
    have s1 := hhi r f1
    refine ⟨_, vp_between hlat hg hu t (k := x) e1 f1 m1 m2 (by rw [step_minute hu.ts]; exact s0)
      (by rw [step_minute hu.ts]; exact s1) g1 hTi, ?_⟩
    rw [vp_between hlat hg hu' t' (k := y) e2 f2 (h1.vapor ▸ m1) (h2.vapor ▸ m2)
      (by rw [step_minute hu.ts, e3]; linarith) (by rw [step_minute hu.ts, f3]; linarith) g2 hTi,
      step_minute hu.ts, step_minute hu.ts, e3, f3]
    congr 7
    · ring
    · ring
  obtain ⟨q, q', e1, e2, e3, -, e5, e6, e7⟩ := times_window hlat hg hu hu' t t' (a := a) (by omega) hday.doy
  obtain ⟨r, r', f1, f2, f3, -, f5, -⟩ := times_window hlat hg hu hu' t t' ha hafter.doy
  rw [hS, Int.cast_zero, zero_add] at e5 e7 f5
  push_cast at f5
  have late : ∀ i < 1440 / p.ts, q.1 ≤ 1440 * (a : ℝ) + p.ts * i →
      ∃ v, t.vp[a * (1440 / p.ts) + i]? = some (fin v) ∧ t'.vp[b * (1440 / p.ts) + i]? = some (fin v) := by
    intro i hi hq
    refine seg a b hday hafter ha rfl i hi (fun z hz => ?_) (fun z hz => ?_)
    · obtain rfl := Option.some.inj (e1.symm.trans hz); exact hq
    · obtain rfl := Option.some.inj (f1.symm.trans hz)
      have := hlast i hi
      linarith
  rcases le_or_gt q.1 (1440 * (a : ℝ) + p.ts * i) with hq | hq
  · obtain ⟨v, h1, h2⟩ := late i hi hq
    rw [fillBoth_keep h1, fillBoth_keep h2]
  rcases hbefore with ⟨a', b', rfl, rfl, h⟩ | ⟨rfl, rfl, -⟩
  · obtain ⟨w, w', g1, -, -, -, -, g6, g7⟩ := times_window hlat hg hu hu' t t' (a := a') (by omega) h.doy
    rw [hS, Int.cast_zero, zero_add] at g7
    obtain ⟨v, h1, h2⟩ := seg a' b' h hday (by omega) (by push_cast; ring) i hi (fun z hz => by
      obtain rfl := Option.some.inj (g1.symm.trans hz)
      have hi0 : (0 : ℝ) ≤ p.ts * i := by positivity
      push_cast
      linarith) (fun z hz => by
      obtain rfl := Option.some.inj (e1.symm.trans hz); exact hq.le)
    rw [fillBoth_keep h1, fillBoth_keep h2]
  · -- before the first minimum
    simp only [Nat.zero_mul, Nat.zero_add, Nat.cast_zero, mul_zero, zero_add, sub_self, add_zero, one_mul, mul_one, zero_sub] at *
    have early : ∀ (d : Disaggregate.Daily) (hu : Usable d p) (s : Flt ℝ × Flt ℝ) (t : Trace d p geom (some [s.1, s.2]) none)
        (q : ℝ × ℝ), t.times[0]? = some q → ∀ j < t.temp.length, (p.ts : ℝ) * j < q.1 → t.vp[j]? = some nan := by
      intro d hu s t q hq j hj hjq
      obtain ⟨-, -, -, h4⟩ := vaporPressure_ok t.h_vp
      rw [h4 j _ (by rw [List.getElem?_map, List.getElem?_eq_getElem hj, Option.map_some]),
        linear_outside (Or.inl (by simp only [getD_times hq]; exact hjq)), cap_nan]
    have l1 : 1440 / p.ts ≤ t.temp.length := by
      obtain ⟨T, h1, -⟩ := htemp (1440 / p.ts - 1) (by omega)
      have := (List.getElem?_eq_some_iff.1 h1).1
      omega
    have l2 : 1440 / p.ts ≤ t'.temp.length := by
      obtain ⟨T, -, h1⟩ := htemp (1440 / p.ts - 1) (by omega)
      have := (List.getElem?_eq_some_iff.1 h1).1
      omega
    have hend : q.1 ≤ (p.ts : ℝ) * ((1440 / p.ts - 1 : Nat) : ℝ) := by
      have h1 : p.ts * (1440 / p.ts - 1) + p.ts = 1440 := by
        have : p.ts * (1440 / p.ts - 1 + 1) = 1440 := by rw [Nat.sub_add_cancel (by omega)]; exact hts
        rw [Nat.mul_add, Nat.mul_one] at this
        exact this
      have h2 : (p.ts : ℝ) * ((1440 / p.ts - 1 : Nat) : ℝ) + p.ts = 1440 := by exact_mod_cast h1
      linarith
    obtain ⟨v, hv, -⟩ := late (1440 / p.ts - 1) (by omega) hend
    refine fill_front (m := 1440 / p.ts - 1) (fun k hk => ?_) (by omega) (fun k hk => ?_) hv
    · rcases le_or_gt q.1 ((p.ts : ℝ) * k) with h | h
      · obtain ⟨v, h1, h2⟩ := late k (by omega) h
        rw [h1, h2]
      · rw [early d hu _ t q e1 k (by omega) h, early d' hu' _ t' q' e2 k (by omega) (by rw [e3]; exact h)]
    · refine early d hu _ t q e1 k (by omega) (lt_of_le_of_lt ?_ hq)
      have : (k : ℝ) ≤ i := by exact_mod_cast hk
      nlinarith

/-- The value of a series given by day. -/
def at? (w : Option (List (Flt ℝ))) (a : Nat) : Option (Option (Flt ℝ)) := w.map fun l => l[a]?

/-- Cloud cover and wind of a day come from that day. -/
theorem const_window {xs ys out out' : List (Flt ℝ)} {ts : Nat} {lon : ℝ} (hts : ts ∣ 1440)
    (h : Disagg.wind xs ts false lon = .ok out) (h' : Disagg.wind ys ts false lon = .ok out') {a b : Nat}
    (ha : a < xs.length) (hb : b < ys.length) (hab : xs[a]? = ys[b]?) {i : Nat} (hi : i < 1440 / ts) :
    out[a * (1440 / ts) + i]? = out'[b * (1440 / ts) + i]? := by
  rw [(C50_constant hts h).2 a ha i hi, (C50_constant hts h').2 b hb i hi, hab]

/-- Precipitation of a day comes from that day. -/
theorem prec_window {P P' tMin tMin' out out' : List (Flt ℝ)} {ts : Nat} {ptype : String} {lon : ℝ}
    {tPk dur tPk' dur' : Option (List (Flt ℝ))} (hts : ts ∣ 1440)
    (h : Disagg.prec P tMin ts ptype false lon tPk dur = .ok out)
    (h' : Disagg.prec P' tMin' ts ptype false lon tPk' dur' = .ok out') {a b : Nat}
    (ha : a < P.length) (hb : b < P'.length) (hP : P[a]? = P'[b]?) (hT : tMin[a]? = tMin'[b]?)
    (hpk : at? tPk a = at? tPk' b) (hdu : at? dur a = at? dur' b) {i : Nat} (hi : i < 1440 / ts) :
    out[a * (1440 / ts) + i]? = out'[b * (1440 / ts) + i]? := by
  obtain ⟨days, l, hd, hl, -, -, rfl⟩ := prec_inv h
  obtain ⟨days', l', hd', hl', -, -, rfl⟩ := prec_inv h'
  simp only [Bool.false_eq_true, if_false]
  have e := List.getElem?_eq_getElem (show a < days.length by omega)
  have e' := List.getElem?_eq_getElem (show b < days'.length by omega)
  rw [step_of_day hl hts e hi, step_of_day hl' hts e' hi]
  have opt : ∀ {w w' : Option (List (Flt ℝ))}, at? w a = at? w' b →
      (w.map fun l => l.getD a nan) = (w'.map fun l => l.getD b nan) := by
    intro w w' hw
    unfold at? at hw
    cases w <;> cases w' <;> simp_all [List.getD_eq_getElem?_getD]
  have : dayOf ptype P tMin tPk dur a = dayOf ptype P' tMin' tPk' dur' b := by
    unfold dayOf
    rw [List.getD_eq_getElem?_getD, List.getD_eq_getElem?_getD, List.getD_eq_getElem?_getD, List.getD_eq_getElem?_getD, hP, hT,
      opt hpk, opt hdu]
  have h1 := hd a _ e
  rw [this, hd' b _ e'] at h1
  rw [Except.ok.inj h1]

/-- Shortwave radiation of a day comes from that day. -/
theorem sw_window {sw sw' dl dl' out out' : List (Flt ℝ)} {doy doy' : List Nat} {table : List (List ℝ)} {ts : Nat} {lon : ℝ}
    (hl : dl.length = sw.length) (hl' : dl'.length = sw'.length) (hts : ts ∣ 1440)
    (h : Disagg.shortwave sw dl doy table ts false lon = .ok out)
    (h' : Disagg.shortwave sw' dl' doy' table ts false lon = .ok out') {a b : Nat}
    (ha : a < sw.length) (hb : b < sw'.length) (hs : sw[a]? = sw'[b]?) (hd : dl[a]? = dl'[b]?) (hy : doy[a]? = doy'[b]?)
    {i : Nat} (hi : i < 1440 / ts) : out[a * (1440 / ts) + i]? = out'[b * (1440 / ts) + i]? := by
  obtain ⟨h0, days, rfl, hdn, hdays⟩ := shortwave_inv hl h
  obtain ⟨-, days', rfl, hdn', hdays'⟩ := shortwave_inv hl' h'
  have own : ∀ {n d s : Nat}, d < n → s < 2880 → slotDay n false lon d s = d := fun {n d s} hd hs => by
    unfold slotDay swShift
    simp only [Bool.false_eq_true, if_false, add_zero]
    rw [Int.emod_eq_of_lt (by positivity) (by
      have h1 : (d + 1) * 2880 ≤ n * 2880 := Nat.mul_le_mul_right _ hd
      have h2 : d * 2880 + s < n * 2880 := by
        rw [Nat.add_mul, Nat.one_mul] at h1
        omega
      exact_mod_cast h2), Int.toNat_natCast]
    omega
  have len : ∀ {ds : List (List (Flt ℝ))} {m : Nat} {f : Nat → Nat → Flt ℝ}, ds.length = m →
      (∀ d day, ds[d]? = some day → ts ∣ 1440 ∧ ∃ Z : List (Flt ℝ), Z.length = 2880 ∧
        day = (rows Z (2 * ts)).map Flt.sum ∧ ∀ s < 2880, Z[s]? = some (f d s)) → ∀ day ∈ ds, day.length = 1440 / ts := by
    intro ds m f _ hh day hday
    obtain ⟨d, hlt, rfl⟩ := List.getElem_of_mem hday
    obtain ⟨hdv, Z, hZ, he, -⟩ := hh d _ (List.getElem?_eq_getElem hlt)
    rw [he, List.length_map, length_rows, hZ]
    obtain ⟨k, hk⟩ := hdv
    rw [hk, Nat.mul_div_cancel_left _ h0, show 2880 = 2 * ts * k by rw [Nat.mul_assoc, ← hk], Nat.mul_div_cancel_left _ (by omega)]
  have e := List.getElem?_eq_getElem (show a < days.length by omega)
  have e' := List.getElem?_eq_getElem (show b < days'.length by omega)
  have same : days[a]'(by omega) = days'[b]'(by omega) := by
    obtain ⟨-, Z, hZ, he, hz⟩ := hdays a _ e
    obtain ⟨-, Z', hZ', he', hz'⟩ := hdays' b _ e'
    have : Z = Z' := by
      refine List.ext_getElem? fun s => ?_
      by_cases hs2 : s < 2880
      · rw [hz s hs2, hz' s hs2, own ha hs2, own hb hs2, List.getD_eq_getElem?_getD, List.getD_eq_getElem?_getD, hy]
        unfold perSlot
        rw [List.getD_eq_getElem?_getD, List.getD_eq_getElem?_getD, List.getD_eq_getElem?_getD, List.getD_eq_getElem?_getD, hs, hd]
      · rw [List.getElem?_eq_none (by omega), List.getElem?_eq_none (by omega)]
    rw [he, he', this]
  have pick : ∀ {ds : List (List (Flt ℝ))} (_ : ∀ day ∈ ds, day.length = 1440 / ts) {c : Nat} (hc : c < ds.length),
      ds.flatten[c * (1440 / ts) + i]? = (ds[c])[i]? := by
    intro ds hds c hc
    have hb := flatten_block (1440 / ts) ds hds (List.getElem?_eq_getElem hc)
    rw [← hb, List.getElem?_take_of_lt hi, List.getElem?_drop]
  rw [pick (len hdn hdays) (by omega), pick (len hdn' hdays') (by omega), same]

/-- Two days alike in what is given for them, radiation and humidity aside. -/
structure SameGiven (d d' : Disaggregate.Daily) (a b : Nat) : Prop extends SameTemp d d' a b where
  prec : d.prec[a]? = d'.prec[b]?
  wind : at? d.wind a = at? d'.wind b
  tPk : at? d.tPk a = at? d'.tPk b
  dur : at? d.dur a = at? d'.dur b

/-- Two days alike. -/
structure SameDay (d d' : Disaggregate.Daily) (a b : Nat) : Prop extends SameGiven d d' a b, SameVapor d d' a b where
  tskc : d.tskc[a]? = d'.tskc[b]?
  shortwave : d.shortwave[a]? = d'.shortwave[b]?
  daylength : d.daylength[a]? = d'.daylength[b]?

theorem keep_both {xs ys : List (Flt ℝ)} {a b : Nat} {v : ℝ} (h : xs[a]? = some (fin v)) (h' : ys[b]? = some (fin v)) :
    (fillBoth xs)[a]? = (fillBoth ys)[b]? := by
  rw [fillBoth_keep h, fillBoth_keep h']

theorem keep_eq {xs ys : List (Flt ℝ)} {a b : Nat} (h : xs[a]? = ys[b]?) {v : ℝ} (hv : xs[a]? = some (fin v)) :
    (fillBoth xs)[a]? = (fillBoth ys)[b]? := keep_both hv (h ▸ hv)

/-- The columns of a sub-daily frame of a day that follow from what is given. -/
theorem given_window {sb sb' : Flt ℝ × Flt ℝ} {elev lat lr : ℝ} (hlat : |lat| ≤ 90)
    (hg : Solar.solarGeom elev lat lr = .ok geom) (hu : Usable d p) (hu' : Usable d' p) (hloc : p.utcOffset = false)
    (t : Trace d p geom (some [sb.1, sb.2]) none) (t' : Trace d' p geom (some [sb'.1, sb'.2]) none) {a b : Nat}
    (hbefore : SameBefore d d' sb sb' a b) (hday : SameGiven d d' a b) (hafter : SameTemp d d' (a + 1) (b + 1))
    (ha : a + 1 < d.doy.length) (hd : DayGood d) (hT : ∀ T ∈ t.temp, -60 ≤ T ∧ T ≤ 60)
    (hsp : ∀ k < d.prec.length, Spreads p.precType d.tMin d.tPk d.dur k) (hl : 0 < p.lapseRate) (hl1 : p.lapseRate ≤ 0.0065)
    (he : p.elev ≤ 8000) {i : Nat} (hi : i < 1440 / p.ts) {v : String}
    (hv : v ∈ ["temp", "air_pressure", "prec", "wind"] ∨ v = "tskc" ∧ d.tskc[a]? = d'.tskc[b]?) {col col' : List (Flt ℝ)}
    (hc : subColumn t.sub v = .ok col) (hc' : subColumn t'.sub v = .ok col') :
    col[a * (1440 / p.ts) + i]? = col'[b * (1440 / p.ts) + i]? := by
  have hb : b + 1 < d'.doy.length := hafter.lt ha
  obtain ⟨T, h1, h2⟩ := temp_window hlat hg hu hu' hloc t t' hbefore hday.toSameTemp hafter ha hi
  have hTi := hT T (List.mem_of_getElem? h1)
  have e1 : (t.temp.map (fin : ℝ → Flt ℝ))[a * (1440 / p.ts) + i]? = some (fin T) := by rw [List.getElem?_map, h1]; rfl
  have e2 : (t'.temp.map (fin : ℝ → Flt ℝ))[b * (1440 / p.ts) + i]? = some (fin T) := by rw [List.getElem?_map, h2]; rfl
  have hin : a * (1440 / p.ts) + i < nDisagg d.doy.length p.ts := day_index hu.ts (by omega) hi
  simp only [List.mem_cons, List.not_mem_nil, or_false] at hv
  rcases hv with (rfl | rfl | rfl | rfl) | ⟨rfl, hcl⟩
  · obtain rfl := Except.ok.inj hc
    obtain rfl := Except.ok.inj hc'
    exact keep_both e1 e2
  · obtain rfl := Except.ok.inj hc
    obtain rfl := Except.ok.inj hc'
    obtain ⟨x, h3, -⟩ := pressure_ge hTi.1 hl hl1 he
    refine keep_both (v := x) ?_ ?_
    · unfold Trace.airPressure; rw [List.getElem?_map, e1, Option.map_some, h3]
    · unfold Trace.airPressure; rw [List.getElem?_map, e2, Option.map_some, h3]
  · obtain rfl := Except.ok.inj hc
    obtain rfl := Except.ok.inj hc'
    have k1 := t.h_prec
    have k2 := t'.h_prec
    rw [hloc] at k1 k2
    have hlt : a * (1440 / p.ts) + i < t.prec.length := by rw [t.l_prec]; exact hin
    obtain ⟨x, hx, -⟩ := prec_nonneg k1 hsp hd.prec _ (List.getElem_mem hlt)
    exact keep_eq (prec_window hu.ts k1 k2 (by rw [hu.prec]; omega) (by rw [hu'.prec]; omega) hday.prec hday.tMin hday.tPk
      hday.dur hi) (by rw [List.getElem?_eq_getElem hlt, hx])
  · have k1 := t.h_wind
    have k2 := t'.h_wind
    unfold windOf at k1 k2
    have hw := hday.wind
    unfold at? at hw
    cases hdw : d.wind with
    | none =>
      rw [hdw] at k1
      have hn : t.sub.wind = none := by show t.wind.map fillBoth = none; rw [← Except.ok.inj k1]; rfl
      unfold subColumn at hc
      rw [hn] at hc
      cases hc
    | some w =>
      cases hdw' : d'.wind with
      | none => rw [hdw, hdw'] at hw; cases hw
      | some w' =>
        rw [hdw] at k1
        rw [hdw'] at k2
        rw [hdw, hdw'] at hw
        simp only [Option.map_some, Option.some.injEq] at hw
        simp only [bind_ok, pure_ok, column_ok, hloc] at k1 k2
        obtain ⟨o, g1, o', ⟨g2, rfl⟩, g3⟩ := k1
        obtain ⟨o2, f1, o2', ⟨f2, rfl⟩, f3⟩ := k2
        have hn : t.sub.wind = some (fillBoth o') := by show t.wind.map fillBoth = _; rw [← g3]; rfl
        have hn' : t'.sub.wind = some (fillBoth o2') := by show t'.wind.map fillBoth = _; rw [← f3]; rfl
        unfold subColumn at hc hc'
        rw [hn] at hc
        rw [hn'] at hc'
        obtain rfl := Except.ok.inj hc
        obtain rfl := Except.ok.inj hc'
        have hlt : a * (1440 / p.ts) + i < o'.length := by rw [g2]; exact hin
        obtain ⟨x, hx, -⟩ := wind_nonneg g1 (hd.wind w hdw) _ (List.getElem_mem hlt)
        exact keep_eq (const_window hu.ts g1 f1 (by rw [hu.wind w hdw]; omega) (by rw [hu'.wind w' hdw']; omega) hw hi)
          (by rw [List.getElem?_eq_getElem hlt, hx])
  · obtain rfl := Except.ok.inj hc
    obtain rfl := Except.ok.inj hc'
    have k1 := t.h_cloud
    have k2 := t'.h_cloud
    rw [hloc] at k1 k2
    have hlt : a * (1440 / p.ts) + i < t.cloud.length := by rw [t.l_cloud]; exact hin
    obtain ⟨x, hx, -⟩ := C50_bounds k1 hd.cloud _ (List.getElem_mem hlt)
    exact keep_eq (const_window hu.ts k1 k2 (by rw [hu.tskc]; omega) (by rw [hu'.tskc]; omega) hcl hi)
      (by rw [List.getElem?_eq_getElem hlt, hx])

/-- A day of a sub-daily frame follows from that day, the one before and the one after. -/
theorem sub_window {sb sb' : Flt ℝ × Flt ℝ} {elev lat lr : ℝ} (hlat : |lat| ≤ 90)
    (hg : Solar.solarGeom elev lat lr = .ok geom) (hu : Usable d p) (hu' : Usable d' p) (hloc : p.utcOffset = false)
    (t : Trace d p geom (some [sb.1, sb.2]) none) (t' : Trace d' p geom (some [sb'.1, sb'.2]) none) {a b : Nat}
    (hbefore : (∃ a' b', a = a' + 1 ∧ b = b' + 1 ∧ SameVapor d d' a' b') ∨ a = 0 ∧ b = 0 ∧ sb = sb')
    (hday : SameDay d d' a b) (hafter : SameVapor d d' (a + 1) (b + 1))
    (ha : a + 1 < d.doy.length) (hd : DayGood d) (hlw' : d'.longwave = none) (hT : ∀ T ∈ t.temp, -60 ≤ T ∧ T ≤ 60)
    (hsp : ∀ k < d.prec.length, Spreads p.precType d.tMin d.tPk d.dur k) (hl : 0 < p.lapseRate) (hl1 : p.lapseRate ≤ 0.0065)
    (he : p.elev ≤ 8000) (hsub : p.ts < 1440) {i : Nat} (hi : i < 1440 / p.ts) {v : String} {col col' : List (Flt ℝ)}
    (hc : subColumn t.sub v = .ok col) (hc' : subColumn t'.sub v = .ok col') :
    col[a * (1440 / p.ts) + i]? = col'[b * (1440 / p.ts) + i]? := by
  have hb : b + 1 < d'.doy.length := hafter.lt ha
  have hbef : SameBefore d d' sb sb' a b := by
    rcases hbefore with ⟨a', b', h1, h2, h3⟩ | h
    · exact Or.inl ⟨a', b', h1, h2, h3.toSameTemp⟩
    · exact Or.inr h
  have hin : a * (1440 / p.ts) + i < nDisagg d.doy.length p.ts := day_index hu.ts (by omega) hi
  have hin' : b * (1440 / p.ts) + i < nDisagg d'.doy.length p.ts := day_index hu.ts (by omega) hi
  by_cases hgv : v ∈ ["temp", "air_pressure", "prec", "wind", "tskc"]
  · refine given_window hlat hg hu hu' hloc t t' hbef hday.toSameGiven hafter.toSameTemp ha hd hT hsp hl hl1 he hi ?_ hc hc'
    simp only [List.mem_cons, List.not_mem_nil, or_false] at hgv ⊢
    rcases hgv with h | h | h | h | h
    · exact Or.inl (Or.inl h)
    · exact Or.inl (Or.inr (Or.inl h))
    · exact Or.inl (Or.inr (Or.inr (Or.inl h)))
    · exact Or.inl (Or.inr (Or.inr (Or.inr h)))
    · exact Or.inr ⟨h, hday.tskc⟩
  have hT237 : ∀ T ∈ t.temp, -237.3 < T := fun T h => by linarith [(hT T h).1]
  have hs0 : (-719 : ℝ) ≤ Disagg.utcShift (hours p) ∧ (Disagg.utcShift (hours p) : ℝ) ≤ 719 := by
    rw [utcShift_local hloc]; norm_num
  have gvp := good_vp hlat hg hu t hd.vapor hT (vp_defined hlat hg hu t hsub (by omega) hs0 hd.vapor hT237)
  obtain ⟨w, w1, w2, -⟩ := gvp _ hin
  have w1' : (fillBoth t'.vp)[b * (1440 / p.ts) + i]? = some (fin w) := by
    rw [← vp_window hlat hg hu hu' hloc t t' hbefore hday.toSameVapor hafter ha (fun x hx => by
      obtain ⟨v, h, -⟩ := hd.vapor x hx; exact ⟨v, h⟩) hT237 hi]
    exact w1
  obtain ⟨T, h1, h2⟩ := temp_window hlat hg hu hu' hloc t t' hbef hday.toSameTemp hafter.toSameTemp ha hi
  have hTi := hT T (List.mem_of_getElem? h1)
  have e1 : (t.temp.map (fin : ℝ → Flt ℝ))[a * (1440 / p.ts) + i]? = some (fin T) := by rw [List.getElem?_map, h1]; rfl
  have e2 : (t'.temp.map (fin : ℝ → Flt ℝ))[b * (1440 / p.ts) + i]? = some (fin T) := by rw [List.getElem?_map, h2]; rfl
  obtain ⟨P, hP, hP0⟩ := pressure_ge hTi.1 hl hl1 he
  have p1 : t.airPressure[a * (1440 / p.ts) + i]? = some (fin P) := by
    unfold Trace.airPressure; rw [List.getElem?_map, e1, Option.map_some, hP]
  have p2 : t'.airPressure[b * (1440 / p.ts) + i]? = some (fin P) := by
    unfold Trace.airPressure; rw [List.getElem?_map, e2, Option.map_some, hP]
  have w3 : w ≤ 20.3 := by
    obtain ⟨w', h, -, h3⟩ := gvp _ hin
    rw [w1] at h
    rw [Flt.fin.inj (Option.some.inj h)]; exact h3
  unfold subColumn at hc hc'
  split at hc
  · obtain rfl := Except.ok.inj hc
    obtain rfl := Except.ok.inj hc'
    have k1 := t.h_sw
    have k2 := t'.h_sw
    rw [hloc] at k1 k2
    have hlt : a * (1440 / p.ts) + i < t.sw.length := by rw [t.l_sw]; exact hin
    have ldl : (daylengthOf d p).length = d.shortwave.length := by rw [daylengthOf_length, hu.daylength, hu.shortwave]
    have ldl' : (daylengthOf d' p).length = d'.shortwave.length := by rw [daylengthOf_length, hu'.daylength, hu'.shortwave]
    obtain ⟨x, hx, -⟩ := C52_nonneg ldl k1 hd.shortwave (by
      unfold daylengthOf
      split
      · intro x hx
        obtain ⟨-, -, rfl⟩ := List.mem_map.1 hx
        exact ⟨_, rfl, by norm_num⟩
      · exact hd.daylength) (by
      intro r hr f hf
      obtain ⟨g, hgm, rfl⟩ := List.mem_map.1 hr
      obtain ⟨j, -, rfl⟩ := List.mem_map.1 hf
      exact (geom_rows hlat hg g hgm).nonneg j) _ (List.getElem_mem hlt)
    refine keep_eq (sw_window ldl ldl' hu.ts k1 k2 (by rw [hu.shortwave]; omega) (by rw [hu'.shortwave]; omega) hday.shortwave
      ?_ hday.doy hi) (by rw [List.getElem?_eq_getElem hlt, hx])
    unfold daylengthOf
    split
    · rw [List.getElem?_map, List.getElem?_map, hday.daylength]
    · exact hday.daylength
  · exact absurd (by decide) hgv
  · obtain rfl := Except.ok.inj hc
    obtain rfl := Except.ok.inj hc'
    rw [vp_fill, vp_fill, w1, w1']
  · obtain rfl := Except.ok.inj hc
    obtain rfl := Except.ok.inj hc'
    obtain ⟨x, h5, -⟩ := C57_percentage w T w2 (by linarith [hTi.1])
    refine keep_both (v := x) ?_ ?_
    · unfold Trace.relHumid
      rw [List.getElem?_zipWith, e1, w1]
      exact congrArg some h5
    · unfold Trace.relHumid
      rw [List.getElem?_zipWith, e2, w1']
      exact congrArg some h5
  · exact absurd (by decide) hgv
  · obtain rfl := Except.ok.inj hc
    obtain rfl := Except.ok.inj hc'
    obtain ⟨x, h5, -⟩ := C58_fraction w P w2 (by linarith)
    refine keep_both (v := x) ?_ ?_
    · unfold Trace.specHumid
      rw [List.getElem?_zipWith, p1, w1]
      exact congrArg some h5
    · unfold Trace.specHumid
      rw [List.getElem?_zipWith, p2, w1']
      exact congrArg some h5
  · exact absurd (by decide) hgv
  · obtain rfl := Except.ok.inj hc
    obtain rfl := Except.ok.inj hc'
    obtain ⟨ty, hty⟩ := hu.lwType
    obtain ⟨cl, hcl⟩ := hu.lwCloud
    have series : ∀ {d : Disaggregate.Daily} {s : Flt ℝ × Flt ℝ} (t : Trace d p geom (some [s.1, s.2]) none),
        d.longwave = none → ∀ (j : Nat) (x v c : Flt ℝ), (t.temp.map fin)[j]? = some x → (fillBoth t.vp)[j]? = some v →
        t.cloud[j]? = some c → t.lw[j]? = some (Humidity.lwElem ty cl x v c) := by
      intro d s t hnone
      obtain ⟨-, lt, lv, -⟩ := vaporPressure_ok t.h_vp
      rw [List.length_map] at lt
      have lv' : (fillBoth t.vp).length = nDisagg d.doy.length p.ts := by rw [length_fillBoth, lv]
      obtain ⟨lw, g1, -, g3⟩ := C60_series (t.temp.map fin) (fillBoth t.vp) t.cloud p.lwType p.lwCloud p.ts ty cl hty hcl
        (by rw [List.length_map, lt, lv']) (by rw [List.length_map, lt, t.l_cloud])
      have hlw := t.h_lw
      rw [hnone, g1] at hlw
      obtain rfl := Except.ok.inj hlw
      exact g3
    have k1 := t.h_cloud
    have k2 := t'.h_cloud
    rw [hloc] at k1 k2
    have hlt : a * (1440 / p.ts) + i < t.cloud.length := by rw [t.l_cloud]; exact hin
    obtain ⟨c, hx, c0, c1⟩ := C50_bounds k1 hd.cloud _ (List.getElem_mem hlt)
    have q1 : t.cloud[a * (1440 / p.ts) + i]? = some (fin c) := by rw [List.getElem?_eq_getElem hlt, hx]
    have q2 : t'.cloud[b * (1440 / p.ts) + i]? = some (fin c) := by
      rw [← const_window hu.ts k1 k2 (a := a) (b := b) (by rw [hu.tskc]; omega) (by rw [hu'.tskc]; omega) hday.tskc hi]; exact q1
    obtain ⟨x, h8, -⟩ := C60_nonneg ty cl T w c w2 c0 c1 (by linarith [hTi.1])
    refine keep_both (v := x) ?_ ?_
    · rw [series t hd.longwave _ _ _ _ e1 w1 q1, h8]
    · rw [series t' hlw' _ _ _ _ e2 w1' q2, h8]
  · exact absurd (by decide) hgv
  · exact absurd (by decide) hgv
  · cases hc

end Verif.Props
