import Verif.Lemmas.Dewpoint
import Verif.Lemmas.Radiation
import Verif.Props.Cell
import Verif.Props.Physics

/-!
# The dewpoint iteration ends: C72

Each round of the iteration sends the dewpoint of a day to a new one.  Where the new dewpoint falls as the old one rises
it falls by less than the old one rises, so that by Coppel's theorem the rounds converge; the bound on the radiation of a
day (`Lemmas/Radiation`) keeps the aridity ratio in the range where this is so.
-/

namespace Verif.Props

open Flt Physics Methods Cell
open Filter (atTop)

section C72

/-- Missing, or between two limits. -/
def Within (lo hi : ℝ) (x : Flt ℝ) : Prop := ∀ r, x = fin r → lo ≤ r ∧ r ≤ hi

/-- What one day of a record looks like to the iteration. -/
structure DayPlausible (d : Methods.Daily) (i : Nat) : Prop where
  tMin : Within (-60) 60 (d.tMin i)
  dtr : ∀ r, d.dtr i = fin r → (0 ≤ r ∨ d.tfmax i = nan) ∧ r ≤ 200
  tfmax : Within 0 1 (d.tfmax i)
  tDay : Within (-60) 60 (d.tDay i)
  ttMax : ∀ r, d.ttMax i = fin r → r ≤ 1
  geom : ∀ a b, d.potrad i = fin a → d.daylength i = fin b → 0 ≤ a ∧ 0 ≤ b ∧ a * b ≤ 6.15e7

theorem calcPetR_mul (m rad ta dl pa : ℝ) : calcPetR (rad * m) ta dl pa = m * calcPetR rad ta dl pa := by
  unfold calcPetR
  simp only
  ring

theorem calcPetR_le {rad ta dl pa : ℝ} (h1 : -60 ≤ ta) (h2 : ta ≤ 60) (hpa : 0 < pa) (hr : 0 ≤ rad * dl)
    (hb : rad * dl ≤ 6.15e7) : calcPetR rad ta dl pa * 10 ≤ 24 := by
  have hl : (2356467 : ℝ) ≤ 2.5023e6 - 2430.54 * ta := by norm_num; linarith
  have hs := slope_pos (ta := ta) (by linarith)
  have hE : (0 : ℝ) < (Cnst.EPS : ℝ) := by unfold Cnst.EPS; norm_num
  have hCP : (0 : ℝ) < (Cnst.CP : ℝ) := by unfold Cnst.CP; norm_num
  unfold calcPetR
  simp only
  generalize (svpR (ta + 0.2) - svpR (ta - 0.2)) / (ta + 0.2 - (ta - 0.2)) = s at hs
  generalize (2.5023e6 : ℝ) - 2430.54 * ta = L at hl
  have hg : 0 < Cnst.CP * pa / (L * Cnst.EPS) := by
    have : (0 : ℝ) < L := by linarith
    positivity
  generalize Cnst.CP * pa / (L * Cnst.EPS) = g at hg
  have hq0 : 0 ≤ s / (s + g) := by positivity
  have hq1 : s / (s + g) ≤ 1 := by rw [div_le_one (by positivity)]; linarith
  generalize s / (s + g) = q at hq0 hq1
  have e : 1.26 * q * (rad * 0.72) * dl / L / 10 * 10 = q * (rad * dl) * 0.9072 / L := by
    have : L ≠ 0 := by linarith
    field_simp
    ring
  rw [e, div_le_iff₀ (by linarith)]
  have h3 : q * (rad * dl) ≤ 1 * 6.15e7 := mul_le_mul hq1 hb hr zero_le_one
  norm_num at h3
  linarith

/-- A round for one day without missing values: from a dewpoint not below -115 degrees the next is given by `roundR`. -/
theorem round_fin {pa : ℝ} (hpa : 0 < pa) {tn dr f ta tt pr dl sp : ℝ} (a1 : -60 ≤ tn) (a2 : tn ≤ 60) (b1 : 0 ≤ dr)
    (b2 : dr ≤ 200) (c1 : 0 ≤ f) (c2 : f ≤ 1) (d1 : -60 ≤ ta) (d2 : ta ≤ 60) (e1 : tt ≤ 1) (f1 : 0 ≤ pr) (f2 : 0 ≤ dl)
    (f3 : pr * dl ≤ 6.15e7) :
    ∃ A B ρ, RoundOk A B ρ tt ∧ ∀ x : ℝ, -115 ≤ x →
      tdew (calcPet (shortwave (fin f) (vaporPressure (fin x)) (fin tt) (fin pr)) (fin ta) (fin dl) (fin pa)
        * fin Cnst.MM_PER_CM) (fin tn) (fin sp) (fin dr) = fin (roundR A B ρ tt x) := by
  have hmm : (Cnst.MM_PER_CM : ℝ) = 10 := by unfold Cnst.MM_PER_CM; norm_num
  have hcl : clampPrec (fin sp) = fin (max 80 sp) := by
    unfold clampPrec
    by_cases hs : sp < 80
    · rw [if_pos (by simpa using hs), max_eq_left hs.le]
    · rw [if_neg (by simpa using hs), max_eq_right (not_lt.1 hs)]
  have h80 : (80 : ℝ) ≤ max 80 sp := le_max_left _ _
  have hle : calcPetR (pr * f) ta dl pa * 10 ≤ 24 := by
    have hx : pr * f * dl = f * (pr * dl) := by ring
    have hpd : 0 ≤ pr * dl := mul_nonneg f1 f2
    refine calcPetR_le d1 d2 hpa ?_ ?_
    · rw [hx]; exact mul_nonneg c1 hpd
    · rw [hx]
      have := mul_le_mul_of_nonneg_right c2 hpd
      linarith
  have hge : 0 ≤ calcPetR (pr * f) ta dl pa :=
    calcPetR_nonneg (by linarith) (by linarith) hpa (mul_nonneg f1 c1) f2
  refine ⟨tn + 273.15, -0.127 + 0.0006 * dr, calcPetR (pr * f) ta dl pa * 10 / max 80 sp, ?_, fun x hx => ?_⟩
  · refine ⟨by linarith, by linarith, by linarith, by linarith, by positivity, ?_, e1⟩
    rw [div_le_iff₀ (by linarith)]
    linarith
  · have hne : (237.3 : ℝ) + x ≠ 0 := by
      have : (0 : ℝ) < 237.3 + x := by linarith
      exact this.ne'
    have hA : (Cnst.ABASE : ℝ) = -6.1e-5 := rfl
    have hK : (Cnst.KELVIN : ℝ) = 273.15 := rfl
    unfold shortwave vaporPressure
    rw [svp_fin hne]
    simp only [mul_fin, add_fin, max₂_fin]
    rw [calcPet_fin (by linarith) (by linarith) hpa]
    unfold tdew
    rw [hcl, mul_fin, div_fin_ne (by linarith : max 80 sp ≠ 0)]
    simp only [add_fin, mul_fin, sub_fin, Flt.fin.injEq]
    have e : pr * max (tt + Cnst.ABASE * svpR x) 0.0001 * f = pr * f * max (tt - 6.1e-5 * svpR x) 0.0001 := by
      rw [hA, show tt + -6.1e-5 * svpR x = tt - 6.1e-5 * svpR x by ring]
      ring
    rw [e, calcPetR_mul, hmm, hK]
    unfold roundR aridity
    generalize max (tt - 6.1e-5 * svpR x) 0.0001 = m
    generalize calcPetR (pr * f) ta dl pa = P
    generalize max 80 sp = S
    ring

/-- A round for one day: from a dewpoint not below -115 degrees, either a missing value results, whatever the old
dewpoint, or the next dewpoint is given by `roundR`. -/
theorem round_day {d : Methods.Daily} {pa : ℝ} (hpa : 0 < pa) {i : Nat} (h : DayPlausible d i) :
    (∀ old : Flt ℝ, tdew (calcPet (shortwave (d.tfmax i) (vaporPressure old) (d.ttMax i) (d.potrad i)) (d.tDay i)
        (d.daylength i) (fin pa) * fin Cnst.MM_PER_CM) (d.tMin i) (d.seasonal i) (d.dtr i) = nan) ∨
    ∃ A B ρ tt, RoundOk A B ρ tt ∧ (∃ a, d.tMin i = fin a ∧ -115 ≤ a) ∧ ∀ x : ℝ, -115 ≤ x →
      tdew (calcPet (shortwave (d.tfmax i) (vaporPressure (fin x)) (d.ttMax i) (d.potrad i)) (d.tDay i)
        (d.daylength i) (fin pa) * fin Cnst.MM_PER_CM) (d.tMin i) (d.seasonal i) (d.dtr i)
        = fin (roundR A B ρ tt x) := by
  obtain ⟨g1, g2, g3, g4, g5, g6⟩ := h
  generalize d.tMin i = tMin at *
  generalize d.dtr i = dtr at *
  generalize d.tfmax i = tf at *
  generalize d.tDay i = td at *
  generalize d.ttMax i = tt at *
  generalize d.potrad i = pr at *
  generalize d.daylength i = dl at *
  generalize d.seasonal i = sp at *
  cases tMin with
  | nan => left; intro old; simp [tdew]
  | fin tn =>
  cases dtr with
  | nan => left; intro old; simp [tdew]
  | fin dr =>
  cases tf with
  | nan => left; intro old; simp [tdew, calcPet, shortwave]
  | fin f =>
  cases td with
  | nan => left; intro old; simp [tdew, calcPet]
  | fin ta =>
  cases tt with
  | nan => left; intro old; simp [tdew, calcPet, shortwave]
  | fin tt =>
  cases pr with
  | nan => left; intro old; simp [tdew, calcPet, shortwave]
  | fin pr =>
  cases dl with
  | nan => left; intro old; simp [tdew, calcPet]
  | fin dl =>
  cases sp with
  | nan => left; intro old; simp [tdew, clampPrec]
  | fin sp =>
  right
  obtain ⟨a1, a2⟩ := g1 tn rfl
  obtain ⟨b1, b2⟩ := g2 dr rfl
  have b1 : 0 ≤ dr := b1.resolve_right (by simp)
  obtain ⟨c1, c2⟩ := g3 f rfl
  obtain ⟨d1, d2⟩ := g4 ta rfl
  have e1 := g5 tt rfl
  obtain ⟨f1, f2, f3⟩ := g6 pr dl rfl rfl
  obtain ⟨A, B, ρ, h1, h2⟩ := round_fin hpa (sp := sp) a1 a2 b1 b2 c1 c2 d1 d2 e1 f1 f2 f3
  exact ⟨A, B, ρ, tt, h1, ⟨tn, rfl, by linarith⟩, h2⟩

theorem not_moved_of_nan {n : Nat} {a b : Col} {tol : ℝ} {i : Nat} (hi : i < n) (h : a i = nan) :
    moved n a b tol = false := by
  unfold moved mean
  rw [sum_of_mem_nan]
  · simp
  · exact List.mem_map.2 ⟨i, List.mem_range.2 hi, by rw [h]; simp⟩

theorem not_moved_of_close {n : Nat} {a b : Col} {tol : ℝ} (ht : 0 ≤ tol)
    (h : ∀ i < n, ∃ x y, a i = fin x ∧ b i = fin y ∧ |x - y| ≤ tol) : moved n a b tol = false := by
  have hl : ∃ ys : List ℝ, (List.range n).map (fun i => (a i - b i) * (a i - b i)) = ys.map fin ∧
      (∀ y ∈ ys, 0 ≤ y ∧ y ≤ tol * tol) := by
    induction n with
    | zero => exact ⟨[], rfl, by simp⟩
    | succ n ih =>
      obtain ⟨ys, h1, h2⟩ := ih fun i hi => h i (by omega)
      obtain ⟨x, y, hx, hy, hxy⟩ := h n (by omega)
      refine ⟨ys ++ [(x - y) * (x - y)], ?_, ?_⟩
      · rw [List.range_succ, List.map_append, h1]
        simp [hx, hy]
      · intro z hz
        rcases List.mem_append.1 hz with hz | hz
        · exact h2 z hz
        · rw [List.mem_singleton.1 hz]
          refine ⟨mul_self_nonneg _, ?_⟩
          rw [← abs_mul_abs_self]
          exact mul_le_mul hxy hxy (abs_nonneg _) ht
  obtain ⟨ys, hys, hb⟩ := hl
  unfold moved mean
  rw [hys, sum_map_fin, List.length_map]
  cases hlen : ys.length with
  | zero => simp
  | succ m =>
    have hm : (0 : ℝ) < ((m + 1 : ℕ) : ℝ) := by positivity
    have hs : 0 ≤ ys.sum ∧ ys.sum ≤ (ys.length : ℝ) * (tol * tol) := by
      clear * - hb
      induction ys with
      | nil => simp
      | cons y ys ih =>
        obtain ⟨i1, i2⟩ := ih fun z hz => hb z (by simp [hz])
        obtain ⟨j1, j2⟩ := hb y (by simp)
        simp only [List.sum_cons, List.length_cons]
        push_cast
        constructor
        · linarith
        · linarith
    rw [hlen] at hs
    rw [div_fin_ne hm.ne', sqrt_fin (div_nonneg hs.1 hm.le)]
    simp only [lt_fin, decide_eq_false_iff_not, not_lt]
    rw [Real.sqrt_le_left ht, div_le_iff₀ hm]
    nlinarith [hs.2]

theorem iterate_of_stop {n : Nat} {d : Methods.Daily} {p : MParams} (hl : p.lapseRate ≠ 0)
    (P : Nat → Col → Prop) (hstep : ∀ k old new, P k old → nextTdew d p old = .ok new → P (k + 1) new) :
    ∀ (fuel k : Nat) (old new : Col), P k old → nextTdew d p old = .ok new →
      (∀ a b, P (k + fuel) a → nextTdew d p a = .ok b → moved n b a p.tdewTol = false) →
      ∃ r, iterate n d p fuel old new = .ok (some r)
  | 0, k, old, new, h1, h2, h3 => by
    unfold iterate
    rw [h3 old new h1 h2]
    exact ⟨new, rfl⟩
  | fuel + 1, k, old, new, h1, h2, h3 => by
    unfold iterate
    split
    · obtain ⟨e, he⟩ := pet_total hl (fun i => shortwave (d.tfmax i) (vaporPressure (new i)) (d.ttMax i) (d.potrad i))
        d.tDay d.daylength
      have hn : nextTdew d p new = .ok (fun i => tdew (e i) (d.tMin i) (d.seasonal i) (d.dtr i)) := by
        unfold nextTdew
        rw [he]
        rfl
      obtain ⟨r, hr⟩ := iterate_of_stop hl P hstep fuel (k + 1) new _ (hstep k old new h1 h2) hn
        (by rw [show k + 1 + fuel = k + (fuel + 1) by omega]; exact h3)
      refine ⟨r, ?_⟩
      rw [hn]
      exact hr
    · exact ⟨new, rfl⟩

/-- The iteration of a plausible record ends. -/
theorem iterate_ends {n : Nat} {d : Methods.Daily} {p : MParams} {elev : ℝ} (he : p.elev = fin elev)
    (hl : 0 < p.lapseRate) (hle : p.lapseRate * elev < 288.15) (ht : 0 < p.tdewTol)
    (hd : ∀ i < n, DayPlausible d i) {first : Col} (hf : nextTdew d p d.tMin = .ok first) :
    ∃ fuel r, iterate n d p fuel d.tMin first = .ok (some r) := by
  obtain ⟨pa, hpa, hpa0⟩ : ∃ pa, atmPres p.elev p.lapseRate = .ok (fin pa) ∧ 0 < pa := by
    rw [he]
    obtain ⟨pa, h1, h2, -⟩ := C40_atm_pres elev p.lapseRate hl hle
    exact ⟨pa, h1, h2⟩
  have hnext : ∀ old new, nextTdew d p old = .ok new → ∀ i, new i
      = tdew (calcPet (shortwave (d.tfmax i) (vaporPressure (old i)) (d.ttMax i) (d.potrad i)) (d.tDay i)
        (d.daylength i) (fin pa) * fin Cnst.MM_PER_CM) (d.tMin i) (d.seasonal i) (d.dtr i) := by
    intro old new h i
    unfold nextTdew pet at h
    rw [hpa] at h
    simp only [bind, Except.bind, pure, Except.pure, Except.ok.injEq] at h
    rw [← h]
  by_cases hnan : ∃ i < n, ∀ old : Flt ℝ, tdew (calcPet (shortwave (d.tfmax i) (vaporPressure old) (d.ttMax i)
      (d.potrad i)) (d.tDay i) (d.daylength i) (fin pa) * fin Cnst.MM_PER_CM) (d.tMin i) (d.seasonal i) (d.dtr i) = nan
  · obtain ⟨i, hi, hn⟩ := hnan
    refine ⟨0, first, ?_⟩
    unfold iterate
    rw [not_moved_of_nan hi (by rw [hnext _ _ hf, hn])]
    rfl
  · push Not at hnan
    have hday : ∀ i < n, ∃ A B ρ tt, RoundOk A B ρ tt ∧ (∃ a, d.tMin i = fin a ∧ -115 ≤ a) ∧ ∀ x : ℝ, -115 ≤ x →
      tdew (calcPet (shortwave (d.tfmax i) (vaporPressure (fin x)) (d.ttMax i) (d.potrad i)) (d.tDay i)
        (d.daylength i) (fin pa) * fin Cnst.MM_PER_CM) (d.tMin i) (d.seasonal i) (d.dtr i)
        = fin (roundR A B ρ tt x) := by
      intro i hi
      rcases round_day hpa0 (hd i hi) with h | h
      · obtain ⟨old, ho⟩ := hnan i hi
        exact absurd (h old) ho
      · exact h
    choose! A B ρ tt hok ha hround using hday
    choose! a ha1 ha2 using ha
    set P : Nat → Col → Prop := fun k c => ∀ i < n, c i = fin ((roundR (A i) (B i) (ρ i) (tt i))^[k] (a i)) ∧
      -115 ≤ (roundR (A i) (B i) (ρ i) (tt i))^[k] (a i) with hP
    have hstep : ∀ k old new, P k old → nextTdew d p old = .ok new → P (k + 1) new := by
      intro k old new h1 h2 i hi
      rw [Function.iterate_succ_apply']
      refine ⟨?_, (roundR_range (hok i hi) _).1⟩
      rw [hnext _ _ h2, (h1 i hi).1, hround i hi _ (h1 i hi).2]
    have hev : ∀ᶠ k in atTop, ∀ i ∈ Finset.range n,
        |(roundR (A i) (B i) (ρ i) (tt i))^[k + 1] (a i) - (roundR (A i) (B i) (ρ i) (tt i))^[k] (a i)| ≤ p.tdewTol := by
      rw [Filter.eventually_all_finset]
      intro i hi
      have hi := Finset.mem_range.1 hi
      exact round_converges (hok i hi) (a i) (ha2 i hi) ht
    obtain ⟨K, hK⟩ := hev.exists
    obtain ⟨r, hr⟩ := iterate_of_stop (n := n) hl.ne' P hstep K 0 d.tMin first
      (fun i hi => ⟨ha1 i hi, ha2 i hi⟩) hf (by
        intro x y hx hy
        rw [Nat.zero_add] at hx
        refine not_moved_of_close ht.le fun i hi => ?_
        exact ⟨_, _, (hstep K x y hx hy i hi).1, (hx i hi).1, hK i (Finset.mem_range.2 hi)⟩)
    exact ⟨K, r, hr⟩

theorem tDay_within {p : MParams} (h0 : 0 ≤ p.tdayCoef) (h1 : p.tdayCoef ≤ 1) {a b : Flt ℝ} (ha : Within (-60) 60 a)
    (hb : Within (-60) 60 b) : Within (-60) 60 (tDay a b p) := by
  intro r hr
  cases a with
  | nan => simp [tDay] at hr
  | fin a =>
  cases b with
  | nan => simp [tDay] at hr
  | fin b =>
  obtain ⟨a1, a2⟩ := ha a rfl
  obtain ⟨b1, b2⟩ := hb b rfl
  unfold tDay at hr
  simp only [add_fin] at hr
  rw [div_fin_ne (by norm_num)] at hr
  simp only [sub_fin, mul_fin, add_fin, Flt.fin.injEq] at hr
  rw [← hr]
  have e : (b - (a + b) / 2) * p.tdayCoef + (a + b) / 2 = p.tdayCoef * b + (1 - p.tdayCoef) * ((a + b) / 2) := by ring
  rw [e]
  have h2 : 0 ≤ 1 - p.tdayCoef := by linarith
  constructor
  · have i1 := mul_le_mul_of_nonneg_left b1 h0
    have i2 := mul_le_mul_of_nonneg_left (show -60 ≤ (a + b) / 2 by linarith) h2
    linarith
  · have i1 := mul_le_mul_of_nonneg_left b2 h0
    have i2 := mul_le_mul_of_nonneg_left (show (a + b) / 2 ≤ 60 by linarith) h2
    linarith

theorem tfmax_within {p : MParams} (h0 : 0 ≤ p.rainScalar) (h1 : p.rainScalar ≤ 1) (dtr sm prec : Flt ℝ) :
    Within 0 1 (tfmax dtr sm prec p) ∧ ∀ r, dtr = fin r → r < 0 → tfmax dtr sm prec p = nan := by
  have hneg : ∀ r, dtr = fin r → r < 0 → tfmax dtr sm prec p = nan := by
    rintro r rfl hr
    have : Flt.pow (fin r) (fin Cnst.C) = nan := by
      show (if r < 0 ∨ (r = 0 ∧ (Cnst.C : ℝ) < 0) then (nan : Flt ℝ) else _) = nan
      rw [if_pos (Or.inl hr)]
    unfold tfmax
    rw [this]
    simp
  refine ⟨?_, hneg⟩
  intro r hr
  cases dtr with
  | nan => simp [tfmax] at hr
  | fin dr =>
  cases sm with
  | nan => simp [tfmax] at hr
  | fin sm =>
  by_cases hd : dr < 0
  · rw [hneg dr rfl hd] at hr; cases hr
  · have hd := not_lt.1 hd
    cases prec with
    | fin prec =>
      obtain ⟨x, hx, x0, x1, -⟩ := tfmax_bounds p dr sm prec hd h0 h1
      rw [hx] at hr
      injection hr with hr
      rw [← hr]
      exact ⟨x0, x1.le⟩
    | nan =>
      obtain ⟨x, hx, x0, x1⟩ := dry_bounds dr sm hd
      unfold tfmax at hr
      simp only [lt_nan, Bool.false_eq_true, if_false] at hr
      rw [hx] at hr
      injection hr with hr
      rw [← hr]
      exact ⟨by linarith, x1.le⟩

/-- A daily record on earth: each minimum and maximum temperature is missing or between -60 and 60 degrees, each
temperature range is missing or at most 200 degrees.  Nothing is asked of precipitation. -/
structure Plausible (n : Nat) (df : Frame) : Prop where
  tMin : ∀ col, Dict.get? df "t_min" = some col → ∀ i < n, Within (-60) 60 (col i)
  tMax : ∀ col, Dict.get? df "t_max" = some col → ∀ i < n, Within (-60) 60 (col i)
  dtr : ∀ col, Dict.get? df "dtr" = some col → ∀ i < n, ∀ r, col i = fin r → r ≤ 200

theorem colOf_fin {rows : List Solar.DayGeom} {f : Solar.DayGeom → Flt ℝ} {i : Nat} {x : ℝ}
    (h : colOf (rows.map f) i = fin x) : ∃ g, rows[i]? = some g ∧ f g = fin x := by
  unfold colOf at h
  rw [List.getD_eq_getElem?_getD, List.getElem?_map] at h
  cases hg : rows[i]? with
  | none => rw [hg] at h; simp at h
  | some g => rw [hg] at h; exact ⟨g, rfl, h⟩

/-- **C72**: for every place and every plausible record `mtclim` finds its dewpoint in finitely many rounds, whatever the
positive tolerance; more rounds make no difference. -/
theorem C72_ends (n : Nat) (df : Frame) (p : MParams) (elev lat : ℝ) (geom rows : List Solar.DayGeom) (days : List Int)
    (he : p.elev = fin elev) (hl : 0 < p.lapseRate) (hle : p.lapseRate * elev < 288.15) (ht : 0 < p.tdewTol)
    (hc : 0 ≤ p.tdayCoef ∧ p.tdayCoef ≤ 1) (hr : 0 ≤ p.rainScalar ∧ p.rainScalar ≤ 1) (hlat : |lat| ≤ 90)
    (hg : Solar.solarGeom elev lat p.lapseRate = .ok geom) (hrows : geomRows geom days = .ok rows)
    (hcols : ∀ k ∈ ["t_min", "t_max", "dtr", "smoothed_dtr", "prec", "seasonal_prec"], Dict.get? df k ≠ none)
    (hp : Plausible n df) :
    ∃ fuel out, ∀ k, mtclimRun n (fuel + k) (withGeom rows df) p = .ok (some out) := by
  have hG : ∀ g ∈ rows, DayOk g ∧ g.potrad * g.daylength ≤ 6.15e7 := by
    intro g hgm
    have hmem : g ∈ geom := by
      unfold geomRows at hrows
      obtain ⟨d, -, hd⟩ := (mapM_ok hrows).2 g hgm
      cases hgd : geom[doy d - 1]? with
      | none => rw [hgd] at hd; cases hd
      | some g' =>
        rw [hgd] at hd
        injection hd with hd
        rw [← hd]
        exact List.mem_of_getElem? hgd
    obtain ⟨-, h1⟩ := C45_bounds_partial elev lat p.lapseRate hl hle geom hg
    obtain ⟨tr, -, -, h2⟩ := solarGeom_ok hg
    obtain ⟨i, -, hi⟩ := h2 g hmem
    exact ⟨h1 g hmem, Solar.potrad_le (latRad_lt hlat) hi⟩
  have hk : ∀ k ∈ ["t_min", "t_max", "dtr", "smoothed_dtr", "prec", "seasonal_prec"], ∃ col,
      Dict.get? df k = some col := fun k h => Option.ne_none_iff_exists'.1 (hcols k h)
  obtain ⟨tMin, g1⟩ := hk "t_min" (by decide)
  obtain ⟨tMax, g2⟩ := hk "t_max" (by decide)
  obtain ⟨dtr, g3⟩ := hk "dtr" (by decide)
  obtain ⟨sm, g4⟩ := hk "smoothed_dtr" (by decide)
  obtain ⟨prec, g5⟩ := hk "prec" (by decide)
  obtain ⟨sp, g9⟩ := hk "seasonal_prec" (by decide)
  set d : Methods.Daily := ⟨tMin, dtr, fun i => tfmax (dtr i) (sm i) (prec i) p,
      fun i => tDay (tMin i) (tMax i) p, colOf (rows.map (·.ttMax)), colOf (rows.map fun g => fin g.potrad),
      colOf (rows.map fun g => fin g.daylength), sp⟩ with hd
  obtain ⟨first, hfirst⟩ : ∃ first, nextTdew d p tMin = .ok first := by
    obtain ⟨e, he⟩ := pet_total hl.ne' (fun i => shortwave (d.tfmax i) (vaporPressure (tMin i)) (d.ttMax i) (d.potrad i))
      d.tDay d.daylength
    unfold nextTdew
    rw [he]
    exact ⟨_, rfl⟩
  have hday : ∀ i < n, DayPlausible d i := by
    intro i hi
    have a1 := hp.tMin tMin g1 i hi
    have a2 := hp.tMax tMax g2 i hi
    obtain ⟨t1, t2⟩ := tfmax_within hr.1 hr.2 (dtr i) (sm i) (prec i)
    refine ⟨a1, fun r h => ⟨?_, hp.dtr dtr g3 i hi r h⟩, t1, tDay_within hc.1 hc.2 a1 a2, ?_, ?_⟩
    · rcases lt_or_ge r 0 with h0 | h0
      · exact Or.inr (t2 r h h0)
      · exact Or.inl h0
    · intro r h
      obtain ⟨g, hgm, hx⟩ := colOf_fin h
      obtain ⟨o, -⟩ := hG g (List.mem_of_getElem? hgm)
      obtain ⟨-, -, -, t, ht, -, ht1⟩ := o
      rw [ht] at hx
      injection hx with hx
      rw [← hx]
      exact ht1.le
    · intro a b ha hb
      obtain ⟨g, hgm, hx⟩ := colOf_fin ha
      obtain ⟨g', hgm', hx'⟩ := colOf_fin hb
      rw [hgm] at hgm'
      injection hgm' with e
      subst e
      obtain ⟨o, o2⟩ := hG g (List.mem_of_getElem? hgm)
      injection hx with hx
      injection hx' with hx'
      rw [← hx, ← hx']
      exact ⟨o.2.2.1, o.1, o2⟩
  obtain ⟨fuel, dew, hit⟩ := iterate_ends he hl hle ht hday hfirst
  suffices h : ∃ out, mtclimRun n fuel (withGeom rows df) p = .ok (some out) by
    obtain ⟨out, h⟩ := h
    exact ⟨fuel, out, fun k => C41_rounds n fuel k _ p out h⟩
  have hw : ∀ k, Dict.get? (withGeom rows df) k = if k = "tt_max" then some (colOf (rows.map (·.ttMax)))
      else if k = "potrad" then some (colOf (rows.map fun g => fin g.potrad))
      else if k = "daylength" then some (colOf (rows.map fun g => fin g.daylength)) else Dict.get? df k := by
    intro k
    unfold withGeom
    simp only [Dict.get?_set]
    simp only [eq_comm]
  obtain ⟨e, hpet⟩ := pet_total hl.ne' (fun i => shortwave (d.tfmax i) (vaporPressure (dew i)) (d.ttMax i) (d.potrad i))
        d.tDay d.daylength
  unfold mtclimRun
  simp (decide := true) only [bind_ok, Dict.get_ok, Dict.get?_set, if_true, if_false, hw, g1, g2, g3, g4, g5, g9,
      Option.some.injEq, exists_eq_left', ← hd, hfirst, Except.ok.injEq]
  have hit' : iterate n d p fuel tMin first = .ok (some dew) := hit
  have hpet' : pet (fun i => shortwave (tfmax (dtr i) (sm i) (prec i) p) (vaporPressure (dew i))
      (colOf (rows.map (·.ttMax)) i) (colOf (rows.map fun g => fin g.potrad) i)) (fun i => tDay (tMin i) (tMax i) p)
      (colOf (rows.map fun g => fin g.daylength)) p = .ok e := hpet
  simp only [hit', Except.ok.injEq, exists_eq_left', bind_ok, Dict.get_ok, Dict.get?_set_self, Option.some.injEq,
    hpet', pure_ok]
  exact ⟨_, rfl⟩

/-- Parameters in their sensible ranges. -/
structure SaneParams (s : Shared) : Prop where
  tol : 0 < s.tdewTol
  coef : 0 ≤ s.tdayCoef ∧ s.tdayCoef ≤ 1
  rain : 0 ≤ s.rainScalar ∧ s.rainScalar ≤ 1

/-- **C72**, for a cell: from some number of rounds on the limit of the model is never met. -/
theorem C72_cell (s : Shared) (n : Nat) (c : Run.CellIn Data ℝ) (hs : SaneParams s) (hc : CompleteCell s n c)
    (hp : Plausible n c.data.frame) : ∃ fuel, ∀ k, EndsWithin s n c (fuel + k) := by
  obtain ⟨elev, lat, lon, e1, e2, e3, hlat, hle⟩ := hc.place
  obtain ⟨geom, hg, -, -⟩ := C45_midlatitude_partial elev lat s.lapseRate hlat hc.lapse hle
  obtain ⟨rows, hrows⟩ := geomRows_total hg c.data.days
  obtain ⟨fuel, out, h⟩ := C72_ends n c.data.frame (s.daily elev) elev lat geom rows c.data.days rfl hc.lapse hle hs.tol
    hs.coef hs.rain (by linarith) hg hrows hc.columns hp
  refine ⟨fuel, fun k geom' rows' elev' lat' h1 h2 h3 h4 => ?_⟩
  rw [e1] at h1
  rw [e2] at h2
  injection h1 with h1
  injection h2 with h2
  subst h1 h2
  rw [hg] at h3
  injection h3 with h3
  subst h3
  rw [hrows] at h4
  injection h4 with h4
  subst h4
  rw [h k]
  simp

/-- **C72**, for a run: a run over complete, plausible input comes to an end with its files written exactly if each
requested variable is one it can write, in a unit it can be converted to; the dewpoint iterations all end. -/
theorem C72_run (j : Job) (hj : j.Sane) (order : List (Dict String Chunk.Slice)) (ho : j.Schedule order)
    (hs : SaneParams j.shared) (hc : ∀ c, j.Computed c → CompleteCell j.shared j.n (j.inp c))
    (hp : ∀ c, j.Computed c → Plausible j.n (j.inp c).data.frame) :
    ∃ fuel, ∀ k, (∃ files, j.run (fuel + k) order = .ok files) ↔
      ∀ c, j.Computed c → ∀ q ∈ j.shared.outVars, Offers j.shared (j.inp c).data.frame q.1 ∧ Convertible q.1 q.2 := by
  have hcell : ∀ c, ∃ fuel, j.Computed c → ∀ k, EndsWithin j.shared j.n (j.inp c) (fuel + k) := by
    intro c
    by_cases h : j.Computed c
    · obtain ⟨fuel, hf⟩ := C72_cell j.shared j.n (j.inp c) hs (hc c h) (hp c h)
      exact ⟨fuel, fun _ => hf⟩
    · exact ⟨0, fun h' => absurd h' h⟩
  choose f hf using hcell
  refine ⟨((gridCells j.dims).map f).sum, fun k => ?_⟩
  refine C71_run j hj _ order ho hc fun _ c h => ?_
  have hle : f c ≤ ((gridCells j.dims).map f).sum :=
    List.single_le_sum (fun _ _ => Nat.zero_le _) _ (List.mem_map.2 ⟨c, h.1, rfl⟩)
  have := hf c h (((gridCells j.dims).map f).sum - f c + k)
  rwa [show f c + (((gridCells j.dims).map f).sum - f c + k) = ((gridCells j.dims).map f).sum + k by omega] at this

theorem demo_params : SaneParams (demo .mtclim).shared := by
  refine ⟨?_, ?_, ?_⟩ <;> unfold demo <;> norm_num

theorem demo_plausible (c : Run.Cell) : Plausible 2 ((demo .mtclim).inp c).data.frame := by
  refine ⟨?_, ?_, ?_⟩
  · intro col hcol i _ r hr
    simp only [demo, Dict.get?_cons, if_true, Option.some.injEq] at hcol
    subst hcol
    injection hr with hr
    rw [← hr]; norm_num
  · intro col hcol i _ r hr
    simp (decide := true) only [demo, Dict.get?_cons, if_true, if_false, Option.some.injEq] at hcol
    subst hcol
    injection hr with hr
    rw [← hr]; norm_num
  · intro col hcol i _ r hr
    simp (decide := true) only [demo, Dict.get?_cons, if_true, if_false, Option.some.injEq] at hcol
    subst hcol
    injection hr with hr
    rw [← hr]; norm_num

theorem demo_mtclim_runs :
    ∃ order fuel files, (demo .mtclim).Schedule order ∧ (demo .mtclim).run fuel order = .ok files := by
  refine ⟨[[("lat", none), ("lon", none)]], ?_⟩
  obtain ⟨fuel, h⟩ := C72_run (demo .mtclim) (demo_sane _) [[("lat", none), ("lon", none)]] ⟨_, rfl, List.Perm.refl _⟩ demo_params
    (fun c _ => demo_complete _ c) (fun c _ => demo_plausible c)
  obtain ⟨files, hf⟩ := (h 0).2 (fun c _ => demo_offers (by unfold demo; decide) _)
  exact ⟨fuel, files, ⟨_, rfl, List.Perm.refl _⟩, hf⟩

/-- **C72**: such a run exists; its files are written. -/
example : (demo .mtclim).Sane ∧ (demo .mtclim).Computed [0, 0] ∧ SaneParams (demo .mtclim).shared ∧
    ∃ order fuel files, (demo .mtclim).Schedule order ∧ (demo .mtclim).run fuel order = .ok files :=
  ⟨demo_sane _, ⟨by decide, 1, rfl, one_pos⟩, demo_params, demo_mtclim_runs⟩

end C72

end Verif.Props
