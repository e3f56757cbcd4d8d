import Verif.Lemmas.Radiation
import Verif.Spec.Astronomy

/-!
# Potential radiation and transmittance: C73, C74
-/

namespace Verif.Props

open Flt Solar

/-- Row `k` of the tables is day `k`; the last row is the day before again. -/
theorem solarGeom_row {elev lat lr : ℝ} {rows : List DayGeom} (h : solarGeom elev lat lr = .ok rows) {k : Nat}
    {g : DayGeom} (hg : rows[k]? = some g) :
    ∃ tr, trans elev lr = .ok tr ∧ solarDay tr (latRad lat) (min k 364) = .ok g := by
  unfold solarGeom at h
  simp only [bind_ok, pure_ok] at h
  obtain ⟨tr, htr, ds, hds, rfl⟩ := h
  obtain ⟨h1, h2⟩ := mapM_range_ok hds
  have hne : ds ≠ [] := by intro e; rw [e] at h1; simp at h1
  refine ⟨tr, htr, ?_⟩
  by_cases hk : k < 365
  · rw [List.getElem?_append_left (by omega)] at hg
    rw [min_eq_left (by omega)]
    exact h2 k g hg
  · rw [List.getElem?_append_right (by omega), List.getLast?_eq_some_getLast hne, h1] at hg
    have hk0 : k - 365 = 0 := by
      by_contra hc
      obtain ⟨m, hm⟩ := Nat.exists_eq_succ_of_ne_zero hc
      rw [hm] at hg
      simp at hg
    rw [hk0] at hg
    simp only [Option.toList_some, List.getElem?_cons_zero, Option.some.injEq] at hg
    rw [min_eq_right (by omega)]
    refine h2 364 g ?_
    rw [← hg, ← List.getLast?_eq_some_getLast hne, List.getLast?_eq_getElem?, h1]

theorem decl_eq (i : Nat) : decl i = Spec.declination i := by
  unfold decl Spec.declination Cnst.MIN_DECL Cnst.DAYS_OFF Cnst.RAD_PER_DAY
  rfl

theorem beam_eq (i : Nat) : beam i = Spec.solarFlux i * 30 := by
  unfold beam Spec.solarFlux dt Cnst.SW_RAD_DT Cnst.DAYS_PER_YEAR
  norm_num

theorem half_eq (φ : ℝ) (i : Nat) : halfDay (Real.cos φ * Real.cos (decl i)) (Real.sin φ * Real.sin (decl i))
    = Spec.sunset φ (Spec.declination i) := by
  unfold halfDay Spec.sunset
  rw [← decl_eq, Real.tan_eq_sin_div_cos, Real.tan_eq_sin_div_cos, neg_div, div_mul_div_comm]

theorem cos_sin_le_one (φ δ : ℝ) : Real.cos φ * Real.cos δ + |Real.sin φ * Real.sin δ| ≤ 1 := by
  rcases abs_choice (Real.sin φ * Real.sin δ) with h | h
  · rw [h, ← Real.cos_sub]; exact Real.cos_le_one _
  · rw [h, ← sub_eq_add_neg, ← Real.cos_add]; exact Real.cos_le_one _

theorem flux_bounds (i : Nat) : 1322.5 ≤ Spec.solarFlux i ∧ Spec.solarFlux i ≤ 1413.5 := by
  unfold Spec.solarFlux
  have h1 := Real.sin_le_one (2 * Real.pi * i / 365.25 + 1.7)
  have h2 := Real.neg_one_le_sin (2 * Real.pi * i / 365.25 + 1.7)
  constructor <;> linarith

/-- **C73**: length of day and daily potential radiation are those of the textbook: the length to a thousandth of a
second, the radiation to less than what arrives in half a minute of overhead sun. -/
theorem C73_insolation (elev lat lr : ℝ) (hlat : |lat| ≤ 90) (rows : List DayGeom) (h : solarGeom elev lat lr = .ok rows)
    (k : Nat) (g : DayGeom) (hg : rows[k]? = some g) :
    |g.daylength - 86400 * Spec.sunset (Spec.radians lat) (Spec.declination (min k 364)) / Real.pi| ≤ 0.001 ∧
    |g.potrad * g.daylength
      - Spec.insolation (Spec.solarFlux (min k 364)) (Spec.radians lat) (Spec.declination (min k 364))| ≤ 42500 := by
  obtain ⟨tr, -, hd⟩ := solarGeom_row h hg
  generalize min k 364 = i at hd ⊢
  have hφ : latRad lat = Spec.radians lat := latRad_eq hlat
  have hc0 := coseg_pos (latRad_lt hlat) i
  rw [hφ] at hd hc0
  obtain ⟨c, s, H, acc, rfl, rfl, hne, rfl, hdl, hacc, hgg⟩ := solarDay_ok hd
  have hb := beam_pos i
  have hp1 := Real.pi_gt_d20
  have hp2 := Real.pi_lt_d20
  have hH0 := halfDay_nonneg (Real.cos (Spec.radians lat) * Real.cos (decl i)) (Real.sin (Spec.radians lat) * Real.sin (decl i))
  have hH1 := halfDay_le_pi (Real.cos (Spec.radians lat) * Real.cos (decl i)) (Real.sin (Spec.radians lat) * Real.sin (decl i))
  have htot : g.potrad * g.daylength = total (beam i) (Real.cos (Spec.radians lat) * Real.cos (decl i))
      (Real.sin (Spec.radians lat) * Real.sin (decl i)) := by
    have hF : acc.sumFlat = total (beam i) (Real.cos (Spec.radians lat) * Real.cos (decl i))
        (Real.sin (Spec.radians lat) * Real.sin (decl i)) := by
      rw [hacc, (acc_flat _ _ _ _ _ _).1, zero_add]; rfl
    rcases hgg with ⟨h0, h1, -, -⟩ | ⟨h0, h1, h2, -⟩
    · have hH : halfDay (Real.cos (Spec.radians lat) * Real.cos (decl i)) (Real.sin (Spec.radians lat) * Real.sin (decl i)) = 0 := by
        rw [hdl] at h0
        rcases min_choice (2 * halfDay (Real.cos (Spec.radians lat) * Real.cos (decl i))
          (Real.sin (Spec.radians lat) * Real.sin (decl i)) * 13750.9871) 86400 with e | e
        · rw [e] at h0; linarith
        · rw [e] at h0; norm_num at h0
      rw [h0, mul_zero, total_sum hc0, hH, rounds_zero]
      simp
    · rw [h2, div_mul_cancel₀ _ h0, hF]
  have hnear := total_near hb hc0 (cos_sin_le_one (Spec.radians lat) (decl i))
  rw [← htot] at hnear
  rw [half_eq] at hnear hH0 hH1 hdl
  rw [decl_eq] at hnear
  obtain ⟨f1, f2⟩ := flux_bounds i
  constructor
  · have e : 86400 * Spec.sunset (Spec.radians lat) (Spec.declination i) / Real.pi
        = 2 * Spec.sunset (Spec.radians lat) (Spec.declination i) * (43200 / Real.pi) := by ring
    have q1 : 43200 / Real.pi ≤ 13750.9871 := by rw [div_le_iff₀ (by linarith)]; linarith
    have q2 : 13750.9870 ≤ 43200 / Real.pi := by rw [le_div_iff₀ (by linarith)]; linarith
    have q3 : Spec.sunset (Spec.radians lat) (Spec.declination i) * (43200 / Real.pi) ≤ 43200 := by
      have := mul_le_mul_of_nonneg_right hH1 (show 0 ≤ 43200 / Real.pi by positivity)
      rwa [mul_div_cancel₀ _ (by linarith : Real.pi ≠ 0)] at this
    rw [hdl, e]
    generalize 43200 / Real.pi = q at q1 q2 q3
    generalize Spec.sunset (Spec.radians lat) (Spec.declination i) = H at *
    rw [abs_le]
    constructor
    · rcases le_total (2 * H * 13750.9871) 86400 with hm | hm
      · rw [min_eq_left hm]; nlinarith
      · rw [min_eq_right hm]; nlinarith
    · have := min_le_left (2 * H * 13750.9871) 86400
      nlinarith
  · unfold Spec.insolation
    set H := Spec.sunset (Spec.radians lat) (Spec.declination i)
    set X := Real.cos (Spec.radians lat) * Real.cos (Spec.declination i)
    set Y := Real.sin (Spec.radians lat) * Real.sin (Spec.declination i)
    have hXY : |X * Real.sin H + Y * H| ≤ 4.2 := by
      have h1 := cos_sin_le_one (Spec.radians lat) (Spec.declination i)
      have hX0 : 0 < X := by have := hc0; rw [decl_eq] at this; exact this
      refine le_trans (abs_add_le _ _) ?_
      rw [abs_mul X, abs_mul Y, abs_of_pos hX0, abs_of_nonneg hH0]
      have i1 : X * |Real.sin H| ≤ X * 1 := mul_le_mul_of_nonneg_left (Real.abs_sin_le_one H) hX0.le
      have i2 : |Y| * H ≤ |Y| * 3.2 := mul_le_mul_of_nonneg_left (by linarith) (abs_nonneg _)
      have hY := abs_nonneg Y
      linarith
    have e : 86400 / Real.pi * Spec.solarFlux i * (H * Real.sin (Spec.radians lat) * Real.sin (Spec.declination i)
        + Real.cos (Spec.radians lat) * Real.cos (Spec.declination i) * Real.sin H)
        = (2 * Spec.solarFlux i) * (43200 / Real.pi) * (X * Real.sin H + Y * H) := by ring
    have e2 : beam i / dh * (2 * (X * Real.sin H + Y * H))
        = (2 * Spec.solarFlux i) * 13750.9871 * (X * Real.sin H + Y * H) := by
      rw [beam_eq, dh_eq]; field_simp
    have q1 : 43200 / Real.pi ≤ 13750.9871 := by rw [div_le_iff₀ (by linarith)]; linarith
    have q2 : 13750.9870 ≤ 43200 / Real.pi := by rw [le_div_iff₀ (by linarith)]; linarith
    rw [e2] at hnear
    rw [e]
    have hdiff : |(2 * Spec.solarFlux i) * 13750.9871 * (X * Real.sin H + Y * H)
        - (2 * Spec.solarFlux i) * (43200 / Real.pi) * (X * Real.sin H + Y * H)| ≤ 2 := by
      rw [← sub_mul, ← mul_sub, abs_mul, abs_mul, abs_of_pos (by linarith : 0 < 2 * Spec.solarFlux i),
        abs_of_nonneg (by linarith : (0:ℝ) ≤ 13750.9871 - 43200 / Real.pi)]
      have j1 : 2 * Spec.solarFlux i * (13750.9871 - 43200 / Real.pi) ≤ 2827 * 0.0001 :=
        mul_le_mul (by linarith) (by linarith) (by linarith) (by norm_num)
      have j2 := mul_le_mul j1 hXY (abs_nonneg _) (by norm_num)
      linarith
    have hbb : 1.001 * beam i ≤ 42448 := by rw [beam_eq]; linarith
    have := abs_sub_le (g.potrad * g.daylength) ((2 * Spec.solarFlux i) * 13750.9871 * (X * Real.sin H + Y * H))
      ((2 * Spec.solarFlux i) * (43200 / Real.pi) * (X * Real.sin H + Y * H))
    linarith

/-! ## C74 -/
section C74

/-- What one slot adds to the transmitted radiation. -/
noncomputable def through (t b c s h : ℝ) : ℝ := t ^ airmass (cza c s h) * flat b c s h

theorem acc_through (t b c s : ℝ) (ht : 0 < t) : ∀ (hs : List ℝ) (a : Acc) (x : ℝ), a.sumTrans = fin x →
    (hs.foldl (step (fin t) b c s) a).sumTrans = fin (x + (hs.map (through t b c s)).sum)
  | [], a, x, h => by simpa using h
  | h :: hs, a, x, hx => by
    simp only [List.foldl_cons, List.map_cons, List.sum_cons]
    rw [acc_through t b c s ht hs _ (x + through t b c s h)]
    · rw [add_assoc]
    · unfold step through flat
      by_cases hz : 0 < cza c s h
      · simp only [if_pos hz, hx, pow_fin ht, mul_fin, add_fin]
      · simp only [if_neg hz, mul_zero, add_zero, hx]

theorem airmass_bounds {z : ℝ} (h0 : 0 < z) (h1 : z ≤ 1) : 0.9999999 ≤ airmass z ∧ airmass z ≤ 30 := by
  unfold airmass
  simp only
  split
  · rename_i ham
    have hk : (min (max (Np.trunc (Real.arccos z / Cnst.RAD_PER_DEG) - 69) 0) 20).toNat ≤ 20 := by omega
    generalize (min (max (Np.trunc (Real.arccos z / Cnst.RAD_PER_DEG) - 69) 0) 20).toNat = k at hk
    unfold optam
    interval_cases k <;> simp <;> norm_num
  · rename_i ham
    push Not at ham
    refine ⟨?_, by linarith⟩
    rw [le_div_iff₀ (by linarith)]
    norm_num
    linarith

theorem cza_le_one (φ δ h : ℝ) : cza (Real.cos φ * Real.cos δ) (Real.sin φ * Real.sin δ) h ≤ 1 ∨
    Real.cos φ * Real.cos δ < 0 := by
  rcases lt_or_ge (Real.cos φ * Real.cos δ) 0 with h0 | h0
  · exact Or.inr h0
  · left
    unfold cza
    have h1 := mul_le_mul_of_nonneg_left (Real.cos_le_one h) h0
    have h2 := cos_sin_le_one φ δ
    have h3 := le_abs_self (Real.sin φ * Real.sin δ)
    linarith

theorem sum_le_sum {f g : ℝ → ℝ} : ∀ {hs : List ℝ}, (∀ h ∈ hs, f h ≤ g h) → (hs.map f).sum ≤ (hs.map g).sum
  | [], _ => le_rfl
  | h :: hs, hf => by
    simp only [List.map_cons, List.sum_cons]
    exact add_le_add (hf h (by simp)) (sum_le_sum fun x hx => hf x (by simp [hx]))

theorem sum_mul {f : ℝ → ℝ} (a : ℝ) : ∀ hs : List ℝ, (hs.map fun h => a * f h).sum = a * (hs.map f).sum
  | [] => by simp
  | h :: hs => by simp only [List.map_cons, List.sum_cons, sum_mul a hs]; ring

/-- The transmittance of a day with daylight is a mean over its slots. -/
theorem ttMax_eq {t lat : ℝ} (ht : 0 < t) {i : Nat} {g : DayGeom} (h : solarDay (fin t) lat i = .ok g)
    (hd : 0 < g.daylength) : ∃ c s hs, c = Real.cos lat * Real.cos (decl i) ∧ s = Real.sin lat * Real.sin (decl i) ∧
      hs = hours (halfDay c s) ∧ 0 < (hs.map (flat (beam i) c s)).sum ∧
      g.ttMax = fin ((hs.map (through t (beam i) c s)).sum / (hs.map (flat (beam i) c s)).sum) := by
  obtain ⟨c, s, H, acc, hc, hs, hne, hH, hdl, hacc, hgg⟩ := solarDay_ok h
  rcases hgg with ⟨h0, -⟩ | ⟨h0, h1, h2, h3, -⟩
  · exact absurd h0 hd.ne'
  · refine ⟨c, s, hours H, hc, hs, by rw [hH], ?_, ?_⟩
    · have hn := total_nonneg (c := c) (s := s) (beam_pos i)
      rw [hacc, (acc_flat _ _ _ _ _ _).1, zero_add] at h1
      unfold total at hn
      rw [← hH] at hn
      exact lt_of_le_of_ne hn (Ne.symm h1)
    · have e1 : acc.sumTrans = fin (0 + ((hours H).map (through t (beam i) c s)).sum) := by
        rw [hacc]
        exact acc_through t (beam i) c s ht (hours H) _ 0 rfl
      have e2 : acc.sumFlat = ((hours H).map (flat (beam i) c s)).sum := by
        rw [hacc, (acc_flat _ _ _ _ _ _).1, zero_add]
      rw [h3, e1, e2, zero_add, div_fin_ne (by rw [← e2]; exact h1)]

/-- **C74**: on a day with daylight the clear-sky transmittance lies between that of thirty atmospheres and that of
one. -/
theorem C74_transmittance (elev lat lr : ℝ) (hlat : |lat| ≤ 90) (hl : 0 < lr) (he : lr * elev < 288.15)
    (rows : List DayGeom) (h : solarGeom elev lat lr = .ok rows) :
    ∃ t, trans elev lr = .ok (fin t) ∧ 0 < t ∧ t < 1 ∧ ∀ g ∈ rows, 0 < g.daylength →
      ∃ x, g.ttMax = fin x ∧ t ^ (30 : ℝ) ≤ x ∧ x ≤ t ^ (0.9999999 : ℝ) := by
  obtain ⟨tr, htr, -, h2⟩ := solarGeom_ok h
  obtain ⟨t, ht, ht0, ht1⟩ := trans_ok hl he
  rw [ht] at htr
  injection htr with htr
  subst htr
  refine ⟨t, ht, ht0, ht1, fun g hg hd => ?_⟩
  obtain ⟨i, -, hi⟩ := h2 g hg
  obtain ⟨c, s, hs, hc, hs', hhs, hpos, htt⟩ := ttMax_eq ht0 hi hd
  have hc0 := coseg_pos (latRad_lt hlat) i
  refine ⟨_, htt, ?_, ?_⟩
  · rw [le_div_iff₀ hpos, ← sum_mul]
    refine sum_le_sum fun x hx => ?_
    unfold through
    by_cases hz : 0 < cza c s x
    · refine mul_le_mul_of_nonneg_right ?_ (flat_nonneg (beam_pos i))
      refine Real.rpow_le_rpow_of_exponent_ge ht0 ht1.le (airmass_bounds hz ?_).2
      rw [hc, hs']
      exact (cza_le_one _ _ _).resolve_right (not_lt.2 hc0.le)
    · unfold flat; rw [if_neg hz]; simp
  · rw [div_le_iff₀ hpos, ← sum_mul]
    refine sum_le_sum fun x hx => ?_
    unfold through
    by_cases hz : 0 < cza c s x
    · refine mul_le_mul_of_nonneg_right ?_ (flat_nonneg (beam_pos i))
      refine Real.rpow_le_rpow_of_exponent_ge ht0 ht1.le (airmass_bounds hz ?_).1
      rw [hc, hs']
      exact (cza_le_one _ _ _).resolve_right (not_lt.2 hc0.le)
    · unfold flat; rw [if_neg hz]; simp

theorem trans_mono {e e' lr t t' : ℝ} (hl : 0 < lr) (h : lr * e' < 288.15) (hee : e < e')
    (ht : trans e lr = .ok (fin t)) (ht' : trans e' lr = .ok (fin t')) : t < t' := by
  have hT : (Cnst.T_STD : ℝ) = 288.15 := rfl
  have hB : (Cnst.TBASE : ℝ) = 0.870 := rfl
  have hlt : lr * e < lr * e' := mul_lt_mul_of_pos_left hee hl
  have h1 : 0 < 1 - lr * e' / (Cnst.T_STD : ℝ) := by
    rw [hT, sub_pos, div_lt_one (by norm_num)]; exact h
  have h2 : 1 - lr * e' / (Cnst.T_STD : ℝ) < 1 - lr * e / (Cnst.T_STD : ℝ) := by
    rw [hT]
    have := div_lt_div_of_pos_right hlt (show (0 : ℝ) < 288.15 by norm_num)
    linarith
  unfold Solar.trans at ht ht'
  simp only [if_neg hl.ne', pow_fin h1, pow_fin (h1.trans h2), hB, pow_fin (show (0:ℝ) < 0.870 by norm_num),
    Except.ok.injEq, Flt.fin.injEq] at ht ht'
  have hk : 0 < (Cnst.G_STD : ℝ) / (lr * (Cnst.R / Cnst.MA)) := by
    have : (0 : ℝ) < Cnst.G_STD := by unfold Cnst.G_STD; norm_num
    have : (0 : ℝ) < Cnst.R := by unfold Cnst.R; norm_num
    have : (0 : ℝ) < Cnst.MA := by unfold Cnst.MA; norm_num
    positivity
  rw [← ht, ← ht']
  exact Real.rpow_lt_rpow_of_exponent_gt (by norm_num) (by norm_num) (Real.rpow_lt_rpow h1.le h2 hk)

/-- **C74**: going up, the clear-sky transmittance of every day with daylight rises; length of day, potential radiation
and its distribution over the day do not depend on the elevation. -/
theorem C74_elevation (e e' lat lr : ℝ) (hl : 0 < lr) (hee : e < e') (he : lr * e' < 288.15)
    (rows rows' : List DayGeom) (h : solarGeom e lat lr = .ok rows) (h' : solarGeom e' lat lr = .ok rows')
    (k : Nat) (g g' : DayGeom) (hg : rows[k]? = some g) (hg' : rows'[k]? = some g') :
    g'.daylength = g.daylength ∧ g'.potrad = g.potrad ∧ g'.fract = g.fract ∧
    (0 < g.daylength → ∃ x x', g.ttMax = fin x ∧ g'.ttMax = fin x' ∧ x < x') := by
  have hle : lr * e < 288.15 := lt_trans (mul_lt_mul_of_pos_left hee hl) he
  obtain ⟨t, ht, ht0, ht1⟩ := trans_ok hl hle
  obtain ⟨t', ht', ht0', ht1'⟩ := trans_ok hl he
  have hlt := trans_mono hl he hee ht ht'
  obtain ⟨tr, htr, hd⟩ := solarGeom_row h hg
  obtain ⟨tr', htr', hd'⟩ := solarGeom_row h' hg'
  rw [ht] at htr
  injection htr with htr
  subst htr
  rw [ht'] at htr'
  injection htr' with htr'
  subst htr'
  generalize min k 364 = i at hd hd'
  have hsame : g'.daylength = g.daylength ∧ g'.potrad = g.potrad ∧ g'.fract = g.fract := by
    have key : ∀ tr : Flt ℝ, ∀ q, solarDay tr (latRad lat) i = .ok q → ∃ F D,
        q.daylength = D ∧ q.fract = (if D ≠ 0 ∧ 0 < F then fun j =>
          scatter ((hours (halfDay (Real.cos (latRad lat) * Real.cos (decl i)) (Real.sin (latRad lat) * Real.sin (decl i)))).map
            fun h => (slot h, flat (beam i) (Real.cos (latRad lat) * Real.cos (decl i)) (Real.sin (latRad lat) * Real.sin (decl i)) h))
              (fun _ => 0) j / F else scatter ((hours (halfDay (Real.cos (latRad lat) * Real.cos (decl i)) (Real.sin (latRad lat) * Real.sin (decl i)))).map
            fun h => (slot h, flat (beam i) (Real.cos (latRad lat) * Real.cos (decl i)) (Real.sin (latRad lat) * Real.sin (decl i)) h))
              (fun _ => 0)) ∧ q.potrad = (if D ≠ 0 then F / D else 0) ∧
        D = min (2 * halfDay (Real.cos (latRad lat) * Real.cos (decl i)) (Real.sin (latRad lat) * Real.sin (decl i)) * Cnst.SEC_PER_RAD)
          (Cnst.SEC_PER_DAY : ℝ) ∧
        F = 0 + ((hours (halfDay (Real.cos (latRad lat) * Real.cos (decl i)) (Real.sin (latRad lat) * Real.sin (decl i)))).map
            (flat (beam i) (Real.cos (latRad lat) * Real.cos (decl i)) (Real.sin (latRad lat) * Real.sin (decl i)))).sum := by
      intro tr q hq
      unfold solarDay at hq
      simp only at hq
      split at hq
      · cases hq
      · obtain ⟨a1, a2⟩ := acc_flat tr (beam i) (Real.cos (latRad lat) * Real.cos (decl i))
          (Real.sin (latRad lat) * Real.sin (decl i)) (hours (halfDay (Real.cos (latRad lat) * Real.cos (decl i))
            (Real.sin (latRad lat) * Real.sin (decl i)))) ⟨fin 0, 0, fun _ => 0⟩
        rw [a1, a2] at hq
        split at hq
        · rename_i hD
          split at hq
          · cases hq
          · injection hq with hq
            refine ⟨_, _, ?_, ?_, ?_, rfl, rfl⟩
            · rw [← hq]
            · rw [← hq]
            · rw [← hq, if_pos hD]
        · rename_i hD
          injection hq with hq
          refine ⟨_, _, ?_, ?_, ?_, rfl, rfl⟩
          · rw [← hq]
          · rw [← hq]
          · rw [← hq, if_neg hD]
    obtain ⟨F, D, k1, k2, k3, rfl, rfl⟩ := key _ _ hd
    obtain ⟨F', D', k1', k2', k3', rfl, rfl⟩ := key _ _ hd'
    exact ⟨by rw [k1, k1'], by rw [k3, k3'], by rw [k2, k2']⟩
  refine ⟨hsame.1, hsame.2.1, hsame.2.2, fun hpos => ?_⟩
  obtain ⟨c, s, hs, hc, hs', hhs, hp, htt⟩ := ttMax_eq ht0 hd hpos
  obtain ⟨c', s', hs'', hc', hs''', hhs', hp', htt'⟩ := ttMax_eq ht0' hd' (by rw [hsame.1]; exact hpos)
  have ec : c' = c := by rw [hc, hc']
  have es : s' = s := by rw [hs', hs''']
  subst ec es
  have eh : hs'' = hs := by rw [hhs, hhs']
  subst eh
  refine ⟨_, _, htt, htt', ?_⟩
  refine div_lt_div_of_pos_right ?_ hp
  obtain ⟨x, hx, hx0⟩ : ∃ x ∈ hs'', 0 < flat (beam i) c' s' x := by
    by_contra hno
    push Not at hno
    have : (hs''.map (flat (beam i) c' s')).sum ≤ (hs''.map fun _ => (0 : ℝ)).sum := sum_le_sum hno
    have e0 : (hs''.map fun _ => (0 : ℝ)).sum = 0 := by simp
    linarith
  have hmono : ∀ y, through t (beam i) c' s' y ≤ through t' (beam i) c' s' y := by
    intro y
    unfold through
    by_cases hz : 0 < cza c' s' y
    · exact mul_le_mul_of_nonneg_right (Real.rpow_le_rpow ht0.le hlt.le (airmass_pos hz).le) (flat_nonneg (beam_pos i))
    · unfold flat; rw [if_neg hz]; simp
  have hstrict : through t (beam i) c' s' x < through t' (beam i) c' s' x := by
    have hz : 0 < cza c' s' x := by
      by_contra hz
      unfold flat at hx0
      rw [if_neg hz] at hx0
      exact lt_irrefl _ hx0
    unfold through
    exact mul_lt_mul_of_pos_right (Real.rpow_lt_rpow ht0.le hlt (airmass_pos hz)) hx0
  exact List.sum_lt_sum _ _ (fun y _ => hmono y) ⟨x, hx, hstrict⟩

/-- **C73**, **C74**: such tables exist. -/
example : ∃ rows rows', solarGeom 0 45 0.0065 = .ok rows ∧ solarGeom 3000 45 0.0065 = .ok rows' ∧ rows.length = 366 := by
  obtain ⟨r, h1, h2, -⟩ := C45_midlatitude_partial 0 45 0.0065 (by rw [abs_of_pos] <;> norm_num) (by norm_num) (by norm_num)
  obtain ⟨r', h1', -, -⟩ := C45_midlatitude_partial 3000 45 0.0065 (by rw [abs_of_pos] <;> norm_num) (by norm_num) (by norm_num)
  exact ⟨r, r', h1, h1', h2⟩

end C74

end Verif.Props
