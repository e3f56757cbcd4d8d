import Verif.Lemmas.Solar

/-!
# Solar geometry: C44, C45
-/

namespace Verif.Props

open Flt Solar

theorem latRad_lt {lat : ℝ} (h : |lat| ≤ 90) : |latRad lat| < Real.pi / 2 := by
  have hp := Real.pi_gt_d20
  have h' := abs_le.1 h
  have hR : (Cnst.RAD_PER_DEG : ℝ) = 0.01745329 := rfl
  unfold latRad
  rw [hR, abs_lt]
  constructor
  · refine lt_min (lt_max_of_lt_left ?_) (by linarith)
    linarith [h'.1]
  · refine lt_of_le_of_lt (min_le_left _ _) (max_lt ?_ (by linarith))
    linarith [h'.2]

theorem latRad_eq {lat : ℝ} (h : |lat| ≤ 90) : latRad lat = lat * 0.01745329 := by
  have hp := Real.pi_gt_d20
  have h' := abs_le.1 h
  have hR : (Cnst.RAD_PER_DEG : ℝ) = 0.01745329 := rfl
  unfold latRad
  rw [hR, max_eq_left (by linarith [h'.1]), min_eq_left (by linarith [h'.2])]

theorem trans_ok {elev lr : ℝ} (hl : 0 < lr) (h : lr * elev < 288.15) :
    ∃ t, trans elev lr = .ok (fin t) ∧ 0 < t ∧ t < 1 := by
  have hT : (Cnst.T_STD : ℝ) = 288.15 := rfl
  have hB : (Cnst.TBASE : ℝ) = 0.870 := rfl
  unfold Solar.trans
  have h1 : 0 < 1 - lr * elev / (Cnst.T_STD : ℝ) := by
    rw [hT, sub_pos, div_lt_one (by norm_num)]; exact h
  simp only [if_neg hl.ne', pow_fin h1, hB, pow_fin (show (0:ℝ) < 0.870 by norm_num)]
  refine ⟨_, rfl, by positivity, ?_⟩
  exact Real.rpow_lt_one (by norm_num) (by norm_num) (Real.rpow_pos_of_pos h1 _)

/-- Half the daylight of day `i` at a latitude (radians). -/
noncomputable def hss (lat : ℝ) (i : Nat) : ℝ :=
  halfDay (Real.cos lat * Real.cos (decl i)) (Real.sin lat * Real.sin (decl i))

/-! ## C44 -/
section C44

/-- **C44** as listed, for each day. -/
def C44_full : Prop := ∀ (elev lat lr : ℝ) (tr : Flt ℝ) (i : Nat) (g : DayGeom), |lat| ≤ 90 → i < 365 →
  trans elev lr = .ok tr → solarDay tr (latRad lat) i = .ok g →
  (∀ j, 0 ≤ g.fract j) ∧
  (g.daylength ≠ 0 → ∑ j ∈ Finset.range 2880, g.fract j = 1) ∧
  (g.daylength = 0 → ∑ j ∈ Finset.range 2880, g.fract j = 0)

/-- **C44 (partial)**: all days but those with 24 hours of daylight, where the sum may fall short. -/
theorem C44_fractions_partial (elev lat lr : ℝ) (tr : Flt ℝ) (i : Nat) (g : DayGeom) (hlat : |lat| ≤ 90)
    (_h : trans elev lr = .ok tr) (hg : solarDay tr (latRad lat) i = .ok g) :
    (∀ j, 0 ≤ g.fract j) ∧
    (0 < g.daylength → g.daylength < 86400 → ∑ j ∈ Finset.range 2880, g.fract j = 1) ∧
    (g.daylength = 86400 → ∑ j ∈ Finset.range 2880, g.fract j ≤ 1) ∧
    (g.daylength = 0 → ∑ j ∈ Finset.range 2880, g.fract j = 0) := by
  have hr := solarDay_row hg (latRad_lt hlat)
  refine ⟨hr.nonneg, ?_, ?_, ?_⟩
  · intro h0 h1
    rcases hr.shape h0.ne' with ⟨u, -, -, h, -⟩ | ⟨h, -⟩
    · exact h
    · exact absurd h h1.ne
  · intro h1
    rcases hr.shape (by rw [h1]; norm_num) with ⟨u, -, -, h, -⟩ | ⟨-, -, h⟩
    · exact h.le
    · exact h
  · intro h0
    exact Finset.sum_eq_zero fun j _ => (hr.dark h0).1 j

/-- **C44**: the slots that receive radiation are one block; a day of `L < 86400` seconds has its first
lit slot `(86400 - L)/60` half-minutes after midnight, rounded down, plus one, and the block is
symmetric about noon up to one slot. -/
theorem C44_lit_slots (elev lat lr : ℝ) (tr : Flt ℝ) (i : Nat) (g : DayGeom) (hlat : |lat| ≤ 90)
    (_h : trans elev lr = .ok tr) (hg : solarDay tr (latRad lat) i = .ok g) (h0 : 0 < g.daylength)
    (h1 : g.daylength < 86400) :
    ∃ a n : Nat, (a : ℝ) ≤ (86400 - g.daylength) / 60 ∧ (86400 - g.daylength) / 60 < a + 1 ∧
      ((n : ℝ) < g.daylength / 30 ∧ g.daylength / 30 ≤ n + 1) ∧
      ∀ j, 0 < g.fract j ↔ a < j ∧ j ≤ a + n := by
  have hr := solarDay_row hg (latRad_lt hlat)
  rcases hr.shape h0.ne' with ⟨u, hu0, hu1, -, hd, hj⟩ | ⟨h, -⟩
  · have e1 : (86400 - g.daylength) / 60 = u := by rw [hd]; ring
    have e2 : g.daylength / 30 = 2880 - 2 * u := by rw [hd]; ring
    have hpos : 0 < ⌈2880 - 2 * u⌉ := by
      rw [Int.ceil_pos, ← e2]; positivity
    refine ⟨⌊u⌋.toNat, ⌈2880 - 2 * u⌉.toNat - 1, ?_, ?_, ⟨?_, ?_⟩, ?_⟩
    · rw [e1]
      have := Int.floor_le u
      have hf : ((⌊u⌋.toNat : Int) : ℝ) = (⌊u⌋ : ℝ) := by rw [Int.toNat_of_nonneg (Int.floor_nonneg.2 hu0)]
      calc ((⌊u⌋.toNat : ℕ) : ℝ) = ((⌊u⌋.toNat : Int) : ℝ) := by push_cast; rfl
        _ ≤ u := by rw [hf]; exact this
    · rw [e1]
      have := Int.lt_floor_add_one u
      have hf : ((⌊u⌋.toNat : Int) : ℝ) = (⌊u⌋ : ℝ) := by rw [Int.toNat_of_nonneg (Int.floor_nonneg.2 hu0)]
      calc u < ((⌊u⌋.toNat : Int) : ℝ) + 1 := by rw [hf]; exact this
        _ = _ := by push_cast; rfl
    · rw [e2]
      have h3 : ((⌈2880 - 2 * u⌉.toNat - 1 : ℕ) : Int) = ⌈2880 - 2 * u⌉ - 1 := by omega
      have h4 : ((⌈2880 - 2 * u⌉.toNat - 1 : ℕ) : ℝ) = (⌈2880 - 2 * u⌉ : ℝ) - 1 := by
        exact_mod_cast congrArg (Int.cast (R := ℝ)) h3
      rw [h4]
      have := Int.ceil_lt_add_one (2880 - 2 * u)
      linarith
    · rw [e2]
      have h3 : ((⌈2880 - 2 * u⌉.toNat - 1 : ℕ) : Int) = ⌈2880 - 2 * u⌉ - 1 := by omega
      have h4 : ((⌈2880 - 2 * u⌉.toNat - 1 : ℕ) : ℝ) = (⌈2880 - 2 * u⌉ : ℝ) - 1 := by
        exact_mod_cast congrArg (Int.cast (R := ℝ)) h3
      rw [h4]
      have := Int.le_ceil (2880 - 2 * u)
      linarith
    · intro j
      rw [hj]
      omega
  · exact absurd h h1.ne

/-- Declination on January 1st. -/
theorem decl_zero : decl 0 ≤ -0.4 ∧ -0.41 ≤ decl 0 := by
  unfold decl Cnst.MIN_DECL Cnst.DAYS_OFF Cnst.RAD_PER_DAY
  have h1 := Real.one_sub_sq_div_two_le_cos (x := ((0 : ℕ) + 11.25) * 0.017214)
  have h2 := Real.cos_le_one (((0 : ℕ) + 11.25) * 0.017214)
  norm_num at h1 h2 ⊢
  constructor <;> linarith

/-- The south pole in January: the sun does not set. -/
theorem pole_facts : ∃ c s : ℝ, c = Real.cos (latRad (-90)) * Real.cos (decl 0) ∧
    s = Real.sin (latRad (-90)) * Real.sin (decl 0) ∧ 0 < c ∧ c < 0.1 ∧ 0.3 < s := by
  refine ⟨_, _, rfl, rfl, coseg_pos (latRad_lt (by norm_num)) 0, ?_, ?_⟩
  · rw [latRad_eq (by norm_num)]
    have h1 : Real.cos (-90 * 0.01745329) ≤ 0.05 := by
      rw [show (-90 * 0.01745329 : ℝ) = -(90 * 0.01745329) by ring, Real.cos_neg, ← Real.sin_pi_div_two_sub]
      have hp := Real.pi_lt_d6
      have hp' := Real.pi_gt_d20
      refine le_trans (Real.sin_le ?_) ?_ <;> linarith
    have h2 := Real.cos_le_one (decl 0)
    have h3 : 0 < Real.cos (decl 0) := by
      have := coseg_pos (lat := 0) (by simp [Real.pi_pos]) 0
      simpa using this
    nlinarith
  · rw [latRad_eq (by norm_num)]
    obtain ⟨d1, d2⟩ := decl_zero
    have h1 : 0.9 ≤ Real.sin (90 * 0.01745329) := by
      rw [← Real.cos_pi_div_two_sub]
      have hp := Real.pi_lt_d6
      have hp' := Real.pi_gt_d20
      refine le_trans ?_ (Real.one_sub_sq_div_two_le_cos (x := Real.pi / 2 - 90 * 0.01745329))
      nlinarith
    have h2 : 0.38 ≤ Real.sin (-decl 0) := by
      have h := Real.sin_gt_sub_cube (x := 0.4) (by norm_num)
      have hm : Real.sin 0.4 ≤ Real.sin (-decl 0) := by
        have hp := Real.pi_gt_three
        refine Real.sin_le_sin_of_le_of_le_pi_div_two ?_ ?_ ?_ <;> linarith
      norm_num at h
      linarith
    rw [Real.sin_neg] at h2
    rw [show (-90 * 0.01745329 : ℝ) = -(90 * 0.01745329) by ring, Real.sin_neg]
    nlinarith

theorem pole_half {c s : ℝ} (hc0 : 0 < c) (hc : c < 0.1) (hs : 0.3 < s) : halfDay c s = Real.pi := by
  unfold halfDay
  have : -s / c ≤ -1 := by rw [div_le_iff₀ hc0]; linarith
  rw [max_eq_right this, min_eq_left (by norm_num), Real.arccos_neg_one]

theorem start_pi : start Real.pi < 0 := by
  have := Real.pi_gt_d20
  unfold start
  apply div_neg_of_neg_of_pos
  · nlinarith
  · norm_num

theorem C44_refuted : ¬ C44_full := by
  intro h
  obtain ⟨c, s, hc, hs, hc0, hc1, hs1⟩ := pole_facts
  have hH := pole_half hc0 hc1 hs1
  have hu : start (halfDay c s) < 0 := by rw [hH]; exact start_pi
  obtain ⟨t, htr, -, -⟩ := trans_ok (elev := 0) (lr := 0.0065) (by norm_num) (by norm_num)
  -- the day is computed
  have hb := beam_pos 0
  obtain ⟨a1, a2⟩ := acc_flat (fin t) (beam 0) c s (hours (halfDay c s)) ⟨fin 0, 0, fun _ => 0⟩
  simp only [zero_add] at a1
  change _ = total (beam 0) c s at a1
  rw [writes_eq] at a2
  obtain ⟨d1, d2⟩ := scatter_polar hb hc0 hu
  have hfl : 0 < flat (beam 0) c s (-halfDay c s) := by
    have hz : 0 < cza c s (-halfDay c s) := by
      unfold cza; rw [hH, Real.cos_neg, Real.cos_pi]; linarith
    unfold flat
    rw [if_pos hz]
    exact mul_pos hb hz
  have hsum0 : 0 ≤ ∑ j ∈ Finset.range 2880, scatter (writes (beam 0) c s) (fun _ => 0) j :=
    Finset.sum_nonneg fun j hj => (d2 j (Finset.mem_range.1 hj)).le
  have htot : 0 < total (beam 0) c s := by linarith
  have hS : (Cnst.SEC_PER_RAD : ℝ) = 13750.9871 := rfl
  have hD : ((Cnst.SEC_PER_DAY : ℕ) : ℝ) = 86400 := by unfold Cnst.SEC_PER_DAY; norm_num
  have hdl : min (2 * halfDay c s * 13750.9871) (86400 : ℝ) ≠ 0 := by
    rw [hH]
    have := Real.pi_pos
    have : 0 < min (2 * Real.pi * 13750.9871) (86400 : ℝ) := lt_min (by positivity) (by norm_num)
    exact this.ne'
  have hday : ∃ g, solarDay (fin t) (latRad (-90)) 0 = .ok g ∧ g.daylength ≠ 0 ∧
      ∀ j, g.fract j = scatter (writes (beam 0) c s) (fun _ => 0) j / total (beam 0) c s := by
    unfold solarDay
    simp only [hS, hD, ← hc, ← hs, if_neg hc0.ne', a1, a2]
    rw [if_pos hdl, if_neg htot.ne']
    refine ⟨_, rfl, hdl, fun j => ?_⟩
    simp only [if_pos (And.intro hdl htot)]
  obtain ⟨g, hg, hgd, hgf⟩ := hday
  have key := (h 0 (-90) 0.0065 (fin t) 0 g (by norm_num) (by norm_num) htr hg).2.1 hgd
  have hsum : ∑ j ∈ Finset.range 2880, g.fract j
      = (∑ j ∈ Finset.range 2880, scatter (writes (beam 0) c s) (fun _ => 0) j) / total (beam 0) c s := by
    rw [Finset.sum_div]
    exact Finset.sum_congr rfl fun j _ => hgf j
  rw [hsum, d1, div_eq_one_iff_eq htot.ne'] at key
  linarith

end C44

/-! ## C45 -/
section C45

/-- The bounds of one row. -/
def DayOk (g : DayGeom) : Prop :=
  0 ≤ g.daylength ∧ g.daylength ≤ 86400 ∧ 0 ≤ g.potrad ∧ ∃ t, g.ttMax = fin t ∧ 0 ≤ t ∧ t < 1

/-- **C45** as listed. -/
def C45_full : Prop := ∀ elev lat lr : ℝ, |lat| ≤ 90 → 0 < lr → lr * elev < 288.15 →
  ∃ rows, solarGeom elev lat lr = .ok rows ∧ rows.length = 366 ∧ ∀ g ∈ rows, DayOk g

theorem day_ok_of {t lat : ℝ} {i : Nat} {g : DayGeom} (h0 : 0 < t) (h1 : t < 1)
    (h : solarDay (fin t) lat i = .ok g) : DayOk g := by
  obtain ⟨c, s, H, acc, hc, hs, hc0, hH, hdl, hacc, hg⟩ := solarDay_ok h
  have hb := beam_pos i
  obtain ⟨y, hy, hy0, hy1, hy2⟩ := acc_trans t (beam i) c s h0 h1 hb (hours H) ⟨fin 0, 0, fun _ => 0⟩ 0 rfl
    le_rfl le_rfl (fun h => h)
  rw [← hacc] at hy hy1 hy2
  have hH0 : 0 ≤ H := hH ▸ halfDay_nonneg c s
  have hd0 : 0 ≤ g.daylength := by rw [hdl]; exact le_min (by positivity) (by norm_num)
  have hd1 : g.daylength ≤ 86400 := by rw [hdl]; exact min_le_right _ _
  rcases hg with ⟨g1, g2, g3, -⟩ | ⟨g1, g2, g3, g4, -⟩
  · exact ⟨hd0, hd1, g2.ge, 0, g3, le_rfl, by norm_num⟩
  · have hF : 0 < acc.sumFlat := lt_of_le_of_ne (hy0.trans hy1) (Ne.symm g2)
    refine ⟨hd0, hd1, by rw [g3]; positivity, y / acc.sumFlat, ?_, by positivity, ?_⟩
    · rw [g4, hy, div_fin_ne g2]
    · rw [div_lt_one hF]; exact hy2 hF

/-- The rows of `solar_geom` are the 365 days and the last of them again. -/
theorem solarGeom_ok {elev lat lr : ℝ} {rows : List DayGeom} (h : solarGeom elev lat lr = .ok rows) :
    ∃ tr, trans elev lr = .ok tr ∧ rows.length = 366 ∧
      ∀ g ∈ rows, ∃ i < 365, solarDay tr (latRad lat) i = .ok g := by
  unfold solarGeom at h
  simp only [bind_ok, pure_ok] at h
  obtain ⟨tr, htr, ds, hds, rfl⟩ := h
  obtain ⟨h1, h2⟩ := mapM_ok hds
  rw [List.length_range] at h1
  have hne : ds ≠ [] := by intro e; rw [e] at h1; simp at h1
  refine ⟨tr, htr, ?_, fun g hg => ?_⟩
  · rw [List.getLast?_eq_some_getLast hne]
    simp [h1]
  · have hmem : g ∈ ds := by
      rcases List.mem_append.1 hg with hg | hg
      · exact hg
      · rw [List.getLast?_eq_some_getLast hne] at hg
        simp only [Option.toList_some, List.mem_singleton] at hg
        rw [hg]; exact List.getLast_mem hne
    obtain ⟨i, hi, hf⟩ := h2 g hmem
    exact ⟨i, List.mem_range.1 hi, hf⟩

/-- **C45 (partial)**: whenever the computation does not fail the tables have 366 rows within the bounds. -/
theorem C45_bounds_partial (elev lat lr : ℝ) (hl : 0 < lr) (he : lr * elev < 288.15) (rows : List DayGeom)
    (h : solarGeom elev lat lr = .ok rows) : rows.length = 366 ∧ ∀ g ∈ rows, DayOk g := by
  obtain ⟨tr, htr, h1, h2⟩ := solarGeom_ok h
  obtain ⟨t, ht, ht0, ht1⟩ := trans_ok hl he
  rw [ht] at htr
  injection htr with htr
  subst htr
  exact ⟨h1, fun g hg => by
    obtain ⟨i, -, hi⟩ := h2 g hg
    exact day_ok_of ht0 ht1 hi⟩

/-- **C45**: a day fails exactly if its daylight lasts at most one slot of 30 s, but more than nothing. -/
theorem C45_fails_iff (tr : Flt ℝ) (lat : ℝ) (hlat : |lat| < Real.pi / 2) (i : Nat) :
    solarDay tr lat i = .error .zeroDivision ↔
      0 < 2 * hss lat i * 13750.9871 ∧ 2 * hss lat i * 13750.9871 ≤ 30 := by
  have hc0 := coseg_pos hlat i
  have hb := beam_pos i
  unfold hss
  generalize hc : Real.cos lat * Real.cos (decl i) = c at hc0 ⊢
  generalize hs : Real.sin lat * Real.sin (decl i) = s
  have hH0 := halfDay_nonneg c s
  obtain ⟨a1, a2⟩ := acc_flat tr (beam i) c s (hours (halfDay c s)) ⟨fin 0, 0, fun _ => 0⟩
  simp only [zero_add] at a1
  change _ = total (beam i) c s at a1
  have hS : (Cnst.SEC_PER_RAD : ℝ) = 13750.9871 := rfl
  have hD : ((Cnst.SEC_PER_DAY : ℕ) : ℝ) = 86400 := by unfold Cnst.SEC_PER_DAY; norm_num
  unfold solarDay
  simp only [hc, hs, hS, hD, if_neg hc0.ne', a1]
  by_cases hz : halfDay c s = 0
  · rw [hz]
    simp
  · have hpos : 0 < halfDay c s := lt_of_le_of_ne hH0 (Ne.symm hz)
    have hd : min (2 * halfDay c s * 13750.9871) (86400 : ℝ) ≠ 0 :=
      (lt_min (by positivity) (by norm_num)).ne'
    rw [if_pos hd]
    have hiff : total (beam i) c s = 0 ↔ 2 * halfDay c s * 13750.9871 ≤ 30 := by
      constructor
      · intro ht
        by_contra hcon
        push Not at hcon
        have hr : 1 < rounds (halfDay c s) := by
          unfold rounds
          rw [Int.lt_toNat, Int.lt_ceil]
          unfold start
          push_cast
          linarith
        have h1 := flat_pos hb hc0 hr le_rfl
        have hmem : flat (beam i) c s (-halfDay c s + ((1 : Nat) : ℝ) * dh)
            ∈ (hours (halfDay c s)).map (flat (beam i) c s) := by
          rw [hours_eq, List.map_map]
          exact List.mem_map.2 ⟨1, List.mem_range.2 hr, rfl⟩
        have h2 := List.single_le_sum (l := (hours (halfDay c s)).map (flat (beam i) c s)) (fun x hx => by
          obtain ⟨h, -, rfl⟩ := List.mem_map.1 hx
          exact flat_nonneg hb) _ hmem
        unfold total at ht
        rw [ht] at h2
        linarith
      · intro h30
        have hu : 0 ≤ start (halfDay c s) := by
          unfold start
          apply div_nonneg _ (by norm_num)
          linarith
        have hr : rounds (halfDay c s) = 1 := by
          unfold rounds
          have : ⌈2880 - 2 * start (halfDay c s)⌉ = 1 := by
            rw [Int.ceil_eq_iff]
            unfold start
            push_cast
            constructor <;> linarith
          rw [this]; rfl
        unfold total
        rw [hours_eq, hr, List.map_map]
        have := flat_first (b := beam i) hc0 hpos hu
        simpa using this
    constructor
    · intro h
      refine ⟨by positivity, hiff.1 ?_⟩
      by_contra hne
      rw [if_neg hne] at h
      simp at h
    · rintro ⟨-, h⟩
      rw [if_pos (hiff.2 h)]

/-- The only error a day can raise at a latitude between the poles is that division by zero. -/
theorem day_total {tr : Flt ℝ} {lat : ℝ} (hlat : |lat| < Real.pi / 2) (i : Nat)
    (h : ¬ (0 < 2 * hss lat i * 13750.9871 ∧ 2 * hss lat i * 13750.9871 ≤ 30)) :
    ∃ g, solarDay tr lat i = .ok g := by
  rw [← C45_fails_iff tr lat hlat i] at h
  cases hd : solarDay tr lat i with
  | ok g => exact ⟨g, rfl⟩
  | error e =>
    exfalso
    refine h ?_
    rw [hd]
    congr 1
    unfold solarDay at hd
    simp only at hd
    split at hd
    · injection hd with hd; exact hd.symm
    · split at hd
      · split at hd
        · injection hd with hd; exact hd.symm
        · simp at hd
      · simp at hd

/-- Between 60 S and 60 N half a day is more than half a radian. -/
theorem hss_mid {lat : ℝ} (hlat : |lat| ≤ 60) (i : Nat) : 0.5 < hss (latRad lat) i := by
  have h90 : |lat| ≤ 90 := by linarith
  have hc0 := coseg_pos (latRad_lt h90) i
  by_contra h30
  rw [not_lt] at h30
  unfold hss at h30
  set c := Real.cos (latRad lat) * Real.cos (decl i) with hc
  set s := Real.sin (latRad lat) * Real.sin (decl i) with hs
  have hH0 := halfDay_nonneg c s
  -- the cosine of the half day is at most 0.8
  have hcos := cos_halfDay c s
  have hd : |decl i| ≤ 0.4092797 := by
    unfold decl Cnst.MIN_DECL
    rw [abs_mul]
    have := Real.abs_cos_le_one (((i : ℝ) + Cnst.DAYS_OFF) * Cnst.RAD_PER_DAY)
    rw [show |(-0.4092797 : ℝ)| = 0.4092797 by rw [abs_of_neg] <;> norm_num]
    nlinarith [abs_nonneg (Real.cos (((i : ℝ) + Cnst.DAYS_OFF) * Cnst.RAD_PER_DAY))]
  have hsd : |Real.sin (decl i)| ≤ 0.4092797 := le_trans (Real.abs_sin_le_abs) hd
  have hcd : 0.916 ≤ Real.cos (decl i) := by
    refine le_trans ?_ (Real.one_sub_sq_div_two_le_cos (x := decl i))
    have := abs_le.1 hd
    nlinarith
  have hla : |latRad lat| ≤ Real.pi / 3 := by
    rw [latRad_eq h90, abs_mul, abs_of_pos (show (0:ℝ) < 0.01745329 by norm_num)]
    have := Real.pi_gt_d20
    linarith
  have hcl : 1 / 2 ≤ Real.cos (latRad lat) := by
    rw [← Real.cos_abs, ← Real.cos_pi_div_three]
    refine Real.cos_le_cos_of_nonneg_of_le_pi (abs_nonneg _) ?_ hla
    linarith [Real.pi_pos]
  have hsl : |Real.sin (latRad lat)| ≤ 0.867 := by
    rw [abs_le]
    have h1 := Real.sin_sq_add_cos_sq (latRad lat)
    constructor <;> nlinarith
  have hs1 : -s ≤ 0.8 * c := by
    have h1 : |s| ≤ 0.867 * 0.4092797 := by
      rw [hs, abs_mul]
      exact mul_le_mul hsl hsd (abs_nonneg _) (by norm_num)
    have h2 : 1 / 2 * 0.916 ≤ c := by
      rw [hc]
      exact mul_le_mul hcl hcd (by norm_num) (by linarith)
    have := (abs_le.1 h1).1
    linarith
  have h8 : -s / c ≤ 0.8 := by rw [div_le_iff₀ hc0]; exact hs1
  have hcos8 : Real.cos (halfDay c s) ≤ 0.8 := by
    rw [hcos]
    exact le_trans (min_le_left _ _) (max_le h8 (by norm_num))
  have hsm : halfDay c s ≤ 0.5 := by linarith
  have := Real.one_sub_sq_div_two_le_cos (x := halfDay c s)
  nlinarith

/-- **C45 (partial)**: between 60 S and 60 N it never fails. -/
theorem C45_midlatitude_partial (elev lat lr : ℝ) (hlat : |lat| ≤ 60) (hl : 0 < lr) (he : lr * elev < 288.15) :
    ∃ rows, solarGeom elev lat lr = .ok rows ∧ rows.length = 366 ∧ ∀ g ∈ rows, DayOk g := by
  have h90 : |lat| ≤ 90 := by linarith
  obtain ⟨t, ht, ht0, ht1⟩ := trans_ok hl he
  have hr : ∃ ds, (List.range 365).mapM (solarDay (fin t) (latRad lat)) = .ok ds := by
    refine mapM_total fun i _ => day_total (latRad_lt h90) i ?_
    rintro ⟨-, h30⟩
    have := hss_mid hlat i
    linarith
  obtain ⟨ds, hds⟩ := hr
  have hok : solarGeom elev lat lr = .ok (ds ++ ds.getLast?.toList) := by
    unfold solarGeom
    simp only [bind_ok, pure_ok]
    exact ⟨fin t, ht, ds, hds, rfl⟩
  exact ⟨_, hok, C45_bounds_partial elev lat lr hl he _ hok⟩

/-- The latitude (radians) at which the first of January has 20 s of daylight. -/
noncomputable def badLat : ℝ := Real.arctan (Real.cos 0.0007 * Real.cos (decl 0) / Real.sin (-decl 0))

theorem badLat_facts : |badLat| ≤ 1.5 ∧ hss badLat 0 = 0.0007 := by
  obtain ⟨d1, d2⟩ := decl_zero
  have hsd : 0 < Real.sin (-decl 0) := Real.sin_pos_of_pos_of_lt_pi (by linarith) (by linarith [Real.pi_gt_three])
  have hs38 : 0.38 ≤ Real.sin (-decl 0) := by
    have h := Real.sin_gt_sub_cube (x := 0.4) (by norm_num)
    have hm : Real.sin 0.4 ≤ Real.sin (-decl 0) := by
      have hp := Real.pi_gt_three
      refine Real.sin_le_sin_of_le_of_le_pi_div_two ?_ ?_ ?_ <;> linarith
    norm_num at h
    linarith
  have hcd : 0 < Real.cos (decl 0) := by
    have := coseg_pos (lat := 0) (by simp [Real.pi_pos]) 0
    simpa using this
  have hcd1 := Real.cos_le_one (decl 0)
  have hcL := Real.cos_arctan_pos (Real.cos 0.0007 * Real.cos (decl 0) / Real.sin (-decl 0))
  have hx0 : 0 ≤ Real.cos 0.0007 * Real.cos (decl 0) / Real.sin (-decl 0) := by
    have : 0 < Real.cos 0.0007 := Real.cos_pos_of_mem_Ioo ⟨by linarith [Real.pi_gt_three], by linarith [Real.pi_gt_three]⟩
    positivity
  have hx3 : Real.cos 0.0007 * Real.cos (decl 0) / Real.sin (-decl 0) ≤ 3 := by
    rw [div_le_iff₀ hsd]
    have := Real.cos_le_one (0.0007 : ℝ)
    nlinarith
  have hL0 : 0 ≤ badLat := by
    unfold badLat; exact Real.arctan_nonneg.2 hx0
  constructor
  · rw [abs_of_nonneg hL0]
    by_contra hcon
    push Not at hcon
    have h1 : Real.cos badLat ≤ Real.cos 1.5 := by
      refine (Real.cos_le_cos_of_nonneg_of_le_pi (by norm_num) ?_ hcon.le)
      have := Real.arctan_lt_pi_div_two (Real.cos 0.0007 * Real.cos (decl 0) / Real.sin (-decl 0))
      unfold badLat
      linarith [Real.pi_pos]
    have h2 : Real.cos 1.5 ≤ 0.1 := by
      rw [← Real.sin_pi_div_two_sub]
      have hp := Real.pi_lt_d2
      have hp' := Real.pi_gt_d2
      refine le_trans (Real.sin_le ?_) ?_ <;> linarith
    have h3 : Real.sin badLat = Real.cos badLat * (Real.cos 0.0007 * Real.cos (decl 0) / Real.sin (-decl 0)) := by
      have := Real.tan_arctan (Real.cos 0.0007 * Real.cos (decl 0) / Real.sin (-decl 0))
      rw [← this, Real.tan_eq_sin_div_cos]
      unfold badLat
      field_simp
    have h4 := Real.sin_sq_add_cos_sq badLat
    have h5 : 0 < Real.cos badLat := hcL
    have h6 : Real.sin badLat ≤ 0.3 := by rw [h3]; nlinarith
    have h7 : 0 ≤ Real.sin badLat := by rw [h3]; positivity
    nlinarith
  · unfold hss halfDay
    have h3 : Real.sin badLat = Real.cos badLat * (Real.cos 0.0007 * Real.cos (decl 0) / Real.sin (-decl 0)) := by
      have := Real.tan_arctan (Real.cos 0.0007 * Real.cos (decl 0) / Real.sin (-decl 0))
      rw [← this, Real.tan_eq_sin_div_cos]
      unfold badLat
      field_simp
    have hc' : Real.cos badLat ≠ 0 := hcL.ne'
    have : -(Real.sin badLat * Real.sin (decl 0)) / (Real.cos badLat * Real.cos (decl 0)) = Real.cos 0.0007 := by
      rw [h3]
      have hsn : Real.sin (decl 0) = -Real.sin (-decl 0) := by rw [Real.sin_neg]; ring
      rw [hsn]
      field_simp
    rw [this, max_eq_left (Real.neg_one_le_cos _), min_eq_left (Real.cos_le_one _),
      Real.arccos_cos (by norm_num) (by linarith [Real.pi_gt_three])]

theorem C45_refuted : ¬ C45_full := by
  intro h
  obtain ⟨b1, b2⟩ := badLat_facts
  have hlat : |badLat / 0.01745329| ≤ 90 := by
    rw [abs_div, abs_of_pos (show (0:ℝ) < 0.01745329 by norm_num), div_le_iff₀ (by norm_num)]
    linarith
  obtain ⟨rows, h1, -, -⟩ := h 0 (badLat / 0.01745329) 0.0065 hlat (by norm_num) (by norm_num)
  have hrad : latRad (badLat / 0.01745329) = badLat := by
    rw [latRad_eq hlat]; field_simp
  unfold solarGeom at h1
  simp only [bind_ok, pure_ok, hrad] at h1
  obtain ⟨tr, -, ds, hds, -⟩ := h1
  have hp := Real.pi_gt_d2
  have hlat' : |badLat| < Real.pi / 2 := by linarith
  have herr := (C45_fails_iff tr badLat hlat' 0).2 (by rw [b2]; norm_num)
  rw [List.range_succ_eq_map, List.mapM_cons, herr] at hds
  simp [bind, Except.bind] at hds

end C45
end Verif.Props

namespace Verif.Props

open Flt Solar

/-! ## C66 -/
section C66

theorem decl_neg_winter {i : Nat} (h : i ≤ 80 ∨ (263 ≤ i ∧ i < 365)) : decl i < 0 := by
  have hp := Real.pi_gt_d20
  have hp' := Real.pi_lt_d20
  unfold decl Cnst.MIN_DECL Cnst.DAYS_OFF Cnst.RAD_PER_DAY
  suffices 0 < Real.cos (((i : ℝ) + 11.25) * 0.017214) by nlinarith
  rcases h with h | ⟨h1, h2⟩
  · have hi : (i : ℝ) ≤ 80 := by exact_mod_cast h
    have hi0 : (0 : ℝ) ≤ i := Nat.cast_nonneg i
    exact Real.cos_pos_of_mem_Ioo ⟨by linarith, by linarith⟩
  · have hi1 : (263 : ℝ) ≤ i := by exact_mod_cast h1
    have hi2 : (i : ℝ) ≤ 364 := by exact_mod_cast (by omega : i ≤ 364)
    rw [← Real.cos_sub_two_pi]
    exact Real.cos_pos_of_mem_Ioo ⟨by linarith, by linarith⟩

theorem decl_pos_summer {i : Nat} (h1 : 81 ≤ i) (h2 : i ≤ 262) : 0 < decl i := by
  have hp := Real.pi_gt_d20
  have hp' := Real.pi_lt_d20
  have hi1 : (81 : ℝ) ≤ i := by exact_mod_cast h1
  have hi2 : (i : ℝ) ≤ 262 := by exact_mod_cast h2
  unfold decl Cnst.MIN_DECL Cnst.DAYS_OFF Cnst.RAD_PER_DAY
  have : Real.cos (((i : ℝ) + 11.25) * 0.017214) < 0 :=
    Real.cos_neg_of_pi_div_two_lt_of_lt (by linarith) (by linarith)
  nlinarith

theorem decl_abs (i : Nat) : |decl i| ≤ 0.4092797 := by
  unfold decl Cnst.MIN_DECL
  rw [abs_mul]
  have := Real.abs_cos_le_one (((i : ℝ) + Cnst.DAYS_OFF) * Cnst.RAD_PER_DAY)
  rw [show |(-0.4092797 : ℝ)| = 0.4092797 by rw [abs_of_neg] <;> norm_num]
  nlinarith [abs_nonneg (Real.cos (((i : ℝ) + Cnst.DAYS_OFF) * Cnst.RAD_PER_DAY))]

/-- **C66**: what one hemisphere gains in daylight the other loses. -/
theorem C66_hemispheres (lat : ℝ) (i : Nat) : hss lat i + hss (-lat) i = Real.pi := by
  unfold hss halfDay
  rw [Real.cos_neg, Real.sin_neg]
  generalize hx : -(Real.sin lat * Real.sin (decl i)) / (Real.cos lat * Real.cos (decl i)) = x
  have : -(-Real.sin lat * Real.sin (decl i)) / (Real.cos lat * Real.cos (decl i)) = -x := by
    rw [← hx]; ring
  rw [this]
  have h2 : min (max (-x) (-1)) 1 = -(min (max x (-1)) 1) := by
    rcases le_total x (-1) with h | h
    · rw [max_eq_right h, max_eq_left (by linarith), min_eq_right (by linarith), min_eq_left (by norm_num)]; norm_num
    · rcases le_total x 1 with h' | h'
      · rw [max_eq_left h, max_eq_left (by linarith), min_eq_left (by linarith), min_eq_left h']
      · rw [max_eq_left h, max_eq_right (by linarith), min_eq_left (by norm_num), min_eq_right h']
  rw [h2, Real.arccos_neg]
  ring

theorem lt_half {lat : ℝ} {i : Nat} (h0 : 0 < lat) (h1 : lat < Real.pi / 2) (hd : decl i < 0) :
    hss lat i < Real.pi / 2 := by
  have hc := coseg_pos (lat := lat) (by rw [abs_of_pos h0]; exact h1) i
  have := abs_le.1 (decl_abs i)
  have hsd : Real.sin (decl i) < 0 := Real.sin_neg_of_neg_of_neg_pi_lt hd (by linarith [Real.pi_gt_three])
  have hsl : 0 < Real.sin lat := Real.sin_pos_of_pos_of_lt_pi h0 (by linarith [Real.pi_pos])
  unfold hss halfDay
  rw [Real.arccos_lt_pi_div_two]
  refine lt_min (lt_max_of_lt_left ?_) one_pos
  apply div_pos _ hc
  have := mul_pos hsl (neg_pos.2 hsd)
  linarith

theorem gt_half {lat : ℝ} {i : Nat} (h0 : 0 < lat) (h1 : lat < Real.pi / 2) (hd : 0 < decl i) :
    Real.pi / 2 < hss lat i := by
  have hc := coseg_pos (lat := lat) (by rw [abs_of_pos h0]; exact h1) i
  have := abs_le.1 (decl_abs i)
  have hsd : 0 < Real.sin (decl i) := Real.sin_pos_of_pos_of_lt_pi hd (by linarith [Real.pi_gt_three])
  have hsl : 0 < Real.sin lat := Real.sin_pos_of_pos_of_lt_pi h0 (by linarith [Real.pi_pos])
  unfold hss halfDay
  rw [Real.arccos_eq_pi_div_two_sub_arcsin, lt_sub_iff_add_lt]
  have : Real.arcsin (min (max (-(Real.sin lat * Real.sin (decl i)) / (Real.cos lat * Real.cos (decl i))) (-1)) 1) < 0 := by
    rw [Real.arcsin_lt_zero]
    refine lt_of_le_of_lt (min_le_left _ _) (max_lt ?_ (by norm_num))
    apply div_neg_of_neg_of_pos _ hc
    have := mul_pos hsl hsd
    linarith
  linarith

theorem daylength_eq {tr : Flt ℝ} {lat : ℝ} {i : Nat} {g : DayGeom} (h : solarDay tr lat i = .ok g) :
    g.daylength = min (2 * hss lat i * 13750.9871) 86400 := by
  obtain ⟨c, s, H, acc, hc, hs, hc0, hH, hdl, -⟩ := solarDay_ok h
  rw [hdl, hH, hc, hs]; rfl

/-- **C66**: north of the equator daylight is shorter than half a day up to day of year 81 and from 264
(rows 0-80 and 263-364), longer in between. -/
theorem C66_seasons (tr : Flt ℝ) (lat : ℝ) (i : Nat) (g : DayGeom) (h0 : 0 < lat) (h1 : lat ≤ 90)
    (h : solarDay tr (latRad lat) i = .ok g) :
    ((i ≤ 80 ∨ (263 ≤ i ∧ i < 365)) → g.daylength < 43200.0001) ∧
    (81 ≤ i → i ≤ 262 → 43200 < g.daylength) := by
  have hp := Real.pi_gt_d20
  have hp' := Real.pi_lt_d20
  have hlat : |lat| ≤ 90 := by rw [abs_of_pos h0]; exact h1
  have hl0 : 0 < latRad lat := by rw [latRad_eq hlat]; positivity
  have hl1 : latRad lat < Real.pi / 2 := (abs_lt.1 (latRad_lt hlat)).2
  rw [daylength_eq h]
  constructor
  · intro hi
    have := lt_half hl0 hl1 (decl_neg_winter hi)
    exact lt_of_le_of_lt (min_le_left _ _) (by linarith)
  · intro hi1 hi2
    have := gt_half hl0 hl1 (decl_pos_summer hi1 hi2)
    exact lt_min (by linarith) (by norm_num)

/-- **C66**: the further from the equator the longer the summer days and the shorter the winter days. -/
theorem C66_latitude (a b : ℝ) (i : Nat) (ha : -(Real.pi / 2) < a) (hab : a ≤ b) (hb : b < Real.pi / 2) :
    (0 < decl i → hss a i ≤ hss b i) ∧ (decl i < 0 → hss b i ≤ hss a i) := by
  have hca : 0 < Real.cos a := Real.cos_pos_of_mem_Ioo ⟨by linarith, by linarith⟩
  have hcb : 0 < Real.cos b := Real.cos_pos_of_mem_Ioo ⟨by linarith, hb⟩
  have hd := abs_le.1 (decl_abs i)
  have hcd : 0 < Real.cos (decl i) := Real.cos_pos_of_mem_Ioo ⟨by linarith [Real.pi_gt_three], by linarith [Real.pi_gt_three]⟩
  have htan : Real.sin a / Real.cos a ≤ Real.sin b / Real.cos b := by
    rw [← Real.tan_eq_sin_div_cos, ← Real.tan_eq_sin_div_cos]
    rcases eq_or_lt_of_le hab with h | h
    · rw [h]
    · exact (Real.tan_lt_tan_of_lt_of_lt_pi_div_two ha hb h).le
  have key : ∀ x, 0 < Real.cos x → -(Real.sin x * Real.sin (decl i)) / (Real.cos x * Real.cos (decl i))
      = -(Real.sin x / Real.cos x) * (Real.sin (decl i) / Real.cos (decl i)) := fun x hx => by
    field_simp
  unfold hss halfDay
  rw [key a hca, key b hcb]
  constructor
  · intro h
    have hsd : 0 < Real.sin (decl i) := Real.sin_pos_of_pos_of_lt_pi h (by linarith [Real.pi_gt_three])
    have ht := div_pos hsd hcd
    refine Real.arccos_le_arccos (min_le_min_right _ (max_le_max_right _ ?_))
    nlinarith
  · intro h
    have hsd : Real.sin (decl i) < 0 := Real.sin_neg_of_neg_of_neg_pi_lt h (by linarith [Real.pi_gt_three])
    have ht := div_neg_of_neg_of_pos hsd hcd
    refine Real.arccos_le_arccos (min_le_min_right _ (max_le_max_right _ ?_))
    nlinarith

end C66
end Verif.Props
