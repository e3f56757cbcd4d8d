import Verif.Lemmas.Solar
import Verif.Spec.Astronomy

/-!
# The radiation table as samples of the sun's elevation
-/

namespace Verif.Solar

open Flt

theorem flat_max (b c s h : ℝ) : flat b c s h = b * max 0 (cza c s h) := by
  unfold flat
  split
  · rename_i h0; rw [max_eq_right h0.le]
  · rename_i h0; rw [max_eq_left (not_lt.1 h0), mul_zero]

/-- The sun is down before sunrise and after sunset. -/
theorem cza_down {c s h : ℝ} (hc : 0 < c) (hH : halfDay c s < Real.pi) (h1 : halfDay c s ≤ |h|) (h2 : |h| ≤ Real.pi) :
    cza c s h ≤ 0 := by
  have hcos : Real.cos h ≤ Real.cos (halfDay c s) := by
    rw [← Real.cos_abs h]
    exact Real.cos_le_cos_of_nonneg_of_le_pi (halfDay_nonneg c s) h2 h1
  have hgt : -1 < Real.cos (halfDay c s) := by
    have := Real.cos_lt_cos_of_nonneg_of_le_pi (halfDay_nonneg c s) le_rfl hH
    simpa using this
  rw [cos_halfDay] at hcos hgt
  have h3 : min (max (-s / c) (-1)) 1 ≤ -s / c := by
    have : -1 < max (-s / c) (-1) := lt_of_lt_of_le hgt (min_le_left _ _)
    rcases max_choice (-s / c) (-1) with h | h
    · rw [h]; exact min_le_left _ _
    · rw [h] at this; exact absurd this (lt_irrefl _)
  have h4 : Real.cos h ≤ -s / c := hcos.trans h3
  rw [le_div_iff₀ hc] at h4
  unfold cza
  linarith

/-- The hour angle of a second of the day. -/
noncomputable def angle (t : ℝ) : ℝ := (t - 43200) / 13750.9871

theorem hour_angle (H : ℝ) (k : ℝ) : -H + k * dh = angle (30 * (start H + k)) := by
  unfold angle start
  rw [dh_eq]
  field_simp
  ring

/-- Each slot of an ordinary day holds the radiation at a time within it. -/
theorem scatter_sample {b c s : ℝ} (hc : 0 < c) (j : Nat) (hj : j < 2880) :
    ∃ t : ℝ, 30 * (j : ℝ) ≤ t ∧ t < 30 * (j + 1) ∧
      scatter (writes b c s) (fun _ => 0) j = b * max 0 (cza c s (angle t)) := by
  rcases le_or_gt 0 (start (halfDay c s)) with hu | hu
  · obtain ⟨hn, hl⟩ := writes_day_nodup (b := b) hu
    have hpi := halfDay_lt_pi hu
    have hf0 : 0 ≤ ⌊start (halfDay c s)⌋ := Int.floor_nonneg.2 hu
    have hf1 : ((⌊start (halfDay c s)⌋.toNat : ℕ) : ℝ) ≤ start (halfDay c s) := by
      have h := Int.floor_le (start (halfDay c s))
      have e : ((⌊start (halfDay c s)⌋.toNat : ℕ) : ℝ) = (⌊start (halfDay c s)⌋ : ℝ) := by
        exact_mod_cast Int.toNat_of_nonneg hf0
      rw [e]; exact h
    have hf2 : start (halfDay c s) < ((⌊start (halfDay c s)⌋.toNat : ℕ) : ℝ) + 1 := by
      have h := Int.lt_floor_add_one (start (halfDay c s))
      have e : ((⌊start (halfDay c s)⌋.toNat : ℕ) : ℝ) = (⌊start (halfDay c s)⌋ : ℝ) := by
        exact_mod_cast Int.toNat_of_nonneg hf0
      rw [e]; exact h
    have hjr : (j : ℝ) ≤ 2879 := by exact_mod_cast Nat.lt_succ_iff.1 hj
    have hp := Real.pi_gt_d20
    have hH : 30 * start (halfDay c s) = 43200 - halfDay c s * 13750.9871 := by unfold start; ring
    set a := ⌊start (halfDay c s)⌋.toNat with ha
    by_cases hja : j < a
    · refine ⟨30 * j, le_rfl, by linarith, ?_⟩
      rw [scatter_not_mem]
      · have hja' : (j : ℝ) + 1 ≤ a := by exact_mod_cast hja
        have h1 : angle (30 * j) < 0 := by
          unfold angle
          apply div_neg_of_neg_of_pos _ (by norm_num)
          have := halfDay_nonneg c s
          nlinarith
        rw [max_eq_left, mul_zero]
        refine cza_down hc hpi ?_ ?_ <;> rw [abs_of_neg h1] <;> unfold angle
        · rw [← neg_div, le_div_iff₀ (by norm_num)]
          linarith
        · rw [← neg_div, div_le_iff₀ (by norm_num)]
          have : (0 : ℝ) ≤ j := Nat.cast_nonneg j
          nlinarith
      · intro hm
        rw [writes_day hu, List.map_map] at hm
        obtain ⟨k, -, rfl⟩ := List.mem_map.1 hm
        simp only [Function.comp] at hja
        omega
    · obtain ⟨k, rfl⟩ := Nat.exists_eq_add_of_le (not_lt.1 hja)
      refine ⟨30 * (start (halfDay c s) + k), ?_, ?_, ?_⟩
      · push_cast; linarith
      · push_cast; linarith
      · rw [← hour_angle, ← flat_max]
        by_cases hk : k < rounds (halfDay c s)
        · refine scatter_mem (writes b c s) (fun _ => 0) hn (a + k, flat b c s (-halfDay c s + (k : ℝ) * dh)) ?_
          rw [writes_day hu]
          exact List.mem_map.2 ⟨k, List.mem_range.2 hk, rfl⟩
        · rw [scatter_not_mem]
          · have hk' : 2880 - 2 * start (halfDay c s) ≤ k := by
              have h := not_lt.1 hk
              unfold rounds at h
              rw [Int.toNat_le, Int.ceil_le] at h
              exact_mod_cast h
            have hjk : (a : ℝ) + k ≤ 2879 := by push_cast at hjr; exact hjr
            rw [flat_max, max_eq_left, mul_zero]
            have e := hour_angle (halfDay c s) k
            have h0 := halfDay_nonneg c s
            have hge : halfDay c s ≤ -halfDay c s + (k : ℝ) * dh := by
              rw [e]
              unfold angle
              rw [le_div_iff₀ (by norm_num)]
              nlinarith
            refine cza_down hc hpi ?_ ?_ <;> rw [abs_of_nonneg (h0.trans hge)]
            · exact hge
            · rw [e]
              unfold angle
              rw [div_le_iff₀ (by norm_num)]
              nlinarith
          · intro hm
            rw [writes_day hu, List.map_map] at hm
            obtain ⟨k', hk', he⟩ := List.mem_map.1 hm
            have : k' = k := by simpa [← ha] using he
            exact hk (this ▸ List.mem_range.1 hk')
  · have hu' := start_gt c s
    have hr := rounds_polar hu hu'
    refine ⟨30 * (start (halfDay c s) + ((j + 1 : Nat) : ℝ)), ?_, ?_, ?_⟩
    · push_cast; linarith
    · push_cast; linarith
    · rw [← hour_angle, ← flat_max, polar_slot hu hj]

/-- A row of the table is a multiple of the sun's elevation, sampled once in each slot. -/
theorem fract_sample {tr : Flt ℝ} {lat : ℝ} {i : Nat} {g : DayGeom} (h : solarDay tr lat i = .ok g)
    (hlat : |lat| < Real.pi / 2) : ∃ T : ℝ, 0 < T ∧ ∀ j : Nat, j < 2880 → ∃ t : ℝ, 30 * (j : ℝ) ≤ t ∧ t < 30 * (j + 1) ∧
      g.fract j * T = 30 * max 0 (cza (Real.cos lat * Real.cos (decl i)) (Real.sin lat * Real.sin (decl i)) (angle t)) := by
  obtain ⟨c, s, H, acc, rfl, rfl, hc0, rfl, hdl, hacc, hg⟩ := solarDay_ok h
  have hcp := coseg_pos hlat i
  have hb := beam_pos i
  obtain ⟨a1, a2⟩ := acc_flat tr (beam i) (Real.cos lat * Real.cos (decl i)) (Real.sin lat * Real.sin (decl i))
    (hours (halfDay (Real.cos lat * Real.cos (decl i)) (Real.sin lat * Real.sin (decl i)))) ⟨fin 0, 0, fun _ => 0⟩
  rw [← hacc] at a1 a2
  simp only [zero_add] at a1
  change acc.sumFlat = total (beam i) _ _ at a1
  rw [writes_eq] at a2
  simp only at a2
  have htot := total_nonneg (c := Real.cos lat * Real.cos (decl i)) (s := Real.sin lat * Real.sin (decl i)) hb
  rcases hg with ⟨g1, g2, g3, g4⟩ | ⟨g1, g2, g3, g4, g5⟩
  · refine ⟨30 / beam i, by positivity, fun j hj => ?_⟩
    obtain ⟨t, t1, t2, t3⟩ := scatter_sample (b := beam i) (s := Real.sin lat * Real.sin (decl i)) hcp j hj
    refine ⟨t, t1, t2, ?_⟩
    rw [g4, a2, t3]
    field_simp
  · have hF : 0 < acc.sumFlat := lt_of_le_of_ne (a1 ▸ htot) (Ne.symm g2)
    refine ⟨30 * acc.sumFlat / beam i, by positivity, fun j hj => ?_⟩
    obtain ⟨t, t1, t2, t3⟩ := scatter_sample (b := beam i) (s := Real.sin lat * Real.sin (decl i)) hcp j hj
    refine ⟨t, t1, t2, ?_⟩
    rw [g5 hF, a2, t3]
    field_simp

theorem cos_lip (x y : ℝ) : |Real.cos x - Real.cos y| ≤ |x - y| := by
  have := Real.lipschitzWith_cos.dist_le_mul x y
  simpa [Real.dist_eq] using this

theorem max_lip (x y : ℝ) : |max 0 x - max 0 y| ≤ |x - y| := by
  rw [max_comm 0 x, max_comm 0 y]; exact abs_max_sub_max_le_abs x y 0

open Spec in
theorem elevation_lip (φ δ x y : ℝ) : |max 0 (elevation φ δ x) - max 0 (elevation φ δ y)| ≤ |x - y| * (7.3e-5) := by
  refine (max_lip _ _).trans ?_
  unfold elevation
  rw [add_sub_add_left_eq_sub, ← mul_sub, abs_mul, abs_mul]
  have h1 := cos_lip (2 * Real.pi * (x - 43200) / 86400) (2 * Real.pi * (y - 43200) / 86400)
  rw [show 2 * Real.pi * (x - 43200) / 86400 - 2 * Real.pi * (y - 43200) / 86400 = (x - y) * (Real.pi / 43200) by ring,
    abs_mul, abs_of_pos (by positivity : 0 < Real.pi / 43200)] at h1
  have h2 : |Real.cos φ| * |Real.cos δ| ≤ 1 := mul_le_one₀ (Real.abs_cos_le_one φ) (abs_nonneg _) (Real.abs_cos_le_one δ)
  have hp := Real.pi_lt_d2
  have h3 : |x - y| * (Real.pi / 43200) ≤ |x - y| * 7.3e-5 := mul_le_mul_of_nonneg_left (by norm_num; linarith) (abs_nonneg _)
  calc _ ≤ 1 * |Real.cos (2 * Real.pi * (x - 43200) / 86400) - Real.cos (2 * Real.pi * (y - 43200) / 86400)| :=
        mul_le_mul_of_nonneg_right h2 (abs_nonneg _)
    _ ≤ _ := by rw [one_mul]; exact h1.trans h3

open Spec in
theorem elevation_cont (φ δ : ℝ) : Continuous fun t => max 0 (elevation φ δ t) := by
  unfold elevation
  fun_prop

open Spec in
/-- The code's hour angle, and the exact one. -/
theorem cza_elevation (φ δ t : ℝ) (h0 : 0 ≤ t) (h1 : t ≤ 86400) :
    |max 0 (cza (Real.cos φ * Real.cos δ) (Real.sin φ * Real.sin δ) (angle t)) - max 0 (elevation φ δ t)| ≤ 1e-6 := by
  refine (max_lip _ _).trans ?_
  unfold elevation cza angle
  have e : Real.cos φ * Real.cos δ * Real.cos ((t - 43200) / 13750.9871) + Real.sin φ * Real.sin δ -
      (Real.sin φ * Real.sin δ + Real.cos φ * Real.cos δ * Real.cos (2 * Real.pi * (t - 43200) / 86400)) =
      Real.cos φ * Real.cos δ * (Real.cos ((t - 43200) / 13750.9871) - Real.cos (2 * Real.pi * (t - 43200) / 86400)) := by ring
  rw [e, abs_mul, abs_mul]
  have h2 : |Real.cos φ| * |Real.cos δ| ≤ 1 := mul_le_one₀ (Real.abs_cos_le_one φ) (abs_nonneg _) (Real.abs_cos_le_one δ)
  have h3 := cos_lip ((t - 43200) / 13750.9871) (2 * Real.pi * (t - 43200) / 86400)
  have hp := Real.pi_lt_d20
  have hp' := Real.pi_gt_d20
  rw [show (t - 43200) / 13750.9871 - 2 * Real.pi * (t - 43200) / 86400
    = (t - 43200) * (1 / 13750.9871 - Real.pi / 43200) by ring, abs_mul] at h3
  have h4 : |t - 43200| ≤ 43200 := abs_le.2 ⟨by linarith, by linarith⟩
  have h5 : |1 / 13750.9871 - Real.pi / 43200| ≤ 1e-12 := by
    rw [abs_le]; constructor <;> norm_num <;> linarith
  calc _ ≤ 1 * |Real.cos ((t - 43200) / 13750.9871) - Real.cos (2 * Real.pi * (t - 43200) / 86400)| :=
        mul_le_mul_of_nonneg_right h2 (abs_nonneg _)
    _ ≤ 43200 * 1e-12 := by
        rw [one_mul]
        exact h3.trans (mul_le_mul h4 h5 (abs_nonneg _) (by norm_num))
    _ ≤ 1e-6 := by norm_num

open Spec in
/-- One sample in a slot of thirty seconds against the slot. -/
theorem sample_sunshine (φ δ a t : ℝ) (ha : 0 ≤ a) (ha' : a + 30 ≤ 86400) (h1 : a ≤ t) (h2 : t < a + 30) :
    |30 * max 0 (cza (Real.cos φ * Real.cos δ) (Real.sin φ * Real.sin δ) (angle t)) - sunshine φ δ a (a + 30)| ≤ 0.067 := by
  have h3 := cza_elevation φ δ t (ha.trans h1) (by linarith)
  have hi : IntervalIntegrable (fun x => max 0 (elevation φ δ x)) MeasureTheory.volume a (a + 30) :=
    (elevation_cont φ δ).intervalIntegrable _ _
  have e : 30 * max 0 (elevation φ δ t) - sunshine φ δ a (a + 30) =
      ∫ x in a..(a + 30), (max 0 (elevation φ δ t) - max 0 (elevation φ δ x)) := by
    rw [intervalIntegral.integral_sub intervalIntegrable_const hi, intervalIntegral.integral_const]
    unfold sunshine
    rw [smul_eq_mul]; ring
  have h4 : |30 * max 0 (elevation φ δ t) - sunshine φ δ a (a + 30)| ≤ 30 * 7.3e-5 * 30 := by
    rw [e, ← Real.norm_eq_abs]
    refine (intervalIntegral.norm_integral_le_of_norm_le_const (C := 30 * 7.3e-5) fun x hx => ?_).trans ?_
    · rw [Set.uIoc_of_le (by linarith)] at hx
      rw [Real.norm_eq_abs]
      refine (elevation_lip φ δ t x).trans (mul_le_mul_of_nonneg_right ?_ (by norm_num))
      exact abs_le.2 ⟨by linarith [hx.2], by linarith [hx.1]⟩
    · rw [add_sub_cancel_left, abs_of_pos (by norm_num)]
  have h5 := abs_sub_le (30 * max 0 (cza (Real.cos φ * Real.cos δ) (Real.sin φ * Real.sin δ) (angle t)))
    (30 * max 0 (elevation φ δ t)) (sunshine φ δ a (a + 30))
  rw [← mul_sub, abs_mul, abs_of_pos (by norm_num : (0:ℝ) < 30)] at h5
  linarith

open Spec in
theorem sunshine_split (φ δ a : ℝ) : ∀ n : ℕ,
    ∑ j ∈ Finset.range n, sunshine φ δ (a + 30 * j) (a + 30 * j + 30) = sunshine φ δ a (a + 30 * n)
  | 0 => by simp [sunshine]
  | n + 1 => by
      rw [Finset.sum_range_succ, sunshine_split φ δ a n]
      unfold sunshine
      rw [intervalIntegral.integral_add_adjacent_intervals ((elevation_cont φ δ).intervalIntegrable _ _)
        ((elevation_cont φ δ).intervalIntegrable _ _)]
      congr 1
      push_cast; ring

end Verif.Solar
