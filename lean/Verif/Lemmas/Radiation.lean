import Verif.Props.Solar

/-!
# How much radiation a day can have

The potential radiation of a day, summed over its slots, is at most 61.5 MJ per square metre, at any latitude.
-/

namespace Verif.Solar

open Flt Props

theorem cza_nonneg {c s h : ℝ} (hc : 0 < c) (h0 : 0 < halfDay c s) (hh : |h| ≤ halfDay c s) : 0 ≤ cza c s h := by
  have hcos : Real.cos (halfDay c s) ≤ Real.cos h := by
    rw [← Real.cos_abs h]
    exact Real.cos_le_cos_of_nonneg_of_le_pi (abs_nonneg h) (halfDay_le_pi c s) hh
  have hlt : Real.cos (halfDay c s) < 1 := by
    have := Real.cos_lt_cos_of_nonneg_of_le_pi le_rfl (halfDay_le_pi c s) h0
    simpa using this
  rw [cos_halfDay] at hcos hlt
  have h1 : min (max (-s / c) (-1)) 1 = max (-s / c) (-1) := by
    rcases min_choice (max (-s / c) (-1)) 1 with e | e
    · exact e
    · rw [e] at hlt; exact absurd hlt (lt_irrefl _)
  rw [h1] at hcos
  have h2 : -s / c ≤ Real.cos h := le_trans (le_max_left _ _) hcos
  rw [div_le_iff₀ hc] at h2
  unfold cza
  linarith

/-- Sum of the cosines of equally spaced angles. -/
theorem sum_cos (a d : ℝ) (n : Nat) : 2 * Real.sin (d / 2) * ∑ k ∈ Finset.range n, Real.cos (a + (k : ℝ) * d)
    = Real.sin (a + (n : ℝ) * d - d / 2) - Real.sin (a - d / 2) := by
  induction n with
  | zero => simp
  | succ n ih =>
    rw [Finset.sum_range_succ, mul_add, ih]
    have e1 : a + ((n + 1 : ℕ) : ℝ) * d - d / 2 = (a + (n : ℝ) * d) + d / 2 := by push_cast; ring
    have e2 : a + (n : ℝ) * d - d / 2 = (a + (n : ℝ) * d) - d / 2 := by ring
    rw [e1, e2, Real.sin_add, Real.sin_sub]
    ring

theorem sum_cos_le (a : ℝ) (n : Nat) : ∑ k ∈ Finset.range n, Real.cos (a + (k : ℝ) * dh) ≤ 917 := by
  have h := sum_cos a dh n
  have hs : 1 / 917 ≤ Real.sin (dh / 2) := by
    rw [dh_eq]
    have := Real.sin_gt_sub_cube (x := 30 / 13750.9871 / 2) (by norm_num)
    norm_num at this ⊢
    linarith
  have h1 := Real.sin_le_one (a + (n : ℝ) * dh - dh / 2)
  have h2 := Real.neg_one_le_sin (a - dh / 2)
  by_contra hc
  push Not at hc
  have : 2 * (1 / 917) * 917 < 2 * Real.sin (dh / 2) * ∑ k ∈ Finset.range n, Real.cos (a + (k : ℝ) * dh) := by
    apply lt_of_lt_of_le (b := 2 * (1 / 917) * ∑ k ∈ Finset.range n, Real.cos (a + (k : ℝ) * dh))
    · exact mul_lt_mul_of_pos_left hc (by norm_num)
    · exact mul_le_mul_of_nonneg_right (by linarith) (by linarith)
  norm_num at this
  linarith

theorem rounds_le (c s : ℝ) : rounds (halfDay c s) ≤ 2881 := by
  have h := start_gt c s
  unfold rounds
  have : ⌈2880 - 2 * start (halfDay c s)⌉ ≤ 2881 := by
    rw [Int.ceil_le]
    push_cast
    linarith
  omega

theorem beam_le (i : Nat) : beam i ≤ 42405 := by
  unfold beam dt Cnst.SW_RAD_DT
  have := Real.sin_le_one (2 * Real.pi * (i : ℝ) / Cnst.DAYS_PER_YEAR + 1.7)
  push_cast
  linarith

theorem sum_range_eq (f : Nat → ℝ) (n : Nat) : ((List.range n).map f).sum = ∑ k ∈ Finset.range n, f k := by
  induction n with
  | zero => simp
  | succ n ih => rw [List.range_succ, List.map_append, List.sum_append, ih, Finset.sum_range_succ]; simp

theorem le_of_sq_le_sq' {a b : ℝ} (h : a ^ 2 ≤ b ^ 2) (hb : 0 ≤ b) : a ≤ b := abs_le_of_sq_le_sq' h hb |>.2

/-- The sum over the slots. -/
theorem total_sum {b c s : ℝ} (hc : 0 < c) : total b c s
      = b * (c * ∑ k ∈ Finset.range (rounds (halfDay c s)), Real.cos (-halfDay c s + (k : ℝ) * dh)
          + (rounds (halfDay c s) : ℝ) * s) := by
  unfold total
  rw [hours_eq, List.map_map, sum_range_eq, Finset.mul_sum, mul_add, Finset.mul_sum]
  have : (rounds (halfDay c s) : ℝ) * s = ∑ _k ∈ Finset.range (rounds (halfDay c s)), s := by
    rw [Finset.sum_const, Finset.card_range, nsmul_eq_mul]
  rw [this, Finset.mul_sum, ← Finset.sum_add_distrib]
  refine Finset.sum_congr rfl fun k hk => ?_
  have hk := Finset.mem_range.1 hk
  have hm := hour_mem hk
  have hd := dh_pos
  have hk0 : (0 : ℝ) ≤ k := Nat.cast_nonneg k
  have hkd : 0 ≤ (k : ℝ) * dh := by positivity
  have hz : 0 ≤ cza c s (-halfDay c s + (k : ℝ) * dh) :=
    cza_nonneg hc (by linarith) (abs_le.2 ⟨by linarith, hm.le⟩)
  show flat b c s (-halfDay c s + (k : ℝ) * dh) = _
  have : flat b c s (-halfDay c s + (k : ℝ) * dh) = b * cza c s (-halfDay c s + (k : ℝ) * dh) := by
    unfold flat
    split
    · rfl
    · rw [le_antisymm (not_lt.1 ‹_›) hz, mul_zero]
  rw [this]
  unfold cza
  ring

theorem total_le {lat : ℝ} (hlat : |lat| < Real.pi / 2) (i : Nat) :
    total (beam i) (Real.cos lat * Real.cos (decl i)) (Real.sin lat * Real.sin (decl i)) ≤ 6.15e7 := by
  have hc := coseg_pos hlat i
  have hb := beam_pos i
  set c := Real.cos lat * Real.cos (decl i) with hcd
  set s := Real.sin lat * Real.sin (decl i) with hsd
  have hsum := total_sum (b := beam i) (s := s) hc
  have hcos := sum_cos_le (-halfDay c s) (rounds (halfDay c s))
  have hr : (rounds (halfDay c s) : ℝ) ≤ 2881 := by exact_mod_cast rounds_le c s
  have hr0 : (0 : ℝ) ≤ (rounds (halfDay c s) : ℝ) := Nat.cast_nonneg _
  have hX : 917 * c + 2881 * s ≤ 1450 := by
    have e1 := Real.sin_sq_add_cos_sq lat
    have e2 := Real.sin_sq_add_cos_sq (decl i)
    have hd : Real.sin (decl i) ^ 2 ≤ 0.1676 := by
      have h1 : |Real.sin (decl i)| ≤ |decl i| := Real.abs_sin_le_abs
      have h2 := decl_abs i
      rw [← sq_abs]
      have h3 := abs_nonneg (Real.sin (decl i))
      nlinarith
    rw [hcd, hsd]
    generalize Real.sin lat = v at *
    generalize Real.cos lat = u at *
    generalize Real.sin (decl i) = p at *
    generalize Real.cos (decl i) = q at *
    apply le_of_sq_le_sq' _ (by norm_num)
    have e : (917 * (u * q) + 2881 * (v * p)) ^ 2 + (917 * q * v - 2881 * p * u) ^ 2
        = (917 ^ 2 * q ^ 2 + 2881 ^ 2 * p ^ 2) * (v ^ 2 + u ^ 2) := by ring
    rw [e1, mul_one] at e
    nlinarith [sq_nonneg (917 * q * v - 2881 * p * u)]
  have hc1 : c ≤ 1 := by
    rw [hcd]
    have h1 := Real.abs_cos_le_one lat
    have h2 := Real.abs_cos_le_one (decl i)
    have := abs_mul (Real.cos lat) (Real.cos (decl i))
    have h3 := le_abs_self (Real.cos lat * Real.cos (decl i))
    have h4 := mul_le_mul h1 h2 (abs_nonneg _) zero_le_one
    linarith
  have hin : c * ∑ k ∈ Finset.range (rounds (halfDay c s)), Real.cos (-halfDay c s + (k : ℝ) * dh)
          + (rounds (halfDay c s) : ℝ) * s ≤ 1450 := by
    have h1 := mul_le_mul_of_nonneg_left hcos hc.le
    rcases le_total 0 s with h | h
    · have := mul_le_mul_of_nonneg_right hr h
      linarith
    · have := mul_nonneg hr0 (neg_nonneg.2 h)
      linarith
  rw [hsum]
  have h1 := mul_le_mul_of_nonneg_left hin hb.le
  have h2 := beam_le i
  linarith

/-- **Radiation of a day**: mean potential radiation times length of day. -/
theorem potrad_le {tr : Flt ℝ} {lat : ℝ} (hlat : |lat| < Real.pi / 2) {i : Nat} {g : DayGeom}
    (h : solarDay tr lat i = .ok g) : g.potrad * g.daylength ≤ 6.15e7 := by
  obtain ⟨c, s, H, acc, rfl, rfl, hc0, rfl, hdl, hacc, hg⟩ := solarDay_ok h
  rcases hg with ⟨h0, h1, -, -⟩ | ⟨h0, h1, h2, -⟩
  · rw [h0]; norm_num
  · rw [h2, div_mul_cancel₀ _ h0, hacc, (acc_flat _ _ _ _ _ _).1, zero_add]
    exact total_le hlat i

/-- The rounds cover the day, with less than a slot to spare. -/
theorem rounds_cover {H : ℝ} (h : 0 ≤ H) : 0 ≤ (rounds H : ℝ) * dh - 2 * H ∧ (rounds H : ℝ) * dh - 2 * H ≤ dh := by
  have hd := dh_pos
  have he : 2880 - 2 * start H = 2 * H / dh := by unfold start; rw [dh_eq]; field_simp; ring
  have h0 : 0 ≤ 2 * H / dh := by positivity
  have hr : (rounds H : ℝ) = (⌈2 * H / dh⌉ : ℝ) := by
    unfold rounds
    rw [he]
    have : 0 ≤ ⌈2 * H / dh⌉ := Int.ceil_nonneg h0
    have := Int.toNat_of_nonneg this
    exact_mod_cast this
  rw [hr]
  have h1 := Int.le_ceil (2 * H / dh)
  have h2 := (Int.ceil_lt_add_one (2 * H / dh)).le
  have e : 2 * H / dh * dh = 2 * H := div_mul_cancel₀ _ hd.ne'
  have h3 := mul_le_mul_of_nonneg_right h1 hd.le
  have h4 := mul_le_mul_of_nonneg_right h2 hd.le
  constructor <;> linarith

theorem abs_sin_sub_le (a x : ℝ) : |Real.sin (a + x) - Real.sin a| ≤ |x| := by
  have h := Real.abs_sin_sub_sin_le (a + x) a
  simpa using h

/-- The sum of the cosines approximates the integral. -/
theorem sum_cos_near {H : ℝ} (h : 0 ≤ H) :
    |dh * ∑ k ∈ Finset.range (rounds H), Real.cos (-H + (k : ℝ) * dh) - 2 * Real.sin H| ≤ dh * 1.001 := by
  have hd := dh_pos
  obtain ⟨u0, u1⟩ := rounds_cover h
  have hsum := sum_cos (-H) dh (rounds H)
  set S := ∑ k ∈ Finset.range (rounds H), Real.cos (-H + (k : ℝ) * dh)
  set u := (rounds H : ℝ) * dh - 2 * H with hu
  have e1 : -H + (rounds H : ℝ) * dh - dh / 2 = H + (u - dh / 2) := by rw [hu]; ring
  have e2 : Real.sin (-H - dh / 2) = -Real.sin (H + dh / 2) := by
    rw [show -H - dh / 2 = -(H + dh / 2) by ring, Real.sin_neg]
  rw [e1, e2] at hsum
  have a1 := abs_le.1 (abs_sin_sub_le H (u - dh / 2))
  have a2 := abs_le.1 (abs_sin_sub_le H (dh / 2))
  have b1 : |u - dh / 2| ≤ dh / 2 := abs_le.2 ⟨by linarith, by linarith⟩
  have b2 : |dh / 2| ≤ dh / 2 := by rw [abs_of_pos (by positivity)]
  have hdv : dh ≤ 0.0022 ∧ 0.002 ≤ dh := by rw [dh_eq]; norm_num
  have hs1 : Real.sin (dh / 2) ≤ dh / 2 := Real.sin_le (by positivity)
  have hs2 : dh / 2 - (dh / 2) ^ 3 / 6 < Real.sin (dh / 2) := Real.sin_gt_sub_cube (by positivity)
  have hs3 : (dh / 2) * (1 - 3e-7) ≤ Real.sin (dh / 2) := by
    have : (dh / 2) ^ 3 / 6 ≤ (dh / 2) * 3e-7 := by
      have : (dh / 2) ^ 2 ≤ 1.3e-6 := by nlinarith
      nlinarith
    linarith
  -- `2 * sin (dh/2) * S` is near `2 * sin H`
  have hB : |2 * Real.sin (dh / 2) * S - 2 * Real.sin H| ≤ dh := by
    rw [hsum, abs_le]
    constructor <;> linarith [a1.1, a1.2, a2.1, a2.2]
  have hB2 : |2 * Real.sin (dh / 2) * S| ≤ 2.01 := by
    have := Real.abs_sin_le_one H
    have h1 := abs_le.1 hB
    have h2 := abs_le.1 this
    rw [abs_le]
    constructor <;> linarith [h1.1, h1.2, h2.1, h2.2, hdv.1]
  have hspos : 0 < Real.sin (dh / 2) := lt_of_lt_of_le (by nlinarith) hs3
  have hS : |S| ≤ 2.01 / (2 * Real.sin (dh / 2)) := by
    rw [le_div_iff₀ (by positivity)]
    rw [abs_mul, abs_of_pos (by positivity : 0 < 2 * Real.sin (dh / 2))] at hB2
    linarith
  have hdiff : |dh * S - 2 * Real.sin (dh / 2) * S| ≤ 0.0009 * dh := by
    rw [← sub_mul, abs_mul, abs_of_nonneg (by linarith)]
    have h1 : dh - 2 * Real.sin (dh / 2) ≤ 3.1e-7 * (2 * Real.sin (dh / 2)) := by nlinarith
    have h2 : (dh - 2 * Real.sin (dh / 2)) * |S| ≤ 3.1e-7 * (2 * Real.sin (dh / 2)) * (2.01 / (2 * Real.sin (dh / 2))) :=
      mul_le_mul h1 hS (abs_nonneg _) (by positivity)
    have h3 : 3.1e-7 * (2 * Real.sin (dh / 2)) * (2.01 / (2 * Real.sin (dh / 2))) = 3.1e-7 * 2.01 := by
      field_simp
    rw [h3] at h2
    nlinarith [hdv.2]
  have := abs_add_le (dh * S - 2 * Real.sin (dh / 2) * S) (2 * Real.sin (dh / 2) * S - 2 * Real.sin H)
  rw [sub_add_sub_cancel] at this
  linarith

/-- The radiation summed over the slots, against the integral over the daylight. -/
theorem total_near {b c s : ℝ} (hb : 0 < b) (hc : 0 < c) (h1 : c + |s| ≤ 1) :
    |total b c s - b / dh * (2 * (c * Real.sin (halfDay c s) + s * halfDay c s))| ≤ 1.001 * b := by
  have hd := dh_pos
  have hH := halfDay_nonneg c s
  set H := halfDay c s with hHd
  obtain ⟨u0, u1⟩ := rounds_cover hH
  have h2 := sum_cos_near hH
  rw [total_sum hc]
  rw [← hHd]
  set S := ∑ k ∈ Finset.range (rounds H), Real.cos (-H + (k : ℝ) * dh)
  have e : b * (c * S + (rounds H : ℝ) * s) - b / dh * (2 * (c * Real.sin H + s * H))
      = b / dh * (c * (dh * S - 2 * Real.sin H) + s * ((rounds H : ℝ) * dh - 2 * H)) := by
    field_simp
    ring
  rw [e, abs_mul, abs_of_pos (by positivity : 0 < b / dh)]
  have h3 : |c * (dh * S - 2 * Real.sin H) + s * ((rounds H : ℝ) * dh - 2 * H)| ≤ dh * 1.001 := by
    refine le_trans (abs_add_le _ _) ?_
    rw [abs_mul, abs_mul, abs_of_pos hc, abs_of_nonneg u0]
    have i1 := mul_le_mul_of_nonneg_left h2 hc.le
    have i2 := mul_le_mul_of_nonneg_left u1 (abs_nonneg s)
    have i3 : |s| * dh ≤ |s| * (dh * 1.001) := mul_le_mul_of_nonneg_left (by linarith) (abs_nonneg s)
    have i4 : (c + |s|) * (dh * 1.001) ≤ 1 * (dh * 1.001) := mul_le_mul_of_nonneg_right h1 (by positivity)
    linarith
  calc b / dh * _ ≤ b / dh * (dh * 1.001) := mul_le_mul_of_nonneg_left h3 (by positivity)
    _ = 1.001 * b := by field_simp

end Verif.Solar
