import Verif.Props.DailyFiles
import Verif.Props.Radiates
import Verif.Props.State

/-!
# The sky of a day and the temperature ranges of the month: C132
-/

namespace Verif.Props

open Flt Physics Methods Cell Np

/-- The mean temperature range of the thirty days that end with day `d`. -/
noncomputable def monthRange (R : Int → ℝ) (d : Int) : ℝ := (∑ j ∈ Finset.range 30, R (d - 29 + j)) / 30

/-- The cloud cover of a transmittance. -/
noncomputable def cloudOf (s : Shared) (x : ℝ) : ℝ :=
  if Lw.upperS s.lwCloud = "CLOUD_DEARDORFF" then 1 - x else Real.sqrt ((1 - x) / 0.65)

theorem cloudOf_anti (s : Shared) {x y : ℝ} (h : x ≤ y) : cloudOf s y ≤ cloudOf s x := by
  unfold cloudOf
  split
  · linarith
  · exact Real.sqrt_le_sqrt (by gcongr)

theorem trailing_month (R : Int → ℝ) (d : Int) : trailingMean 30 (fun e => (fin (R e) : Flt ℝ)) d = fin (monthRange R d) := by
  unfold trailingMean monthRange Flt.mean
  have e : (List.range 30).map (fun (j : Nat) => (fin (R (d - (30 : Nat) + 1 + (j : Int))) : Flt ℝ)) =
      ((List.range 30).map fun (j : Nat) => R (d - 29 + (j : Int))).map fin := by
    rw [List.map_map]
    apply List.map_congr_left
    intro j _
    simp only [Function.comp, Nat.cast_ofNat]
    congr 2
    omega
  rw [e, Flt.sum_map_fin, List.length_map, List.length_map, List.length_range, div_fin_ne (by norm_num)]
  congr 2

/-! ## The formula -/

/-- Another range on one day moves the mean of the month it is in by a thirtieth of it. -/
theorem monthRange_change {R R' : Int → ℝ} {m : Int} (h : ∀ d, d ≠ m → R' d = R d) (d : Int) :
    monthRange R' d = monthRange R d + if m ≤ d ∧ d < m + 30 then (R' m - R m) / 30 else 0 := by
  unfold monthRange
  have key : ∑ j ∈ Finset.range 30, R' (d - 29 + j) - ∑ j ∈ Finset.range 30, R (d - 29 + j) =
      if m ≤ d ∧ d < m + 30 then R' m - R m else 0 := by
    rw [← Finset.sum_sub_distrib]
    split
    · rename_i hm
      obtain ⟨j, hj⟩ : ∃ j : Nat, m = d - 29 + j := ⟨(m - (d - 29)).toNat, by omega⟩
      rw [Finset.sum_eq_single_of_mem j (Finset.mem_range.2 (by omega))]
      · rw [← hj]
      · intro k _ hk
        rw [h _ (by omega)]; ring
    · rename_i hm
      apply Finset.sum_eq_zero
      intro k hk
      have := Finset.mem_range.1 hk
      rw [h _ (by omega)]; ring
  split at key
  · rename_i hm
    rw [if_pos hm, ← sub_eq_iff_eq_add', ← sub_div, key]
  · rename_i hm
    rw [if_neg hm, add_zero]; congr 1; linarith

theorem transmittance_mean {d m m' : ℝ} (hd : 0 ≤ d) (h : m ≤ m') : Spec.transmittance d m' ≤ Spec.transmittance d m := by
  unfold Spec.transmittance
  have h1 : (0 : ℝ) ≤ d ^ (1.5 : ℝ) := Real.rpow_nonneg hd _
  have h2 : Real.exp (-(0.185 * m')) ≤ Real.exp (-(0.185 * m)) := Real.exp_le_exp.2 (by linarith)
  have h3 : Real.exp (-(0.031 + 0.201 * Real.exp (-(0.185 * m))) * d ^ (1.5 : ℝ)) ≤
      Real.exp (-(0.031 + 0.201 * Real.exp (-(0.185 * m'))) * d ^ (1.5 : ℝ)) := by
    apply Real.exp_le_exp.2
    nlinarith
  linarith

/-- A wider day is clearer, although it widens the month as well. -/
theorem transmittance_wider {d d' m : ℝ} (hd : 0 ≤ d) (h : d ≤ d') (hb : d' ≤ 240) :
    Spec.transmittance d m ≤ Spec.transmittance d' (m + (d' - d) / 30) := by
  unfold Spec.transmittance
  rcases h.eq_or_lt with rfl | hlt
  · simp
  have hp : 0 < d' := lt_of_le_of_lt hd hlt
  -- the powers
  have h1 : d ^ (1.5 : ℝ) ≤ d' ^ (1.5 : ℝ) * Real.exp (-(0.185 * ((d' - d) / 30))) := by
    have e1 : d ≤ d' * Real.exp (-((d' - d) / d')) := by
      have := Real.add_one_le_exp (-((d' - d) / d'))
      have e : d = d' * (-((d' - d) / d') + 1) := by field_simp; ring
      calc d = d' * (-((d' - d) / d') + 1) := e
        _ ≤ _ := mul_le_mul_of_nonneg_left this hp.le
    calc d ^ (1.5 : ℝ) ≤ (d' * Real.exp (-((d' - d) / d'))) ^ (1.5 : ℝ) := Real.rpow_le_rpow hd e1 (by norm_num)
      _ = d' ^ (1.5 : ℝ) * Real.exp (-((d' - d) / d') * 1.5) := by
        rw [Real.mul_rpow hp.le (Real.exp_pos _).le, ← Real.exp_mul]
      _ ≤ _ := by
        apply mul_le_mul_of_nonneg_left _ (Real.rpow_nonneg hp.le _)
        apply Real.exp_le_exp.2
        have hδ : 0 < d' - d := by linarith
        have : (d' - d) / 240 ≤ (d' - d) / d' := div_le_div_of_nonneg_left hδ.le hp hb
        nlinarith
  -- the coefficients
  have h2 : (0.031 + 0.201 * Real.exp (-(0.185 * m))) * Real.exp (-(0.185 * ((d' - d) / 30))) ≤
      0.031 + 0.201 * Real.exp (-(0.185 * (m + (d' - d) / 30))) := by
    have e : Real.exp (-(0.185 * (m + (d' - d) / 30))) = Real.exp (-(0.185 * m)) * Real.exp (-(0.185 * ((d' - d) / 30))) := by
      rw [← Real.exp_add]; congr 1; ring
    have : Real.exp (-(0.185 * ((d' - d) / 30))) ≤ 1 := by
      rw [Real.exp_le_one_iff]
      have : 0 < (d' - d) / 30 := by linarith
      nlinarith
    rw [e]
    nlinarith
  have hb0 : 0 < 0.031 + 0.201 * Real.exp (-(0.185 * m)) := by positivity
  have hp' : 0 ≤ d' ^ (1.5 : ℝ) := Real.rpow_nonneg hp.le _
  have h3 : (0.031 + 0.201 * Real.exp (-(0.185 * m))) * d ^ (1.5 : ℝ) ≤
      (0.031 + 0.201 * Real.exp (-(0.185 * (m + (d' - d) / 30)))) * d' ^ (1.5 : ℝ) :=
    calc _ ≤ (0.031 + 0.201 * Real.exp (-(0.185 * m))) * (d' ^ (1.5 : ℝ) * Real.exp (-(0.185 * ((d' - d) / 30)))) :=
          mul_le_mul_of_nonneg_left h1 hb0.le
      _ = (0.031 + 0.201 * Real.exp (-(0.185 * m))) * Real.exp (-(0.185 * ((d' - d) / 30))) * d' ^ (1.5 : ℝ) := by ring
      _ ≤ _ := mul_le_mul_of_nonneg_right h2 hp'
  have h4 : Real.exp (-(0.031 + 0.201 * Real.exp (-(0.185 * (m + (d' - d) / 30)))) * d' ^ (1.5 : ℝ)) ≤
      Real.exp (-(0.031 + 0.201 * Real.exp (-(0.185 * m))) * d ^ (1.5 : ℝ)) := by
    apply Real.exp_le_exp.2
    linarith
  linarith

theorem transmittance_pos {d m : ℝ} (hd : 0 ≤ d) : 0 < Spec.transmittance d m := by
  unfold Spec.transmittance
  have h1 : (0 : ℝ) ≤ d ^ (1.5 : ℝ) := Real.rpow_nonneg hd _
  have h2 : 0 < 0.031 + 0.201 * Real.exp (-(0.185 * m)) := by positivity
  have : Real.exp (-(0.031 + 0.201 * Real.exp (-(0.185 * m))) * d ^ (1.5 : ℝ)) ≤ 1 := by
    rw [Real.exp_le_one_iff]; nlinarith
  linarith

/-! ## The files -/

/-- The record of a cell: the temperature range and the rain of each day, on the days of the run and before it. -/
structure RangesOf (j : Job) (c : Run.Cell) (R P : Int → ℝ) : Prop where
  tMin : Dict.get? (j.inp c).data.frame "t_min" ≠ none
  tMax : Dict.get? (j.inp c).data.frame "t_max" ≠ none
  seasonal : Dict.get? (j.inp c).data.frame "seasonal_prec" ≠ none
  range : ∃ col, Dict.get? (j.inp c).data.frame "dtr" = some col ∧ ∀ k < j.n, col k = fin (R (j.d0 + k))
  smoothed : ∃ col, Dict.get? (j.inp c).data.frame "smoothed_dtr" = some col ∧
    ∀ k < j.n, col k = trailingMean 30 (fun d => fin (R d)) (j.d0 + k)
  rain : ∃ col, Dict.get? (j.inp c).data.frame "prec" = some col ∧ ∀ k < j.n, col k = fin (P (j.d0 + k))
  nonneg : ∀ d, 0 ≤ R d

/-- What the method estimates for a day. -/
theorem cloud_column {fuel : Nat} {j : Job} {c : Run.Cell} {R P : Int → ℝ} (h : RangesOf j c R P) {elev lat lon : ℝ}
    (q : Common fuel j.shared elev lat lon (j.inp c).data) (hm : j.shared.method = .mtclim)
    (h0 : 0 ≤ j.shared.rainScalar) (h1 : j.shared.rainScalar ≤ 1) :
    ∃ col, Dict.get? q.base "tskc" = some col ∧ ∀ k < j.n, col k =
      fin (cloudOf j.shared (skyOf j.shared (R (j.d0 + k)) (monthRange R (j.d0 + k)) (P (j.d0 + k)))) := by
  obtain ⟨tMin, g1⟩ := Option.ne_none_iff_exists'.1 h.tMin
  obtain ⟨tMax, g2⟩ := Option.ne_none_iff_exists'.1 h.tMax
  obtain ⟨sp, g9⟩ := Option.ne_none_iff_exists'.1 h.seasonal
  obtain ⟨dtr, g3, a3⟩ := h.range
  obtain ⟨sm, g4, a4⟩ := h.smoothed
  obtain ⟨prec, g5, a5⟩ := h.rain
  obtain ⟨dew, -, v2, -⟩ := mtclim_columns q hm g1 g2 g3 g4 g5 g9
  refine ⟨_, v2, fun k hk => ?_⟩
  have hR := h.nonneg (j.d0 + k)
  rw [a3 k hk, a4 k hk, a5 k hk, trailing_month]
  have ht := tfmax_sky j.shared elev (sm := monthRange R (j.d0 + k)) (prec := P (j.d0 + k)) hR
  obtain ⟨f, hf, f0, f1, -⟩ := tfmax_bounds (j.shared.daily elev) (R (j.d0 + k)) (monthRange R (j.d0 + k)) (P (j.d0 + k)) hR h0 h1
  rw [ht] at hf ⊢
  obtain rfl := Flt.fin.inj hf
  unfold Methods.tskc cloudOf
  show (if Lw.upperS j.shared.lwCloud = "CLOUD_DEARDORFF" then _ else _) = _
  split
  · rfl
  · rw [sub_fin, div_fin_ne (by norm_num), sqrt_fin (div_nonneg (by linarith) (by norm_num))]

section

variable {j : Job} (hj : j.Sane) {fuel : Nat} {order : List (Dict String Chunk.Slice)} (ho : j.Schedule order)
  {files : Run.Files Output} (hrun : j.run fuel order = .ok files) (hm : j.shared.method = .mtclim)
  (hloc : j.shared.utcOffset = false) {c : Run.Cell} (hc : j.Computed c) {R P : Int → ℝ} (hR : RangesOf j c R P)
  (h0 : 0 ≤ j.shared.rainScalar) (h1 : j.shared.rainScalar ≤ 1) {u : String} (hu : j.shared.outVars.get? "tskc" = some u)

include hj ho hrun hm hloc hc hR h0 h1 hu

/-- **C132**: the cloud cover written for every step of a day, in daily and in sub-daily runs, is that of the temperature range of the day,
the mean range of the thirty days that end with it, and the rain of the day. -/
theorem C132_cloud {k i : Nat} (hk : k < j.n) (hi : i < 1440 / j.shared.ts) : Reads j files c "tskc" k i
    (cloudOf j.shared (skyOf j.shared (R (j.d0 + k)) (monthRange R (j.d0 + k)) (P (j.d0 + k)))) := by
  by_cases hday : j.shared.ts = 1440
  · obtain rfl : i = 0 := by rw [hday] at hi; simpa using hi
    obtain ⟨elev, lat, lon, -, -, -, q, rep, hr, hread⟩ := readout_daily j hj ho hrun hday hc
    obtain ⟨cl, v2, hv⟩ := cloud_column hR q hm h0 h1
    obtain ⟨sw, dl, rr, -, -, -, -, hkeep⟩ := daily_ok hr
    obtain ⟨col, a1, a2⟩ := hread "tskc" u "fraction" .ratio hu (by decide) rfl (by simp)
    rw [hkeep _ (by decide), v2] at a1
    obtain rfl := Option.some.inj a1
    exact (a2 k hk).1 _ _ (hv k hk) rfl
  · have hsub : j.shared.ts < 1440 := by
      have := Nat.le_of_dvd (by norm_num) hj.step.2
      omega
    obtain ⟨elev, lat, lon, -, -, -, q, daily, t, hd, ld, hnd, hread⟩ := readout j hj ho hrun hsub hc
    obtain ⟨cl, v2, hv⟩ := cloud_column hR q hm h0 h1
    obtain ⟨q1, q2, q3, q4, q5, q6, q7, q8, q9, q10, q11, q12⟩ := dailyOf_ok hd
    obtain ⟨col, d1, d2⟩ := hread "tskc" u "fraction" .ratio hu (by decide) rfl (by simp)
    obtain ⟨cl', g, hcv⟩ := Cell.column_ok.1 q7
    rw [v2] at g
    obtain rfl := Option.some.inj g
    have hlen : (j.inp c).data.days.length = j.n := by rw [hj.data c, length_consecutive]
    have hfin : ∀ v ∈ daily.tskc, isFin v = true := by
      intro v hv'
      rw [hcv] at hv'
      obtain ⟨m, hm', rfl⟩ := List.mem_map.1 hv'
      rw [hlen] at hm'
      rw [hv m (List.mem_range.1 hm')]; rfl
    have hcl : Disagg.wind daily.tskc j.shared.ts false (Disagg.remainder360 lon) = .ok t.cloud := by
      have := t.h_cloud
      rw [C50_same] at this
      rw [← hloc]; exact this
    obtain ⟨l1, l2⟩ := C50_constant hj.step.2 hcl
    have hdl : daily.tskc.length = j.n := by rw [hcv, List.length_map, List.length_range, hlen]
    have hval := l2 k (by rw [hdl]; exact hk) i hi
    have hall : ∀ v ∈ t.cloud, isFin v = true := by
      intro v hv'
      obtain ⟨m, hm', rfl⟩ := List.getElem_of_mem hv'
      rw [l1] at hm'
      have hpos : 0 < 1440 / j.shared.ts := by omega
      have hd' : m / (1440 / j.shared.ts) < daily.tskc.length := Nat.div_lt_of_lt_mul (by rw [Nat.mul_comm]; exact hm')
      have := l2 _ hd' _ (Nat.mod_lt m hpos)
      rw [Nat.div_add_mod'] at this
      rw [List.getElem?_eq_getElem (by rw [l1]; exact hm'), List.getElem?_eq_getElem hd'] at this
      rw [Option.some.inj this]
      exact hfin _ (List.getElem_mem hd')
    have hfill : t.sub.tskc = t.cloud := fillBoth_of_fin hall
    refine (d2 k hk i hi).1 _ _ ?_ rfl
    rw [← Except.ok.inj d1]
    show t.sub.tskc[_]? = _
    rw [hfill, hval, hcv, List.getElem?_map, List.getElem?_range (by rw [hlen]; exact hk)]
    simp [hv k hk]

end

/-- **C132**: if two runs differ in the temperature range of one day, in no step of that day does the one with the wider range write more
clouds, in no step of the twenty-nine days after it does it write fewer, and all other days have the same. -/
theorem C132_wider (j j' : Job) (hj : j.Sane) (hj' : j'.Sane) (fuel fuel' : Nat) (order order' : List (Dict String Chunk.Slice))
    (ho : j.Schedule order) (ho' : j'.Schedule order') (files files' : Run.Files Output) (hrun : j.run fuel order = .ok files)
    (hrun' : j'.run fuel' order' = .ok files') (hs : j.shared = j'.shared) (hd : j.d0 = j'.d0) (hn : j.n = j'.n)
    (hm : j.shared.method = .mtclim) (hloc : j.shared.utcOffset = false) (h0 : 0 ≤ j.shared.rainScalar) (h1 : j.shared.rainScalar ≤ 1)
    (c c' : Run.Cell) (hc : j.Computed c) (hc' : j'.Computed c') (R R' P : Int → ℝ) (hR : RangesOf j c R P) (hR' : RangesOf j' c' R' P)
    (m : Int) (hother : ∀ d, d ≠ m → R' d = R d) (hwide : R m ≤ R' m) (hmax : R' m ≤ 240) (u : String)
    (hu : j.shared.outVars.get? "tskc" = some u) (k i : Nat) (hk : k < j.n) (hi : i < 1440 / j.shared.ts) :
    ∃ f f', Reads j files c "tskc" k i f ∧ Reads j' files' c' "tskc" k i f' ∧
      (j.d0 + k = m → f' ≤ f) ∧ (m < j.d0 + k → j.d0 + k < m + 30 → f ≤ f') ∧
      ((j.d0 + k < m ∨ m + 30 ≤ j.d0 + k) → f' = f) := by
  have a := C132_cloud hj ho hrun hm hloc hc hR h0 h1 hu hk hi
  have b := C132_cloud hj' ho' hrun' (hs ▸ hm) (hs ▸ hloc) hc' hR' (hs ▸ h0) (hs ▸ h1) (hs ▸ hu) (hn ▸ hk) (hs ▸ hi)
  rw [← hs, ← hd] at b
  refine ⟨_, _, a, b, ?_, ?_, ?_⟩
  all_goals
    unfold skyOf
    have hf : 0 ≤ (if j.shared.swPrecThresh < P (j.d0 + k) then j.shared.rainScalar else 1) := by split <;> linarith
    rw [monthRange_change hother (j.d0 + k)]
  · intro e
    apply cloudOf_anti
    rw [if_pos (show m ≤ j.d0 + k ∧ j.d0 + k < m + 30 by omega), e]
    rw [e] at hf
    exact mul_le_mul_of_nonneg_right (transmittance_wider (hR.nonneg m) hwide hmax) hf
  · intro e1 e2
    apply cloudOf_anti
    rw [if_pos (show m ≤ j.d0 + k ∧ j.d0 + k < m + 30 by omega), hother (j.d0 + k) (by omega)]
    exact mul_le_mul_of_nonneg_right (transmittance_mean (hR.nonneg _) (by linarith)) hf
  · intro e
    rw [if_neg (show ¬ (m ≤ j.d0 + k ∧ j.d0 + k < m + 30) by omega), add_zero, hother (j.d0 + k) (by omega)]

/-- **C132**: if one of two runs with the same temperature ranges has no more rain on any day, no step of it has more clouds. -/
theorem C132_rain (j j' : Job) (hj : j.Sane) (hj' : j'.Sane) (fuel fuel' : Nat) (order order' : List (Dict String Chunk.Slice))
    (ho : j.Schedule order) (ho' : j'.Schedule order') (files files' : Run.Files Output) (hrun : j.run fuel order = .ok files)
    (hrun' : j'.run fuel' order' = .ok files') (hs : j.shared = j'.shared) (hd : j.d0 = j'.d0) (hn : j.n = j'.n)
    (hm : j.shared.method = .mtclim) (hloc : j.shared.utcOffset = false) (h0 : 0 ≤ j.shared.rainScalar) (h1 : j.shared.rainScalar ≤ 1)
    (c c' : Run.Cell) (hc : j.Computed c) (hc' : j'.Computed c') (R P P' : Int → ℝ) (hR : RangesOf j c R P) (hR' : RangesOf j' c' R P')
    (hrain : ∀ d, P' d ≤ P d) (u : String) (hu : j.shared.outVars.get? "tskc" = some u) (k i : Nat) (hk : k < j.n)
    (hi : i < 1440 / j.shared.ts) :
    ∃ f f', Reads j files c "tskc" k i f ∧ Reads j' files' c' "tskc" k i f' ∧ f' ≤ f := by
  have a := C132_cloud hj ho hrun hm hloc hc hR h0 h1 hu hk hi
  have b := C132_cloud hj' ho' hrun' (hs ▸ hm) (hs ▸ hloc) hc' hR' (hs ▸ h0) (hs ▸ h1) (hs ▸ hu) (hn ▸ hk) (hs ▸ hi)
  rw [← hs, ← hd] at b
  refine ⟨_, _, a, b, cloudOf_anti _ ?_⟩
  unfold skyOf
  apply mul_le_mul_of_nonneg_left _ (transmittance_pos (hR.nonneg _)).le
  have := hrain (j.d0 + k)
  split_ifs with e1 e2
  · exact le_refl _
  · exact h1
  · linarith
  · exact le_refl _

/-! ## An example -/

/-- The example with another temperature range on the first day. -/
noncomputable def wide (b : ℝ) : Job :=
  { demo .mtclim with
    inp := fun _ => ⟨fin 100, fin 45, fin (-120), ⟨consecutive 0 2,
      [("t_min", fun _ => fin 5), ("t_max", fun k => fin (if k = 0 then 5 + b else 15)), ("prec", fun _ => fin 24),
       ("dtr", fun k => fin (if k = 0 then b else 10)), ("smoothed_dtr", fun _ => fin (10 + (b - 10) / 30)),
       ("seasonal_prec", fun _ => fin 800), ("shortwave", fun _ => fin 200)], (fin 4, fin 14)⟩⟩ }

theorem wide_sane (b : ℝ) : (wide b).Sane :=
  { (demo_sane .mtclim) with data := fun _ => rfl }

theorem wide_complete (b : ℝ) (c : Run.Cell) : CompleteCell (wide b).shared 2 ((wide b).inp c) where
  place := ⟨100, 45, -120, rfl, rfl, rfl, by rw [abs_of_pos] <;> norm_num, by unfold wide demo; norm_num⟩
  lapse := by unfold wide demo; norm_num
  columns := by
    intro k hk
    simp only [List.mem_cons, List.not_mem_nil, or_false] at hk
    rcases hk with rfl | rfl | rfl | rfl | rfl | rfl <;> simp [wide, Dict.get?_cons]
  radiation := fun _ => by simp [wide, Dict.get?_cons]
  tMin := by
    intro col h i _
    simp only [wide, Dict.get?_cons, if_true, Option.some.injEq] at h
    subst h
    exact ⟨5, rfl⟩
  tMax := by
    intro col h i _
    simp (decide := true) only [wide, Dict.get?_cons, if_true, if_false, Option.some.injEq] at h
    subst h
    exact ⟨_, rfl⟩
  state := ⟨4, 14, rfl⟩
  fraction := (demo_complete .mtclim c).fraction
  lwType := (demo_complete .mtclim c).lwType
  lwCloud := (demo_complete .mtclim c).lwCloud
  storm := (demo_complete .mtclim c).storm

theorem wide_plausible {b : ℝ} (h0 : 0 ≤ b) (h1 : b ≤ 30) (c : Run.Cell) : Plausible 2 ((wide b).inp c).data.frame := by
  refine ⟨?_, ?_, ?_⟩
  · intro col hcol i _ r hr
    simp only [wide, Dict.get?_cons, if_true, Option.some.injEq] at hcol
    subst hcol
    injection hr with hr
    rw [← hr]; norm_num
  · intro col hcol i _ r hr
    simp (decide := true) only [wide, Dict.get?_cons, if_true, if_false, Option.some.injEq] at hcol
    subst hcol
    injection hr with hr
    rw [← hr]
    split <;> constructor <;> linarith
  · intro col hcol i _ r hr
    simp (decide := true) only [wide, Dict.get?_cons, if_true, if_false, Option.some.injEq] at hcol
    subst hcol
    injection hr with hr
    rw [← hr]
    split <;> linarith

theorem wide_ranges {b : ℝ} (h0 : 0 ≤ b) (c : Run.Cell) :
    RangesOf (wide b) c (fun d => if d = 0 then b else 10) (fun _ => 24) where
  tMin := by simp [wide, Dict.get?_cons]
  tMax := by simp [wide, Dict.get?_cons]
  seasonal := by simp [wide, Dict.get?_cons]
  range := by
    refine ⟨_, by simp (decide := true) only [wide, Dict.get?_cons, if_true, if_false]; rfl, fun k _ => ?_⟩
    show fin (if k = 0 then b else 10) = fin (if ((0 : Int) + (k : Int) = 0) then b else 10)
    congr 1
    by_cases hk : k = 0 <;> simp [hk]
  smoothed := by
    refine ⟨_, by simp (decide := true) only [wide, Dict.get?_cons, if_true, if_false]; rfl, fun k hk => ?_⟩
    rw [trailing_month]
    have hk' : k < 2 := hk
    have hd : (wide b).d0 = 0 := rfl
    rw [monthRange_change (R := fun _ => 10) (m := 0) (fun d hd => by simp [hd]), hd, if_pos (by omega)]
    show fin _ = fin _
    congr 1
    unfold monthRange
    simp
  rain := ⟨_, by simp (decide := true) only [wide, Dict.get?_cons, if_true, if_false], fun k _ => rfl⟩
  nonneg := fun d => by
    show (0 : ℝ) ≤ if d = 0 then b else 10
    split <;> linarith

/-- **C132**: runs whose first days differ in their range exist, and write their files. -/
example (b : ℝ) (h0 : 0 ≤ b) (h1 : b ≤ 30) : (wide b).Sane ∧ (wide b).Computed [0, 0] ∧
    (wide b).shared = (wide 10).shared ∧ (wide b).shared.method = .mtclim ∧ (wide b).shared.utcOffset = false ∧
    (0 ≤ (wide b).shared.rainScalar ∧ (wide b).shared.rainScalar ≤ 1) ∧
    RangesOf (wide b) [0, 0] (fun d => if d = 0 then b else 10) (fun _ => 24) ∧
    (wide b).shared.outVars.get? "tskc" = some "fraction" ∧
    ∃ order fuel files, (wide b).Schedule order ∧ (wide b).run fuel order = .ok files := by
  refine ⟨wide_sane b, ⟨by show [0, 0] ∈ gridCells [("lat", 1), ("lon", 2)]; decide, 1, rfl, one_pos⟩, rfl, rfl, rfl, ?_, wide_ranges h0 _,
    by show demoVars.get? "tskc" = _; decide, [[("lat", none), ("lon", none)]], ?_⟩
  · exact demo_params.rain
  · obtain ⟨fuel, h⟩ := C72_run (wide b) (wide_sane b) [[("lat", none), ("lon", none)]] ⟨_, rfl, List.Perm.refl _⟩ demo_params
      (fun c _ => wide_complete b c) (fun c _ => wide_plausible h0 h1 c)
    obtain ⟨files, hf⟩ := (h 0).2 (fun c _ => demo_offers (by show (720 : Nat) < 1440; decide) _)
    exact ⟨fuel, files, ⟨_, rfl, List.Perm.refl _⟩, hf⟩

end Verif.Props
