import Mathlib.Analysis.Calculus.Deriv.MeanValue
import Mathlib.Analysis.SpecialFunctions.ExpDeriv
import Mathlib.Analysis.SpecialFunctions.Pow.Real
import Verif.Props.Moister

/-!
# Longwave radiation of warmer steps

A step that is warmer and not drier than another, under the same clouds, radiates no less.
-/

namespace Verif.Props

open Flt Cell Methods Disaggregate Np Humidity Physics

/-- The emission of the clear sky without Stefan's constant. -/
noncomputable def emitted (ty : Lw.LwType) (e t : ℝ) : ℝ := clearSky ty e t * t ^ 4

/-- Where the schemes of Satterlund and Idso rise with temperature; the others do everywhere.  `e` in hPa, `t` in K. -/
def Rises : Lw.LwType → ℝ → ℝ → ℝ → Prop
  | .satterlund, e, _, t' => e = 0 ∨ Real.exp (-(8064 / t')) ≤ e
  | .idso, e, t, _ => 0.0000595 * e * Real.exp (1500 / t) * (1500 / t - 4) ≤ 2.8
  | _, _, _, _ => True

theorem brutsaert_rises {e t t' : ℝ} (he : 0 ≤ e) (ht : 0 < t) (h : t ≤ t') : emitted .brutsaert e t ≤ emitted .brutsaert e t' := by
  have ht' : 0 < t' := ht.trans_le h
  have key : ∀ s : ℝ, 0 < s → emitted .brutsaert e s = 1.24 * e ^ (0.14285714 : ℝ) * s ^ (4 - 0.14285714 : ℝ) := fun s hs => by
    unfold emitted
    simp only [clearSky]
    rw [Real.div_rpow he hs.le, Real.rpow_sub hs, show (4 : ℝ) = ((4 : ℕ) : ℝ) by norm_num, Real.rpow_natCast]
    ring
  rw [key t ht, key t' ht']
  exact mul_le_mul_of_nonneg_left (Real.rpow_le_rpow ht.le h (by norm_num)) (by positivity)

/-- `1 - exp (-u)` falls no faster than `u`. -/
theorem one_sub_exp_scale {u m : ℝ} (hm : 0 ≤ m) (hm1 : m ≤ 1) : m * (1 - Real.exp (-u)) ≤ 1 - Real.exp (-(m * u)) := by
  have := convexOn_exp.2 (Set.mem_univ (-u)) (Set.mem_univ (0 : ℝ)) hm (sub_nonneg.2 hm1) (by ring)
  simp only [smul_eq_mul, mul_zero, add_zero, Real.exp_zero, mul_one] at this
  rw [show -(m * u) = m * -u by ring]
  linarith

theorem satterlund_rises {e t t' : ℝ} (he : 0 ≤ e) (ht : 0 < t) (h : t ≤ t') (hr : Rises .satterlund e t t') :
    emitted .satterlund e t ≤ emitted .satterlund e t' := by
  have ht' : 0 < t' := ht.trans_le h
  unfold emitted
  simp only [clearSky]
  rcases hr with rfl | hr
  · rw [Real.zero_rpow (by positivity), Real.zero_rpow (by positivity)]; simp
  have e0 : 0 < e := (Real.exp_pos _).trans_le hr
  set u := e ^ (t / 2016) with hu
  have u0 : 0 < u := Real.rpow_pos_of_pos e0 _
  have f0 : 0 ≤ 1 - Real.exp (-u) := sub_nonneg.2 (Real.exp_le_one_iff.2 (by linarith))
  rcases le_total 1 e with h1 | h1
  · have : u ≤ e ^ (t' / 2016) := Real.rpow_le_rpow_of_exponent_le h1 (by gcongr)
    have : Real.exp (-(e ^ (t' / 2016))) ≤ Real.exp (-u) := Real.exp_le_exp.2 (by linarith)
    have : t ^ 4 ≤ t' ^ 4 := by gcongr
    exact mul_le_mul (by linarith) this (by positivity) (by linarith)
  · set m := e ^ ((t' - t) / 2016) with hm
    have m0 : 0 < m := Real.rpow_pos_of_pos e0 _
    have m1 : m ≤ 1 := Real.rpow_le_one e0.le h1 (div_nonneg (by linarith) (by norm_num))
    have hmu : e ^ (t' / 2016) = m * u := by
      rw [hm, hu, ← Real.rpow_add e0]; congr 1; ring
    have hs := one_sub_exp_scale (u := u) m0.le m1
    have hlog : -(8064 / t') ≤ Real.log e := (Real.le_log_iff_exp_le e0).2 hr
    have hb : t ^ 4 ≤ m * t' ^ 4 := by
      have a1 : Real.log (t / t') ≤ t / t' - 1 := Real.log_le_sub_one_of_pos (by positivity)
      have a2 : -(8064 / t') * ((t' - t) / 2016) ≤ Real.log e * ((t' - t) / 2016) :=
        mul_le_mul_of_nonneg_right hlog (div_nonneg (by linarith) (by norm_num))
      have a3 : -(8064 / t') * ((t' - t) / 2016) = 4 * (t / t' - 1) := by field_simp; ring
      have a4 : 4 * Real.log (t / t') ≤ Real.log e * ((t' - t) / 2016) := by linarith
      have a5 : (t / t') ^ 4 ≤ m := by
        rw [hm, Real.rpow_def_of_pos e0, ← Real.exp_log (by positivity : 0 < (t / t') ^ 4), Real.log_pow]
        exact Real.exp_le_exp.2 (by push_cast; exact a4)
      rw [div_pow, div_le_iff₀ (by positivity)] at a5
      exact a5
    rw [hmu]
    calc 1.08 * (1 - Real.exp (-u)) * t ^ 4 ≤ 1.08 * (1 - Real.exp (-u)) * (m * t' ^ 4) :=
          mul_le_mul_of_nonneg_left hb (by positivity)
      _ = 1.08 * (m * (1 - Real.exp (-u))) * t' ^ 4 := by ring
      _ ≤ 1.08 * (1 - Real.exp (-(m * u))) * t' ^ 4 := by gcongr

theorem idso_rises {e t t' : ℝ} (he : 0 ≤ e) (ht : 0 < t) (h : t ≤ t') (hr : Rises .idso e t t') :
    emitted .idso e t ≤ emitted .idso e t' := by
  have hd : ∀ s : ℝ, 0 < s → HasDerivAt (emitted .idso e)
      (s ^ 3 * (2.8 - 0.0000595 * e * Real.exp (1500 / s) * (1500 / s - 4))) s := fun s hs => by
    have d1 : HasDerivAt (fun x : ℝ => 1500 / x) (-(1500 / s ^ 2)) s := by
      simpa [div_eq_mul_inv] using (hasDerivAt_inv hs.ne').const_mul (1500 : ℝ)
    have d2 := (((d1.exp.const_mul (0.0000595 * e)).const_add 0.7).mul (hasDerivAt_pow 4 s))
    have d3 : HasDerivAt (emitted .idso e) _ s := d2
    refine d3.congr_deriv ?_
    have hq : 1500 / s ^ 2 * s ^ 4 = 1500 / s * s ^ 3 := by field_simp
    generalize Real.exp (1500 / s) = E at *
    generalize 1500 / s ^ 2 = A at *
    generalize 1500 / s = B at *
    push_cast
    linear_combination (-0.0000595 * e * E) * hq
  refine (monotoneOn_of_deriv_nonneg (convex_Ici t) (fun s hs => (hd s (ht.trans_le hs)).continuousAt.continuousWithinAt)
    (fun s hs => ?_) (fun s hs => ?_)) (Set.mem_Ici.2 le_rfl) (Set.mem_Ici.2 h) h
  · rw [interior_Ici] at hs
    exact (hd s (ht.trans hs)).differentiableAt.differentiableWithinAt
  · rw [interior_Ici] at hs
    have hs : t < s := hs
    have s0 := ht.trans hs
    rw [(hd s s0).deriv]
    refine mul_nonneg (by positivity) (sub_nonneg.2 ?_)
    have hq : 1500 / s ≤ 1500 / t := by gcongr
    have w0 : 0 ≤ 0.0000595 * e * Real.exp (1500 / s) := by positivity
    rcases le_total (1500 / s) 4 with h4 | h4
    · have := mul_nonpos_of_nonneg_of_nonpos w0 (sub_nonpos.2 h4)
      linarith
    · refine le_trans (mul_le_mul ?_ (by linarith) (by linarith) (by positivity)) hr
      exact mul_le_mul_of_nonneg_left (Real.exp_le_exp.2 hq) (by positivity)

/-- Prata's emissivity grows more slowly than the fourth power of moisture. -/
theorem prata_slow {a b : ℝ} (h0 : 0 ≤ a) (h : a ≤ b) :
    (1 - (1 + b) * Real.exp (-Real.sqrt (1.2 + 3 * b))) * a ≤
      (1 - (1 + a) * Real.exp (-Real.sqrt (1.2 + 3 * a))) * (a + 4 * (b - a)) := by
  set s := Real.sqrt (1.2 + 3 * a) with hs
  set r := Real.sqrt (1.2 + 3 * b) with hr
  have es : s * s = 1.2 + 3 * a := Real.mul_self_sqrt (by linarith)
  have er : r * r = 1.2 + 3 * b := Real.mul_self_sqrt (by linarith)
  have hsr : s ≤ r := Real.sqrt_le_sqrt (by linarith)
  have hs1 : 1 ≤ s := Real.le_sqrt_of_sq_le (by linarith)
  have hE := Real.exp_pos (-s)
  have hF := Real.exp_pos (-r)
  -- half of the black body at least
  have half : (1 + a) * Real.exp (-s) ≤ 1 / 2 := by
    have h1 := prata_falls le_rfl h0
    rw [← hs] at h1
    refine h1.trans ?_
    simp only [mul_zero, add_zero, one_mul]
    have : (1 : ℝ) ≤ Real.sqrt 1.2 := Real.le_sqrt_of_sq_le (by norm_num)
    have h2 : 2 ≤ Real.exp (Real.sqrt 1.2) := by linarith [Real.add_one_le_exp (Real.sqrt 1.2)]
    rw [Real.exp_neg, inv_le_comm₀ (Real.exp_pos _) (by norm_num)]
    linarith
  -- the difference of the emissivities
  have hdiff : (1 + a) * Real.exp (-s) - (1 + b) * Real.exp (-r) ≤ (1 + a) * Real.exp (-s) * (r - s) := by
    have h1 : Real.exp (-s) * (1 - (r - s)) ≤ Real.exp (-r) := by
      have := Real.add_one_le_exp (-(r - s))
      have h2 : Real.exp (-r) = Real.exp (-s) * Real.exp (-(r - s)) := by rw [← Real.exp_add]; congr 1; ring
      rw [h2]
      exact mul_le_mul_of_nonneg_left (by linarith) hE.le
    have h2 : (1 + a) * Real.exp (-r) ≤ (1 + b) * Real.exp (-r) := by gcongr
    nlinarith
  have hrs : (r - s) * (2 * s) ≤ 3 * (b - a) := by nlinarith
  -- `a * (r - s)` against `b - a`
  have hsmall : (1 + a) * Real.exp (-s) * (a * (r - s)) ≤ 2 * (b - a) := by
    have h1 : a * (r - s) ≤ s * (b - a) / 2 := by
      have : a ≤ s * s / 3 := by linarith
      nlinarith [mul_nonneg (sub_nonneg.2 hsr) (sub_nonneg.2 this), mul_nonneg (by linarith : 0 ≤ s) (sub_nonneg.2 hrs)]
    have h2 : (1 + a) * Real.exp (-s) * s ≤ 4 := by
      have h3 : (1 + a) * s ≤ 4 * Real.exp s := by
        have h4 := Real.pow_div_factorial_le_exp s (by linarith) 3
        have h5 := Real.add_one_le_exp s
        norm_num [Nat.factorial] at h4
        have h6 : (1 + a) * s = (s ^ 3 + 1.8 * s) / 3 := by
          have : a = (s * s - 1.2) / 3 := by linarith
          rw [this]; ring
        rw [h6]
        nlinarith
      rw [Real.exp_neg, mul_assoc, inv_mul_eq_div, ← mul_div_assoc, div_le_iff₀ (Real.exp_pos _)]
      exact h3
    have hba : 0 ≤ b - a := by linarith
    calc (1 + a) * Real.exp (-s) * (a * (r - s)) ≤ (1 + a) * Real.exp (-s) * (s * (b - a) / 2) :=
          mul_le_mul_of_nonneg_left h1 (by positivity)
      _ = (1 + a) * Real.exp (-s) * s * ((b - a) / 2) := by ring
      _ ≤ 4 * ((b - a) / 2) := mul_le_mul_of_nonneg_right h2 (by linarith)
      _ = 2 * (b - a) := by ring
  have := mul_le_mul_of_nonneg_right hdiff h0
  nlinarith [mul_nonneg (sub_nonneg.2 half) (sub_nonneg.2 h)]

theorem prata_rises {e t t' : ℝ} (he : 0 ≤ e) (ht : 0 < t) (h : t ≤ t') : emitted .prata e t ≤ emitted .prata e t' := by
  have ht' : 0 < t' := ht.trans_le h
  unfold emitted
  simp only [clearSky]
  have a0 : 0 ≤ 46.5 * (e / t') := by positivity
  have hab : 46.5 * (e / t') ≤ 46.5 * (e / t) := by gcongr
  have hp := prata_slow a0 hab
  have hE : 0 < 1 - (1 + 46.5 * (e / t')) * Real.exp (-Real.sqrt (1.2 + 3 * (46.5 * (e / t')))) := (prata_bounds he ht').1
  obtain ⟨E', hE'⟩ : ∃ E', E' = 1 - (1 + 46.5 * (e / t')) * Real.exp (-Real.sqrt (1.2 + 3 * (46.5 * (e / t')))) := ⟨_, rfl⟩
  rw [← hE'] at hp hE ⊢
  have hl : 1 ≤ t' / t := (one_le_div ht).2 h
  have hb : 46.5 * (e / t) = t' / t * (46.5 * (e / t')) := by field_simp
  have hpow := one_add_mul_le_pow (a := t' / t - 1) (by linarith) 4
  rw [add_sub_cancel, div_pow, le_div_iff₀ (by positivity)] at hpow
  have hEb : (1 - (1 + 46.5 * (e / t)) * Real.exp (-Real.sqrt (1.2 + 3 * (46.5 * (e / t))))) ≤ E' * (1 + 4 * (t' / t - 1)) := by
    rcases eq_or_lt_of_le a0 with h0 | h0
    · have hz : 46.5 * (e / t) = 46.5 * (e / t') := by rw [hb, ← h0, mul_zero]
      rw [hz, ← hE']
      nlinarith
    · refine le_of_mul_le_mul_right ?_ h0
      refine hp.trans_eq ?_
      rw [hb]; ring
  calc _ ≤ E' * (1 + 4 * (t' / t - 1)) * t ^ 4 := mul_le_mul_of_nonneg_right hEb (by positivity)
    _ = E' * ((1 + ((4 : ℕ) : ℝ) * (t' / t - 1)) * t ^ 4) := by push_cast; ring
    _ ≤ E' * t' ^ 4 := mul_le_mul_of_nonneg_left hpow hE.le

/-- The clear sky. -/
theorem emitted_rises (ty : Lw.LwType) {e t t' : ℝ} (he : 0 ≤ e) (ht : 0 < t) (h : t ≤ t') (hr : Rises ty e t t') :
    emitted ty e t ≤ emitted ty e t' := by
  have h4 : t ^ 4 ≤ t' ^ 4 := by gcongr
  cases ty with
  | tva => exact mul_le_mul_of_nonneg_left h4 (clearSky_nonneg .tva he ht)
  | anderson => exact mul_le_mul_of_nonneg_left h4 (clearSky_nonneg .anderson he ht)
  | brutsaert => exact brutsaert_rises he ht h
  | satterlund => exact satterlund_rises he ht h hr
  | idso => exact idso_rises he ht h hr
  | prata => exact prata_rises he ht h

/-- Under clouds. -/
theorem clouded_rises (ty : Lw.LwType) (cl : Lw.Cloud) {e e' t t' f : ℝ} (he : 0 ≤ e) (hee : e ≤ e') (ht : 0 < t) (h : t ≤ t')
    (hf : 0 ≤ f) (hf1 : f ≤ 1) (hr : Rises ty e t t') :
    withCloud cl (clearSky ty e t) f * (5.669e-8 * t ^ 4) ≤ withCloud cl (clearSky ty e' t') f * (5.669e-8 * t' ^ 4) := by
  have ht' : 0 < t' := ht.trans_le h
  have h1 : clearSky ty e t * t ^ 4 ≤ clearSky ty e' t' * t' ^ 4 :=
    (emitted_rises ty he ht h hr).trans (mul_le_mul_of_nonneg_right (clearSky_mono ty he hee ht') (by positivity))
  have h4 : t ^ 4 ≤ t' ^ 4 := by gcongr
  cases cl with
  | tva =>
    simp only [withCloud]
    have := mul_le_mul_of_nonneg_left h1 (by positivity : (0 : ℝ) ≤ (1 + 0.17 * f ^ 2) * 5.669e-8)
    linarith
  | deardorff =>
    simp only [withCloud]
    have a1 := mul_le_mul_of_nonneg_left h1 (mul_nonneg (sub_nonneg.2 hf1) (by norm_num : (0 : ℝ) ≤ 5.669e-8))
    have a2 := mul_le_mul_of_nonneg_left h4 (mul_nonneg hf (by norm_num : (0 : ℝ) ≤ 5.669e-8))
    linarith

/-- What the files need to hold for the longwave radiation of a cell to be computed from them. -/
structure Radiates (j : Job) (c : Run.Cell) (ty : Lw.LwType) (cl : Lw.Cloud) : Prop where
  good : (j.shared.method = .mtclim ∧ SaneParams j.shared ∧ Lw.upperS j.shared.lwCloud = "CLOUD_DEARDORFF" ∧
      ∀ k ∈ ["t_min", "t_max", "dtr", "smoothed_dtr", "prec", "seasonal_prec"], Dict.get? (j.inp c).data.frame k ≠ none) ∨
    (j.shared.method = .passthrough ∧ DailyGood j.n (j.inp c).data.frame)
  sound : Sound j.shared j.n (j.inp c)
  asked : ∃ u, j.shared.outVars.get? "longwave" = some u
  scheme : Lw.lwTypeOf j.shared.lwType = .ok ty
  clouds : Lw.cloudOf j.shared.lwCloud = .ok cl

/-- The cloud cover written for a step is a fraction. -/
theorem cloud_reads {j : Job} (hj : j.Sane) {fuel : Nat} {order : List (Dict String Chunk.Slice)} (ho : j.Schedule order)
    {files : Run.Files Output} (hrun : j.run fuel order = .ok files) (hsub : j.shared.ts < 1440) {c : Run.Cell} (hc : j.Computed c)
    {ty : Lw.LwType} {cl : Lw.Cloud} (hr : Radiates j c ty cl) {u : String} (hu : j.shared.outVars.get? "tskc" = some u)
    {k i : Nat} (hk : k < j.n) (hi : i < 1440 / j.shared.ts) : ∃ f, Reads j files c "tskc" k i f ∧ 0 ≤ f ∧ f ≤ 1 := by
  obtain ⟨elev, lat, lon, h1, h2, h3, q, daily, t, hd, ld, hnd, hread⟩ := readout j hj ho hrun hsub hc
  have hgood : DailyGood j.n q.base := by
    rcases hr.good with ⟨hm, hp, hde, hcols⟩ | ⟨hm, hg⟩
    · exact mtclim_good q (by rw [hj.data c, length_consecutive]) hm hp hr.sound.lapse.1 (hr.sound.column elev h1)
        (hr.sound.lat lat h2) hr.sound.record hcols hde
    · exact passthrough_good q hm hg
  obtain ⟨q1, q2, q3, q4, q5, q6, q7, q8, q9, q10, q11, q12⟩ := dailyOf_ok hd
  obtain ⟨col, d1, d2⟩ := hread "tskc" u "fraction" .ratio hu (by decide) rfl (by simp)
  have hcl : ∀ v ∈ daily.tskc, ∃ w, v = fin w ∧ 0 ≤ w ∧ w ≤ 1 := by
    intro v hv
    obtain ⟨col, g, hcv⟩ := Cell.column_ok.1 q7
    rw [hcv] at hv
    obtain ⟨m, hm, rfl⟩ := List.mem_map.1 hv
    obtain ⟨col', g', hP⟩ := hgood.cloud
    rw [g] at g'
    obtain rfl := Option.some.inj g'
    exact hP m (by rw [← length_consecutive j.d0 j.n, ← hj.data c]; exact List.mem_range.1 hm)
  have hb := C50_bounds t.h_cloud hcl
  have hfill : t.sub.tskc = t.cloud := fillBoth_of_fin (fun v hv => by
    obtain ⟨w, hw, -⟩ := hb v hv
    rw [hw]; rfl)
  have hm : k * (1440 / j.shared.ts) + i < t.cloud.length := by
    rw [t.l_cloud]
    show _ < nDisagg daily.doy.length j.shared.ts
    rw [hnd]
    calc k * (1440 / j.shared.ts) + i < (k + 1) * (1440 / j.shared.ts) := by rw [Nat.succ_mul]; omega
      _ ≤ _ := Nat.mul_le_mul_right _ hk
  obtain ⟨w, hw, w0, w1⟩ := hb _ (List.getElem_mem hm)
  refine ⟨w, (d2 k hk i hi).1 w w ?_ rfl, w0, w1⟩
  rw [← Except.ok.inj d1]
  show t.sub.tskc[_]? = _
  rw [hfill, List.getElem?_eq_getElem hm, hw]

/-- **C126**: of two steps under the same clouds, in the same files or those of another run with the same schemes, the one that is
written as warmer and not drier has no less longwave radiation written. -/
theorem C126_warmer (j j' : Job) (hj : j.Sane) (hj' : j'.Sane) (fuel fuel' : Nat) (order order' : List (Dict String Chunk.Slice))
    (ho : j.Schedule order) (ho' : j'.Schedule order') (files files' : Run.Files Output) (hrun : j.run fuel order = .ok files)
    (hrun' : j'.run fuel' order' = .ok files') (hsub : j.shared.ts < 1440) (hsub' : j'.shared.ts < 1440) (c c' : Run.Cell)
    (hc : j.Computed c) (hc' : j'.Computed c') (ty : Lw.LwType) (cl : Lw.Cloud) (hr : Radiates j c ty cl) (hr' : Radiates j' c' ty cl)
    (k k' i i' : Nat) (hk : k < j.n) (hk' : k' < j'.n) (hi : i < 1440 / j.shared.ts) (hi' : i' < 1440 / j'.shared.ts)
    (T T' e e' f : ℝ) (hT : Reads j files c "temp" k i T) (hT' : Reads j' files' c' "temp" k' i' T')
    (he : Reads j files c "vapor_pressure" k i e) (he' : Reads j' files' c' "vapor_pressure" k' i' e')
    (hf : Reads j files c "tskc" k i f) (hf' : Reads j' files' c' "tskc" k' i' f)
    (hT0 : 0 < T) (hTT : T ≤ T') (he0 : 0 ≤ e) (hee : e ≤ e') (hrise : Rises ty (1000 * e / 100) T T') :
    ∃ L L', Reads j files c "longwave" k i L ∧ Reads j' files' c' "longwave" k' i' L' ∧ L ≤ L' := by
  obtain ⟨u, hu⟩ := hr.asked
  obtain ⟨u', hu'⟩ := hr'.asked
  obtain ⟨hf0, hf1⟩ : 0 ≤ f ∧ f ≤ 1 := by
    have hf2 := hf
    obtain ⟨uF, -, -, -, hF, -⟩ := hf2
    obtain ⟨g, a1, a2, a3⟩ := cloud_reads hj ho hrun hsub hc hr hF hk hi
    rw [reads_unique hj hk hi hf a1]
    exact ⟨a2, a3⟩
  exact ⟨_, _,
    C79_longwave_partial j hj fuel order ho files hrun hsub c hc hr.good hr.sound u hu ty cl hr.scheme hr.clouds k hk i hi T e f hT
      hT0 he he0 hf,
    C79_longwave_partial j' hj' fuel' order' ho' files' hrun' hsub' c' hc' hr'.good hr'.sound u' hu' ty cl hr'.scheme hr'.clouds
      k' hk' i' hi' T' e' f hT' (hT0.trans_le hTT) he' (he0.trans hee) hf',
    clouded_rises ty cl (by linarith) (by linarith) hT0 hTT hf0 hf1 hrise⟩

/-- **C126**: no scheme needs more than a temperature from -40 °C to 60 °C and a vapour pressure of at most 25 hPa, which is zero or at
least a billionth of one. -/
theorem C126_range (ty : Lw.LwType) {e t t' : ℝ} (he : e = 0 ∨ 1e-9 ≤ e) (he1 : e ≤ 25) (ht : 233.15 ≤ t) (h : t ≤ t')
    (ht' : t' ≤ 333.15) : Rises ty e t t' := by
  have e0 : 0 ≤ e := by
    rcases he with h | h
    · exact h.ge
    · exact le_trans (by norm_num) h
  have t0 : 0 < t := by linarith
  cases ty with
  | satterlund =>
    refine he.imp id fun he => le_trans ?_ he
    have h1 : (24 : ℝ) ≤ 8064 / t' := by rw [le_div_iff₀ (by linarith)]; linarith
    have h2 : (1e9 : ℝ) ≤ Real.exp 24 := by
      have : Real.exp 24 = Real.exp 1 ^ 24 := by rw [← Real.exp_nat_mul]; norm_num
      rw [this]
      calc (1e9 : ℝ) ≤ 2.7 ^ 24 := by norm_num
        _ ≤ _ := pow_le_pow_left₀ (by norm_num) (by linarith [Real.exp_one_gt_d9]) _
    calc Real.exp (-(8064 / t')) ≤ Real.exp (-24) := Real.exp_le_exp.2 (by linarith)
      _ = (Real.exp 24)⁻¹ := Real.exp_neg _
      _ ≤ (1e9)⁻¹ := inv_anti₀ (by norm_num) h2
      _ = 1e-9 := by norm_num
  | idso =>
    show 0.0000595 * e * Real.exp (1500 / t) * (1500 / t - 4) ≤ 2.8
    have h1 : 1500 / t ≤ 6.434 := by rw [div_le_iff₀ t0]; linarith
    have h2 : Real.exp 6.5 ≤ 666 := by
      have : Real.exp 6.5 ^ 2 = Real.exp 1 ^ 13 := by rw [← Real.exp_nat_mul, ← Real.exp_nat_mul]; norm_num
      refine le_of_sq_le_sq (this.trans_le ?_) (by norm_num)
      calc Real.exp 1 ^ 13 ≤ 2.7183 ^ 13 := pow_le_pow_left₀ (Real.exp_pos _).le (by linarith [Real.exp_one_lt_d9]) _
        _ ≤ _ := by norm_num
    have h3 : Real.exp (1500 / t) ≤ 666 := (Real.exp_le_exp.2 (by linarith)).trans h2
    have w0 : 0 ≤ 0.0000595 * e * Real.exp (1500 / t) := by positivity
    have w1 : 0.0000595 * e * Real.exp (1500 / t) ≤ 0.0000595 * 25 * 666 := by gcongr
    nlinarith
  | _ => trivial

/-- **C126** needs a range: in dense vapour Idso's sky radiates less when it is warmer. -/
example : emitted .idso 10000 250 < emitted .idso 10000 200 := by
  unfold emitted
  simp only [clearSky]
  have h1 : Real.exp (1500 / 200) = Real.exp (1500 / 250) * Real.exp 1.5 := by rw [← Real.exp_add]; norm_num
  have h2 : (3.6 : ℝ) ≤ Real.exp 1.5 := by
    have := Real.quadratic_le_exp_of_nonneg (show (0 : ℝ) ≤ 0.75 by norm_num)
    have h3 : Real.exp 1.5 = Real.exp 0.75 ^ 2 := by rw [← Real.exp_nat_mul]; norm_num
    rw [h3]
    nlinarith
  have h4 : (1 : ℝ) + 1500 / 250 + (1500 / 250) ^ 2 / 2 ≤ Real.exp (1500 / 250) := Real.quadratic_le_exp_of_nonneg (by norm_num)
  rw [h1]
  nlinarith

/-- **C126**: there is such a run, and its files hold what is asked. -/
example : ∃ order files, humid.Schedule order ∧ humid.run 0 order = .ok files ∧ humid.Sane ∧ humid.shared.ts < 1440 ∧
    humid.Computed [0, 0] ∧ ∃ ty cl, Radiates humid [0, 0] ty cl ∧
    ∃ k < humid.n, ∃ i < 1440 / humid.shared.ts, ∃ T e f, 0 < T ∧ 0 ≤ e ∧ Reads humid files [0, 0] "temp" k i T ∧
      Reads humid files [0, 0] "vapor_pressure" k i e ∧ Reads humid files [0, 0] "tskc" k i f ∧ Rises ty (1000 * e / 100) T T := by
  obtain ⟨order, files, ho, hrun⟩ := humid_runs
  have hsub : humid.shared.ts < 1440 := by unfold humid demo; decide
  have hc : humid.Computed [0, 0] := ⟨by unfold humid demo; decide, 1, rfl, one_pos⟩
  obtain ⟨k, hk, i, hi, T, b1, b2, hT, he⟩ := humid_reads ho hrun
  have hr : Radiates humid [0, 0] .prata .deardorff := ⟨Or.inr ⟨rfl, humid_given _⟩, humid_sound _, ⟨_, rfl⟩, rfl, rfl⟩
  obtain ⟨f, hf, -, -⟩ := cloud_reads humid_sane ho hrun hsub hc hr rfl hk hi
  have := svpR_pos T
  exact ⟨order, files, ho, hrun, humid_sane, hsub, hc, _, _, hr, k, hk, i, hi, _, _, f, by linarith, by positivity, hT, he, hf, trivial⟩

end Verif.Props
