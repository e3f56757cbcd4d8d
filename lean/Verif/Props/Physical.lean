import Verif.Props.Admissible
import Verif.Props.Dewpoint
import Verif.Spec.Physics
import Mathlib.Analysis.Complex.ExponentialBounds

/-!
# Everything a run writes is a possible value: C78
-/

namespace Verif.Props

open Flt Physics Methods Cell

section C78

/-! ### The daily values -/

theorem iterate_keeps {n : Nat} {d : Methods.Daily} {p : MParams} {P : Col → Prop}
    (hP : ∀ old new, P old → nextTdew d p old = .ok new → P new) : ∀ {fuel : Nat} {old new r : Col},
    iterate n d p fuel old new = .ok (some r) → P new → P r
  | 0, old, new, r, h, h0 => by
    unfold iterate at h
    split at h
    · simp at h
    · simp only [Except.ok.injEq, Option.some.injEq] at h
      subst h
      exact h0
  | fuel + 1, old, new, r, h, h0 => by
    unfold iterate at h
    split at h
    · simp only [bind_ok] at h
      obtain ⟨nx, h1, h2⟩ := h
      exact iterate_keeps hP h2 (hP new nx h0 h1)
    · simp only [Except.ok.injEq, Option.some.injEq] at h
      subst h
      exact h0

/-- What holds of the minimum temperature and is kept by every round holds of the dewpoint. -/
theorem mtclimRun_dew {n fuel : Nat} {df : Frame} {p : MParams} {out : Frame}
    (h : mtclimRun n fuel df p = .ok (some out)) {P : Col → Prop} {tMin tMax dtr sm prec tt pot dl sp : Col}
    (g1 : Dict.get? df "t_min" = some tMin) (g2 : Dict.get? df "t_max" = some tMax)
    (g3 : Dict.get? df "dtr" = some dtr) (g4 : Dict.get? df "smoothed_dtr" = some sm)
    (g5 : Dict.get? df "prec" = some prec) (g6 : Dict.get? df "tt_max" = some tt)
    (g7 : Dict.get? df "potrad" = some pot) (g8 : Dict.get? df "daylength" = some dl)
    (g9 : Dict.get? df "seasonal_prec" = some sp) (h0 : P tMin)
    (hP : ∀ old new, P old →
      nextTdew { tMin := tMin, dtr := dtr, tfmax := fun i => tfmax (dtr i) (sm i) (prec i) p,
                 tDay := fun i => tDay (tMin i) (tMax i) p, ttMax := tt, potrad := pot,
                 daylength := dl, seasonal := sp } p old = .ok new → P new) :
    ∃ dew, P dew ∧ Dict.get? out "vapor_pressure" = some (fun i => vaporPressure (dew i)) ∧
      Dict.get? out "tskc" = some (fun i => tskc (tfmax (dtr i) (sm i) (prec i) p) p) ∧
      Dict.get? out "shortwave" = some (fun i => shortwave (tfmax (dtr i) (sm i) (prec i) p) (vaporPressure (dew i)) (tt i)
        (pot i)) ∧
      ∃ e, pet (fun i => shortwave (tfmax (dtr i) (sm i) (prec i) p) (vaporPressure (dew i)) (tt i) (pot i))
        (fun i => tDay (tMin i) (tMax i) p) dl p = .ok e ∧ Dict.get? out "pet" = some e := by
  unfold mtclimRun at h
  simp (decide := true) only [bind_ok, Dict.get_ok, Dict.get?_set, if_true, if_false, g1, g2, g3, g4, g5, g6, g7, g8, g9,
    Option.some.injEq, exists_eq_left'] at h
  obtain ⟨first, h1, res, h2, h⟩ := h
  cases res with
  | none => simp [pure, Except.pure] at h
  | some dew =>
    simp only [bind_ok, Dict.get_ok, Dict.get?_set_self, Option.some.injEq, exists_eq_left', pure_ok] at h
    obtain ⟨e, he, h⟩ := h
    obtain rfl := h
    refine ⟨dew, iterate_keeps hP h2 (hP _ _ h0 h1), ?_, ?_, ?_, e, he, ?_⟩ <;>
      simp (decide := true) only [Dict.get?_set, if_true, if_false]

/-- A daily record without gaps: temperatures between -60 and 60 degrees, a temperature range that is not negative. -/
structure Measured (n : Nat) (d : Data) : Prop where
  tMin : ∀ col, Dict.get? d.frame "t_min" = some col → ∀ i < n, ∃ x, col i = fin x ∧ -60 ≤ x ∧ x ≤ 60
  tMax : ∀ col, Dict.get? d.frame "t_max" = some col → ∀ i < n, ∃ x, col i = fin x ∧ -60 ≤ x ∧ x ≤ 60
  dtr : ∀ col, Dict.get? d.frame "dtr" = some col → ∀ i < n, ∃ x, col i = fin x ∧ 0 ≤ x ∧ x ≤ 200
  smoothed : ∀ col, Dict.get? d.frame "smoothed_dtr" = some col → ∀ i < n, ∃ x, col i = fin x
  prec : ∀ col, Dict.get? d.frame "prec" = some col → ∀ i < n, ∃ x, col i = fin x ∧ 0 ≤ x
  seasonal : ∀ col, Dict.get? d.frame "seasonal_prec" = some col → ∀ i < n, ∃ x, col i = fin x
  wind : ∀ col, Dict.get? d.frame "wind" = some col → ∀ i < n, ∃ x, col i = fin x ∧ 0 ≤ x
  state : ∃ a b, d.stateEnd = (fin a, fin b) ∧ -60 ≤ a ∧ a ≤ 60 ∧ -60 ≤ b ∧ b ≤ 60

/-- Daily values from which possible sub-daily values follow. -/
structure DailyGood (n : Nat) (df : Frame) : Prop where
  shortwave : ∃ col, Dict.get? df "shortwave" = some col ∧ ∀ i < n, ∃ x, col i = fin x ∧ 0 ≤ x
  vapor : ∃ col, Dict.get? df "vapor_pressure" = some col ∧ ∀ i < n, ∃ x, col i = fin x ∧ 0 ≤ x
  cloud : ∃ col, Dict.get? df "tskc" = some col ∧ ∀ i < n, ∃ x, col i = fin x ∧ 0 ≤ x ∧ x ≤ 1

theorem tDay_fin (p : MParams) (a b : ℝ) : ∃ r, tDay (fin a) (fin b) p = fin r := by
  unfold tDay
  simp only [add_fin]
  rw [div_fin_ne (by norm_num)]
  exact ⟨_, rfl⟩

theorem colOf_rows {rows : List Solar.DayGeom} {f : Solar.DayGeom → Flt ℝ} {i : Nat} (hi : i < rows.length) :
    colOf (rows.map f) i = f rows[i] := by
  unfold colOf
  rw [List.getD_eq_getElem?_getD, List.getElem?_map, List.getElem?_eq_getElem hi]
  rfl

/-- The daily values `mtclim` estimates from a record without gaps. -/
theorem mtclim_daily {fuel n : Nat} {s : Shared} {elev lat lon : ℝ} {d : Data} (k : Common fuel s elev lat lon d)
    (hn : d.days.length = n) (hm : s.method = .mtclim) (hs : SaneParams s) (hl : 0 < s.lapseRate)
    (hle : s.lapseRate * elev < 288.15) (hlat : |lat| ≤ 90) (hd : Measured n d)
    (hcols : ∀ k ∈ ["t_min", "t_max", "dtr", "smoothed_dtr", "prec", "seasonal_prec"], Dict.get? d.frame k ≠ none) :
    (∃ col, Dict.get? k.base "shortwave" = some col ∧ ∀ i < n, ∃ x, col i = fin x ∧ 0 ≤ x) ∧
      (∃ col, Dict.get? k.base "vapor_pressure" = some col ∧ ∀ i < n, ∃ x, col i = fin x ∧ 0 ≤ x) ∧
      (Lw.upperS s.lwCloud = "CLOUD_DEARDORFF" →
        ∃ col, Dict.get? k.base "tskc" = some col ∧ ∀ i < n, ∃ x, col i = fin x ∧ 0 ≤ x ∧ x ≤ 1) := by
  have hrun : mtclimRun n fuel (withGeom k.rows d.frame) (s.daily elev) = .ok (some k.base) := by
    have h := k.h_base
    rw [hn, hm] at h
    unfold runMethod at h
    simp only [bind_ok] at h
    obtain ⟨r, h1, h2⟩ := h
    cases r with
    | none => cases h2
    | some b =>
      have : b = k.base := Except.ok.inj h2
      rw [h1, this]
  have hrl : k.rows.length = n := by rw [← hn]; exact (mapM_getElem k.h_rows).1
  have hG : ∀ g ∈ k.rows, DayOk g ∧ g.potrad * g.daylength ≤ 6.15e7 := by
    intro g hgm
    have hmem : g ∈ k.geom := by
      have hrows := k.h_rows
      unfold geomRows at hrows
      obtain ⟨d, -, hd⟩ := (mapM_ok hrows).2 g hgm
      cases hgd : k.geom[doy d - 1]? with
      | none => rw [hgd] at hd; cases hd
      | some g' =>
        rw [hgd] at hd
        injection hd with hd
        rw [← hd]
        exact List.mem_of_getElem? hgd
    obtain ⟨-, h1⟩ := C45_bounds_partial elev lat s.lapseRate hl hle k.geom k.h_geom
    obtain ⟨tr, -, -, h2⟩ := solarGeom_ok k.h_geom
    obtain ⟨i, -, hi⟩ := h2 g hmem
    exact ⟨h1 g hmem, Solar.potrad_le (latRad_lt hlat) hi⟩
  have hk : ∀ k ∈ ["t_min", "t_max", "dtr", "smoothed_dtr", "prec", "seasonal_prec"], ∃ col,
      Dict.get? d.frame k = some col := fun k h => Option.ne_none_iff_exists'.1 (hcols k h)
  obtain ⟨tMin, g1⟩ := hk "t_min" (by decide)
  obtain ⟨tMax, g2⟩ := hk "t_max" (by decide)
  obtain ⟨dtr, g3⟩ := hk "dtr" (by decide)
  obtain ⟨sm, g4⟩ := hk "smoothed_dtr" (by decide)
  obtain ⟨prec, g5⟩ := hk "prec" (by decide)
  obtain ⟨sp, g9⟩ := hk "seasonal_prec" (by decide)
  obtain ⟨pa, hpa, hpa0⟩ : ∃ pa, atmPres (fin elev) s.lapseRate = .ok (fin pa) ∧ 0 < pa := by
    obtain ⟨pa, h1, h2, -⟩ := C40_atm_pres elev s.lapseRate hl hle
    exact ⟨pa, h1, h2⟩
  have hday : ∀ i < n, ∃ tn dr f ta tt pr dl sq : ℝ, tMin i = fin tn ∧ dtr i = fin dr ∧
      tfmax (dtr i) (sm i) (prec i) (s.daily elev) = fin f ∧ tDay (tMin i) (tMax i) (s.daily elev) = fin ta ∧
      colOf (k.rows.map (·.ttMax)) i = fin tt ∧ colOf (k.rows.map fun g => fin g.potrad) i = fin pr ∧
      colOf (k.rows.map fun g => fin g.daylength) i = fin dl ∧ sp i = fin sq ∧
      -60 ≤ tn ∧ tn ≤ 60 ∧ 0 ≤ dr ∧ dr ≤ 200 ∧ 0 ≤ f ∧ f ≤ 1 ∧ -60 ≤ ta ∧ ta ≤ 60 ∧ tt ≤ 1 ∧ 0 ≤ pr ∧ 0 ≤ dl ∧
      pr * dl ≤ 6.15e7 := by
    intro i hi
    obtain ⟨tn, e1, a1, a2⟩ := hd.tMin tMin g1 i hi
    obtain ⟨tx, e2, b1, b2⟩ := hd.tMax tMax g2 i hi
    obtain ⟨dr, e3, c1, c2⟩ := hd.dtr dtr g3 i hi
    obtain ⟨m, e4⟩ := hd.smoothed sm g4 i hi
    obtain ⟨pc, e5, -⟩ := hd.prec prec g5 i hi
    obtain ⟨sq, e9⟩ := hd.seasonal sp g9 i hi
    obtain ⟨f, e6, f0, f1, -⟩ := tfmax_bounds (s.daily elev) dr m pc c1 hs.rain.1 hs.rain.2
    obtain ⟨ta, e7⟩ := tDay_fin (s.daily elev) tn tx
    have hta := tDay_within (p := s.daily elev) hs.coef.1 hs.coef.2 (a := fin tn) (b := fin tx)
      (fun r h => by rw [← Flt.fin.inj h]; exact ⟨a1, a2⟩) (fun r h => by rw [← Flt.fin.inj h]; exact ⟨b1, b2⟩) ta e7
    have hi' : i < k.rows.length := by omega
    obtain ⟨⟨o1, -, o3, tt, o4, -, o5⟩, o6⟩ := hG _ (List.getElem_mem hi')
    refine ⟨tn, dr, f, ta, tt, _, _, sq, e1, e3, by rw [e3, e4, e5, e6], by rw [e1, e2, e7], by rw [colOf_rows hi', o4],
      colOf_rows hi', colOf_rows hi', e9, a1, a2, c1, c2, f0, f1.le, hta.1, hta.2, o5.le, o3, o1, o6⟩
  obtain ⟨dew, hdew, v1, v2, v3, -⟩ := mtclimRun_dew hrun (P := fun col => ∀ i < n, ∃ x, col i = fin x ∧ -115 ≤ x)
    (tMin := tMin) (tMax := tMax) (dtr := dtr) (sm := sm) (prec := prec) (tt := colOf (k.rows.map (·.ttMax)))
    (pot := colOf (k.rows.map fun g => fin g.potrad)) (dl := colOf (k.rows.map fun g => fin g.daylength)) (sp := sp)
    (by rw [withGeom_keeps _ _ (by decide), g1]) (by rw [withGeom_keeps _ _ (by decide), g2])
    (by rw [withGeom_keeps _ _ (by decide), g3]) (by rw [withGeom_keeps _ _ (by decide), g4])
    (by rw [withGeom_keeps _ _ (by decide), g5])
    (by unfold withGeom; simp (decide := true) only [Dict.get?_set, if_true, if_false])
    (by unfold withGeom; simp (decide := true) only [Dict.get?_set, if_true, if_false])
    (by unfold withGeom; simp (decide := true) only [Dict.get?_set, if_true, if_false])
    (by rw [withGeom_keeps _ _ (by decide), g9])
    (fun i hi => by
      obtain ⟨x, hx, x1, -⟩ := hd.tMin tMin g1 i hi
      exact ⟨x, hx, by linarith⟩)
    (by
      intro old new ho h i hi
      unfold nextTdew pet at h
      rw [show (s.daily elev).elev = fin elev from rfl, show (s.daily elev).lapseRate = s.lapseRate from rfl, hpa] at h
      simp only [bind, Except.bind, pure, Except.pure, Except.ok.injEq] at h
      obtain ⟨tn, dr, f, ta, tt, pr, dl, sq, e1, e3, e4, e5, e6, e7, e8, e9, a1, a2, b1, b2, c1, c2, d1, d2, x1, f1, f2, f3⟩ :=
        hday i hi
      obtain ⟨x, hx, hx0⟩ := ho i hi
      obtain ⟨A, B, ρ, r1, r2⟩ := round_fin hpa0 (sp := sq) a1 a2 b1 b2 c1 c2 d1 d2 x1 f1 f2 f3
      refine ⟨_, ?_, (roundR_range r1 x).1⟩
      rw [← h]
      show tdew (calcPet (shortwave (tfmax (dtr i) (sm i) (prec i) (s.daily elev)) _ _ _) (tDay (tMin i) (tMax i) (s.daily elev))
        _ _ * _) _ _ _ = _
      rw [e4, e5, e1, e3, e6, e7, e8, e9, hx]
      exact r2 x hx0)
  refine ⟨⟨_, v3, fun i hi => ?_⟩, ⟨_, v1, fun i hi => ?_⟩, fun hcl => ⟨_, v2, fun i hi => ?_⟩⟩
  · obtain ⟨tn, dr, f, ta, tt, pr, dl, sq, e1, e3, e4, e5, e6, e7, e8, e9, a1, a2, b1, b2, c1, c2, d1, d2, x1, f1, f2, f3⟩ :=
      hday i hi
    obtain ⟨x, hx, hx0⟩ := hdew i hi
    have hne : (237.3 : ℝ) + x ≠ 0 := by
      have : (0 : ℝ) < 237.3 + x := by linarith
      exact this.ne'
    rw [e4, e6, e7, hx]
    unfold shortwave vaporPressure
    rw [svp_fin hne]
    simp only [mul_fin, add_fin, max₂_fin]
    exact ⟨_, rfl, mul_nonneg (mul_nonneg f1 (le_trans (by norm_num) (le_max_right _ _))) c1⟩
  · obtain ⟨x, hx, hx0⟩ := hdew i hi
    have hne : (237.3 : ℝ) + x ≠ 0 := by
      have : (0 : ℝ) < 237.3 + x := by linarith
      exact this.ne'
    rw [hx]
    unfold vaporPressure
    rw [svp_fin hne]
    exact ⟨_, rfl, (svpR_pos x).le⟩
  · obtain ⟨tn, dr, f, ta, tt, pr, dl, sq, e1, e3, e4, e5, e6, e7, e8, e9, a1, a2, b1, b2, c1, c2, -⟩ := hday i hi
    rw [e4]
    unfold tskc
    rw [if_pos (show Lw.upperS (s.daily elev).lwCloud = _ from hcl)]
    exact ⟨_, rfl, by linarith, by linarith⟩

theorem mtclim_good {fuel n : Nat} {s : Shared} {elev lat lon : ℝ} {d : Data} (k : Common fuel s elev lat lon d)
    (hn : d.days.length = n) (hm : s.method = .mtclim) (hs : SaneParams s) (hl : 0 < s.lapseRate)
    (hle : s.lapseRate * elev < 288.15) (hlat : |lat| ≤ 90) (hd : Measured n d)
    (hcols : ∀ k ∈ ["t_min", "t_max", "dtr", "smoothed_dtr", "prec", "seasonal_prec"], Dict.get? d.frame k ≠ none)
    (hcl : Lw.upperS s.lwCloud = "CLOUD_DEARDORFF") : DailyGood n k.base := by
  obtain ⟨h1, h2, h3⟩ := mtclim_daily k hn hm hs hl hle hlat hd hcols
  exact ⟨h1, h2, h3 hcl⟩

/-! ### The sub-daily values -/

open Disaggregate Np
open Solar (DayGeom)

variable {d : Disaggregate.Daily} {p : Par} {geom : List DayGeom} {tb te : Option (List (Flt ℝ))}

theorem exp_3_5 : Real.exp 3.5 ≤ 33.12 := by
  have h1 := Real.exp_one_lt_d9
  have h2 : Real.exp 3.5 * Real.exp 3.5 = Real.exp 1 ^ 7 := by
    rw [← Real.exp_add, ← Real.exp_nat_mul]; norm_num
  have h3 : Real.exp 1 ^ 7 ≤ 2.7182818286 ^ 7 := pow_le_pow_left₀ (Real.exp_pos 1).le h1.le 7
  have h4 := Real.exp_pos 3.5
  rw [← h2] at h3
  have h5 : (2.7182818286 : ℝ) ^ 7 ≤ 33.12 * 33.12 := by norm_num
  exact (mul_self_le_mul_self_iff h4.le (by norm_num)).2 (h3.trans h5)

theorem exp_neg_1_5 : 0.21 ≤ Real.exp (-1.5) := by
  have h1 := Real.exp_one_lt_d9
  have h2 : Real.exp 1.5 * Real.exp 1.5 = Real.exp 1 ^ 3 := by
    rw [← Real.exp_add, ← Real.exp_nat_mul]; norm_num
  have h3 : Real.exp 1 ^ 3 ≤ 2.7182818286 ^ 3 := pow_le_pow_left₀ (Real.exp_pos 1).le h1.le 3
  have h4 := Real.exp_pos 1.5
  have h5 : Real.exp 1.5 ≤ 4.76 := by
    rw [← h2] at h3
    have h5 : (2.7182818286 : ℝ) ^ 3 ≤ 4.76 * 4.76 := by norm_num
    exact (mul_self_le_mul_self_iff h4.le (by norm_num)).2 (h3.trans h5)
  have h6 : Real.exp (-1.5) * Real.exp 1.5 = 1 := by rw [← Real.exp_add]; norm_num
  have h7 := Real.exp_pos (-1.5)
  nlinarith

/-- Saturation vapour pressure at 60 degrees is less than 20.3 kPa. -/
theorem svpR_60 : svpR 60 ≤ 20300 := by
  have h : Real.exp (17.269 * 60 / (237.3 + 60)) ≤ 33.12 := by
    refine le_trans (Real.exp_le_exp.2 ?_) exp_3_5
    norm_num
  unfold svpR waterR
  rw [if_neg (by norm_num)]
  linarith

/-- Air pressure below 8000 m, between -60 and 60 degrees, is more than 21 kPa. -/
theorem pressure_ge {T elev lr : ℝ} (h1 : -60 ≤ T) (hl : 0 < lr) (hl1 : lr ≤ 0.0065) (he : elev ≤ 8000) :
    ∃ x, Humidity.pressure (fin T) elev lr = fin x ∧ 21 ≤ x := by
  have hc : 187 ≤ T + 273.15 - lr * elev / 2 := by
    have : lr * elev ≤ 52 := by
      rcases le_total elev 0 with h | h
      · nlinarith
      · calc lr * elev ≤ 0.0065 * 8000 := mul_le_mul hl1 he h (by norm_num)
          _ = 52 := by norm_num
    norm_num
    linarith
  refine ⟨_, C59_value T elev lr (by linarith), ?_⟩
  have hx : -1.5 ≤ -(9.80665 * elev) / (287 * (T + 273.15 - lr * elev / 2)) := by
    rw [le_div_iff₀ (by linarith)]
    linarith
  have := exp_neg_1_5.trans (Real.exp_le_exp.2 hx)
  linarith

/-- With two days or more, some step lies between the first two minima. -/
theorem vp_step {elev lat lr : ℝ} (hlat : |lat| ≤ 90) (hg : Solar.solarGeom elev lat lr = .ok geom) (hu : Usable d p)
    (t : Trace d p geom tb te) (hsub : p.ts < 1440) (hn : 2 ≤ d.doy.length)
    (hs : (-719 : ℝ) ≤ Disagg.utcShift (hours p) ∧ (Disagg.utcShift (hours p) : ℝ) ≤ 719)
    (hvp : ∀ x ∈ d.vaporPressure, ∃ v, x = fin v ∧ 0 ≤ v) (hT : ∀ T ∈ t.temp, -237.3 < T) :
    ∃ (i : Nat) (a b w T : ℝ), i < t.temp.length ∧ d.vaporPressure[0]? = some (fin a) ∧ d.vaporPressure[1]? = some (fin b) ∧
      t.temp[i]? = some T ∧ t.vp[i]? = some (fin (min (a + (b - a) * w) (svpR T) / 1000)) := by
  obtain ⟨hlen, h2⟩ := setMinMaxHour_inDays (geom_rows hlat hg) (p := hours p) hu.frac hu.frac1 t.h_times
  rw [List.length_map] at hlen
  have hts0 : 0 < p.ts := Nat.pos_of_dvd_of_pos hu.ts (by norm_num)
  have hts : p.ts ≤ 720 := by
    obtain ⟨m, hm⟩ := hu.ts
    have : 2 ≤ m := by
      by_contra h
      have : m ≤ 1 := by omega
      interval_cases m <;> omega
    nlinarith
  obtain ⟨q, hq⟩ : ∃ q, t.times[0]? = some q := ⟨_, List.getElem?_eq_getElem (by omega)⟩
  obtain ⟨q', hq'⟩ : ∃ q, t.times[1]? = some q := ⟨_, List.getElem?_eq_getElem (by omega)⟩
  obtain ⟨g, hgm, -, e, -⟩ := h2 0 q hq
  obtain ⟨-, -, -, -, b1, -⟩ := h2 1 q' hq'
  set S := Disagg.utcShift (hours p) with hS
  have hS1 : -719 ≤ S := by exact_mod_cast hs.1
  have hS2 : S ≤ 719 := by exact_mod_cast hs.2
  have b0 : q.1 ≤ 720 - (S + p.ts) := by
    rw [e, minMaxTime_eq]
    simp only [Nat.cast_zero, mul_zero]
    have : Disagg.riseTime g.fract ≤ 720 := by
      rcases Disagg.rise_set (geom_rows hlat hg g hgm) with ⟨a, -⟩ | ⟨a, -⟩ | ⟨a, b, c, -, d⟩
      · rw [a]; norm_num
      · rw [a]; norm_num
      · linarith
    have : ((hours p).ts : ℝ) = p.ts := rfl
    rw [this]
    linarith
  have b1' : 1440 - ((S : ℝ) + p.ts) < q'.1 := by
    have : ((hours p).ts : ℝ) = p.ts := rfl
    rw [this] at b1
    push_cast at b1
    linarith
  -- a step between the two minima
  obtain ⟨i, i1, i2⟩ : ∃ i : Nat, (p.ts : Int) * i ≤ 1440 - (S + p.ts) ∧ 1440 - (S + p.ts) < p.ts * i + p.ts := by
    have hD : 0 ≤ 1440 - (S + p.ts) := by omega
    have hz : (0 : Int) < p.ts := by exact_mod_cast hts0
    refine ⟨((1440 - (S + p.ts)) / p.ts).toNat, ?_, ?_⟩
    · rw [Int.toNat_of_nonneg (Int.ediv_nonneg hD hz.le)]
      exact Int.mul_ediv_self_le hz.ne'
    · rw [Int.toNat_of_nonneg (Int.ediv_nonneg hD hz.le)]
      exact Int.lt_mul_ediv_self_add hz
  have i1' : (p.ts : ℝ) * i ≤ 1440 - (S + p.ts) := by exact_mod_cast i1
  have i2' : 1440 - ((S : ℝ) + p.ts) < p.ts * i + p.ts := by exact_mod_cast i2
  have hts' : (p.ts : ℝ) ≤ 720 := by exact_mod_cast hts
  obtain ⟨-, l2, -, -⟩ := vaporPressure_ok t.h_vp
  rw [List.length_map] at l2
  have hi : i < t.temp.length := by
    rw [l2]
    show i < d.doy.length * 1440 / p.ts
    rw [Nat.lt_div_iff_mul_lt hts0]
    have : p.ts * i < 2880 := by
      have : (p.ts : Int) * i < 2880 := by omega
      exact_mod_cast this
    have h3 : 2880 ≤ d.doy.length * 1440 := by omega
    have h4 : ∃ m, 1440 = p.ts * m := hu.ts
    obtain ⟨m, hm⟩ := h4
    have h5 : i < d.doy.length * m := by
      by_contra hc
      push Not at hc
      have : p.ts * (d.doy.length * m) ≤ p.ts * i := Nat.mul_le_mul_left _ hc
      have h6 : p.ts * (d.doy.length * m) = d.doy.length * (p.ts * m) := by ring
      rw [h6, ← hm] at this
      omega
    have h7 : i + 1 ≤ d.doy.length * m := h5
    have h8 : p.ts * (i + 1) ≤ p.ts * (d.doy.length * m) := Nat.mul_le_mul_left _ h7
    have h6 : p.ts * (d.doy.length * m) = d.doy.length * (p.ts * m) := by ring
    rw [h6, ← hm] at h8
    rw [Nat.mul_add] at h8
    have h9 : i * p.ts = p.ts * i := Nat.mul_comm _ _
    omega
  have hv0 : 0 < d.vaporPressure.length := by rw [hu.vaporPressure]; omega
  have hv1 : 1 < d.vaporPressure.length := by rw [hu.vaporPressure]; omega
  obtain ⟨a, ha, -⟩ := hvp _ (List.getElem_mem hv0)
  obtain ⟨b, hb, -⟩ := hvp _ (List.getElem_mem hv1)
  have ha' : d.vaporPressure[0]? = some (fin a) := by rw [List.getElem?_eq_getElem hv0, ha]
  have hb' : d.vaporPressure[1]? = some (fin b) := by rw [List.getElem?_eq_getElem hv1, hb]
  exact ⟨i, a, b, _, _, hi, ha', hb', List.getElem?_eq_getElem hi, vp_between hlat hg hu t hq hq' ha' hb' (by linarith)
    (by linarith) (List.getElem?_eq_getElem hi) (hT _ (List.getElem_mem hi))⟩

/-- With two days or more, vapour pressure is defined at some step. -/
theorem vp_defined {elev lat lr : ℝ} (hlat : |lat| ≤ 90) (hg : Solar.solarGeom elev lat lr = .ok geom) (hu : Usable d p)
    (t : Trace d p geom tb te) (hsub : p.ts < 1440) (hn : 2 ≤ d.doy.length)
    (hs : (-719 : ℝ) ≤ Disagg.utcShift (hours p) ∧ (Disagg.utcShift (hours p) : ℝ) ≤ 719)
    (hvp : ∀ x ∈ d.vaporPressure, ∃ v, x = fin v ∧ 0 ≤ v) (hT : ∀ T ∈ t.temp, -237.3 < T) :
    ∃ (i : Nat) (v : ℝ), t.vp[i]? = some (fin v) := by
  obtain ⟨i, a, b, w, T, -, -, -, -, h⟩ := vp_step hlat hg hu t hsub hn hs hvp hT
  exact ⟨i, _, h⟩

/-- A column of the frame in which every value is possible. -/
def Good (col : List (Flt ℝ)) (n : Nat) (P : ℝ → Prop) : Prop := ∀ i < n, ∃ x, col[i]? = some (fin x) ∧ P x

theorem good_of_mem {col : List (Flt ℝ)} {n : Nat} {P : ℝ → Prop} (hl : col.length = n)
    (h : ∀ x ∈ col, ∃ v, x = fin v ∧ P v) : Good (fillBoth col) n P := by
  intro i hi
  obtain ⟨v, hv, hp⟩ := h _ (List.getElem_mem (show i < col.length by omega))
  exact ⟨v, fillBoth_keep (by rw [List.getElem?_eq_getElem (show i < col.length by omega), hv]), hp⟩

/-- Vapour pressure: defined everywhere, not negative, not above saturation at 60 degrees. -/
theorem good_vp {elev lat lr : ℝ} (hlat : |lat| ≤ 90) (hg : Solar.solarGeom elev lat lr = .ok geom) (hu : Usable d p)
    (t : Trace d p geom tb te) (hvp : ∀ x ∈ d.vaporPressure, ∃ v, x = fin v ∧ 0 ≤ v)
    (hT : ∀ T ∈ t.temp, -60 ≤ T ∧ T ≤ 60) (hdef : ∃ (i : Nat) (v : ℝ), t.vp[i]? = some (fin v)) :
    Good (fillBoth t.vp) (nDisagg d.doy.length p.ts) fun v => 0 ≤ v ∧ v ≤ 20.3 := by
  have hT' : ∀ T ∈ t.temp, -237.3 < T := fun T h => by linarith [(hT T h).1]
  obtain ⟨-, -, l3, h4⟩ := vaporPressure_ok t.h_vp
  have hcap : ∀ (i : Nat) (v : ℝ), t.vp[i]? = some (fin v) → 0 ≤ v ∧ v ≤ 20.3 := by
    intro i v hv
    refine ⟨vp_nonneg hlat hg hu t hvp hT' hv, ?_⟩
    obtain ⟨T, hTi, -⟩ := vp_inside hlat hg hu t hv
    have hx := h4 i (fin T) (by rw [List.getElem?_map, hTi]; rfl)
    rw [hv] at hx
    have hTm := List.mem_of_getElem? hTi
    have hne : (237.3 : ℝ) + T ≠ 0 := by
      have := hT' T hTm
      have : (0 : ℝ) < 237.3 + T := by linarith
      exact this.ne'
    have hsat : svpR T ≤ 20300 := (Physics.svpR_le (by linarith [(hT T hTm).1]) (hT T hTm).2).trans svpR_60
    have hM : (Cnst.MBAR_PER_BAR : ℝ) = 1000 := by unfold Cnst.MBAR_PER_BAR; norm_num
    unfold Humidity.capAtSaturation at hx
    rw [svp_fin hne, hM, div_fin_ne (by norm_num)] at hx
    generalize Interp.linear (K := ℝ) _ _ _ _ = w at hx
    simp only [Option.some.injEq] at hx
    cases w with
    | nan => simp at hx
    | fin w =>
      simp only [lt_fin, decide_eq_true_eq] at hx
      split at hx
      · rw [Flt.fin.inj hx]
        linarith
      · rename_i hn
        rw [Flt.fin.inj hx]
        linarith
  intro i hi
  obtain ⟨v, hv⟩ := (fillBoth_filled t.vp).complete hdef i (by omega)
  refine ⟨v, hv, ?_⟩
  rcases fillBoth_spec hv with ⟨j, w, -, hx, he, -⟩ | ⟨j, w, -, hx, he, -⟩ | ⟨he, -⟩
  · rw [Flt.fin.inj he]; exact hcap _ _ hx
  · rw [Flt.fin.inj he]; exact hcap _ _ hx
  · cases he

/-- What `disaggregate` needs to give possible values. -/
structure DayGood (d : Disaggregate.Daily) : Prop where
  shortwave : ∀ x ∈ d.shortwave, ∃ v, x = fin v ∧ 0 ≤ v
  daylength : ∀ x ∈ d.daylength, ∃ v, x = fin v ∧ 0 ≤ v
  vapor : ∀ x ∈ d.vaporPressure, ∃ v, x = fin v ∧ 0 ≤ v
  cloud : ∀ x ∈ d.tskc, ∃ v, x = fin v ∧ 0 ≤ v ∧ v ≤ 1
  prec : ∀ x ∈ d.prec, ∃ v, x = fin v ∧ 0 ≤ v
  wind : ∀ w, d.wind = some w → ∀ x ∈ w, ∃ v, x = fin v ∧ 0 ≤ v
  longwave : d.longwave = none

theorem good_full {col : List (Flt ℝ)} {n : Nat} {P : ℝ → Prop} (hl : col.length = n) (h : Good col n P) :
    Good (fillBoth col) n P := good_of_mem hl fun x hx => by
  obtain ⟨i, hi, rfl⟩ := List.getElem_of_mem hx
  obtain ⟨v, h1, h2⟩ := h i (by omega)
  rw [List.getElem?_eq_getElem hi] at h1
  exact ⟨v, Option.some.inj h1, h2⟩

/-- Every value of the sub-daily frame is possible. -/
theorem sub_good {elev lat lr : ℝ} (hlat : |lat| ≤ 90) (hg : Solar.solarGeom elev lat lr = .ok geom) (hu : Usable d p)
    (t : Trace d p geom tb te) (hd : DayGood d) (hT : ∀ T ∈ t.temp, -60 ≤ T ∧ T ≤ 60)
    (hsp : ∀ k < d.prec.length, Spreads p.precType d.tMin d.tPk d.dur k) (hl : 0 < p.lapseRate) (hl1 : p.lapseRate ≤ 0.0065)
    (he : p.elev ≤ 8000) (hsub : p.ts < 1440) (hn : 2 ≤ d.doy.length)
    (hs : (-719 : ℝ) ≤ Disagg.utcShift (hours p) ∧ (Disagg.utcShift (hours p) : ℝ) ≤ 719)
    {v : String} {col : List (Flt ℝ)} (hc : subColumn t.sub v = .ok col) :
    ∃ dflt, Units.importAttrs.get? v = some dflt ∧ Good col (nDisagg d.doy.length p.ts) fun x =>
      ∀ k s, Spec.si dflt (p.ts : ℝ) x = some (k, s) → Spec.Possible v s := by
  have hts0 : (0 : ℝ) < p.ts := by exact_mod_cast Nat.pos_of_dvd_of_pos hu.ts (by norm_num)
  have hvp := good_vp hlat hg hu t hd.vapor hT (vp_defined hlat hg hu t hsub hn hs hd.vapor fun T h => by
    linarith [(hT T h).1])
  obtain ⟨-, lt, lv, -⟩ := vaporPressure_ok t.h_vp
  rw [List.length_map] at lt
  have lv' : (fillBoth t.vp).length = nDisagg d.doy.length p.ts := by rw [(fillBoth_filled t.vp).length, lv]
  have hT' : Good (t.temp.map fin) (nDisagg d.doy.length p.ts) fun T => -60 ≤ T ∧ T ≤ 60 := by
    intro i hi
    rw [List.getElem?_map, List.getElem?_eq_getElem (by omega)]
    exact ⟨_, rfl, hT _ (List.getElem_mem _)⟩
  have hP : Good t.airPressure (nDisagg d.doy.length p.ts) fun x => 21 ≤ x := by
    intro i hi
    obtain ⟨T, h1, h2, -⟩ := hT' i hi
    obtain ⟨x, h3, h4⟩ := pressure_ge h2 hl hl1 he
    refine ⟨x, ?_, h4⟩
    unfold Trace.airPressure
    rw [List.getElem?_map, h1, Option.map_some, h3]
  have lp : t.airPressure.length = nDisagg d.doy.length p.ts := by
    unfold Trace.airPressure; rw [List.length_map, List.length_map, lt]
  have hC : Good t.cloud (nDisagg d.doy.length p.ts) fun c => 0 ≤ c ∧ c ≤ 1 := by
    intro i hi
    have hlt : i < t.cloud.length := by rw [t.l_cloud]; exact hi
    obtain ⟨x, h1, h2⟩ := C50_bounds t.h_cloud hd.cloud _ (List.getElem_mem hlt)
    exact ⟨x, by rw [List.getElem?_eq_getElem hlt, h1], h2⟩
  have mono : ∀ {col : List (Flt ℝ)} {P Q : ℝ → Prop}, Good col (nDisagg d.doy.length p.ts) P → (∀ x, P x → Q x) →
      Good col (nDisagg d.doy.length p.ts) Q := fun h hq i hi => by
    obtain ⟨x, h1, h2⟩ := h i hi
    exact ⟨x, h1, hq x h2⟩
  unfold subColumn at hc
  split at hc
  · refine ⟨"W m-2", by decide, ?_⟩
    rw [← Except.ok.inj hc]
    refine mono (good_of_mem t.l_sw (P := fun x => 0 ≤ x) (C52_nonneg ?_ t.h_sw hd.shortwave ?_ ?_)) ?_
    · rw [daylengthOf_length, hu.daylength, hu.shortwave]
    · unfold daylengthOf
      split
      · intro x hx
        obtain ⟨-, -, rfl⟩ := List.mem_map.1 hx
        exact ⟨_, rfl, by norm_num⟩
      · exact hd.daylength
    · intro r hr f hf
      obtain ⟨g, hgm, rfl⟩ := List.mem_map.1 hr
      obtain ⟨j, -, rfl⟩ := List.mem_map.1 hf
      exact (geom_rows hlat hg g hgm).nonneg j
    · intro x hx k s h
      simp only [Spec.si, Option.some.injEq, Prod.mk.injEq] at h
      rw [← h.2]; exact hx
  · refine ⟨"C", by decide, ?_⟩
    rw [← Except.ok.inj hc, temp_fill]
    refine mono hT' ?_
    intro x hx k s h
    simp only [Spec.si, Option.some.injEq, Prod.mk.injEq] at h
    rw [← h.2]
    show 0 < x + 273.15
    linarith [hx.1]
  · refine ⟨"Pa", by decide, ?_⟩
    rw [← Except.ok.inj hc, vp_fill]
    refine mono hvp ?_
    intro x hx k s h
    simp only [Spec.si, Option.some.injEq, Prod.mk.injEq] at h
    rw [← h.2]; exact hx.1
  · refine ⟨"%", by decide, ?_⟩
    rw [← Except.ok.inj hc]
    refine mono (good_full (by unfold Trace.relHumid; rw [List.length_zipWith, List.length_map, lt, lv', min_self])
      (P := fun x => 0 ≤ x ∧ x ≤ 100) ?_) ?_
    · intro i hi
      obtain ⟨T, h1, h2, -⟩ := hT' i hi
      obtain ⟨v, h3, h4, -⟩ := hvp i hi
      obtain ⟨x, h5, h6, h7, -⟩ := C57_percentage v T h4 (by linarith)
      refine ⟨x, ?_, h6, h7⟩
      unfold Trace.relHumid
      rw [List.getElem?_zipWith, h1, h3]
      exact congrArg some h5
    · intro x hx k s h
      simp only [Spec.si, Option.some.injEq, Prod.mk.injEq] at h
      rw [← h.2]
      exact ⟨div_nonneg hx.1 (by norm_num), by rw [div_le_one (by norm_num)]; exact hx.2⟩
  · refine ⟨"kPa", by decide, ?_⟩
    rw [← Except.ok.inj hc]
    refine mono (good_full lp hP) ?_
    intro x hx k s h
    simp only [Spec.si, Option.some.injEq, Prod.mk.injEq] at h
    rw [← h.2]
    show 0 < 1000 * x
    linarith
  · refine ⟨"g g-1", by decide, ?_⟩
    rw [← Except.ok.inj hc]
    refine mono (good_full (by unfold Trace.specHumid; rw [List.length_zipWith, lp, lv', min_self])
      (P := fun x => 0 ≤ x ∧ x < 1) ?_) ?_
    · intro i hi
      obtain ⟨P, h1, h2⟩ := hP i hi
      obtain ⟨v, h3, h4, h4'⟩ := hvp i hi
      obtain ⟨x, h5, h6, h7, -⟩ := C58_fraction v P h4 (by linarith)
      refine ⟨x, ?_, h6, h7⟩
      unfold Trace.specHumid
      rw [List.getElem?_zipWith, h1, h3]
      exact congrArg some h5
    · intro x hx k s h
      simp only [Spec.si, Option.some.injEq, Prod.mk.injEq] at h
      rw [← h.2]; exact hx
  · refine ⟨"fraction", by decide, ?_⟩
    rw [← Except.ok.inj hc]
    refine mono (good_full t.l_cloud hC) ?_
    intro x hx k s h
    simp only [Spec.si, Option.some.injEq, Prod.mk.injEq] at h
    rw [← h.2]; exact hx
  · refine ⟨"W m-2", by decide, ?_⟩
    rw [← Except.ok.inj hc]
    obtain ⟨ty, hty⟩ := hu.lwType
    obtain ⟨cl, hcl⟩ := hu.lwCloud
    obtain ⟨lw, g1, g2, g3⟩ := C60_series (t.temp.map fin) (fillBoth t.vp) t.cloud p.lwType p.lwCloud p.ts ty cl hty hcl
      (by rw [List.length_map, lt, lv']) (by rw [List.length_map, lt, t.l_cloud])
    have hlw := t.h_lw
    rw [hd.longwave, g1] at hlw
    obtain rfl := Except.ok.inj hlw
    refine mono (good_full (by rw [g2, List.length_map, lt]) (P := fun x => 0 ≤ x) ?_) ?_
    · intro i hi
      obtain ⟨T, h1, h2, -⟩ := hT' i hi
      obtain ⟨v, h3, h4, -⟩ := hvp i hi
      obtain ⟨c, h5, h6, h7⟩ := hC i hi
      obtain ⟨x, h8, h9⟩ := C60_nonneg ty cl T v c h4 h6 h7 (by linarith)
      exact ⟨x, by rw [g3 i _ _ _ h1 h3 h5, h8], h9⟩
    · intro x hx k s h
      simp only [Spec.si, Option.some.injEq, Prod.mk.injEq] at h
      rw [← h.2]; exact hx
  · refine ⟨"mm timestep-1", by decide, ?_⟩
    rw [← Except.ok.inj hc]
    refine mono (good_of_mem t.l_prec (P := fun x => 0 ≤ x) (prec_nonneg t.h_prec hsp hd.prec)) ?_
    intro x hx k s h
    simp only [Spec.si, Option.some.injEq, Prod.mk.injEq] at h
    rw [← h.2]
    exact div_nonneg hx (by positivity)
  · refine ⟨"m s-1", by decide, ?_⟩
    have hw := t.h_wind
    unfold windOf at hw
    cases hdw : d.wind with
    | none =>
      rw [hdw] at hw
      have : t.wind = none := (Except.ok.inj hw).symm
      have hn : t.sub.wind = none := by show t.wind.map fillBoth = none; rw [this]; rfl
      rw [hn] at hc
      cases hc
    | some w =>
      rw [hdw] at hw
      simp only [bind_ok, pure_ok, column_ok] at hw
      obtain ⟨o, h1, o', ⟨h2, rfl⟩, h3⟩ := hw
      have hn : t.sub.wind = some (fillBoth o') := by show t.wind.map fillBoth = _; rw [← h3]; rfl
      rw [hn] at hc
      rw [← Except.ok.inj hc]
      refine mono (good_of_mem h2 (P := fun x => 0 ≤ x) (wind_nonneg h1 (hd.wind w hdw))) ?_
      intro x hx k s h
      simp only [Spec.si, Option.some.injEq, Prod.mk.injEq] at h
      rw [← h.2]; exact hx
  · cases hc

/-! ### The run -/

/-- A cell with a complete, plausible record, not above 8000 m, and sensible parameters. -/
structure Sound (s : Shared) (n : Nat) (c : Run.CellIn Data ℝ) : Prop where
  elev : ∀ x, c.elev = fin x → x ≤ 8000
  lat : ∀ x, c.lat = fin x → |x| ≤ 90
  lon : ∀ x, c.lon = fin x → s.utcOffset = false ∨ |Disagg.remainder360 x - s.thetaS| < 180
  lapse : 0 < s.lapseRate ∧ s.lapseRate ≤ 0.0065
  fraction : 2 / 3 ≤ s.tmaxFraction ∧ s.tmaxFraction ≤ 1
  record : Measured n c.data
  rain : ∀ k < n, Falls s c.data.frame k
  storm : Lw.upperS s.precType = "TRIANGLE" ∨ Lw.upperS s.precType = "MIX" →
    Dict.get? c.data.frame "t_pk" ≠ none ∧ Dict.get? c.data.frame "dur" ≠ none
  longwave : Dict.get? c.data.frame "longwave" = none

theorem Sound.column {s : Shared} {n : Nat} {c : Run.CellIn Data ℝ} (h : Sound s n c) (elev : ℝ) (he : c.elev = fin elev) :
    s.lapseRate * elev < 288.15 := by
  have h1 := h.elev elev he
  have h2 := h.lapse
  rcases le_total elev 0 with h' | h'
  · nlinarith
  · calc s.lapseRate * elev ≤ 0.0065 * 8000 := mul_le_mul h2.2 h1 h' (by norm_num)
      _ < 288.15 := by norm_num

theorem usable_of {fuel : Nat} {s : Shared} {elev lat lon : ℝ} {d : Data} (q : Common fuel s elev lat lon d)
    {daily : Disaggregate.Daily} (hd : dailyOf d.days q.base = .ok daily) {geom : List DayGeom}
    {tb te : Option (List (Flt ℝ))} (t : Trace daily (s.sub elev lon) geom tb te) (hts : s.ts ∣ 1440)
    (hn : 0 < d.days.length) (hm : Measured d.days.length d) (hf : 0 < s.tmaxFraction ∧ s.tmaxFraction ≤ 1)
    (hst : Lw.upperS s.precType = "TRIANGLE" ∨ Lw.upperS s.precType = "MIX" →
      Dict.get? d.frame "t_pk" ≠ none ∧ Dict.get? d.frame "dur" ≠ none) : Usable daily (s.sub elev lon) := by
  obtain ⟨q1, q2, q3, q4, q5, q6, q7, q8, q9, q10, q11, q12⟩ := dailyOf_ok hd
  have ld : daily.doy.length = d.days.length := by rw [q1, List.length_map]
  have lcol : ∀ {name xs}, Cell.column d.days.length q.base name = .ok xs → xs.length = daily.doy.length := by
    intro name xs h
    obtain ⟨col, -, rfl⟩ := Cell.column_ok.1 h
    simp [ld]
  have lcol? : ∀ {name xs}, column? d.days.length q.base name = some xs → xs.length = daily.doy.length := by
    intro name xs h
    rw [column?_length h, ld]
  have hfin : ∀ (name : String) (xs : List (Flt ℝ)), Cell.column d.days.length q.base name = .ok xs →
      (∀ col, Dict.get? q.base name = some col → ∀ i < d.days.length, ∃ x, col i = fin x) → ∀ v ∈ xs, isFin v = true := by
    intro name xs h hcol v hv
    obtain ⟨col, g, rfl⟩ := Cell.column_ok.1 h
    obtain ⟨i, hi, rfl⟩ := List.mem_map.1 hv
    obtain ⟨x, hx⟩ := hcol col g i (List.mem_range.1 hi)
    rw [hx]; rfl
  have hlw := t.h_lw
  unfold Humidity.longwave at hlw
  simp only [bind_ok] at hlw
  obtain ⟨ty, hty, cl, hcl, -⟩ := hlw
  exact {
    ts := hts
    ne := by intro e; rw [e] at ld; simp at ld; omega
    doy := by
      intro x hx
      rw [q1] at hx
      obtain ⟨d, -, rfl⟩ := List.mem_map.1 hx
      exact doy_le d
    frac := hf.1
    frac1 := hf.2
    shortwave := lcol q2
    daylength := lcol q3
    tMin := lcol q4
    tMax := lcol q5
    vaporPressure := lcol q6
    tskc := lcol q7
    prec := lcol q8
    wind := fun w hw => lcol? (q9 ▸ hw)
    longwave := fun w hw => lcol? (q10 ▸ hw)
    tMin_fin := hfin _ _ q4 (by
      rw [base_keeps q (by decide) (by decide)]
      intro col hc i hi
      obtain ⟨x, hx, -⟩ := hm.tMin col hc i hi
      exact ⟨x, hx⟩)
    tMax_fin := hfin _ _ q5 (by
      rw [base_keeps q (by decide) (by decide)]
      intro col hc i hi
      obtain ⟨x, hx, -⟩ := hm.tMax col hc i hi
      exact ⟨x, hx⟩)
    lwType := ⟨ty, hty⟩
    lwCloud := ⟨cl, hcl⟩
    storm := by
      intro h
      obtain ⟨h1, h2⟩ := hst h
      rw [q11, q12]
      unfold column?
      rw [base_keeps q (by decide) (by decide), base_keeps q (by decide) (by decide)]
      simp only [Option.isSome_map]
      exact ⟨Option.isSome_iff_ne_none.2 h1, Option.isSome_iff_ne_none.2 h2⟩ }

/-- Temperatures stay within the record. -/
theorem temp_sound {fuel n : Nat} {s : Shared} {c : Run.CellIn Data ℝ} (hs : Sound s n c) {elev lat lon : ℝ}
    (h2 : c.lat = fin lat) (h3 : c.lon = fin lon) (q : Common fuel s elev lat lon c.data) (hlen : c.data.days.length = n)
    {daily : Disaggregate.Daily} (hd : dailyOf c.data.days q.base = .ok daily)
    (t : Trace daily (s.sub elev lon) q.geom (some [c.data.stateEnd.1, c.data.stateEnd.2]) none)
    (hus : Usable daily (s.sub elev lon)) : ∀ T ∈ t.temp, -60 ≤ T ∧ T ≤ 60 := by
  obtain ⟨q1, q2, q3, q4, q5, -⟩ := dailyOf_ok hd
  have ld : daily.doy.length = n := by rw [q1, List.length_map, hlen]
  have hcolm : ∀ {name : String} {xs : List (Flt ℝ)} {P : ℝ → Prop}, Cell.column c.data.days.length q.base name = .ok xs →
      (∀ col, Dict.get? q.base name = some col → ∀ i < n, ∃ x, col i = fin x ∧ P x) → ∀ x ∈ xs, ∃ v, x = fin v ∧ P v := by
    intro name xs P h hP x hx
    obtain ⟨col, g, rfl⟩ := Cell.column_ok.1 h
    obtain ⟨i, hi, rfl⟩ := List.mem_map.1 hx
    exact hP col g i (by rw [← hlen]; exact List.mem_range.1 hi)
  obtain ⟨sa, sb, hst, s1, s2, s3, s4⟩ := hs.record.state
  have htl : t.times.length = n := by
    have h := t.h_times
    unfold Disagg.setMinMaxHour at h
    rw [(mapM_range_ok h).1, List.length_map, ld]
  refine temp_within (hs.lat lat h2) q.h_geom (p := hours (s.sub elev lon)) hs.fraction.1 hs.fraction.2 (hs.lon lon h3) t.h_times
    (by rw [hus.tMin, ld, htl]) (by rw [hus.tMax, ld, htl]) ?_ t.h_temp (hcolm q4 ?_) (hcolm q5 ?_)
    ⟨sa, by rw [hst], s1, s2⟩ ⟨sb, by rw [hst], s3, s4⟩
  · show s.ts * (daily.doy.length * 1440 / s.ts) ≤ _
    rw [List.length_map, Nat.mul_comm 1440]
    exact Nat.mul_div_le _ _
  · rw [base_keeps q (by decide) (by decide)]; exact hs.record.tMin
  · rw [base_keeps q (by decide) (by decide)]; exact hs.record.tMax

/-- The daily frame handed on holds possible values, if the values estimated or given are possible. -/
theorem dayGood_of {fuel n : Nat} {s : Shared} {c : Run.CellIn Data ℝ} (hs : Sound s n c) {elev lat lon : ℝ}
    (h1 : c.elev = fin elev) (q : Common fuel s elev lat lon c.data) (hlen : c.data.days.length = n)
    {daily : Disaggregate.Daily} (hd : dailyOf c.data.days q.base = .ok daily) (hgd : DailyGood n q.base) : DayGood daily := by
  obtain ⟨q1, q2, q3, q4, q5, q6, q7, q8, q9, q10, q11, q12⟩ := dailyOf_ok hd
  -- columns of the daily frame
  have hcolm : ∀ {name : String} {xs : List (Flt ℝ)} {P : ℝ → Prop}, Cell.column c.data.days.length q.base name = .ok xs →
      (∀ col, Dict.get? q.base name = some col → ∀ i < n, ∃ x, col i = fin x ∧ P x) → ∀ x ∈ xs, ∃ v, x = fin v ∧ P v := by
    intro name xs P h hP x hx
    obtain ⟨col, g, rfl⟩ := Cell.column_ok.1 h
    obtain ⟨i, hi, rfl⟩ := List.mem_map.1 hx
    exact hP col g i (by rw [← hlen]; exact List.mem_range.1 hi)
  have hle := hs.column elev h1
  refine ⟨hcolm q2 ?_, hcolm q3 ?_, hcolm q6 ?_, hcolm q7 ?_, hcolm q8 ?_, ?_, ?_⟩
  · obtain ⟨col', g, hP⟩ := hgd.shortwave
    intro col hc
    rw [g] at hc
    rw [← Option.some.inj hc]; exact hP
  · intro col hc i hi
    obtain ⟨g, dl, g1, g2, g3⟩ := base_daylength q (k := i) (List.getElem?_eq_getElem (by omega))
    rw [g2] at hc
    rw [← Option.some.inj hc]
    refine ⟨_, g3, ?_⟩
    exact ((C45_bounds_partial elev lat s.lapseRate hs.lapse.1 hle q.geom q.h_geom).2 g (List.mem_of_getElem? g1)).1
  · obtain ⟨col', g, hP⟩ := hgd.vapor
    intro col hc
    rw [g] at hc
    rw [← Option.some.inj hc]; exact hP
  · obtain ⟨col', g, hP⟩ := hgd.cloud
    intro col hc
    rw [g] at hc
    rw [← Option.some.inj hc]; exact hP
  · rw [base_keeps q (by decide) (by decide)]
    exact hs.record.prec
  · intro w hw x hx
    rw [q9] at hw
    unfold column? at hw
    rw [base_keeps q (by decide) (by decide)] at hw
    obtain ⟨col, g, rfl⟩ := Option.map_eq_some_iff.1 hw
    obtain ⟨i, hi, rfl⟩ := List.mem_map.1 hx
    exact hs.record.wind col g i (by rw [← hlen]; exact List.mem_range.1 hi)
  · rw [q10]
    unfold column?
    rw [base_keeps q (by decide) (by decide), hs.longwave]; rfl

/-- Possible values throughout, if the daily values are. -/
theorem possible_of (j : Job) (hj : j.Sane) {fuel : Nat} {order : List (Dict String Chunk.Slice)} (ho : j.Schedule order)
    {files : Run.Files Output} (hrun : j.run fuel order = .ok files) (hsub : j.shared.ts < 1440) (hn : 2 ≤ j.n)
    {c : Run.Cell} (hc : j.Computed c) (hs : Sound j.shared j.n (j.inp c))
    (hgood : ∀ elev lat lon, (j.inp c).elev = fin elev → (j.inp c).lat = fin lat →
      ∀ k : Common fuel j.shared elev lat lon (j.inp c).data, DailyGood j.n k.base)
    {v u : String} (hu : j.shared.outVars.get? v = some u) (hbug : ¬ (v = "air_pressure" ∧ u = "hPa")) :
    ∃ val kd, Recorded j files v c val ∧ Spec.kindOf v = some kd ∧ ∀ k < j.n, ∀ i < 1440 / j.shared.ts, ∃ x s,
      val (j.stamp k i) = fin x ∧ Spec.si u (j.shared.ts : ℝ) x = some (kd, s) ∧ Spec.Possible v s := by
  obtain ⟨elev, lat, lon, h1, h2, h3, q, daily, sub, hd, hsu, hcol⟩ := written_sub j hj ho hrun hsub hc
  obtain ⟨col, val, a1, a2, a3⟩ := hcol v u hu
  have hlen : (j.inp c).data.days.length = j.n := by rw [hj.data c, length_consecutive]
  obtain ⟨t, rfl⟩ := disaggregate_ok.1 hsu
  have hm := hs.record
  rw [← hlen] at hm
  have hus := usable_of q hd t hj.step.2 (by omega) hm ⟨by linarith [hs.fraction.1], hs.fraction.2⟩ hs.storm
  obtain ⟨q1, q2, q3, q4, q5, q6, q7, q8, q9, q10, q11, q12⟩ := dailyOf_ok hd
  have ld : daily.doy.length = j.n := by rw [q1, List.length_map, hlen]
  have hlat := hs.lat lat h2
  have hDG := dayGood_of hs h1 q hlen hd (hgood elev lat lon h1 h2 q)
  have hT := temp_sound hs h2 h3 q hlen hd t hus
  have hsp : ∀ k < daily.prec.length, Spreads (j.shared.sub elev lon).precType daily.tMin daily.tPk daily.dur k := by
    intro k hk
    rw [hus.prec, ld] at hk
    exact falls_spreads q hd (by rw [hlen]; exact hk) (hs.rain k hk)
  obtain ⟨dflt, hdf, hG⟩ := sub_good hlat q.h_geom hus t hDG hT hsp hs.lapse.1 hs.lapse.2 (hs.elev elev h1) hsub (by omega)
    (utcShift_half (hs.lon lon h3)) a1
  have hpt : ∀ k < j.n, ∀ i < 1440 / j.shared.ts, ∃ x s kd, val (j.stamp k i) = fin x ∧ Spec.kindOf v = some kd ∧
      Spec.si u (j.shared.ts : ℝ) x = some (kd, s) ∧ Spec.Possible v s := by
    intro k hk i hi
    have hnd : nDisagg daily.doy.length (j.shared.sub elev lon).ts = j.n * (1440 / j.shared.ts) := by
      rw [ld]
      exact Nat.mul_div_assoc _ hj.step.2
    obtain ⟨x, g1, g2⟩ := hG (k * (1440 / j.shared.ts) + i) (by
      rw [hnd]
      have : (k + 1) * (1440 / j.shared.ts) ≤ j.n * (1440 / j.shared.ts) := Nat.mul_le_mul_right _ hk
      rw [Nat.add_mul, Nat.one_mul] at this
      omega)
    have hx := a3 k hk i hi
    rw [List.getD_eq_getElem?_getD, g1, Option.getD_some] at hx
    obtain ⟨y, s, kd, b1, b2, b3, b4⟩ := convert_si hbug hdf hj.step.1 hx
    exact ⟨y, s, kd, b1, b2, b3, g2 kd s b4⟩
  obtain ⟨-, -, kd, -, hkd, -⟩ := hpt 0 (by omega) 0 hj.step.pos
  refine ⟨val, kd, a2, hkd, fun k hk i hi => ?_⟩
  obtain ⟨x, s, kd', b1, b2, b3, b4⟩ := hpt k hk i hi
  rw [hkd] at b2
  obtain rfl := Option.some.inj b2
  exact ⟨x, s, b1, b3, b4⟩

/-- **C78**, estimating: over complete, plausible records everything a sub-daily run writes is finite and possible. -/
theorem C78_mtclim_partial (j : Job) (hj : j.Sane) (fuel : Nat) (order : List (Dict String Chunk.Slice)) (ho : j.Schedule order)
    (files : Run.Files Output) (hrun : j.run fuel order = .ok files) (hsub : j.shared.ts < 1440) (hn : 2 ≤ j.n)
    (hm : j.shared.method = .mtclim) (hp : SaneParams j.shared) (hcl : Lw.upperS j.shared.lwCloud = "CLOUD_DEARDORFF")
    (c : Run.Cell) (hc : j.Computed c) (hs : Sound j.shared j.n (j.inp c))
    (hcols : ∀ k ∈ ["t_min", "t_max", "dtr", "smoothed_dtr", "prec", "seasonal_prec"],
      Dict.get? (j.inp c).data.frame k ≠ none)
    (v u : String) (hu : j.shared.outVars.get? v = some u) (hbug : ¬ (v = "air_pressure" ∧ u = "hPa")) :
    ∃ val kd, Recorded j files v c val ∧ Spec.kindOf v = some kd ∧ ∀ k < j.n, ∀ i < 1440 / j.shared.ts, ∃ x s,
      val (j.stamp k i) = fin x ∧ Spec.si u (j.shared.ts : ℝ) x = some (kd, s) ∧ Spec.Possible v s :=
  possible_of j hj ho hrun hsub hn hc hs (fun elev lat _ he hlat k =>
    mtclim_good k (by rw [hj.data c, length_consecutive]) hm hp hs.lapse.1 (hs.column elev he) (hs.lat lat hlat) hs.record hcols
      hcl) hu hbug

/-- What is given is used. -/
theorem passthrough_good {fuel n : Nat} {s : Shared} {elev lat lon : ℝ} {d : Data} (k : Common fuel s elev lat lon d)
    (hm : s.method = .passthrough) (hgiven : DailyGood n d.frame) : DailyGood n k.base := by
  have hrun : passthroughRun (withGeom k.rows d.frame) (s.daily elev) = .ok k.base := by
    have h := k.h_base
    rw [hm] at h
    exact h
  have keep : ∀ {name col}, Dict.get? d.frame name = some col → name ∉ ["daylength", "potrad", "tt_max"] →
      name ≠ "seasonal_prec" → Dict.get? k.base name = some col := fun h1 h2 h3 =>
    ((C42_passthrough_partial _ _).2 _ hrun).1 _ _ (by rw [withGeom_keeps _ _ h2, h1]) (fun h => absurd h h3)
  obtain ⟨c1, g1, p1⟩ := hgiven.shortwave
  obtain ⟨c2, g2, p2⟩ := hgiven.vapor
  obtain ⟨c3, g3, p3⟩ := hgiven.cloud
  exact ⟨⟨c1, keep g1 (by decide) (by decide), p1⟩, ⟨c2, keep g2 (by decide) (by decide), p2⟩,
    ⟨c3, keep g3 (by decide) (by decide), p3⟩⟩

/-- **C78**, passing through: the same if radiation, vapour pressure and cloud cover are given with possible values. -/
theorem C78_passthrough_partial (j : Job) (hj : j.Sane) (fuel : Nat) (order : List (Dict String Chunk.Slice)) (ho : j.Schedule order)
    (files : Run.Files Output) (hrun : j.run fuel order = .ok files) (hsub : j.shared.ts < 1440) (hn : 2 ≤ j.n)
    (hm : j.shared.method = .passthrough) (c : Run.Cell) (hc : j.Computed c) (hs : Sound j.shared j.n (j.inp c))
    (hgiven : DailyGood j.n (j.inp c).data.frame)
    (v u : String) (hu : j.shared.outVars.get? v = some u) (hbug : ¬ (v = "air_pressure" ∧ u = "hPa")) :
    ∃ val kd, Recorded j files v c val ∧ Spec.kindOf v = some kd ∧ ∀ k < j.n, ∀ i < 1440 / j.shared.ts, ∃ x s,
      val (j.stamp k i) = fin x ∧ Spec.si u (j.shared.ts : ℝ) x = some (kd, s) ∧ Spec.Possible v s :=
  possible_of j hj ho hrun hsub hn hc hs (fun _ _ _ _ _ k => passthrough_good k hm hgiven) hu hbug

theorem demo_sound (c : Run.Cell) : Sound (demo .mtclim).shared 2 ((demo .mtclim).inp c) where
  elev := fun x h => by
    have : (100 : ℝ) = x := Flt.fin.inj h
    rw [← this]; norm_num
  lat := fun x h => by
    have : (45 : ℝ) = x := Flt.fin.inj h
    rw [← this]; norm_num
  lon := fun _ _ => Or.inl rfl
  lapse := by unfold demo; norm_num
  fraction := by unfold demo; norm_num
  record := {
    tMin := by
      intro col h i _
      simp (decide := true) only [demo, Dict.get?_cons, if_true, if_false, Option.some.injEq] at h
      subst h; exact ⟨5, rfl, by norm_num, by norm_num⟩
    tMax := by
      intro col h i _
      simp (decide := true) only [demo, Dict.get?_cons, if_true, if_false, Option.some.injEq] at h
      subst h; exact ⟨15, rfl, by norm_num, by norm_num⟩
    dtr := by
      intro col h i _
      simp (decide := true) only [demo, Dict.get?_cons, if_true, if_false, Option.some.injEq] at h
      subst h; exact ⟨10, rfl, by norm_num, by norm_num⟩
    smoothed := by
      intro col h i _
      simp (decide := true) only [demo, Dict.get?_cons, if_true, if_false, Option.some.injEq] at h
      subst h; exact ⟨10, rfl⟩
    prec := by
      intro col h i _
      simp (decide := true) only [demo, Dict.get?_cons, if_true, if_false, Option.some.injEq] at h
      subst h; exact ⟨24, rfl, by norm_num⟩
    seasonal := by
      intro col h i _
      simp (decide := true) only [demo, Dict.get?_cons, if_true, if_false, Option.some.injEq] at h
      subst h; exact ⟨800, rfl⟩
    wind := by
      intro col h i _
      have : Dict.get? ((demo .mtclim).inp c).data.frame "wind" = none := rfl
      rw [this] at h; cases h
    state := ⟨4, 14, rfl, by norm_num, by norm_num, by norm_num, by norm_num⟩ }
  rain := fun _ _ => Or.inl (by unfold demo; decide)
  storm := (demo_complete .mtclim c).storm
  longwave := rfl

/-- **C78**: there is such a run. -/
example : (demo .mtclim).Sane ∧ (demo .mtclim).shared.ts < 1440 ∧ 2 ≤ (demo .mtclim).n ∧
    (demo .mtclim).shared.method = .mtclim ∧ SaneParams (demo .mtclim).shared ∧
    Lw.upperS (demo .mtclim).shared.lwCloud = "CLOUD_DEARDORFF" ∧ (demo .mtclim).Computed [0, 0] ∧
    Sound (demo .mtclim).shared (demo .mtclim).n ((demo .mtclim).inp [0, 0]) ∧
    (∀ k ∈ ["t_min", "t_max", "dtr", "smoothed_dtr", "prec", "seasonal_prec"],
      Dict.get? ((demo .mtclim).inp [0, 0]).data.frame k ≠ none) ∧
    ∃ order fuel files, (demo .mtclim).Schedule order ∧ (demo .mtclim).run fuel order = .ok files :=
  ⟨demo_sane _, by unfold demo; decide, by unfold demo; decide, rfl, demo_params, by unfold demo; decide,
    ⟨by decide, 1, rfl, one_pos⟩, demo_sound _, (demo_complete .mtclim [0, 0]).columns, demo_mtclim_runs⟩

/-- **C78** in full: everything a sub-daily run writes over complete, plausible input is finite and possible. -/
def C78_full : Prop := ∀ (j : Job), j.Sane → ∀ (fuel : Nat) (order : List (Dict String Chunk.Slice)), j.Schedule order →
  ∀ files : Run.Files Output, j.run fuel order = .ok files → j.shared.ts < 1440 → SaneParams j.shared →
  ∀ c, j.Computed c → Sound j.shared j.n (j.inp c) →
  (∀ k ∈ ["t_min", "t_max", "dtr", "smoothed_dtr", "prec", "seasonal_prec"], Dict.get? (j.inp c).data.frame k ≠ none) →
  (j.shared.method = .passthrough → DailyGood j.n (j.inp c).data.frame) →
  ∀ v u, j.shared.outVars.get? v = some u →
    ∃ val kd, Recorded j files v c val ∧ Spec.kindOf v = some kd ∧ ∀ k < j.n, ∀ i < 1440 / j.shared.ts, ∃ x s,
      val (j.stamp k i) = fin x ∧ Spec.si u (j.shared.ts : ℝ) x = some (kd, s) ∧ Spec.Possible v s

/-- A run over a single day. -/
noncomputable def oneDay : Job :=
  { demo .passthrough with
    shared := { (demo .passthrough).shared with outVars := [("vapor_pressure", "kPa")] }
    n := 1
    inp := fun _ => ⟨fin 100, fin 45, fin (-120), ⟨consecutive 0 1,
      [("t_min", fun _ => fin 5), ("t_max", fun _ => fin 15), ("prec", fun _ => fin 24), ("dtr", fun _ => fin 10),
       ("smoothed_dtr", fun _ => fin 10), ("seasonal_prec", fun _ => fin 800), ("shortwave", fun _ => fin 200),
       ("vapor_pressure", fun _ => fin 600), ("tskc", fun _ => fin 0.5)], (fin 4, fin 14)⟩⟩ }

theorem oneDay_sane : oneDay.Sane where
  step := (demo_sane .passthrough).step
  pos := Nat.one_pos
  calendar := regular_standard _ _
  data := fun _ => rfl
  freq := (demo_sane .passthrough).freq
  years := by
    intro T h t ht
    have e : Times.outputTimes oneDay.shared.cfg (consecutive 0 1) = .ok [0, 720] := by
      show Times.outputTimes ⟨720, "standard", false⟩ (consecutive 0 1) = _
      decide +kernel
    have h' : Times.outputTimes oneDay.shared.cfg (consecutive 0 1) = .ok T := h
    rw [e] at h'
    injection h' with h'
    subst h'
    revert t
    decide +kernel
  vars := by
    show (Dict.keys [("vapor_pressure", "kPa")]).Nodup
    decide
  names := by
    show ((Dict.keys [("vapor_pressure", "kPa")]).map (demo .passthrough).names).Nodup
    simp [Dict.keys]
  dims := (demo_sane .passthrough).dims
  dims_pos := (demo_sane .passthrough).dims_pos
  chunks := (demo_sane .passthrough).chunks
  chunks_pos := (demo_sane .passthrough).chunks_pos
  same := (demo_sane .passthrough).same

theorem oneDay_record (c : Run.Cell) : Measured 1 (oneDay.inp c).data where
  tMin := by
    intro col h i _
    simp (decide := true) only [oneDay, Dict.get?_cons, if_true, if_false, Option.some.injEq] at h
    subst h; exact ⟨5, rfl, by norm_num, by norm_num⟩
  tMax := by
    intro col h i _
    simp (decide := true) only [oneDay, Dict.get?_cons, if_true, if_false, Option.some.injEq] at h
    subst h; exact ⟨15, rfl, by norm_num, by norm_num⟩
  dtr := by
    intro col h i _
    simp (decide := true) only [oneDay, Dict.get?_cons, if_true, if_false, Option.some.injEq] at h
    subst h; exact ⟨10, rfl, by norm_num, by norm_num⟩
  smoothed := by
    intro col h i _
    simp (decide := true) only [oneDay, Dict.get?_cons, if_true, if_false, Option.some.injEq] at h
    subst h; exact ⟨10, rfl⟩
  prec := by
    intro col h i _
    simp (decide := true) only [oneDay, Dict.get?_cons, if_true, if_false, Option.some.injEq] at h
    subst h; exact ⟨24, rfl, by norm_num⟩
  seasonal := by
    intro col h i _
    simp (decide := true) only [oneDay, Dict.get?_cons, if_true, if_false, Option.some.injEq] at h
    subst h; exact ⟨800, rfl⟩
  wind := by
    intro col h i _
    have : Dict.get? (oneDay.inp c).data.frame "wind" = none := rfl
    rw [this] at h; cases h
  state := ⟨4, 14, rfl, by norm_num, by norm_num, by norm_num, by norm_num⟩

theorem oneDay_columns (c : Run.Cell) : ∀ k ∈ ["t_min", "t_max", "dtr", "smoothed_dtr", "prec", "seasonal_prec"],
    Dict.get? (oneDay.inp c).data.frame k ≠ none := by
  intro k hk
  simp only [List.mem_cons, List.not_mem_nil, or_false] at hk
  rcases hk with rfl | rfl | rfl | rfl | rfl | rfl <;> simp [oneDay, Dict.get?_cons]

theorem oneDay_sound (c : Run.Cell) : Sound oneDay.shared 1 (oneDay.inp c) :=
  { demo_sound c with
    elev := (demo_sound c).elev
    lat := (demo_sound c).lat
    lon := fun _ _ => Or.inl rfl
    record := oneDay_record c
    rain := fun _ _ => Or.inl (by unfold oneDay demo; decide)
    storm := by unfold oneDay demo; rintro (h | h) <;> exact absurd h (by decide)
    longwave := rfl }

theorem oneDay_complete (c : Run.Cell) : CompleteCell oneDay.shared 1 (oneDay.inp c) where
  place := ⟨100, 45, -120, rfl, rfl, rfl, by rw [abs_of_pos] <;> norm_num, by unfold oneDay demo; norm_num⟩
  lapse := (oneDay_sound c).lapse.1
  columns := oneDay_columns c
  radiation := fun _ => by simp [oneDay, Dict.get?_cons]
  tMin := fun col h i hi => by
    obtain ⟨x, hx, -⟩ := (oneDay_record c).tMin col h i hi
    exact ⟨x, hx⟩
  tMax := fun col h i hi => by
    obtain ⟨x, hx, -⟩ := (oneDay_record c).tMax col h i hi
    exact ⟨x, hx⟩
  state := ⟨4, 14, rfl⟩
  fraction := by unfold oneDay demo; norm_num
  lwType := (demo_complete .passthrough c).lwType
  lwCloud := (demo_complete .passthrough c).lwCloud
  storm := (oneDay_sound c).storm

theorem oneDay_given (c : Run.Cell) : DailyGood 1 (oneDay.inp c).data.frame :=
  ⟨⟨_, rfl, fun _ _ => ⟨200, rfl, by norm_num⟩⟩, ⟨_, rfl, fun _ _ => ⟨600, rfl, by norm_num⟩⟩,
    ⟨_, rfl, fun _ _ => ⟨0.5, rfl, by norm_num, by norm_num⟩⟩⟩

theorem oneDay_runs : ∃ order files, oneDay.Schedule order ∧ oneDay.run 0 order = .ok files := by
  obtain ⟨files, h⟩ := (C71_run oneDay oneDay_sane 0 [[("lat", none), ("lon", none)]]
    ⟨_, rfl, List.Perm.refl _⟩ (fun c _ => oneDay_complete c) (fun h => by cases h)).2 (by
      intro c _ q hq
      have hq : q = ("vapor_pressure", "kPa") := by simpa [oneDay] using hq
      subst hq
      refine ⟨?_, _, _, rfl, rfl⟩
      unfold Offers
      rw [if_pos (by unfold oneDay demo; decide)]
      exact Or.inl (by decide))
  exact ⟨_, files, ⟨_, rfl, List.Perm.refl _⟩, h⟩

/-- **C78 is violated by the code**: over a single day nothing lies between two minima, and no vapour pressure (nor what
follows from it) is written. -/
theorem C78_refuted : ¬ C78_full := by
  intro h
  obtain ⟨order, files, ho, hrun⟩ := oneDay_runs
  have hc : oneDay.Computed [0, 0] := ⟨by unfold oneDay demo; decide, 1, rfl, one_pos⟩
  have hsub : oneDay.shared.ts < 1440 := by unfold oneDay demo; decide
  obtain ⟨val, kd, hval, -, hp⟩ := h oneDay oneDay_sane 0 order ho files hrun hsub
    ⟨demo_params.tol, demo_params.coef, demo_params.rain⟩ [0, 0] hc (oneDay_sound _) (oneDay_columns _)
    (fun _ => oneDay_given _) "vapor_pressure" "kPa" rfl
  obtain ⟨x, s, hx, -⟩ := hp 0 (by unfold oneDay; decide) 0 (by unfold oneDay demo; decide)
  obtain ⟨elev, lat, lon, h1, h2, h3, q, daily, sub, hd, hsu, hcol⟩ := written_sub oneDay oneDay_sane ho hrun hsub hc
  obtain ⟨col, val', a1, a2, a3⟩ := hcol "vapor_pressure" "kPa" rfl
  have hv := a3 0 (by unfold oneDay; decide) 0 (by unfold oneDay demo; decide)
  rw [recorded_unique oneDay oneDay_sane a2 hval (by unfold oneDay; decide) (by unfold oneDay demo; decide), hx] at hv
  obtain ⟨t, rfl⟩ := disaggregate_ok.1 hsu
  have hus := usable_of q hd t oneDay_sane.step.2 (by decide) (oneDay_record [0, 0]) (oneDay_complete [0, 0]).fraction
    (oneDay_sound [0, 0]).storm
  have hlat : |lat| ≤ 90 := (oneDay_sound [0, 0]).lat lat h2
  have ld : daily.doy.length = 1 := by
    obtain ⟨q1, -⟩ := dailyOf_ok hd
    rw [q1, List.length_map]; rfl
  obtain ⟨hlen, h2'⟩ := setMinMaxHour_inDays (geom_rows hlat q.h_geom) (p := hours (oneDay.shared.sub elev lon)) hus.frac hus.frac1
    t.h_times
  rw [List.length_map, ld] at hlen
  have hnone : ∀ (i : Nat) (v : ℝ), t.vp[i]? ≠ some (fin v) := by
    intro i v hv
    obtain ⟨T, -, ⟨k, -, q', -, hk, -⟩ | ⟨-, r, a, hr, he, -⟩⟩ := vp_inside hlat q.h_geom hus t hv
    · have := (List.getElem?_eq_some_iff.1 hk).1
      omega
    · obtain ⟨g, hgm, -, e, -⟩ := h2' 0 r hr
      have hts : ((hours (oneDay.shared.sub elev lon)).ts : ℝ) = 720 := by
        show ((720 : Nat) : ℝ) = 720
        norm_num
      have hts' : ((oneDay.shared.sub elev lon).ts : ℝ) = 720 := hts
      have hS : Disagg.utcShift (hours (oneDay.shared.sub elev lon)) = 0 := by
        unfold Disagg.utcShift
        rw [if_neg (by unfold hours; exact Bool.false_ne_true)]
      rw [e, minMaxTime_eq, hts, hts', hS] at he
      simp only [Nat.cast_zero, mul_zero, Int.cast_zero] at he
      have hi0 : (0 : ℝ) ≤ 720 * i := by positivity
      have : Disagg.riseTime g.fract < 720 := by
        rcases Disagg.rise_set (geom_rows hlat q.h_geom g hgm) with ⟨a, -⟩ | ⟨a, -⟩ | ⟨a, b, c, -, d⟩
        · rw [a]; norm_num
        · rw [a]; norm_num
        · linarith
      linarith
  have hnan : (fillBoth t.vp).getD (0 * (1440 / oneDay.shared.ts) + 0) nan = nan := by
    rw [List.getD_eq_getElem?_getD]
    cases hz : (fillBoth t.vp)[0 * (1440 / oneDay.shared.ts) + 0]? with
    | none => rfl
    | some y =>
      cases y with
      | nan => rfl
      | fin y =>
        rcases fillBoth_spec hz with ⟨k, w, -, hx, -⟩ | ⟨k, w, -, hx, -⟩ | ⟨he, -⟩
        · exact absurd hx (hnone _ _)
        · exact absurd hx (hnone _ _)
        · cases he
  have e : subColumn t.sub "vapor_pressure" = .ok (fillBoth t.vp) := by rw [← vp_fill t]; rfl
  rw [e] at a1
  rw [← Except.ok.inj a1, hnan] at hv
  have hk : ∀ ts : Int, Units.convert "vapor_pressure" "kPa" (nan : Flt ℝ) ts = .ok nan := fun _ => rfl
  rw [hk] at hv
  cases hv

end C78

end Verif.Props
