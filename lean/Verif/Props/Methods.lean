import Verif.Lemmas.Except
import Verif.Lemmas.Physics
import Verif.Model.Methods

/-!
# The daily estimation methods: C41, C42, C43
-/

namespace Verif.Props

open Flt Physics Methods

/-! ## C41 -/
section C41

theorem iterate_spec {n : Nat} {d : Daily} {p : MParams} : ∀ {fuel : Nat} {old new r : Col},
    iterate n d p fuel old new = .ok (some r) → nextTdew d p old = .ok new →
    ∃ old', nextTdew d p old' = .ok r ∧ moved n r old' p.tdewTol = false
  | 0, old, new, r, h, h0 => by
    unfold iterate at h
    cases hm : moved n new old p.tdewTol
    · rw [hm] at h
      simp only [Bool.false_eq_true, if_false, Except.ok.injEq, Option.some.injEq] at h
      subst h
      exact ⟨old, h0, hm⟩
    · rw [hm] at h; simp at h
  | fuel + 1, old, new, r, h, h0 => by
    unfold iterate at h
    cases hm : moved n new old p.tdewTol
    · rw [hm] at h
      simp only [Bool.false_eq_true, if_false, Except.ok.injEq, Option.some.injEq] at h
      subst h
      exact ⟨old, h0, hm⟩
    · rw [hm] at h
      simp only [if_true, bind_ok] at h
      obtain ⟨nx, h1, h2⟩ := h
      exact iterate_spec h2 h1

theorem clampPrec_idem (x : Flt ℝ) : clampPrec (clampPrec x) = clampPrec x := by
  unfold clampPrec
  cases x with
  | nan => simp
  | fin x =>
    by_cases h : x < 80
    · simp [h]
    · simp [h]

theorem not_moved {n : Nat} {a b : Col} {tol : ℝ} (h : moved n a b tol = false) (r : ℝ)
    (hr : sqrt (mean ((List.range n).map fun i => (a i - b i) * (a i - b i))) = fin r) : r ≤ tol := by
  unfold moved at h
  rw [hr] at h
  simpa using h

/-- What a frame must satisfy to be self-consistent up to `tol`: the dewpoint follows, through
vapour pressure, radiation and evaporation, from a dewpoint `old` at most `tol` away. -/
def SelfConsistent (n : Nat) (p : MParams) (out : Frame) : Prop :=
  ∃ tMin dtr tf td tt pot dl sp dew vp sw e : Col, ∃ pa : Flt ℝ, ∃ old : Col,
    Dict.get? out "t_min" = some tMin ∧ Dict.get? out "dtr" = some dtr ∧
    Dict.get? out "tfmax" = some tf ∧ Dict.get? out "t_day" = some td ∧
    Dict.get? out "tt_max" = some tt ∧ Dict.get? out "potrad" = some pot ∧
    Dict.get? out "daylength" = some dl ∧ Dict.get? out "seasonal_prec" = some sp ∧
    Dict.get? out "tdew" = some dew ∧ Dict.get? out "vapor_pressure" = some vp ∧
    Dict.get? out "shortwave" = some sw ∧ Dict.get? out "pet" = some e ∧
    atmPres p.elev p.lapseRate = .ok pa ∧
    (∀ i, vp i = svp (dew i)) ∧
    (∀ i, sw i = pot i * max₂ (tt i + fin (-6.1e-5) * vp i) (fin 0.0001) * tf i) ∧
    (∀ i, e i = calcPet (sw i) (td i) (dl i) pa * fin 10) ∧
    (∀ i, ∃ e', e' = calcPet (pot i * max₂ (tt i + fin (-6.1e-5) * svp (old i)) (fin 0.0001) * tf i)
        (td i) (dl i) pa * fin 10 ∧ dew i = tdew e' (tMin i) (sp i) (dtr i)) ∧
    (∀ r, sqrt (mean ((List.range n).map fun i => (dew i - old i) * (dew i - old i))) = fin r → r ≤ p.tdewTol)

theorem pet_ok {sw td dl : Col} {p : MParams} {e : Col} (h : pet sw td dl p = .ok e) :
    ∃ pa, atmPres p.elev p.lapseRate = .ok pa ∧ ∀ i, e i = calcPet (sw i) (td i) (dl i) pa * fin 10 := by
  unfold pet at h
  simp only [bind_ok, pure_ok] at h
  obtain ⟨pa, h1, rfl⟩ := h
  exact ⟨pa, h1, fun i => by
    rw [show (Cnst.MM_PER_CM : ℝ) = 10 by unfold Cnst.MM_PER_CM; norm_num]⟩

theorem tdew_clamp (e t s d : Flt ℝ) : tdew e t (clampPrec s) d = tdew e t s d := by
  unfold tdew; rw [clampPrec_idem]

/-- Everything `mtclimRun` computed, in one place. -/
theorem mtclimRun_inv {n fuel : Nat} {df : Frame} {p : MParams} {out : Frame}
    (h : mtclimRun n fuel df p = .ok (some out)) :
    ∃ tMin tMax dtr sm prec tt pot dl sp dew old e : Col,
      Dict.get? df "t_min" = some tMin ∧ Dict.get? df "t_max" = some tMax ∧
      Dict.get? df "dtr" = some dtr ∧ Dict.get? df "smoothed_dtr" = some sm ∧
      Dict.get? df "prec" = some prec ∧ Dict.get? df "tt_max" = some tt ∧
      Dict.get? df "potrad" = some pot ∧ Dict.get? df "daylength" = some dl ∧
      Dict.get? df "seasonal_prec" = some sp ∧
      nextTdew { tMin := tMin, dtr := dtr, tfmax := fun i => tfmax (dtr i) (sm i) (prec i) p,
                 tDay := fun i => tDay (tMin i) (tMax i) p, ttMax := tt, potrad := pot,
                 daylength := dl, seasonal := sp } p old = .ok dew ∧
      moved n dew old p.tdewTol = false ∧
      pet (fun i => shortwave (tfmax (dtr i) (sm i) (prec i) p) (vaporPressure (dew i)) (tt i) (pot i))
        (fun i => tDay (tMin i) (tMax i) p) dl p = .ok e ∧
      out = Dict.set (Dict.set (Dict.set (Dict.set (Dict.set (Dict.set (Dict.set (Dict.set df
        "t_day" fun i => tDay (tMin i) (tMax i) p)
        "tfmax" fun i => tfmax (dtr i) (sm i) (prec i) p)
        "tskc" fun i => tskc (tfmax (dtr i) (sm i) (prec i) p) p)
        "seasonal_prec" fun i => clampPrec (sp i))
        "tdew" dew)
        "vapor_pressure" fun i => vaporPressure (dew i))
        "shortwave" fun i => shortwave (tfmax (dtr i) (sm i) (prec i) p) (vaporPressure (dew i)) (tt i) (pot i))
        "pet" e := by
  unfold mtclimRun at h
  simp only [bind_ok, Dict.get_ok] at h
  obtain ⟨tMin, g1, tMax, g2, dtr, g3, sm, g4, prec, g5, tf, g6, tMin', g7, tf', g8, tt, g9, pot, g10,
    td, g11, dl, g12, sp, g13, dtr', g14, first, g15, res, g16, h⟩ := h
  simp (decide := true) only [Dict.get?_set, if_true, if_false, Option.some.injEq] at g3 g4 g5 g6 g7 g8 g9 g10 g11 g12 g13 g14
  subst g6
  rw [g1] at g7; injection g7 with g7; subst g7
  subst g8 g11
  rw [g3] at g14; injection g14 with g14; subst g14
  cases res with
  | none => simp [pure, Except.pure] at h
  | some dew =>
    simp only [bind_ok, pure_ok, Dict.get_ok] at h
    obtain ⟨sw, k1, e, k2, h⟩ := h
    simp (decide := true) only [Dict.get?_set, if_true, if_false, Option.some.injEq] at k1
    subst k1
    obtain ⟨old, k3, k4⟩ := iterate_spec g16 g15
    injection h with h
    exact ⟨tMin, tMax, dtr, sm, prec, tt, pot, dl, sp, dew, old, e, g1, g2, g3, g4, g5, g9, g10, g12, g13,
      k3, k4, k2, h.symm⟩

/-- **C41**: whenever `mtclim.run` returns, whatever the number of rounds, the frame is
self-consistent. -/
theorem C41_self_consistent (n fuel : Nat) (df : Frame) (p : MParams) (out : Frame)
    (h : mtclimRun n fuel df p = .ok (some out)) : SelfConsistent n p out := by
  obtain ⟨tMin, tMax, dtr, sm, prec, tt, pot, dl, sp, dew, old, e, g1, g2, g3, g4, g5, g6, g7, g8, g9,
    k1, k2, k3, rfl⟩ := mtclimRun_inv h
  obtain ⟨pa, hpa, he⟩ := pet_ok k3
  unfold nextTdew at k1
  simp only [bind_ok, pure_ok] at k1
  obtain ⟨e', k4, rfl⟩ := k1
  obtain ⟨pa', hpa', he'⟩ := pet_ok k4
  rw [hpa] at hpa'
  injection hpa' with hpa'
  subst hpa'
  have hA : (Cnst.ABASE : ℝ) = -6.1e-5 := by unfold Cnst.ABASE; norm_num
  refine ⟨tMin, dtr, fun i => tfmax (dtr i) (sm i) (prec i) p, fun i => tDay (tMin i) (tMax i) p, tt, pot, dl,
    fun i => clampPrec (sp i), fun i => tdew (e' i) (tMin i) (sp i) (dtr i),
    fun i => vaporPressure (tdew (e' i) (tMin i) (sp i) (dtr i)),
    fun i => shortwave (tfmax (dtr i) (sm i) (prec i) p)
      (vaporPressure (tdew (e' i) (tMin i) (sp i) (dtr i))) (tt i) (pot i), e, pa, old, ?_, ?_, ?_, ?_, ?_, ?_, ?_, ?_, ?_, ?_, ?_, ?_,
    hpa, ?_, ?_, he, ?_, fun r hr => not_moved k2 r hr⟩
  case refine_13 => intro i; rfl
  case refine_14 => intro i; simp only [shortwave, hA]
  case refine_15 =>
    intro i
    refine ⟨e' i, ?_, ?_⟩
    · rw [he' i]; simp only [shortwave, vaporPressure, hA]
    · exact (tdew_clamp _ _ _ _).symm
  all_goals simp (decide := true) only [Dict.get?_set, if_true, if_false]
  all_goals assumption

/-- **C41**: the frame's other new columns, and the columns that stay as they were. -/
theorem C41_columns (n fuel : Nat) (df : Frame) (p : MParams) (out : Frame)
    (h : mtclimRun n fuel df p = .ok (some out)) :
    (∀ name, name ∉ ["t_day", "tfmax", "tskc", "seasonal_prec", "tdew", "vapor_pressure", "shortwave", "pet"] →
      Dict.get? out name = Dict.get? df name) ∧
    ∃ tMin tMax dtr sm prec sp td tf sk sp' : Col,
      Dict.get? df "t_min" = some tMin ∧ Dict.get? df "t_max" = some tMax ∧
      Dict.get? df "dtr" = some dtr ∧ Dict.get? df "smoothed_dtr" = some sm ∧
      Dict.get? df "prec" = some prec ∧ Dict.get? df "seasonal_prec" = some sp ∧
      Dict.get? out "t_day" = some td ∧ (∀ i, td i = tDay (tMin i) (tMax i) p) ∧
      Dict.get? out "tfmax" = some tf ∧ (∀ i, tf i = tfmax (dtr i) (sm i) (prec i) p) ∧
      Dict.get? out "tskc" = some sk ∧ (∀ i, sk i = tskc (tf i) p) ∧
      Dict.get? out "seasonal_prec" = some sp' ∧
      (∀ i x, sp i = fin x → sp' i = fin (max 80 x)) ∧ (∀ i, sp i = nan → sp' i = nan) := by
  obtain ⟨tMin, tMax, dtr, sm, prec, tt, pot, dl, sp, dew, old, e, g1, g2, g3, g4, g5, g6, g7, g8, g9,
    k1, k2, k3, rfl⟩ := mtclimRun_inv h
  constructor
  · intro name hn
    simp only [List.mem_cons, List.not_mem_nil, or_false, not_or] at hn
    obtain ⟨n1, n2, n3, n4, n5, n6, n7, n8⟩ := hn
    rw [Dict.get?_set_ne _ _ (Ne.symm n8), Dict.get?_set_ne _ _ (Ne.symm n7), Dict.get?_set_ne _ _ (Ne.symm n6),
      Dict.get?_set_ne _ _ (Ne.symm n5), Dict.get?_set_ne _ _ (Ne.symm n4), Dict.get?_set_ne _ _ (Ne.symm n3),
      Dict.get?_set_ne _ _ (Ne.symm n2), Dict.get?_set_ne _ _ (Ne.symm n1)]
  · refine ⟨tMin, tMax, dtr, sm, prec, sp, fun i => tDay (tMin i) (tMax i) p,
      fun i => tfmax (dtr i) (sm i) (prec i) p, fun i => tskc (tfmax (dtr i) (sm i) (prec i) p) p,
      fun i => clampPrec (sp i), g1, g2, g3, g4, g5, g9, ?_, fun _ => rfl, ?_, fun _ => rfl, ?_, fun _ => rfl,
      ?_, ?_, ?_⟩
    case refine_5 =>
      intro i x hx
      simp only [hx, clampPrec, lt_fin, decide_eq_true_eq]
      by_cases h8 : x < 80
      · rw [if_pos h8, max_eq_left h8.le]
      · rw [if_neg h8, max_eq_right (not_lt.1 h8)]
    case refine_6 => intro i hx; simp [hx, clampPrec]
    all_goals simp (decide := true) only [Dict.get?_set, if_true, if_false]

theorem iterate_mono {n : Nat} {d : Daily} {p : MParams} : ∀ {fuel : Nat} {old new r : Col} (k : Nat),
    iterate n d p fuel old new = .ok (some r) → iterate n d p (fuel + k) old new = .ok (some r)
  | 0, old, new, r, k, h => by
    unfold iterate at h
    cases hm : moved n new old p.tdewTol
    · rw [hm] at h
      simp only [Bool.false_eq_true, if_false] at h
      cases hk : 0 + k with
      | zero => unfold iterate; rw [hm]; simpa using h
      | succ m => unfold iterate; rw [hm]; simpa using h
    · rw [hm] at h; simp at h
  | fuel + 1, old, new, r, k, h => by
    rw [show fuel + 1 + k = (fuel + k) + 1 by omega]
    unfold iterate at h ⊢
    cases hm : moved n new old p.tdewTol
    · rw [hm] at h; exact h
    · rw [hm] at h
      simp only [if_true, bind_ok] at h ⊢
      obtain ⟨nx, h1, h2⟩ := h
      exact ⟨nx, h1, iterate_mono k h2⟩

/-- A loop that never settles: with a negative tolerance, an iterate without missing values is always
refused. -/
theorem moved_of_neg {n : Nat} {a b : Col} {tol : ℝ} (ht : tol < 0) (hn : 0 < n)
    (ha : ∀ i < n, (a i).isFin) (hb : ∀ i < n, (b i).isFin) : moved n a b tol = true := by
  have : ∃ xs : List ℝ, (List.range n).map (fun i => (a i - b i) * (a i - b i)) = xs.map fin ∧
      (∀ x ∈ xs, 0 ≤ x) ∧ xs ≠ [] := by
    refine ⟨(List.range n).map fun i => match a i, b i with
      | fin x, fin y => (x - y) * (x - y)
      | _, _ => 0, ?_, ?_, ?_⟩
    · rw [List.map_map]
      refine List.map_congr_left fun i hi => ?_
      rw [List.mem_range] at hi
      obtain ⟨x, hx⟩ := (isFin_iff _).1 (ha i hi)
      obtain ⟨y, hy⟩ := (isFin_iff _).1 (hb i hi)
      simp [hx, hy]
    · intro x hx
      rw [List.mem_map] at hx
      obtain ⟨i, -, rfl⟩ := hx
      cases a i <;> cases b i <;> simp [mul_self_nonneg]
    · simp; omega
  obtain ⟨xs, h1, h2, h3⟩ := this
  unfold moved
  rw [h1]
  have hmean : ∃ m : ℝ, mean (xs.map fin) = fin m ∧ 0 ≤ m := by
    refine ⟨xs.sum / xs.length, ?_, div_nonneg (List.sum_nonneg h2) (Nat.cast_nonneg _)⟩
    have hl : (xs.length : ℝ) ≠ 0 := by
      simp [List.length_eq_zero_iff, h3]
    unfold mean
    rw [sum_map_fin, List.length_map, div_fin_ne hl]
  obtain ⟨m, hm, hm0⟩ := hmean
  rw [hm, sqrt_fin hm0]
  simpa using lt_of_lt_of_le ht (Real.sqrt_nonneg m)

/-- **C41**: more rounds never change a result, so the number of rounds the model allows is immaterial. -/
theorem C41_rounds (n fuel k : Nat) (df : Frame) (p : MParams) (out : Frame)
    (h : mtclimRun n fuel df p = .ok (some out)) : mtclimRun n (fuel + k) df p = .ok (some out) := by
  unfold mtclimRun at h ⊢
  simp only [bind_ok] at h ⊢
  obtain ⟨x1, g1, x2, g2, x3, g3, x4, g4, x5, g5, x6, g6, x7, g7, x8, g8, x9, g9, x10, g10,
    x11, g11, x12, g12, x13, g13, x14, g14, x15, g15, res, g16, h⟩ := h
  cases res with
  | none => simp [pure, Except.pure] at h
  | some dew =>
    exact ⟨x1, g1, x2, g2, x3, g3, x4, g4, x5, g5, x6, g6, x7, g7, x8, g8, x9, g9, x10, g10,
      x11, g11, x12, g12, x13, g13, x14, g14, x15, g15, some dew, iterate_mono k g16, h⟩

/-- **C41**: with a negative tolerance a record is only ever returned with missing dewpoints. -/
theorem C41_negative_tol (n fuel : Nat) (df : Frame) (p : MParams) (out : Frame) (hn : 0 < n)
    (ht : p.tdewTol < 0) (h : mtclimRun n fuel df p = .ok (some out)) :
    ∃ dew, Dict.get? out "tdew" = some dew ∧ ∃ i < n, dew i = nan := by
  obtain ⟨tMin, tMax, dtr, sm, prec, tt, pot, dl, sp, dew, old, e, g1, g2, g3, g4, g5, g6, g7, g8, g9,
    k1, k2, k3, rfl⟩ := mtclimRun_inv h
  refine ⟨dew, by simp (decide := true) only [Dict.get?_set, if_true, if_false], ?_⟩
  by_contra hc
  push Not at hc
  have hdew : ∀ i < n, (dew i).isFin := fun i hi => by
    have := hc i hi
    cases hx : dew i with
    | nan => exact absurd hx this
    | fin x => simp
  have hold : ∀ i < n, (old i).isFin := fun i hi => by
    cases hx : old i with
    | fin x => simp
    | nan =>
      exfalso
      refine hc i hi ?_
      unfold nextTdew pet at k1
      simp only [bind_ok, pure_ok] at k1
      obtain ⟨e', ⟨pa, -, rfl⟩, rfl⟩ := k1
      simp [hx, vaporPressure, svp, shortwave, calcPet, tdew]
  rw [moved_of_neg ht hn hdew hold] at k2
  simp at k2

/-- **C41** is about something: any frame with the required columns and a non-zero lapse rate is
returned for a large enough tolerance. -/
theorem C41_returns (n : Nat) (df : Frame) (p : MParams) (hl : p.lapseRate ≠ 0)
    (hcols : ∀ name ∈ ["t_min", "t_max", "dtr", "smoothed_dtr", "prec", "tt_max", "potrad", "daylength",
      "seasonal_prec"], Dict.get? df name ≠ none) :
    ∃ tol, ∃ out, mtclimRun n 0 df { p with tdewTol := tol } = .ok (some out) := by
  have hc : ∀ name ∈ ["t_min", "t_max", "dtr", "smoothed_dtr", "prec", "tt_max", "potrad", "daylength",
      "seasonal_prec"], ∃ c, Dict.get? df name = some c := fun name hn =>
    Option.ne_none_iff_exists'.1 (hcols name hn)
  obtain ⟨tMin, g1⟩ := hc "t_min" (by decide)
  obtain ⟨tMax, g2⟩ := hc "t_max" (by decide)
  obtain ⟨dtr, g3⟩ := hc "dtr" (by decide)
  obtain ⟨sm, g4⟩ := hc "smoothed_dtr" (by decide)
  obtain ⟨prec, g5⟩ := hc "prec" (by decide)
  obtain ⟨tt, g6⟩ := hc "tt_max" (by decide)
  obtain ⟨pot, g7⟩ := hc "potrad" (by decide)
  obtain ⟨dl, g8⟩ := hc "daylength" (by decide)
  obtain ⟨sp, g9⟩ := hc "seasonal_prec" (by decide)
  have hpa : ∃ pa, atmPres p.elev p.lapseRate = .ok pa := by
    unfold atmPres
    simp only [if_neg hl]
    exact ⟨_, rfl⟩
  obtain ⟨pa, hpa⟩ := hpa
  have hpet : ∀ tol (a b c : Col), pet a b c { p with tdewTol := tol }
      = .ok fun i => calcPet (a i) (b i) (c i) pa * fin Cnst.MM_PER_CM := by
    intro tol a b c
    unfold pet
    simp only [hpa]; rfl
  have hnext : ∃ first, ∀ tol, nextTdew ⟨tMin, dtr, fun i => tfmax (dtr i) (sm i) (prec i) p,
      fun i => tDay (tMin i) (tMax i) p, tt, pot, dl, sp⟩ { p with tdewTol := tol } tMin = .ok first := by
    unfold nextTdew
    simp only [hpet]
    exact ⟨_, fun _ => rfl⟩
  obtain ⟨first, hfirst⟩ := hnext
  have htol : ∃ tol, moved n first tMin tol = false := by
    unfold moved
    cases sqrt (mean ((List.range n).map fun i => (first i - tMin i) * (first i - tMin i))) with
    | nan => exact ⟨0, by simp⟩
    | fin r => exact ⟨r, by simp⟩
  obtain ⟨tol, htol⟩ := htol
  refine ⟨tol, ?_⟩
  have hex : ∃ o, mtclimRun n 0 df { p with tdewTol := tol } = .ok o ∧ o ≠ none := by
    unfold mtclimRun
    have f1 : ∀ a b c, tfmax a b c ({ p with tdewTol := tol } : MParams) = tfmax a b c p := fun _ _ _ => rfl
    have f2 : ∀ a b, tDay a b ({ p with tdewTol := tol } : MParams) = tDay a b p := fun _ _ => rfl
    simp (decide := true) only [bind_ok, Dict.get_ok, Dict.get?_set, if_true, if_false, g1, g2, g3, g4, g5, g6, g7, g8,
      g9, Option.some.injEq, exists_eq_left', f1, f2, hfirst, Except.ok.injEq]
    refine ⟨some ?o, ⟨some first, ?a, ?b⟩, Option.some_ne_none _⟩
    case a =>
      unfold iterate
      rw [if_neg]
      simpa using htol
    case b =>
      simp only [bind_ok, Dict.get_ok, Dict.get?_set_self, Option.some.injEq, exists_eq_left', hpet,
        Except.ok.injEq, pure_ok]
      rfl
  obtain ⟨o, ho, hne⟩ := hex
  obtain ⟨out, rfl⟩ := Option.ne_none_iff_exists'.1 hne
  exact ⟨out, ho⟩

end C41

/-! ## C42 -/
section C42

/-- The six names the method may add. -/
def addable : List String := ["t_day", "tfmax", "tskc", "pet", "tdew", "vapor_pressure"]

/-- **C42** as listed. -/
def C42_full : Prop := ∀ (df : Frame) (p : MParams),
  (Dict.get? df "shortwave" = none → passthroughRun df p = .error .assertion) ∧
  ∀ out, passthroughRun df p = .ok out →
    (∀ name c, Dict.get? df name = some c → Dict.get? out name = some c) ∧
    (∀ name, Dict.get? df name = none → name ∉ addable → Dict.get? out name = none)

theorem addIfMissing_ok {name : String} {value : Frame → Except PyErr Col} {df out : Frame}
    (h : addIfMissing name value df = .ok out) :
    (∀ k, k ≠ name → Dict.get? out k = Dict.get? df k) ∧
    (∀ c, Dict.get? df name = some c → Dict.get? out name = some c) ∧
    (Dict.get? df name = none → ∃ c, value df = .ok c ∧ Dict.get? out name = some c) := by
  unfold addIfMissing at h
  cases hd : Dict.get? df name with
  | some c =>
    rw [hd] at h
    simp only [Except.ok.injEq] at h
    subst h
    simp [hd]
  | none =>
    rw [hd] at h
    simp only [bind_ok, pure_ok] at h
    obtain ⟨c, h1, rfl⟩ := h
    refine ⟨fun k hk => Dict.get?_set_ne _ _ (Ne.symm hk), by simp, fun _ => ⟨c, h1, by simp⟩⟩

theorem addTdew_ok {df out : Frame} (h : addTdew df = .ok out) :
    (∀ k, k ≠ "tdew" → k ≠ "seasonal_prec" → Dict.get? out k = Dict.get? df k) ∧
    (∀ c, Dict.get? df "tdew" = some c → out = df) ∧
    (Dict.get? df "tdew" = none → ∃ e tMin sp dtr, Dict.get? df "pet" = some e ∧
      Dict.get? df "t_min" = some tMin ∧ Dict.get? df "seasonal_prec" = some sp ∧ Dict.get? df "dtr" = some dtr ∧
      Dict.get? out "tdew" = some (fun i => tdew (e i) (tMin i) (sp i) (dtr i)) ∧
      Dict.get? out "seasonal_prec" = some (fun i => clampPrec (sp i))) := by
  unfold addTdew at h
  cases hd : Dict.get? df "tdew" with
  | some c =>
    rw [hd] at h
    simp only [Except.ok.injEq] at h
    subst h
    simp
  | none =>
    rw [hd] at h
    simp only [bind_ok, pure_ok, Dict.get_ok] at h
    obtain ⟨e, h1, tMin, h2, sp, h3, dtr, h4, rfl⟩ := h
    refine ⟨fun k h1 h2 => ?_, by simp, fun _ => ⟨e, tMin, sp, dtr, h1, h2, h3, h4, by simp, ?_⟩⟩
    · rw [Dict.get?_set_ne _ _ (Ne.symm h1), Dict.get?_set_ne _ _ (Ne.symm h2)]
    · rw [Dict.get?_set_ne _ _ (by decide)]; simp

theorem passthrough_steps {df : Frame} {p : MParams} {out : Frame} (h : passthroughRun df p = .ok out) :
    ∃ d1 d2 d3 d4 d5,
      addIfMissing "t_day" (fun df => do
        let tMin ← df.get "t_min"
        let tMax ← df.get "t_max"
        pure fun i => tDay (tMin i) (tMax i) p) df = .ok d1 ∧
      addIfMissing "tfmax" (fun df => do
        let dtr ← df.get "dtr"
        let smDtr ← df.get "smoothed_dtr"
        let prec ← df.get "prec"
        pure fun i => tfmax (dtr i) (smDtr i) (prec i) p) d1 = .ok d2 ∧
      addIfMissing "tskc" (fun df => do
        let tf ← df.get "tfmax"
        pure fun i => tskc (tf i) p) d2 = .ok d3 ∧
      addIfMissing "pet" (fun df => do
        let sw ← df.get "shortwave"
        let td ← df.get "t_day"
        let daylength ← df.get "daylength"
        pet sw td daylength p) d3 = .ok d4 ∧
      addTdew d4 = .ok d5 ∧
      addIfMissing "vapor_pressure" (fun df => do
        let dew ← df.get "tdew"
        pure fun i => vaporPressure (dew i)) d5 = .ok out ∧ Dict.get? df "shortwave" ≠ none := by
  unfold passthroughRun at h
  cases hs : Dict.get? df "shortwave" with
  | none => rw [hs] at h; simp [bind, Except.bind, throw, throwThe, MonadExceptOf.throw] at h
  | some c =>
    rw [hs] at h
    simp only [Option.isNone_some, Bool.false_eq_true, if_false, bind_ok] at h
    obtain ⟨d1, h1, d2, h2, d3, h3, d4, h4, d5, h5, h6⟩ := h
    exact ⟨d1, d2, d3, d4, d5, h1, h2, h3, h4, h5, h6, by simp⟩

/-- **C42 (partial)**: everything except `seasonal_prec` when the dewpoint is missing. -/
theorem C42_passthrough_partial (df : Frame) (p : MParams) :
    (Dict.get? df "shortwave" = none → passthroughRun df p = .error .assertion) ∧
    ∀ out, passthroughRun df p = .ok out →
      (∀ name c, Dict.get? df name = some c → (name = "seasonal_prec" → Dict.get? df "tdew" ≠ none) →
        Dict.get? out name = some c) ∧
      (∀ name, Dict.get? df name = none → name ∉ addable → Dict.get? out name = none) := by
  constructor
  · intro h
    unfold passthroughRun
    rw [h]; rfl
  · intro out h
    obtain ⟨d1, d2, d3, d4, d5, h1, h2, h3, h4, h5, h6, -⟩ := passthrough_steps h
    obtain ⟨a1, b1, c1⟩ := addIfMissing_ok h1
    obtain ⟨a2, b2, c2⟩ := addIfMissing_ok h2
    obtain ⟨a3, b3, c3⟩ := addIfMissing_ok h3
    obtain ⟨a4, b4, c4⟩ := addIfMissing_ok h4
    obtain ⟨a5, b5, c5⟩ := addTdew_ok h5
    obtain ⟨a6, b6, c6⟩ := addIfMissing_ok h6
    have s1 : ∀ {k c}, Dict.get? df k = some c → Dict.get? d1 k = some c := fun {k c} hk => by
      by_cases e : k = "t_day"
      · subst e; exact b1 c hk
      · rw [a1 k e]; exact hk
    have s2 : ∀ {k c}, Dict.get? d1 k = some c → Dict.get? d2 k = some c := fun {k c} hk => by
      by_cases e : k = "tfmax"
      · subst e; exact b2 c hk
      · rw [a2 k e]; exact hk
    have s3 : ∀ {k c}, Dict.get? d2 k = some c → Dict.get? d3 k = some c := fun {k c} hk => by
      by_cases e : k = "tskc"
      · subst e; exact b3 c hk
      · rw [a3 k e]; exact hk
    have s4 : ∀ {k c}, Dict.get? d3 k = some c → Dict.get? d4 k = some c := fun {k c} hk => by
      by_cases e : k = "pet"
      · subst e; exact b4 c hk
      · rw [a4 k e]; exact hk
    have s6 : ∀ {k c}, Dict.get? d5 k = some c → Dict.get? out k = some c := fun {k c} hk => by
      by_cases e : k = "vapor_pressure"
      · subst e; exact b6 c hk
      · rw [a6 k e]; exact hk
    constructor
    · intro name c hc hsp
      have k4 := s4 (s3 (s2 (s1 hc)))
      refine s6 ?_
      cases ht : Dict.get? d4 "tdew" with
      | some x => rw [b5 x ht]; exact k4
      | none =>
        have hne : name ≠ "tdew" := by rintro rfl; rw [k4] at ht; simp at ht
        have hne' : name ≠ "seasonal_prec" := by
          rintro rfl
          obtain ⟨x, hx⟩ := Option.ne_none_iff_exists'.1 (hsp rfl)
          rw [s4 (s3 (s2 (s1 hx)))] at ht; simp at ht
        rw [a5 name hne hne']; exact k4
    · intro name hn ha
      simp only [addable, List.mem_cons, List.not_mem_nil, or_false, not_or] at ha
      obtain ⟨n1, n2, n3, n4, n5, n6⟩ := ha
      have k4 : Dict.get? d4 name = none := by
        rw [a4 name n4, a3 name n3, a2 name n2, a1 name n1]; exact hn
      rw [a6 name n6]
      cases ht : Dict.get? d4 "tdew" with
      | some x => rw [b5 x ht]; exact k4
      | none =>
        obtain ⟨_, _, sp, _, _, _, hsp, _⟩ := c5 ht
        have hne' : name ≠ "seasonal_prec" := by
          rintro rfl; rw [k4] at hsp; simp at hsp
        rw [a5 name n5 hne']; exact k4

/-- **C42**: the values added are those of the estimation formulas applied to the resulting frame, so
that a missing cloud fraction, say, is computed from the given transmittance. -/
theorem C42_added (df : Frame) (p : MParams) (out : Frame) (h : passthroughRun df p = .ok out) :
    (Dict.get? df "t_day" = none → ∃ a b c, Dict.get? out "t_min" = some a ∧ Dict.get? out "t_max" = some b ∧
      Dict.get? out "t_day" = some c ∧ ∀ i, c i = tDay (a i) (b i) p) ∧
    (Dict.get? df "tfmax" = none → ∃ a b c d, Dict.get? out "dtr" = some a ∧ Dict.get? out "smoothed_dtr" = some b ∧
      Dict.get? out "prec" = some c ∧ Dict.get? out "tfmax" = some d ∧ ∀ i, d i = tfmax (a i) (b i) (c i) p) ∧
    (Dict.get? df "tskc" = none → ∃ a b, Dict.get? out "tfmax" = some a ∧ Dict.get? out "tskc" = some b ∧
      ∀ i, b i = tskc (a i) p) ∧
    (Dict.get? df "pet" = none → ∃ a b c d, Dict.get? out "shortwave" = some a ∧ Dict.get? out "t_day" = some b ∧
      Dict.get? out "daylength" = some c ∧ Dict.get? out "pet" = some d ∧ pet a b c p = .ok d) ∧
    (Dict.get? df "tdew" = none → ∃ a b c d e, Dict.get? out "pet" = some a ∧ Dict.get? out "t_min" = some b ∧
      Dict.get? out "seasonal_prec" = some c ∧ Dict.get? out "dtr" = some d ∧ Dict.get? out "tdew" = some e ∧
      ∀ i, e i = tdew (a i) (b i) (c i) (d i)) ∧
    (Dict.get? df "vapor_pressure" = none → ∃ a b, Dict.get? out "tdew" = some a ∧
      Dict.get? out "vapor_pressure" = some b ∧ ∀ i, b i = svp (a i)) := by
  obtain ⟨d1, d2, d3, d4, d5, h1, h2, h3, h4, h5, h6, -⟩ := passthrough_steps h
  obtain ⟨a1, b1, c1⟩ := addIfMissing_ok h1
  obtain ⟨a2, b2, c2⟩ := addIfMissing_ok h2
  obtain ⟨a3, b3, c3⟩ := addIfMissing_ok h3
  obtain ⟨a4, b4, c4⟩ := addIfMissing_ok h4
  obtain ⟨a5, b5, c5⟩ := addTdew_ok h5
  obtain ⟨a6, b6, c6⟩ := addIfMissing_ok h6
  have e5 : ∀ k, k ≠ "tdew" → k ≠ "seasonal_prec" → k ≠ "vapor_pressure" → Dict.get? out k = Dict.get? d4 k :=
    fun k x y z => (a6 k z).trans (a5 k x y)
  refine ⟨fun hn => ?_, fun hn => ?_, fun hn => ?_, fun hn => ?_, fun hn => ?_, fun hn => ?_⟩
  · obtain ⟨c, hv, hc⟩ := c1 hn
    simp only [bind_ok, pure_ok, Dict.get_ok] at hv
    obtain ⟨x, hx, y, hy, rfl⟩ := hv
    refine ⟨x, y, _, ?_, ?_, ?_, fun _ => rfl⟩
    · rw [e5 _ (by decide) (by decide) (by decide), a4 _ (by decide), a3 _ (by decide), a2 _ (by decide), a1 _ (by decide), hx]
    · rw [e5 _ (by decide) (by decide) (by decide), a4 _ (by decide), a3 _ (by decide), a2 _ (by decide), a1 _ (by decide), hy]
    · rw [e5 _ (by decide) (by decide) (by decide), a4 _ (by decide), a3 _ (by decide), a2 _ (by decide), hc]
  · have hn : Dict.get? d1 "tfmax" = none := by rw [a1 _ (by decide), hn]
    obtain ⟨c, hv, hc⟩ := c2 hn
    simp only [bind_ok, pure_ok, Dict.get_ok] at hv
    obtain ⟨x, hx, y, hy, z, hz, rfl⟩ := hv
    refine ⟨x, y, z, _, ?_, ?_, ?_, ?_, fun _ => rfl⟩
    · rw [e5 _ (by decide) (by decide) (by decide), a4 _ (by decide), a3 _ (by decide), a2 _ (by decide), hx]
    · rw [e5 _ (by decide) (by decide) (by decide), a4 _ (by decide), a3 _ (by decide), a2 _ (by decide), hy]
    · rw [e5 _ (by decide) (by decide) (by decide), a4 _ (by decide), a3 _ (by decide), a2 _ (by decide), hz]
    · rw [e5 _ (by decide) (by decide) (by decide), a4 _ (by decide), a3 _ (by decide), hc]
  · have hn : Dict.get? d2 "tskc" = none := by rw [a2 _ (by decide), a1 _ (by decide), hn]
    obtain ⟨c, hv, hc⟩ := c3 hn
    simp only [bind_ok, pure_ok, Dict.get_ok] at hv
    obtain ⟨x, hx, rfl⟩ := hv
    refine ⟨x, _, ?_, ?_, fun _ => rfl⟩
    · rw [e5 _ (by decide) (by decide) (by decide), a4 _ (by decide), a3 _ (by decide), hx]
    · rw [e5 _ (by decide) (by decide) (by decide), a4 _ (by decide), hc]
  · have hn : Dict.get? d3 "pet" = none := by rw [a3 _ (by decide), a2 _ (by decide), a1 _ (by decide), hn]
    obtain ⟨c, hv, hc⟩ := c4 hn
    simp only [bind_ok, Dict.get_ok] at hv
    obtain ⟨x, hx, y, hy, z, hz, hp⟩ := hv
    refine ⟨x, y, z, c, ?_, ?_, ?_, ?_, hp⟩
    · rw [e5 _ (by decide) (by decide) (by decide), a4 _ (by decide), hx]
    · rw [e5 _ (by decide) (by decide) (by decide), a4 _ (by decide), hy]
    · rw [e5 _ (by decide) (by decide) (by decide), a4 _ (by decide), hz]
    · rw [e5 _ (by decide) (by decide) (by decide), hc]
  · have hn : Dict.get? d4 "tdew" = none := by
      rw [a4 _ (by decide), a3 _ (by decide), a2 _ (by decide), a1 _ (by decide), hn]
    obtain ⟨x, y, z, w, hx, hy, hz, hw, ht, hs⟩ := c5 hn
    refine ⟨x, y, _, w, _, ?_, ?_, ?_, ?_, ?_, fun i => (tdew_clamp _ _ (z i) _).symm⟩
    · rw [e5 _ (by decide) (by decide) (by decide), hx]
    · rw [e5 _ (by decide) (by decide) (by decide), hy]
    · rw [a6 _ (by decide), hs]
    · rw [e5 _ (by decide) (by decide) (by decide), hw]
    · rw [a6 _ (by decide), ht]
  · have hn5 : Dict.get? d5 "vapor_pressure" = none := by
      rw [a5 _ (by decide) (by decide), a4 _ (by decide), a3 _ (by decide), a2 _ (by decide), a1 _ (by decide), hn]
    obtain ⟨c, hv, hc⟩ := c6 hn5
    simp only [bind_ok, pure_ok, Dict.get_ok] at hv
    obtain ⟨x, hx, rfl⟩ := hv
    refine ⟨x, _, ?_, hc, fun _ => rfl⟩
    rw [a6 _ (by decide), hx]

/-- A dry site, dewpoint not given. -/
def drySite : Frame :=
  [("shortwave", fun _ => fin 100), ("t_day", fun _ => fin 10), ("tfmax", fun _ => fin 0.5),
   ("tskc", fun _ => fin 0.5), ("pet", fun _ => fin 1), ("t_min", fun _ => fin 0),
   ("seasonal_prec", fun _ => fin 10), ("dtr", fun _ => fin 10), ("daylength", fun _ => fin 43200)]

theorem drySite_runs (p : MParams) : ∃ out, passthroughRun drySite p = .ok out ∧
    Dict.get? out "seasonal_prec" = some (fun _ => fin 80) := by
  have hf : clampPrec (fin 10) = fin 80 := by unfold clampPrec; simp; norm_num
  refine ⟨_, rfl, ?_⟩
  simp (decide := true) [Dict.get?, Dict.set, drySite, hf]

theorem C42_refuted : ¬ C42_full := by
  intro h
  obtain ⟨out, h1, h2⟩ := drySite_runs ⟨0, 0, 0, 0, 0, nan, ""⟩
  have := ((h drySite _).2 out h1).1 "seasonal_prec" (fun _ => fin 10) rfl
  rw [h2] at this
  injection this with this
  have := congrFun this 0
  simp at this

end C42

/-! ## C43 -/
section C43

/-- **C43** for the estimation method: the reported value is the daylight average spread over 24 h. -/
def MtclimDaily : Prop := ∀ (n fuel : Nat) (df : Frame) (p : MParams) (out rep : Frame),
  mtclimRun n fuel df p = .ok (some out) → dailyShortwave out = .ok rep →
  ∃ sw dl r, Dict.get? out "shortwave" = some sw ∧ Dict.get? df "daylength" = some dl ∧
    Dict.get? rep "shortwave" = some r ∧
    (∀ i x l, sw i = fin x → dl i = fin l → r i = fin (x * l / 86400)) ∧
    ∀ k, k ≠ "shortwave" → Dict.get? rep k = Dict.get? out k

/-- **C43** for passed-through radiation: a 24-hour average is reported as it is. -/
def PassthroughDaily : Prop := ∀ (df : Frame) (p : MParams) (out rep : Frame),
  passthroughRun df p = .ok out → dailyShortwave out = .ok rep →
  Dict.get? rep "shortwave" = Dict.get? df "shortwave"

/-- **C43** as listed. -/
def C43_full : Prop := MtclimDaily ∧ PassthroughDaily

theorem daily_ok {out rep : Frame} (h : dailyShortwave out = .ok rep) :
    ∃ sw dl r, Dict.get? out "shortwave" = some sw ∧ Dict.get? out "daylength" = some dl ∧
      Dict.get? rep "shortwave" = some r ∧
      (∀ i x l, sw i = fin x → dl i = fin l → r i = fin (x * l / 86400)) ∧
      ∀ k, k ≠ "shortwave" → Dict.get? rep k = Dict.get? out k := by
  unfold dailyShortwave at h
  simp only [bind_ok, pure_ok, Dict.get_ok] at h
  obtain ⟨sw, h1, dl, h2, rfl⟩ := h
  refine ⟨sw, dl, _, h1, h2, Dict.get?_set_self _ _ _, ?_, fun k hk => Dict.get?_set_ne _ _ (Ne.symm hk)⟩
  intro i x l hx hl
  have hS : ((Cnst.SEC_PER_DAY : ℝ)) = 86400 := by unfold Cnst.SEC_PER_DAY; norm_num
  simp only [hx, hl, hS, div_fin_ne (show (86400 : ℝ) ≠ 0 by norm_num), mul_fin]
  congr 1; ring

/-- **C43 (partial)**: the estimation method. -/
theorem C43_mtclim_partial : MtclimDaily := by
  intro n fuel df p out rep h hd
  obtain ⟨sw, dl, r, h1, h2, h3⟩ := daily_ok hd
  rw [(C41_columns n fuel df p out h).1 "daylength" (by decide)] at h2
  exact ⟨sw, dl, r, h1, h2, h3⟩

/-- **C43**: passed-through radiation is reported multiplied by the fraction of daylight. -/
theorem C43_passthrough_scaled (df : Frame) (p : MParams) (out rep : Frame)
    (h : passthroughRun df p = .ok out) (hd : dailyShortwave out = .ok rep) :
    ∃ sw dl r, Dict.get? df "shortwave" = some sw ∧ Dict.get? df "daylength" = some dl ∧
      Dict.get? rep "shortwave" = some r ∧
      (∀ i x l, sw i = fin x → dl i = fin l → r i = fin (x * l / 86400) ∧
        (r i = sw i ↔ x = 0 ∨ l = 86400)) := by
  obtain ⟨sw, dl, r, h1, h2, h3, h4, -⟩ := daily_ok hd
  have hp := ((C42_passthrough_partial df p).2 out h)
  have key : ∀ name, name ∉ addable → name ≠ "seasonal_prec" → Dict.get? out name = Dict.get? df name := by
    intro name hn hs
    cases hc : Dict.get? df name with
    | none => exact hp.2 name hc hn
    | some c => exact hp.1 name c hc (fun e => absurd e hs)
  refine ⟨sw, dl, r, ?_, ?_, h3, ?_⟩
  · rw [← key "shortwave" (by decide) (by decide)]; exact h1
  · rw [← key "daylength" (by decide) (by decide)]; exact h2
  · intro i x l hx hl
    refine ⟨h4 i x l hx hl, ?_⟩
    rw [h4 i x l hx hl, hx, fin.injEq]
    constructor
    · intro e
      by_cases h0 : x = 0
      · exact Or.inl h0
      · right
        have : x * l = x * 86400 := by rw [div_eq_iff (by norm_num)] at e; exact e
        exact mul_left_cancel₀ h0 this
    · rintro (e | e) <;> rw [e] <;> ring

theorem C43_refuted : ¬ C43_full := by
  rintro ⟨-, h⟩
  obtain ⟨out, h1, -⟩ := drySite_runs ⟨0, 0, 0, 0, 0, nan, ""⟩
  have hp := (C42_passthrough_partial drySite ⟨0, 0, 0, 0, 0, nan, ""⟩).2 out h1
  have g1 := hp.1 "shortwave" (fun _ => fin 100) rfl (by decide)
  have g2 := hp.1 "daylength" (fun _ => fin 43200) rfl (by decide)
  have hd : ∃ rep, dailyShortwave out = .ok rep := by
    unfold dailyShortwave Dict.get
    rw [g1, g2]
    exact ⟨_, rfl⟩
  obtain ⟨rep, hd⟩ := hd
  have := h drySite _ out rep h1 hd
  obtain ⟨sw, dl, r, k1, k2, k3, k4⟩ := C43_passthrough_scaled drySite _ out rep h1 hd
  have e1 : sw = fun _ => fin 100 := by
    have : Dict.get? drySite "shortwave" = some fun _ => fin 100 := rfl
    rw [this] at k1; injection k1 with k1; exact k1.symm
  have e2 : dl = fun _ => fin 43200 := by
    have : Dict.get? drySite "daylength" = some fun _ => fin 43200 := rfl
    rw [this] at k2; injection k2 with k2; exact k2.symm
  rw [k3, k1] at this
  injection this with this
  have h5 := (k4 0 100 43200 (by rw [e1]) (by rw [e2])).2.1 (by rw [this])
  norm_num at h5

end C43
end Verif.Props
