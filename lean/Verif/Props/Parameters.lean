import Verif.Props.Dependence

/-!
# Each output depends only on the parameters it is computed from: C139
-/

namespace Verif.Props

open Flt Cell Methods Disaggregate Np
open Solar (DayGeom)

/-- The parameters that enter the computation of a cell. -/
inductive Knob where
  | precType | lwType | lwCloud | thetaS | tmaxFraction | tdayCoef | swPrecThresh | rainScalar | lapseRate | tdewTol | swAveraging
  deriving DecidableEq

/-- Two runs have the same parameter; `theta_s` counts where times are in UTC. -/
def Knob.Same (s s' : Shared) : Knob → Prop
  | .precType => s.precType = s'.precType
  | .lwType => s.lwType = s'.lwType
  | .lwCloud => s.lwCloud = s'.lwCloud
  | .thetaS => s.utcOffset = true → s.thetaS = s'.thetaS
  | .tmaxFraction => s.tmaxFraction = s'.tmaxFraction
  | .tdayCoef => s.tdayCoef = s'.tdayCoef
  | .swPrecThresh => s.swPrecThresh = s'.swPrecThresh
  | .rainScalar => s.rainScalar = s'.rainScalar
  | .lapseRate => s.lapseRate = s'.lapseRate
  | .tdewTol => s.tdewTol = s'.tdewTol
  | .swAveraging => s.swAveraging = s'.swAveraging

/-- What enters a daily column. -/
def dailyKnobs : Method → String → List Knob
  | _, "tt_max" => [.lapseRate]
  | _, "t_day" => [.tdayCoef]
  | _, "tfmax" => [.swPrecThresh, .rainScalar]
  | _, "tskc" => [.swPrecThresh, .rainScalar, .lwCloud]
  | .mtclim, "vapor_pressure" => [.tdayCoef, .swPrecThresh, .rainScalar, .lapseRate, .tdewTol]
  | .mtclim, "shortwave" => [.tdayCoef, .swPrecThresh, .rainScalar, .lapseRate, .tdewTol]
  | .mtclim, "tdew" => [.tdayCoef, .swPrecThresh, .rainScalar, .lapseRate, .tdewTol]
  | .mtclim, "pet" => [.tdayCoef, .swPrecThresh, .rainScalar, .lapseRate, .tdewTol]
  | .passthrough, "vapor_pressure" => [.tdayCoef, .lapseRate]
  | .passthrough, "tdew" => [.tdayCoef, .lapseRate]
  | .passthrough, "pet" => [.tdayCoef, .lapseRate]
  | _, _ => []

/-- What enters the temperature of a step. -/
def tempKnobs : List Knob := [.thetaS, .tmaxFraction]

/-- What enters a sub-daily variable. -/
def knobs (m : Method) : String → List Knob
  | "temp" => tempKnobs
  | "air_pressure" => tempKnobs ++ [.lapseRate]
  | "prec" => [.precType]
  | "wind" => []
  | "tskc" => dailyKnobs m "tskc"
  | "shortwave" => match m with
    | .mtclim => dailyKnobs m "shortwave"
    | .passthrough => [.swAveraging]
  | "vapor_pressure" => tempKnobs ++ dailyKnobs m "vapor_pressure"
  | "rel_humid" => tempKnobs ++ dailyKnobs m "vapor_pressure"
  | "spec_humid" => tempKnobs ++ [.lapseRate] ++ dailyKnobs m "vapor_pressure"
  | "longwave" => tempKnobs ++ [.lwType, .lwCloud] ++ dailyKnobs m "vapor_pressure" ++ dailyKnobs m "tskc"
  | _ => []

/-- The runs do the same kind of thing and write the same variables. -/
structure SameRun (s s' : Shared) : Prop where
  method : s.method = s'.method
  ts : s.ts = s'.ts
  calendar : s.calendar = s'.calendar
  ending : s.periodEnding = s'.periodEnding
  utc : s.utcOffset = s'.utcOffset
  vars : s.outVars = s'.outVars

/-- Two cells with the same inputs, except perhaps for the storms. -/
structure Alike (d d' : Data) : Prop where
  days : d.days = d'.days
  state : d.stateEnd = d'.stateEnd
  frame : ∀ k, k ∉ ["t_pk", "dur"] → Dict.get? d.frame k = Dict.get? d'.frame k

/-- Two cells at the same place with the same inputs, except perhaps for the storms. -/
structure SameInput (a b : Run.CellIn Data ℝ) : Prop where
  elev : a.elev = b.elev
  lat : a.lat = b.lat
  lon : a.lon = b.lon
  data : Alike a.data b.data

/-! ### The daily columns -/

theorem iterate_lwCloud (n : Nat) (d : Methods.Daily) (p : MParams) (x : String) (fuel : Nat) (old new : Col) :
    iterate n d { p with lwCloud := x } fuel old new = iterate n d p fuel old new := by
  induction fuel generalizing old new with
  | zero => rfl
  | succ f ih =>
    unfold iterate
    simp only [ih]
    rfl

/-- The way cloud cover is read enters nothing else. -/
theorem mtclim_lwCloud {n fuel : Nat} {f f' a b : Frame} {p : MParams} {x : String}
    (hf : AgreeIn ["t_min", "t_max", "dtr", "smoothed_dtr", "prec", "tt_max", "potrad", "daylength", "seasonal_prec"] f f')
    (h1 : mtclimRun n fuel f p = .ok (some a)) (h2 : mtclimRun n fuel f' { p with lwCloud := x } = .ok (some b)) :
    AgreeIn ["vapor_pressure", "shortwave", "tdew", "pet", "seasonal_prec"] a b := by
  unfold mtclimRun at h1 h2
  simp only [bind_ok, Dict.get_ok] at h1 h2
  obtain ⟨tMin, g1, tMax, g2, dtr, g3, sm, g4, prec, g5, tf, g6, tMin', g7, tf', g8, tt, g9, pot, g10,
    td, g11, dl, g12, sp, g13, dtr', g14, first, g15, res, g16, h1⟩ := h1
  obtain ⟨uMin, k1, uMax, k2, utr, k3, um, k4, urec, k5, uf, k6, uMin', k7, uf', k8, ut, k9, uot, k10,
    ud, k11, ul, k12, up, k13, utr', k14, uirst, k15, ues, k16, h2⟩ := h2
  simp (decide := true) only [Dict.get?_set, if_true, if_false, Option.some.injEq] at g3 g4 g5 g6 g7 g8 g9 g10 g11 g12 g13 g14 k3 k4 k5 k6 k7 k8 k9 k10 k11 k12 k13 k14
  obtain rfl := Option.some.inj (g1.symm.trans ((hf _ (by decide)).trans k1))
  obtain rfl := Option.some.inj (g2.symm.trans ((hf _ (by decide)).trans k2))
  obtain rfl := Option.some.inj (g3.symm.trans ((hf _ (by decide)).trans k3))
  obtain rfl := Option.some.inj (g4.symm.trans ((hf _ (by decide)).trans k4))
  obtain rfl := Option.some.inj (g5.symm.trans ((hf _ (by decide)).trans k5))
  obtain rfl := Option.some.inj (g7.symm.trans ((hf _ (by decide)).trans k7))
  obtain rfl := Option.some.inj (g9.symm.trans ((hf _ (by decide)).trans k9))
  obtain rfl := Option.some.inj (g10.symm.trans ((hf _ (by decide)).trans k10))
  obtain rfl := Option.some.inj (g12.symm.trans ((hf _ (by decide)).trans k12))
  obtain rfl := Option.some.inj (g13.symm.trans ((hf _ (by decide)).trans k13))
  obtain rfl := Option.some.inj (g14.symm.trans ((hf _ (by decide)).trans k14))
  have ef : tf' = uf' := g8.symm.trans k8
  have ed : td = ud := g11.symm.trans k11
  subst ef ed
  obtain rfl : first = uirst := Except.ok.inj (g15.symm.trans k15)
  rw [iterate_lwCloud] at k16
  obtain rfl : res = ues := Except.ok.inj (g16.symm.trans k16)
  cases res with
  | none => cases h1
  | some dew =>
    simp only [bind_ok, pure_ok, Dict.get_ok, Option.some.injEq] at h1 h2
    obtain ⟨sw, m1, e, m2, rfl⟩ := h1
    obtain ⟨sw', m1', e', m2', rfl⟩ := h2
    simp (decide := true) only [Dict.get?_set, if_true, if_false, Option.some.injEq] at m1 m1'
    have es : sw = sw' := m1.symm.trans m1'
    subst es
    obtain rfl : e = e' := Except.ok.inj (m2.symm.trans m2')
    intro k hk
    simp only [List.mem_cons, List.not_mem_nil, or_false] at hk
    rcases hk with rfl | rfl | rfl | rfl | rfl <;> simp (decide := true) only [Dict.get?_set, if_true, if_false]

section base

variable {fuel fuel' : Nat} {s s' : Shared} {elev lat lon : ℝ} {d d' : Data}

theorem sunny_knobs (q : Cell.Common fuel s elev lat lon d) (q' : Cell.Common fuel' s' elev lat lon d') :
    q.geom.map sunny = q'.geom.map sunny := solarGeom_sunny q.h_geom q'.h_geom

theorem rows_knobs (q : Cell.Common fuel s elev lat lon d) (q' : Cell.Common fuel' s' elev lat lon d') (hd : d.days = d'.days)
    (h : s.lapseRate = s'.lapseRate) :
    q.rows = q'.rows := by
  have hg : q.geom = q'.geom := by
    have := q'.h_geom
    rw [← h] at this
    exact Except.ok.inj (q.h_geom.symm.trans this)
  have a := q.h_rows
  rw [hg, hd] at a
  exact Except.ok.inj (a.symm.trans q'.h_rows)

theorem geom_knobs (q : Cell.Common fuel s elev lat lon d) (q' : Cell.Common fuel' s' elev lat lon d') (hd : d.days = d'.days) :
    AgreeIn ["daylength", "potrad"] (withGeom q.rows d.frame) (withGeom q'.rows d'.frame) := by
  have e := geomRows_sunny (sunny_knobs q q') q.h_rows (hd ▸ q'.h_rows)
  have e1 := congrArg (List.map fun x => (fin x.2.1 : Flt ℝ)) e
  have e2 := congrArg (List.map fun x => (fin x.2.2 : Flt ℝ)) e
  simp only [List.map_map, Function.comp_def, sunny] at e1 e2
  intro k hk
  simp only [List.mem_cons, List.not_mem_nil, or_false] at hk
  unfold withGeom
  rcases hk with rfl | rfl <;> simp (decide := true) only [Dict.get?_set, if_true, if_false, e1, e2]

/-- All but `tt_max` that the methods start from is the same. -/
theorem start_knobs (q : Cell.Common fuel s elev lat lon d) (q' : Cell.Common fuel' s' elev lat lon d') (hd : Alike d d')
    {l : List String} (hl : ∀ k ∈ l, k ∉ ["tt_max", "t_pk", "dur"]) : AgreeIn l (withGeom q.rows d.frame) (withGeom q'.rows d'.frame) := by
  intro k hk
  by_cases h : k ∈ ["daylength", "potrad"]
  · exact geom_knobs q q' hd.days k h
  · have hl := hl k hk
    have : k ∉ ["daylength", "potrad", "tt_max"] := by
      simp only [List.mem_cons, List.not_mem_nil, or_false, not_or] at h hl ⊢
      exact ⟨h.1, h.2, hl.1⟩
    rw [withGeom_keeps _ _ this, withGeom_keeps _ _ this]
    refine hd.frame k ?_
    simp only [List.mem_cons, List.not_mem_nil, or_false, not_or] at hl ⊢
    exact hl.2

/-- `mtclim`: a daily column depends on the parameters of the table only. -/
theorem mtclim_knobs (q : Cell.Common fuel s elev lat lon d) (q' : Cell.Common fuel' s' elev lat lon d') (hm : s.method = .mtclim)
    (hm' : s'.method = .mtclim) (hd : Alike d d') (name : String)
    (hn : Dict.get? d.frame name = Dict.get? d'.frame name) (h : ∀ k ∈ dailyKnobs .mtclim name, k.Same s s') :
    Dict.get? q.base name = Dict.get? q'.base name := by
  have h1 := q.h_base
  have h2 := q'.h_base
  rw [hm] at h1
  rw [hm'] at h2
  by_cases hin : name ∈ ["vapor_pressure", "shortwave", "tdew", "pet"]
  · have all : ∀ k ∈ [Knob.tdayCoef, .swPrecThresh, .rainScalar, .lapseRate, .tdewTol], k.Same s s' := by
      intro k hk
      refine h k ?_
      simp only [List.mem_cons, List.not_mem_nil, or_false] at hin
      rcases hin with rfl | rfl | rfl | rfl <;> exact hk
    have a1 : s.tdayCoef = s'.tdayCoef := all .tdayCoef (by decide)
    have a2 : s.swPrecThresh = s'.swPrecThresh := all .swPrecThresh (by decide)
    have a3 : s.rainScalar = s'.rainScalar := all .rainScalar (by decide)
    have a4 : s.lapseRate = s'.lapseRate := all .lapseRate (by decide)
    have a5 : s.tdewTol = s'.tdewTol := all .tdewTol (by decide)
    have h1 := C41_rounds _ _ fuel' _ _ _ (runMethod_mtclim h1)
    have h2 := C41_rounds _ _ fuel _ _ _ (runMethod_mtclim h2)
    rw [Nat.add_comm fuel' fuel, ← hd.days] at h2
    have ep : s'.daily elev = { s.daily elev with lwCloud := s'.lwCloud } := by
      unfold Shared.daily
      rw [a1, a2, a3, a4, a5]
    rw [ep] at h2
    have hf : AgreeIn ["t_min", "t_max", "dtr", "smoothed_dtr", "prec", "tt_max", "potrad", "daylength", "seasonal_prec"]
        (withGeom q.rows d.frame) (withGeom q'.rows d'.frame) := by
      intro k hk
      by_cases ht : k = "tt_max"
      · subst ht
        rw [rows_knobs q q' hd.days a4]
        simp (decide := true) only [withGeom, Dict.get?_set, if_true, if_false]
      · exact start_knobs q q' hd (l := ["t_min", "t_max", "dtr", "smoothed_dtr", "prec", "potrad", "daylength", "seasonal_prec"]) (by decide) k
          (by simp only [List.mem_cons, List.not_mem_nil, or_false] at hk ⊢; tauto)
    exact mtclim_lwCloud hf h1 h2 name (by simp only [List.mem_cons, List.not_mem_nil, or_false] at hin ⊢; tauto)
  · by_cases h8 : name ∈ ["t_day", "tfmax", "tskc", "seasonal_prec", "tdew", "vapor_pressure", "shortwave", "pet"]
    · obtain ⟨tMin, tMax, dtr, sm, prec, _, _, _, sp, _, _, _, g1, g2, g3, g4, g5, _, _, _, g9, _, _, _, e⟩ := mtclimRun_inv (runMethod_mtclim h1)
      obtain ⟨tMin', tMax', dtr', sm', prec', _, _, _, sp', _, _, _, g1', g2', g3', g4', g5', _, _, _, g9', _, _, _, e'⟩ :=
        mtclimRun_inv (runMethod_mtclim h2)
      have S := start_knobs q q' hd (l := ["t_min", "t_max", "dtr", "smoothed_dtr", "prec", "seasonal_prec"]) (by decide)
      rw [S _ (by decide), g1'] at g1
      rw [S _ (by decide), g2'] at g2
      rw [S _ (by decide), g3'] at g3
      rw [S _ (by decide), g4'] at g4
      rw [S _ (by decide), g5'] at g5
      rw [S _ (by decide), g9'] at g9
      obtain rfl := Option.some.inj g1
      obtain rfl := Option.some.inj g2
      obtain rfl := Option.some.inj g3
      obtain rfl := Option.some.inj g4
      obtain rfl := Option.some.inj g5
      obtain rfl := Option.some.inj g9
      rw [e, e']
      simp only [List.mem_cons, List.not_mem_nil, or_false] at h8 hin
      rcases h8 with rfl | rfl | rfl | rfl | rfl | rfl | rfl | rfl
      · have a1 : s.tdayCoef = s'.tdayCoef := h .tdayCoef (by decide)
        simp (decide := true) only [Dict.get?_set, if_true, if_false, Option.some.injEq]
        funext i
        unfold tDay Shared.daily
        rw [a1]
      · have a2 : s.swPrecThresh = s'.swPrecThresh := h .swPrecThresh (by decide)
        have a3 : s.rainScalar = s'.rainScalar := h .rainScalar (by decide)
        simp (decide := true) only [Dict.get?_set, if_true, if_false, Option.some.injEq]
        funext i
        unfold tfmax Shared.daily
        rw [a2, a3]
      · have a2 : s.swPrecThresh = s'.swPrecThresh := h .swPrecThresh (by decide)
        have a3 : s.rainScalar = s'.rainScalar := h .rainScalar (by decide)
        have a4 : s.lwCloud = s'.lwCloud := h .lwCloud (by decide)
        simp (decide := true) only [Dict.get?_set, if_true, if_false, Option.some.injEq]
        funext i
        unfold tskc tfmax Shared.daily
        rw [a2, a3, a4]
      · simp (decide := true) only [Dict.get?_set, if_true, if_false]
      all_goals exact absurd (by decide) hin
    · rw [runMethod_keeps q.h_base h8, runMethod_keeps q'.h_base h8]
      by_cases ht : name = "tt_max"
      · subst ht
        rw [rows_knobs q q' hd.days (h .lapseRate (by decide))]
        simp (decide := true) only [withGeom, Dict.get?_set, if_true, if_false]
      · by_cases hg : name ∈ ["daylength", "potrad"]
        · exact geom_knobs q q' hd.days _ hg
        · have : name ∉ ["daylength", "potrad", "tt_max"] := by
            simp only [List.mem_cons, List.not_mem_nil, or_false, not_or] at hg ⊢
            exact ⟨hg.1, hg.2, ht⟩
          rw [withGeom_keeps _ _ this, withGeom_keeps _ _ this, hn]

/-- `passthrough`: a daily column depends on the parameters of the table only. -/
theorem passthrough_knobs (q : Cell.Common fuel s elev lat lon d) (q' : Cell.Common fuel' s' elev lat lon d')
    (hm : s.method = .passthrough) (hm' : s'.method = .passthrough) (hd : Alike d d') (name : String)
    (hn : Dict.get? d.frame name = Dict.get? d'.frame name)
    (h : ∀ k ∈ dailyKnobs .passthrough name, k.Same s s') : Dict.get? q.base name = Dict.get? q'.base name := by
  have a : passthroughRun (withGeom q.rows d.frame) (s.daily elev) = .ok q.base := by have := q.h_base; rw [hm] at this; exact this
  have b : passthroughRun (withGeom q'.rows d'.frame) (s'.daily elev) = .ok q'.base := by have := q'.h_base; rw [hm'] at this; exact this
  have moist : (∀ k ∈ [Knob.tdayCoef, .lapseRate], k.Same s s') →
      AgreeIn ["vapor_pressure", "tdew", "pet", "shortwave", "t_day", "t_min", "t_max", "seasonal_prec", "dtr", "daylength"] q.base q'.base := by
    intro hk
    have k1 : s.tdayCoef = s'.tdayCoef := hk .tdayCoef (by decide)
    have k2 : s.lapseRate = s'.lapseRate := hk .lapseRate (by decide)
    exact passthrough_apart (start_knobs q q' hd (by decide)) a b (Or.inr ⟨by decide, by decide, by decide, k1⟩) (Or.inl (by decide))
      (Or.inl (by decide)) (Or.inr ⟨by decide, by decide, by decide, by decide, rfl, k2⟩) (by decide) (by decide)
  by_cases h8 : name ∈ ["t_day", "tfmax", "tskc", "seasonal_prec", "tdew", "vapor_pressure", "shortwave", "pet"]
  · simp only [List.mem_cons, List.not_mem_nil, or_false] at h8
    rcases h8 with rfl | rfl | rfl | rfl | rfl | rfl | rfl | rfl
    · exact passthrough_apart (start_knobs q q' hd (l := ["t_day", "t_min", "t_max"]) (by decide)) a b
        (Or.inr ⟨by decide, by decide, by decide, h .tdayCoef (by decide)⟩) (Or.inl (by decide))
        (Or.inl (by decide)) (Or.inl (by decide)) (by decide) (by decide) _ (by decide)
    · exact passthrough_apart (start_knobs q q' hd (l := ["tfmax", "dtr", "smoothed_dtr", "prec"]) (by decide)) a b (Or.inl (by decide))
        (Or.inr ⟨by decide, by decide, by decide, by decide, h .swPrecThresh (by decide), h .rainScalar (by decide)⟩)
        (Or.inl (by decide)) (Or.inl (by decide)) (by decide) (by decide) _ (by decide)
    · exact passthrough_apart (start_knobs q q' hd (l := ["tskc", "tfmax", "dtr", "smoothed_dtr", "prec"]) (by decide)) a b (Or.inl (by decide))
        (Or.inr ⟨by decide, by decide, by decide, by decide, h .swPrecThresh (by decide), h .rainScalar (by decide)⟩)
        (Or.inr ⟨by decide, by decide, h .lwCloud (by decide)⟩) (Or.inl (by decide)) (by decide) (by decide) _ (by decide)
    · -- seasonal precipitation
      have h0 := start_knobs q q' hd (l := ["seasonal_prec", "tdew"]) (by decide)
      simp only [passthroughRun] at a b
      split at a
      · cases a
      split at b
      · cases b
      simp only [bind_ok] at a b
      obtain ⟨f1, a1, f2, a2, f3, a3, f4, a4, f5, a5, a6⟩ := a
      obtain ⟨g1, b1, g2, b2, g3, b3, g4, b4, g5, b5, b6⟩ := b
      have h0 := addIfMissing_aside (addIfMissing_aside (addIfMissing_aside (addIfMissing_aside h0 (by decide) a1 b1) (by decide) a2 b2)
        (by decide) a3 b3) (by decide) a4 b4
      have e : AgreeIn ["seasonal_prec"] f5 g5 := by
        intro k hk
        obtain rfl := List.mem_singleton.1 hk
        obtain ⟨-, x2, x3⟩ := addTdew_ok a5
        obtain ⟨-, y2, y3⟩ := addTdew_ok b5
        cases ht : Dict.get? f4 "tdew" with
        | some c =>
          rw [x2 c ht, y2 c (by rw [← h0 _ (by decide)]; exact ht)]
          exact h0 _ (by decide)
        | none =>
          obtain ⟨_, _, _, _, _, _, z1, _, _, z2⟩ := x3 ht
          obtain ⟨_, _, _, _, _, _, w1, _, _, w2⟩ := y3 (by rw [← h0 _ (by decide)]; exact ht)
          rw [h0 _ (by decide), w1] at z1
          rw [z2, w2, Option.some.inj z1]
      exact addIfMissing_aside e (by decide) a6 b6 _ (by decide)
    · exact moist h _ (by decide)
    · exact moist h _ (by decide)
    · exact passthrough_apart (start_knobs q q' hd (l := ["shortwave"]) (by decide)) a b (Or.inl (by decide)) (Or.inl (by decide))
        (Or.inl (by decide)) (Or.inl (by decide)) (by decide) (by decide) _ (by decide)
    · exact moist h _ (by decide)
  · rw [runMethod_keeps q.h_base h8, runMethod_keeps q'.h_base h8]
    by_cases ht : name = "tt_max"
    · subst ht
      rw [rows_knobs q q' hd.days (h .lapseRate (by decide))]
      simp (decide := true) only [withGeom, Dict.get?_set, if_true, if_false]
    · by_cases hg : name ∈ ["daylength", "potrad"]
      · exact geom_knobs q q' hd.days _ hg
      · have : name ∉ ["daylength", "potrad", "tt_max"] := by
          simp only [List.mem_cons, List.not_mem_nil, or_false, not_or] at hg ⊢
          exact ⟨hg.1, hg.2, ht⟩
        rw [withGeom_keeps _ _ this, withGeom_keeps _ _ this, hn]

theorem base_knobs (q : Cell.Common fuel s elev lat lon d) (q' : Cell.Common fuel' s' elev lat lon d') (hm : s.method = s'.method)
    (hd : Alike d d') (name : String) (hn : Dict.get? d.frame name = Dict.get? d'.frame name) (h : ∀ k ∈ dailyKnobs s.method name, k.Same s s') : Dict.get? q.base name = Dict.get? q'.base name := by
  cases e : s.method with
  | mtclim => exact mtclim_knobs q q' e (hm ▸ e) hd name hn (e ▸ h)
  | passthrough => exact passthrough_knobs q q' e (hm ▸ e) hd name hn (e ▸ h)

end base

/-! ### The sub-daily frame -/

section sub

variable {fuel fuel' : Nat} {s s' : Shared} {elev lat lon : ℝ} {d d' : Data}

/-- Two runs over the same data. -/
structure Pair (q : Cell.Common fuel s elev lat lon d) (q' : Cell.Common fuel' s' elev lat lon d') (daily daily' : Disaggregate.Daily) :
    Prop where
  same : SameRun s s'
  alike : Alike d d'
  daily : dailyOf d.days q.base = .ok daily
  daily' : dailyOf d'.days q'.base = .ok daily'

variable {q : Cell.Common fuel s elev lat lon d} {q' : Cell.Common fuel' s' elev lat lon d'} {daily daily' : Disaggregate.Daily}
  {tb te : Option (List (Flt ℝ))}

theorem Pair.doy (h : Pair q q' daily daily') : daily.doy = daily'.doy := by
  rw [(dailyOf_ok h.daily).1, (dailyOf_ok h.daily').1, h.alike.days]

/-- A daily column. -/
theorem Pair.col (h : Pair q q' daily daily') {name : String} {xs xs' : List (Flt ℝ)} (a : column d.days.length q.base name = .ok xs)
    (b : column d'.days.length q'.base name = .ok xs') (e : ∀ k ∈ dailyKnobs s.method name, k.Same s s')
    (hn : name ∉ ["t_pk", "dur"] := by decide) : xs = xs' := by
  rw [← h.alike.days] at b
  exact column_same a b (base_knobs q q' h.same.method h.alike name (h.alike.frame _ hn) e)

theorem Pair.col? (h : Pair q q' daily daily') {name : String} (e : ∀ k ∈ dailyKnobs s.method name, k.Same s s')
    (hn : Dict.get? d.frame name = Dict.get? d'.frame name) :
    column? d.days.length q.base name = column? d'.days.length q'.base name := by
  unfold Cell.column?
  rw [base_knobs q q' h.same.method h.alike name hn e, h.alike.days]

theorem none_needed {name : String} (hn : name ∈ ["t_min", "t_max", "daylength", "prec", "wind", "longwave", "t_pk", "dur"]) (m : Method) :
    ∀ k ∈ dailyKnobs m name, k.Same s s' := by
  intro k hk
  have : dailyKnobs m name = [] := by
    clear hk
    revert name
    cases m <;> decide
  rw [this] at hk
  cases hk

theorem Pair.times (h : Pair q q' daily daily') (e : ∀ k ∈ tempKnobs, k.Same s s') (t : Trace daily (s.sub elev lon) q.geom tb te)
    (t' : Trace daily' (s'.sub elev lon) q'.geom tb te) : t.times = t'.times := by
  have a := t.h_times
  have b := t'.h_times
  have e1 : s.utcOffset = true → s.thetaS = s'.thetaS := e .thetaS (by decide)
  have e2 : s.tmaxFraction = s'.tmaxFraction := e .tmaxFraction (by decide)
  rw [← h.doy, ← fract_of_sunny (sunny_knobs q q')] at b
  have e3 : Disagg.setMinMaxHour (hours (s.sub elev lon)) (q.geom.map (·.fract)) (daily.doy.map (· - 1)) =
      Disagg.setMinMaxHour (hours (s'.sub elev lon)) (q.geom.map (·.fract)) (daily.doy.map (· - 1)) := by
    show Disagg.setMinMaxHour ⟨s.ts, s.utcOffset, Disagg.remainder360 lon, s.thetaS, s.tmaxFraction⟩ _ _ =
      Disagg.setMinMaxHour ⟨s'.ts, s'.utcOffset, Disagg.remainder360 lon, s'.thetaS, s'.tmaxFraction⟩ _ _
    rw [← h.same.ts, ← h.same.utc, ← e2]
    cases hu : s.utcOffset with
    | true => rw [e1 hu]
    | false => rfl
  exact Except.ok.inj (a.symm.trans (e3.trans b))

theorem Pair.temp (h : Pair q q' daily daily') (e : ∀ k ∈ tempKnobs, k.Same s s') (t : Trace daily (s.sub elev lon) q.geom tb te)
    (t' : Trace daily' (s'.sub elev lon) q'.geom tb te) : t.temp = t'.temp := by
  have a := t.h_temp
  have b := t'.h_temp
  obtain ⟨-, -, -, q4, q5, -⟩ := dailyOf_ok h.daily
  obtain ⟨-, -, -, p4, p5, -⟩ := dailyOf_ok h.daily'
  have ets : (s'.sub elev lon).ts = (s.sub elev lon).ts := h.same.ts.symm
  rw [← h.doy, ← h.col q4 p4 (none_needed (by decide) _), ← h.col q5 p5 (none_needed (by decide) _), ← h.times e t t', ets] at b
  exact Except.ok.inj (a.symm.trans b)

theorem Pair.vapour (h : Pair q q' daily daily') (e : ∀ k ∈ tempKnobs, k.Same s s')
    (ev : ∀ k ∈ dailyKnobs s.method "vapor_pressure", k.Same s s') (t : Trace daily (s.sub elev lon) q.geom tb te)
    (t' : Trace daily' (s'.sub elev lon) q'.geom tb te) : t.vp = t'.vp := by
  have a := t.h_vp
  have b := t'.h_vp
  obtain ⟨-, -, -, -, -, q6, -⟩ := dailyOf_ok h.daily
  obtain ⟨-, -, -, -, -, p6, -⟩ := dailyOf_ok h.daily'
  have ets : (s'.sub elev lon).ts = (s.sub elev lon).ts := h.same.ts.symm
  rw [← h.doy, ← h.col q6 p6 ev, ← h.times e t t', ← h.temp e t t', ets] at b
  exact Except.ok.inj (a.symm.trans b)

theorem Pair.cloud (h : Pair q q' daily daily') (ec : ∀ k ∈ dailyKnobs s.method "tskc", k.Same s s')
    (t : Trace daily (s.sub elev lon) q.geom tb te) (t' : Trace daily' (s'.sub elev lon) q'.geom tb te) : t.cloud = t'.cloud := by
  have a := t.h_cloud
  have b := t'.h_cloud
  obtain ⟨-, -, -, -, -, -, q7, -⟩ := dailyOf_ok h.daily
  obtain ⟨-, -, -, -, -, -, p7, -⟩ := dailyOf_ok h.daily'
  have ets : (s'.sub elev lon).ts = (s.sub elev lon).ts := h.same.ts.symm
  have eutc : (s'.sub elev lon).utcOffset = (s.sub elev lon).utcOffset := h.same.utc.symm
  rw [← h.col q7 p7 ec, ets, eutc] at b
  exact Except.ok.inj (a.symm.trans b)

theorem Pair.longwave (h : Pair q q' daily daily') (e : ∀ k ∈ tempKnobs, k.Same s s')
    (ev : ∀ k ∈ dailyKnobs s.method "vapor_pressure", k.Same s s') (ec : ∀ k ∈ dailyKnobs s.method "tskc", k.Same s s')
    (e1 : s.lwType = s'.lwType) (e2 : s.lwCloud = s'.lwCloud)
    (t : Trace daily (s.sub elev lon) q.geom tb te) (t' : Trace daily' (s'.sub elev lon) q'.geom tb te) : t.lw = t'.lw := by
  have a := t.h_lw
  have b := t'.h_lw
  obtain ⟨-, -, -, -, -, -, -, -, -, q10, -⟩ := dailyOf_ok h.daily
  obtain ⟨-, -, -, -, -, -, -, -, -, p10, -⟩ := dailyOf_ok h.daily'
  have ets : (s'.sub elev lon).ts = (s.sub elev lon).ts := h.same.ts.symm
  have e1 : (s'.sub elev lon).lwType = (s.sub elev lon).lwType := e1.symm
  have e2 : (s'.sub elev lon).lwCloud = (s.sub elev lon).lwCloud := e2.symm
  rw [h.temp e t t', h.vapour e ev t t', h.cloud ec t t', q10, h.col? (none_needed (by decide) _) (h.alike.frame _ (by decide)), ← p10, ← ets, ← e1, ← e2] at a
  exact Except.ok.inj (a.symm.trans b)

theorem Pair.shortwave (h : Pair q q' daily daily') (es : ∀ k ∈ knobs s.method "shortwave", k.Same s s')
    (t : Trace daily (s.sub elev lon) q.geom tb te) (t' : Trace daily' (s'.sub elev lon) q'.geom tb te) : t.sw = t'.sw := by
  have a := t.h_sw
  have b := t'.h_sw
  obtain ⟨-, q2, q3, -⟩ := dailyOf_ok h.daily
  obtain ⟨-, p2, p3, -⟩ := dailyOf_ok h.daily'
  have ets : (s'.sub elev lon).ts = (s.sub elev lon).ts := h.same.ts.symm
  have eutc : (s'.sub elev lon).utcOffset = (s.sub elev lon).utcOffset := h.same.utc.symm
  have e1 : (q.geom.map fun g => (List.range Disagg.slotsPerDay).map g.fract) =
      q'.geom.map fun g => (List.range Disagg.slotsPerDay).map g.fract := by
    have := congrArg (List.map fun f => (List.range Disagg.slotsPerDay).map f) (fract_of_sunny (sunny_knobs q q'))
    simpa [List.map_map, Function.comp_def] using this
  have e2 : daily.daylength = daily'.daylength := h.col q3 p3 (none_needed (by decide) _)
  have e3 : daily.shortwave = daily'.shortwave := h.col q2 p2 fun k hk => by
    cases hm : s.method with
    | mtclim => exact es k (by rw [hm] at hk ⊢; exact hk)
    | passthrough => rw [hm] at hk; cases hk
  have e4 : daylengthOf daily (s.sub elev lon) = daylengthOf daily' (s'.sub elev lon) := by
    unfold daylengthOf Shared.sub
    rw [← h.same.method, e2]
    cases hm : s.method with
    | mtclim => rfl
    | passthrough =>
      rw [show s.swAveraging = s'.swAveraging from es .swAveraging (by rw [hm]; decide)]
  rw [← e1, ← e3, ← e4, ← h.doy, ets, eutc] at b
  exact Except.ok.inj (a.symm.trans b)

theorem Pair.wind (h : Pair q q' daily daily') (t : Trace daily (s.sub elev lon) q.geom tb te)
    (t' : Trace daily' (s'.sub elev lon) q'.geom tb te) : t.wind = t'.wind := by
  have a := t.h_wind
  have b := t'.h_wind
  obtain ⟨-, -, -, -, -, -, -, -, q9, -⟩ := dailyOf_ok h.daily
  obtain ⟨-, -, -, -, -, -, -, -, p9, -⟩ := dailyOf_ok h.daily'
  have ets : (s'.sub elev lon).ts = (s.sub elev lon).ts := h.same.ts.symm
  have eutc : (s'.sub elev lon).utcOffset = (s.sub elev lon).utcOffset := h.same.utc.symm
  unfold windOf at a b
  rw [q9, h.col? (none_needed (by decide) _) (h.alike.frame _ (by decide)), ← p9, h.doy, ← ets, ← eutc] at a
  exact Except.ok.inj (a.symm.trans b)

theorem Pair.prec (h : Pair q q' daily daily') (e : s.precType = s'.precType) (e1 : Dict.get? d.frame "t_pk" = Dict.get? d'.frame "t_pk")
    (e2 : Dict.get? d.frame "dur" = Dict.get? d'.frame "dur") (t : Trace daily (s.sub elev lon) q.geom tb te)
    (t' : Trace daily' (s'.sub elev lon) q'.geom tb te) : t.prec = t'.prec := by
  have a := t.h_prec
  have b := t'.h_prec
  obtain ⟨-, -, -, q4, -, -, -, q8, -, -, q11, q12⟩ := dailyOf_ok h.daily
  obtain ⟨-, -, -, p4, -, -, -, p8, -, -, p11, p12⟩ := dailyOf_ok h.daily'
  have ets : (s'.sub elev lon).ts = (s.sub elev lon).ts := h.same.ts.symm
  have eutc : (s'.sub elev lon).utcOffset = (s.sub elev lon).utcOffset := h.same.utc.symm
  have ep : (s'.sub elev lon).precType = (s.sub elev lon).precType := e.symm
  rw [h.col q4 p4 (none_needed (by decide) _), h.col q8 p8 (none_needed (by decide) _), q11, q12,
    h.col? (none_needed (by decide) _) e1, h.col? (none_needed (by decide) _) e2, ← p11, ← p12, ← ets, ← eutc, ← ep] at a
  exact Except.ok.inj (a.symm.trans b)

end sub

/-! ### The files -/

theorem stamp_same {j j' : Job} (hs : SameRun j.shared j'.shared) (hd0 : j.d0 = j'.d0) (k i : Nat) : j.stamp k i = j'.stamp k i := by
  unfold Job.stamp
  rw [hs.ts, hs.ending, hd0]

/-- **C139**: two runs over the same cell that differ in parameters other than those of the table write the same values. -/
theorem C139_parameters (j j' : Job) (hj : j.Sane) (hj' : j'.Sane) (hs : SameRun j.shared j'.shared) (hd0 : j.d0 = j'.d0)
    (hn : j.n = j'.n) (fuel fuel' : Nat) (order order' : List (Dict String Chunk.Slice)) (ho : j.Schedule order) (ho' : j'.Schedule order')
    (files files' : Run.Files Output) (hrun : j.run fuel order = .ok files) (hrun' : j'.run fuel' order' = .ok files')
    (hsub : j.shared.ts < 1440) (c c' : Run.Cell) (hc : j.Computed c) (hc' : j'.Computed c') (v u : String)
    (hin : SameInput (j.inp c) (j'.inp c'))
    (hstorm : v = "prec" → ∀ k ∈ ["t_pk", "dur"], Dict.get? (j.inp c).data.frame k = Dict.get? (j'.inp c').data.frame k)
    (hu : j.shared.outVars.get? v = some u) (hk : ∀ k ∈ knobs j.shared.method v, k.Same j.shared j'.shared)
    (val val' : ℚ → Flt ℝ) (hval : Recorded j files v c val) (hval' : Recorded j' files' v c' val')
    (k i : Nat) (hkn : k < j.n) (hi : i < 1440 / j.shared.ts) : val (j.stamp k i) = val' (j.stamp k i) := by
  obtain ⟨elev, lat, lon, h1, h2, h3, q, daily, sub, hd, hsu, hcol⟩ := written_sub j hj ho hrun hsub hc
  have hw := written_sub j' hj' ho' hrun' (hs.ts ▸ hsub) hc'
  obtain ⟨elev', lat', lon', h1', h2', h3', q', daily', sub', hd', hsu', hcol'⟩ := hw
  obtain rfl := Flt.fin.inj (h1.symm.trans (hin.elev.trans h1'))
  obtain rfl := Flt.fin.inj (h2.symm.trans (hin.lat.trans h2'))
  obtain rfl := Flt.fin.inj (h3.symm.trans (hin.lon.trans h3'))
  obtain ⟨col, w, a1, a2, a3⟩ := hcol v u hu
  obtain ⟨col', w', a1', a2', a3'⟩ := hcol' v u (hs.vars ▸ hu)
  obtain ⟨t, rfl⟩ := disaggregate_ok.1 hsu
  rw [← hin.data.state] at hsu'
  obtain ⟨t', rfl⟩ := disaggregate_ok.1 hsu'
  have p : Pair q q' daily daily' := ⟨hs, hin.data, hd, hd'⟩
  have e : subColumn t.sub v = subColumn t'.sub v := by
    refine apart_names fun hv => ?_
    simp only [List.mem_cons, List.not_mem_nil, or_false] at hv
    rcases hv with rfl | rfl | rfl | rfl | rfl | rfl | rfl | rfl | rfl | rfl
    · show Except.ok (fillBoth t.sw) = Except.ok (fillBoth t'.sw)
      rw [p.shortwave hk t t']
    · show Except.ok (fillBoth (t.temp.map fin)) = Except.ok (fillBoth (t'.temp.map fin))
      rw [p.temp hk t t']
    · show Except.ok (fillBoth (fillBoth t.vp)) = Except.ok (fillBoth (fillBoth t'.vp))
      rw [p.vapour (fun k h => hk k (List.mem_append_left _ h)) (fun k h => hk k (List.mem_append_right _ h)) t t']
    · show Except.ok (fillBoth t.relHumid) = Except.ok (fillBoth t'.relHumid)
      unfold Trace.relHumid
      rw [p.vapour (fun k h => hk k (List.mem_append_left _ h)) (fun k h => hk k (List.mem_append_right _ h)) t t',
        p.temp (fun k h => hk k (List.mem_append_left _ h)) t t']
    · show Except.ok (fillBoth t.airPressure) = Except.ok (fillBoth t'.airPressure)
      have el : (j.shared.sub elev lon).lapseRate = (j'.shared.sub elev lon).lapseRate := hk .lapseRate (by simp [knobs])
      unfold Trace.airPressure
      rw [p.temp (fun k h => hk k (List.mem_append_left _ h)) t t', el]
      rfl
    · show Except.ok (fillBoth t.specHumid) = Except.ok (fillBoth t'.specHumid)
      have el : (j.shared.sub elev lon).lapseRate = (j'.shared.sub elev lon).lapseRate := hk .lapseRate (by simp [knobs])
      have et : ∀ k ∈ tempKnobs, k.Same j.shared j'.shared := fun k h => hk k (List.mem_append_left _ (List.mem_append_left _ h))
      unfold Trace.specHumid Trace.airPressure
      rw [p.vapour et (fun k h => hk k (List.mem_append_right _ h)) t t', p.temp et t t', el]
      rfl
    · show Except.ok (fillBoth t.cloud) = Except.ok (fillBoth t'.cloud)
      rw [p.cloud hk t t']
    · show Except.ok (fillBoth t.lw) = Except.ok (fillBoth t'.lw)
      rw [p.longwave (fun k h => hk k (List.mem_append_left _ (List.mem_append_left _ (List.mem_append_left _ h))))
        (fun k h => hk k (List.mem_append_left _ (List.mem_append_right _ h))) (fun k h => hk k (List.mem_append_right _ h))
        (hk .lwType (by simp [knobs])) (hk .lwCloud (by simp [knobs])) t t']
    · show Except.ok (fillBoth t.prec) = Except.ok (fillBoth t'.prec)
      rw [p.prec (hk .precType (by simp [knobs])) (hstorm rfl _ (by decide)) (hstorm rfl _ (by decide)) t t']
    · have e := p.wind t t'
      simp only [subColumn, Trace.sub, e]
  rw [a1, a1'] at e
  have e := Except.ok.inj e
  have b := a3 k hkn i hi
  have b' := a3' k (hn ▸ hkn) i (hs.ts ▸ hi)
  rw [e, hs.ts, b', ← stamp_same hs hd0] at b
  rw [recorded_unique j hj hval a2 hkn hi, ← Except.ok.inj b, stamp_same hs hd0,
    recorded_unique j' hj' hval' a2' (hn ▸ hkn) (hs.ts ▸ hi)]

/-- **C139**, daily output: besides the time step nothing of the disaggregation counts. -/
theorem C139_daily (j j' : Job) (hj : j.Sane) (hj' : j'.Sane) (hs : SameRun j.shared j'.shared) (hd0 : j.d0 = j'.d0)
    (hn : j.n = j'.n) (fuel fuel' : Nat) (order order' : List (Dict String Chunk.Slice)) (ho : j.Schedule order) (ho' : j'.Schedule order')
    (files files' : Run.Files Output) (hrun : j.run fuel order = .ok files) (hrun' : j'.run fuel' order' = .ok files')
    (hday : j.shared.ts = 1440) (c c' : Run.Cell) (hc : j.Computed c) (hc' : j'.Computed c') (v u : String)
    (hin : SameInput (j.inp c) (j'.inp c'))
    (hu : j.shared.outVars.get? v = some u) (hk : ∀ k ∈ dailyKnobs j.shared.method v, k.Same j.shared j'.shared)
    (val val' : ℚ → Flt ℝ) (hval : Recorded j files v c val) (hval' : Recorded j' files' v c' val')
    (k : Nat) (hkn : k < j.n) : val (j.stamp k 0) = val' (j.stamp k 0) := by
  obtain ⟨elev, lat, lon, h1, h2, h3, q, rep, hrep, hcol⟩ := written_daily j hj ho hrun hday hc
  have hw := written_daily j' hj' ho' hrun' (hs.ts ▸ hday) hc'
  obtain ⟨elev', lat', lon', h1', h2', h3', q', rep', hrep', hcol'⟩ := hw
  obtain rfl := Flt.fin.inj (h1.symm.trans (hin.elev.trans h1'))
  obtain rfl := Flt.fin.inj (h2.symm.trans (hin.lat.trans h2'))
  obtain rfl := Flt.fin.inj (h3.symm.trans (hin.lon.trans h3'))
  obtain ⟨col, w, a1, a2, a3⟩ := hcol v u hu
  obtain ⟨col', w', a1', a2', a3'⟩ := hcol' v u (hs.vars ▸ hu)
  have e : Dict.get? rep v = Dict.get? rep' v := by
    unfold dailyShortwave at hrep hrep'
    simp only [bind_ok, pure_ok, Dict.get_ok] at hrep hrep'
    obtain ⟨sw, g1, dl, g2, rfl⟩ := hrep
    obtain ⟨sw', g1', dl', g2', rfl⟩ := hrep'
    have eb := base_knobs q q' hs.method hin.data v (by
      refine hin.data.frame v fun h => ?_
      have hcv := convert_iff.1 ⟨_, a3 k hkn⟩
      obtain ⟨x, -, y, -⟩ := hcv
      clear hk hval hval' hu a1 a1' a2 a2' a3 a3'
      revert v
      simp [Units.converters, Dict.get?_cons]) hk
    rw [Dict.get?_set, Dict.get?_set]
    by_cases hv : "shortwave" = v
    · subst hv
      have e2 := base_knobs q q' hs.method hin.data "daylength" (hin.data.frame _ (by decide)) (none_needed (by decide) _)
      rw [g1, g1'] at eb
      rw [g2, g2'] at e2
      rw [if_pos rfl, if_pos rfl, Option.some.inj eb, Option.some.inj e2]
    · simp only [hv, if_false]
      exact eb
  rw [a1, a1'] at e
  have e := Option.some.inj e
  have b := a3 k hkn
  have b' := a3' k (hn ▸ hkn)
  rw [e, hs.ts, b', ← stamp_same hs hd0] at b
  have h0 : 0 < 1440 / j.shared.ts := by rw [hday]; decide
  rw [recorded_unique j hj hval a2 hkn h0, ← Except.ok.inj b, stamp_same hs hd0,
    recorded_unique j' hj' hval' a2' (hn ▸ hkn) (hs.ts ▸ h0)]

/-! ### There are such runs -/

/-- The run of `site` with other parameters for radiation and cloud cover. -/
noncomputable def tuned (ts : Nat) : Job :=
  { site ts 100 10 1 with
    shared := { (site ts 100 10 1).shared with
      swAveraging := "daylight", thetaS := 7, swPrecThresh := 3, rainScalar := 0.25, tdewTol := 2, lwType := "anderson" } }

theorem tuned_sane {ts : Nat} (hts : ts = 720 ∨ ts = 1440) : (tuned ts).Sane where
  step := (site_sane hts 100 10 1).step
  pos := Nat.one_pos
  calendar := regular_standard _ _
  data := fun _ => rfl
  freq := oneDay_sane.freq
  years := (site_sane hts 100 10 1).years
  vars := oneDay_sane.vars
  names := oneDay_sane.names
  dims := oneDay_sane.dims
  dims_pos := oneDay_sane.dims_pos
  chunks := oneDay_sane.chunks
  chunks_pos := oneDay_sane.chunks_pos
  same := oneDay_sane.same

theorem tuned_complete {ts : Nat} (c : Run.Cell) : CompleteCell (tuned ts).shared 1 ((tuned ts).inp c) :=
  have h := site_complete (ts := ts) (z := 100) (by norm_num) 10 1 c
  { place := h.place
    lapse := h.lapse
    columns := h.columns
    radiation := h.radiation
    tMin := h.tMin
    tMax := h.tMax
    state := h.state
    fraction := h.fraction
    lwType := ⟨.anderson, by show Lw.lwTypeOf "anderson" = _; decide⟩
    lwCloud := h.lwCloud
    storm := h.storm }

theorem tuned_runs {ts : Nat} (hts : ts = 720 ∨ ts = 1440) :
    ∃ order files, (tuned ts).Schedule order ∧ (tuned ts).run 0 order = .ok files := by
  obtain ⟨files, h⟩ := (C71_run (tuned ts) (tuned_sane hts) 0 [[("lat", none), ("lon", none)]]
    ⟨_, rfl, List.Perm.refl _⟩ (fun c _ => tuned_complete c) (fun h => by cases h)).2 (by
      intro c _ q hq
      have hq : q = ("vapor_pressure", "kPa") := by simpa [tuned, site, oneDay] using hq
      subst hq
      refine ⟨?_, _, _, rfl, rfl⟩
      unfold Offers
      split
      · exact Or.inl (by decide)
      · exact Or.inl (by decide))
  exact ⟨_, files, ⟨_, rfl, List.Perm.refl _⟩, h⟩

/-- **C139**: there are two such runs for either kind of output. -/
example (ts : Nat) (hts : ts = 720 ∨ ts = 1440) : (site ts 100 10 1).Sane ∧ (tuned ts).Sane ∧
    SameRun (site ts 100 10 1).shared (tuned ts).shared ∧
    (site ts 100 10 1).Computed [0, 0] ∧ (tuned ts).Computed [0, 0] ∧
    SameInput ((site ts 100 10 1).inp [0, 0]) ((tuned ts).inp [0, 0]) ∧
    (∀ k ∈ knobs .passthrough "vapor_pressure", k.Same (site ts 100 10 1).shared (tuned ts).shared) ∧
    (∀ k ∈ dailyKnobs .passthrough "vapor_pressure", k.Same (site ts 100 10 1).shared (tuned ts).shared) ∧
    (site ts 100 10 1).shared.outVars.get? "vapor_pressure" = some "kPa" ∧
    (∃ order files, (site ts 100 10 1).Schedule order ∧ (site ts 100 10 1).run 0 order = .ok files) ∧
    (∃ order files, (tuned ts).Schedule order ∧ (tuned ts).run 0 order = .ok files) := by
  refine ⟨site_sane hts _ _ _, tuned_sane hts, ⟨rfl, rfl, rfl, rfl, rfl, rfl⟩,
    ⟨by show _ ∈ gridCells [("lat", 1), ("lon", 2)]; decide, 1, rfl, one_pos⟩,
    ⟨by show _ ∈ gridCells [("lat", 1), ("lon", 2)]; decide, 1, rfl, one_pos⟩,
    ⟨rfl, rfl, rfl, ⟨rfl, rfl, fun _ _ => rfl⟩⟩, ?_, ?_, rfl,
    site_runs hts (by norm_num) _ _, tuned_runs hts⟩
  · intro k hk
    have : k ∈ [Knob.thetaS, .tmaxFraction, .tdayCoef, .lapseRate] := hk
    simp only [List.mem_cons, List.not_mem_nil, or_false] at this
    rcases this with rfl | rfl | rfl | rfl
    · intro h; cases h
    all_goals rfl
  · intro k hk
    have : k ∈ [Knob.tdayCoef, .lapseRate] := hk
    simp only [List.mem_cons, List.not_mem_nil, or_false] at this
    rcases this with rfl | rfl <;> rfl

end Verif.Props
