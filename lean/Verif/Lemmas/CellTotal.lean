import Verif.Lemmas.Cell

/-!
# When a cell can be computed
-/

namespace Verif.Cell

open Flt Methods Physics Props

/-- The frame has a column of that name. -/
def Has (df : Frame) (name : String) : Prop := Dict.get? df name ≠ none

theorem Has.get {df : Frame} {name : String} (h : Has df name) : ∃ c, Dict.get? df name = some c :=
  Option.ne_none_iff_exists'.1 h

theorem has_set (df : Frame) (k name : String) (c : Col) : Has (Dict.set df k c) name ↔ k = name ∨ Has df name := by
  unfold Has
  rw [Dict.get?_set]
  by_cases h : k = name <;> simp [h]

theorem addIfMissing_total {name : String} {value : Frame → Except PyErr Col} {df : Frame}
    (h : ∃ c, value df = .ok c) : ∃ out, addIfMissing name value df = .ok out ∧
      ∀ k, Has out k ↔ k = name ∨ Has df k := by
  unfold addIfMissing
  cases hd : Dict.get? df name with
  | some c =>
    refine ⟨df, rfl, fun k => ⟨Or.inr, ?_⟩⟩
    rintro (rfl | h)
    · unfold Has; simp [hd]
    · exact h
  | none =>
    obtain ⟨c, hc⟩ := h
    simp only [hc, bind, Except.bind, pure, Except.pure]
    refine ⟨_, rfl, fun k => ?_⟩
    rw [has_set]
    exact or_congr_left eq_comm

theorem addTdew_total {df : Frame} (h : Has df "pet" ∧ Has df "t_min" ∧ Has df "seasonal_prec" ∧ Has df "dtr") :
    ∃ out, addTdew df = .ok out ∧ ∀ k, Has out k ↔ k = "tdew" ∨ Has df k := by
  obtain ⟨h1, h2, h3, h4⟩ := h
  obtain ⟨_, g1⟩ := h1.get
  obtain ⟨_, g2⟩ := h2.get
  obtain ⟨_, g3⟩ := h3.get
  obtain ⟨_, g4⟩ := h4.get
  unfold addTdew
  cases hd : Dict.get? df "tdew" with
  | some c =>
    refine ⟨df, rfl, fun k => ⟨Or.inr, ?_⟩⟩
    rintro (rfl | h)
    · unfold Has; simp [hd]
    · exact h
  | none =>
    simp only [Dict.get, g1, g2, g3, g4, bind, Except.bind, pure, Except.pure]
    refine ⟨_, rfl, fun k => ?_⟩
    rw [has_set, has_set]
    constructor
    · rintro (h | rfl | h)
      · exact Or.inl h.symm
      · exact Or.inr h3
      · exact Or.inr h
    · rintro (h | h)
      · exact Or.inl h.symm
      · exact Or.inr (Or.inr h)

/-- The columns the daily methods read. -/
def required : List String := ["t_min", "t_max", "dtr", "smoothed_dtr", "prec", "seasonal_prec"]

theorem get_of_has {df : Frame} {name : String} (h : Has df name) : ∃ c, df.get name = .ok c := by
  obtain ⟨c, hc⟩ := h.get
  exact ⟨c, Dict.get_ok.2 hc⟩

theorem pet_total {p : MParams} (hl : p.lapseRate ≠ 0) : ∀ a b c : Col, ∃ e, pet a b c p = .ok e := by
  intro a b c
  have hpa : ∃ pa, atmPres p.elev p.lapseRate = .ok pa := by
    unfold atmPres
    simp only [if_neg hl]
    exact ⟨_, rfl⟩
  obtain ⟨pa, hpa⟩ := hpa
  unfold pet
  simp only [hpa]
  exact ⟨_, rfl⟩

/-- `passthrough` succeeds if the columns it reads are there, and adds columns only. -/
theorem passthrough_total {df : Frame} {p : MParams} (hl : p.lapseRate ≠ 0) (hr : ∀ k ∈ required, Has df k)
    (hd : Has df "daylength") (hs : Has df "shortwave") :
    ∃ out, passthroughRun df p = .ok out ∧ ∀ k, Has out k ↔ k ∈ addable ∨ Has df k := by
  have r1 := hr "t_min" (by decide)
  have r2 := hr "t_max" (by decide)
  have r3 := hr "dtr" (by decide)
  have r4 := hr "smoothed_dtr" (by decide)
  have r5 := hr "prec" (by decide)
  have r6 := hr "seasonal_prec" (by decide)
  obtain ⟨d1, e1, k1⟩ := addIfMissing_total (name := "t_day") (df := df) (value := fun df => do
        let tMin ← df.get "t_min"
        let tMax ← df.get "t_max"
        pure fun i => tDay (tMin i) (tMax i) p) (by
    obtain ⟨a, ha⟩ := get_of_has r1
    obtain ⟨b, hb⟩ := get_of_has r2
    exact ⟨_, by simp only [ha, hb]; rfl⟩)
  obtain ⟨d2, e2, k2⟩ := addIfMissing_total (name := "tfmax") (df := d1) (value := fun df => do
        let dtr ← df.get "dtr"
        let smDtr ← df.get "smoothed_dtr"
        let prec ← df.get "prec"
        pure fun i => tfmax (dtr i) (smDtr i) (prec i) p) (by
    obtain ⟨a, ha⟩ := get_of_has ((k1 _).2 (Or.inr r3))
    obtain ⟨b, hb⟩ := get_of_has ((k1 _).2 (Or.inr r4))
    obtain ⟨c, hc⟩ := get_of_has ((k1 _).2 (Or.inr r5))
    exact ⟨_, by simp only [ha, hb, hc]; rfl⟩)
  obtain ⟨d3, e3, k3⟩ := addIfMissing_total (name := "tskc") (df := d2) (value := fun df => do
        let tf ← df.get "tfmax"
        pure fun i => tskc (tf i) p) (by
    obtain ⟨a, ha⟩ := get_of_has ((k2 _).2 (Or.inl rfl))
    exact ⟨_, by simp only [ha]; rfl⟩)
  have up3 : ∀ k, Has df k → Has d3 k := fun k h => (k3 k).2 (Or.inr ((k2 k).2 (Or.inr ((k1 k).2 (Or.inr h)))))
  obtain ⟨d4, e4, k4⟩ := addIfMissing_total (name := "pet") (df := d3) (value := fun df => do
        let sw ← df.get "shortwave"
        let td ← df.get "t_day"
        let daylength ← df.get "daylength"
        pet sw td daylength p) (by
    obtain ⟨a, ha⟩ := get_of_has (up3 _ hs)
    obtain ⟨b, hb⟩ := get_of_has ((k3 _).2 (Or.inr ((k2 _).2 (Or.inr ((k1 _).2 (Or.inl rfl))))))
    obtain ⟨c, hc⟩ := get_of_has (up3 _ hd)
    obtain ⟨e, he⟩ := pet_total hl a b c
    exact ⟨e, by simp only [ha, hb, hc, ← he]; rfl⟩)
  have up4 : ∀ k, Has df k → Has d4 k := fun k h => (k4 k).2 (Or.inr (up3 k h))
  obtain ⟨d5, e5, k5⟩ := addTdew_total (df := d4) ⟨(k4 _).2 (Or.inl rfl), up4 _ r1, up4 _ r6, up4 _ r3⟩
  obtain ⟨d6, e6, k6⟩ := addIfMissing_total (name := "vapor_pressure") (df := d5) (value := fun df => do
        let dew ← df.get "tdew"
        pure fun i => vaporPressure (dew i)) (by
    obtain ⟨a, ha⟩ := get_of_has ((k5 _).2 (Or.inl rfl))
    exact ⟨_, by simp only [ha]; rfl⟩)
  refine ⟨d6, ?_, fun k => ?_⟩
  · unfold passthroughRun
    obtain ⟨s, hs⟩ := hs.get
    rw [hs]
    simp only [Option.isNone_some, Bool.false_eq_true, if_false, bind_ok]
    exact ⟨d1, e1, d2, e2, d3, e3, d4, e4, d5, e5, e6⟩
  · rw [k6, k5, k4, k3, k2, k1]
    unfold addable
    simp only [List.mem_cons, List.not_mem_nil, or_false]
    tauto

/-- `mtclim` comes to an answer, or to the limit of rounds, if the columns it reads are there. -/
theorem iterate_total {n : Nat} {d : Methods.Daily} {p : MParams} (hl : p.lapseRate ≠ 0) :
    ∀ (fuel : Nat) (old new : Col), ∃ r, iterate n d p fuel old new = .ok r
  | 0, old, new => by unfold iterate; split <;> exact ⟨_, rfl⟩
  | fuel + 1, old, new => by
    unfold iterate
    split
    · obtain ⟨e, he⟩ := pet_total hl (fun i => shortwave (d.tfmax i) (vaporPressure (new i)) (d.ttMax i) (d.potrad i))
        d.tDay d.daylength
      obtain ⟨r, hr⟩ := iterate_total hl fuel new (fun i => tdew (e i) (d.tMin i) (d.seasonal i) (d.dtr i))
      refine ⟨r, ?_⟩
      rw [bind_ok]
      refine ⟨_, ?_, hr⟩
      unfold nextTdew
      rw [he]
      rfl
    · exact ⟨_, rfl⟩

/-- The columns `mtclim` gives. -/
def computed : List String := ["t_day", "tfmax", "tskc", "tdew", "vapor_pressure", "shortwave", "pet"]

theorem mtclim_total {n fuel : Nat} {df : Frame} {p : MParams} (hl : p.lapseRate ≠ 0) (hr : ∀ k ∈ required, Has df k)
    (hd : Has df "daylength") (h1 : Has df "tt_max") (h2 : Has df "potrad") :
    ∃ r, mtclimRun n fuel df p = .ok r ∧ ∀ out, r = some out → ∀ k, Has out k ↔ k ∈ computed ∨ Has df k := by
  obtain ⟨tMin, g1⟩ := (hr "t_min" (by decide)).get
  obtain ⟨tMax, g2⟩ := (hr "t_max" (by decide)).get
  obtain ⟨dtr, g3⟩ := (hr "dtr" (by decide)).get
  obtain ⟨sm, g4⟩ := (hr "smoothed_dtr" (by decide)).get
  obtain ⟨prec, g5⟩ := (hr "prec" (by decide)).get
  obtain ⟨tt, g6⟩ := h1.get
  obtain ⟨pot, g7⟩ := h2.get
  obtain ⟨dl, g8⟩ := hd.get
  obtain ⟨sp, g9⟩ := (hr "seasonal_prec" (by decide)).get
  have hnext : ∀ (d : Methods.Daily) (old : Col), ∃ first, nextTdew d p old = .ok first := by
    intro d old
    obtain ⟨e, he⟩ := pet_total hl (fun i => shortwave (d.tfmax i) (vaporPressure (old i)) (d.ttMax i) (d.potrad i))
      d.tDay d.daylength
    unfold nextTdew
    rw [he]
    exact ⟨_, rfl⟩
  obtain ⟨first, hfirst⟩ := hnext ⟨tMin, dtr, fun i => tfmax (dtr i) (sm i) (prec i) p,
      fun i => tDay (tMin i) (tMax i) p, tt, pot, dl, sp⟩ tMin
  obtain ⟨res, hres⟩ := iterate_total (n := n) (d := ⟨tMin, dtr, fun i => tfmax (dtr i) (sm i) (prec i) p,
      fun i => tDay (tMin i) (tMax i) p, tt, pot, dl, sp⟩) hl fuel tMin first
  have hex : ∃ r, mtclimRun n fuel df p = .ok r := by
    unfold mtclimRun
    simp (decide := true) only [bind_ok, Dict.get_ok, Dict.get?_set, if_true, if_false, g1, g2, g3, g4, g5, g6, g7, g8,
      g9, Option.some.injEq, exists_eq_left', hfirst, Except.ok.injEq, hres]
    cases res with
    | none => exact ⟨none, rfl⟩
    | some dew =>
      obtain ⟨e, he⟩ := pet_total hl (fun i => shortwave (tfmax (dtr i) (sm i) (prec i) p) (vaporPressure (dew i)) (tt i) (pot i))
        (fun i => tDay (tMin i) (tMax i) p) dl
      simp only [bind_ok, Dict.get_ok, Dict.get?_set_self, Option.some.injEq, exists_eq_left', he, Except.ok.injEq, pure_ok]
      exact ⟨_, rfl⟩
  obtain ⟨r, hr'⟩ := hex
  refine ⟨r, hr', ?_⟩
  rintro out rfl k
  obtain ⟨tMin, tMax, dtr, sm, prec, tt, pot, dl, sp, dew, old, e, -, -, -, -, -, -, -, -, q,
    -, -, -, rfl⟩ := mtclimRun_inv hr'
  simp only [has_set]
  unfold computed
  simp only [List.mem_cons, List.not_mem_nil, or_false]
  have hsp : Has df "seasonal_prec" := by unfold Has; simp [q]
  constructor
  · rintro h
    by_cases hk : k = "seasonal_prec"
    · subst hk; exact Or.inr hsp
    · have hk' : ¬ "seasonal_prec" = k := fun e => hk e.symm
      simp only [eq_comm (b := k)] at h
      tauto
  · simp only [eq_comm (b := k)]
    tauto

theorem doy_le (d : Int) : doy d ≤ 366 := by
  have h := (Cal.dayOfYear_bounds (d + 730120)).2
  have : Cal.yearLen (Cal.yearOf (d + 730120)) ≤ 366 := by
    unfold Cal.yearLen
    split <;> norm_num
  unfold doy
  omega

end Verif.Cell
