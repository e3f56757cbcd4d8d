import Verif.Props.Dependence
import Verif.Props.Locality

/-!
# C146: a daily record is made from that day alone
-/

namespace Verif.Props

open Flt Cell Methods Np

/-- The frame of a single day, repeated. -/
def rowOf (a : Nat) (f : Frame) : Frame := f.map fun q => (q.1, fun _ => q.2 a)

theorem rowOf_get? (a : Nat) (f : Frame) (k : String) : Dict.get? (rowOf a f) k = (Dict.get? f k).map fun c _ => c a :=
  Dict.get?_mapVal f (fun _ (c : Col) => (fun _ => c a : Col)) k

theorem rowOf_get {a : Nat} {f : Frame} {k : String} {c : Col} (h : Dict.get f k = .ok c) : Dict.get (rowOf a f) k = .ok fun _ => c a := by
  rw [Dict.get_ok] at h ⊢
  rw [rowOf_get?, h]; rfl

theorem rowOf_set (a : Nat) (f : Frame) (k : String) (c : Col) : rowOf a (Dict.set f k c) = Dict.set (rowOf a f) k fun _ => c a := by
  induction f with
  | nil => rfl
  | cons q f ih =>
    unfold rowOf at ih ⊢
    simp only [Dict.set, List.map_cons]
    by_cases h : q.1 = k
    · simp [h]
    · simp [h, ih]

/-- Two frames have the same in a row as far as the rows, taken as frames, agree. -/
theorem alike_iff {l : List String} {f f' : Frame} {a b : Nat} : AlikeAt l f f' a b ↔ AgreeIn l (rowOf a f) (rowOf b f') := by
  refine forall₂_congr fun k _ => ?_
  rw [rowOf_get?, rowOf_get?]
  cases Dict.get? f k <;> cases Dict.get? f' k <;> simp [funext_iff]

theorem addIfMissing_row {name : String} {value : Frame → Except PyErr Col} {a : Nat} {f g : Frame}
    (hv : ∀ c, value f = .ok c → value (rowOf a f) = .ok fun _ => c a) (h : addIfMissing name value f = .ok g) :
    addIfMissing name value (rowOf a f) = .ok (rowOf a g) := by
  unfold addIfMissing at h ⊢
  rw [rowOf_get?]
  cases hn : Dict.get? f name with
  | some c =>
    rw [hn] at h
    simp only [Except.ok.injEq] at h
    subst h
    rfl
  | none =>
    rw [hn] at h
    simp only [bind_ok, pure_ok] at h
    obtain ⟨c, h1, rfl⟩ := h
    simp only [Option.map_none, hv c h1, rowOf_set]
    rfl

theorem addTdew_row {a : Nat} {f g : Frame} (h : addTdew f = .ok g) : addTdew (rowOf a f) = .ok (rowOf a g) := by
  unfold addTdew at h ⊢
  rw [rowOf_get?]
  cases hn : Dict.get? f "tdew" with
  | some c =>
    rw [hn] at h
    simp only [Except.ok.injEq] at h
    subst h
    rfl
  | none =>
    rw [hn] at h
    simp only [bind_ok, pure_ok] at h
    obtain ⟨e, h1, t, h2, s, h3, d, h4, rfl⟩ := h
    simp only [Option.map_none, rowOf_get h1, rowOf_get h2, rowOf_get h3, rowOf_get h4, rowOf_set]
    rfl

/-- `passthrough` works on each day by itself. -/
theorem passthrough_row {a : Nat} {f g : Frame} {p : MParams} (h : passthroughRun f p = .ok g) :
    passthroughRun (rowOf a f) p = .ok (rowOf a g) := by
  simp only [passthroughRun] at h ⊢
  split at h
  · cases h
  rename_i hs
  simp only [bind_ok] at h
  obtain ⟨f1, a1, f2, a2, f3, a3, f4, a4, f5, a5, a6⟩ := h
  rw [if_neg (by rw [rowOf_get?]; simpa using hs)]
  simp only [bind_ok]
  refine ⟨_, addIfMissing_row ?_ a1, _, addIfMissing_row ?_ a2, _, addIfMissing_row ?_ a3, _, addIfMissing_row ?_ a4, _, addTdew_row a5,
    addIfMissing_row ?_ a6⟩
  · intro c hc
    simp only [bind_ok, pure_ok] at hc ⊢
    obtain ⟨x, h1, y, h2, rfl⟩ := hc
    exact ⟨_, rowOf_get h1, _, rowOf_get h2, rfl⟩
  · intro c hc
    simp only [bind_ok, pure_ok] at hc ⊢
    obtain ⟨x, h1, y, h2, z, h3, rfl⟩ := hc
    exact ⟨_, rowOf_get h1, _, rowOf_get h2, _, rowOf_get h3, rfl⟩
  · intro c hc
    simp only [bind_ok, pure_ok] at hc ⊢
    obtain ⟨x, h1, rfl⟩ := hc
    exact ⟨_, rowOf_get h1, rfl⟩
  · intro c hc
    simp only [pet, bind_ok, pure_ok] at hc ⊢
    obtain ⟨x, h1, y, h2, z, h3, pa, h4, rfl⟩ := hc
    exact ⟨_, rowOf_get h1, _, rowOf_get h2, _, rowOf_get h3, pa, h4, rfl⟩
  · intro c hc
    simp only [bind_ok, pure_ok] at hc ⊢
    obtain ⟨x, h1, rfl⟩ := hc
    exact ⟨_, rowOf_get h1, rfl⟩

section
variable {fuel fuel' : Nat} {s : Shared} {elev elev' lat lat' lon lon' : ℝ} {d d' : Data}

theorem rows_at (q : Cell.Common fuel s elev lat lon d) {a : Nat} {day : Int} (h : d.days[a]? = some day) :
    ∃ g, q.rows[a]? = some g ∧ q.geom[doy day - 1]? = some g := by
  obtain ⟨h1, h2⟩ := mapM_getElem q.h_rows
  have hlt : a < q.rows.length := by rw [h1]; exact (List.getElem?_eq_some_iff.1 h).1
  have h3 := h2 a day _ h (List.getElem?_eq_getElem hlt)
  cases hg : q.geom[doy day - 1]? with
  | none => rw [hg] at h3; cases h3
  | some g =>
    rw [hg] at h3
    have e : g = q.rows[a] := Except.ok.inj h3
    exact ⟨g, by rw [List.getElem?_eq_getElem hlt, e], rfl⟩

/-- The geometry of a day, from its date. -/
theorem sun_alike (q : Cell.Common fuel s elev lat lon d) (q' : Cell.Common fuel' s elev' lat' lon' d') {a b : Nat} {day : Int}
    (ha : d.days[a]? = some day) (hb : d'.days[b]? = some day) (hlat : lat = lat') :
    AlikeAt ["daylength", "potrad"] (withGeom q.rows d.frame) (withGeom q'.rows d'.frame) a b ∧
    (elev = elev' → AlikeAt ["tt_max"] (withGeom q.rows d.frame) (withGeom q'.rows d'.frame) a b) := by
  obtain ⟨g, h1, h2⟩ := rows_at q ha
  obtain ⟨g', h1', h2'⟩ := rows_at q' hb
  have e : sunny g = sunny g' := by
    have := congrArg (·[doy day - 1]?) (sunny_same q q' hlat)
    simp only [List.getElem?_map, h2, h2', Option.map_some, Option.some.injEq] at this
    exact this
  simp only [sunny, Prod.mk.injEq] at e
  obtain ⟨-, e1, e2⟩ := e
  refine ⟨fun k hk => ?_, fun he k hk => ?_⟩
  · simp only [List.mem_cons, List.not_mem_nil, or_false] at hk
    unfold withGeom
    rcases hk with rfl | rfl <;> simp (decide := true) only [Dict.get?_set, if_true, if_false] <;>
      simp [colOf, List.getElem?_map, h1, h1', e1, e2]
  · obtain rfl := List.mem_singleton.1 hk
    subst hlat he
    have hg : q.geom = q'.geom := Except.ok.inj (q.h_geom.symm.trans q'.h_geom)
    rw [hg, h2'] at h2
    obtain rfl := Option.some.inj h2
    unfold withGeom
    simp (decide := true) only [Dict.get?_set, if_true]
    simp [colOf, List.getElem?_map, h1, h1']

theorem frame_alike (q : Cell.Common fuel s elev lat lon d) (q' : Cell.Common fuel' s elev' lat' lon' d') {l : List String} {a b : Nat}
    (hl : ∀ k ∈ ["daylength", "potrad", "tt_max"], k ∉ l) (h : AlikeAt l d.frame d'.frame a b) :
    AlikeAt l (withGeom q.rows d.frame) (withGeom q'.rows d'.frame) a b := by
  intro k hk
  rw [withGeom_keeps _ _ (fun e => hl k e hk), withGeom_keeps _ _ (fun e => hl k e hk)]
  exact h k hk

/-- The rows `passthrough` starts from and the ones it leaves. -/
theorem passthrough_alike (q : Cell.Common fuel s elev lat lon d) (q' : Cell.Common fuel' s elev' lat' lon' d')
    (hm : s.method = .passthrough) (a b : Nat) :
    passthroughRun (rowOf a (withGeom q.rows d.frame)) (s.daily elev) = .ok (rowOf a q.base) ∧
    passthroughRun (rowOf b (withGeom q'.rows d'.frame)) (s.daily elev') = .ok (rowOf b q'.base) := by
  have h1 := q.h_base
  have h2 := q'.h_base
  rw [hm] at h1 h2
  exact ⟨passthrough_row h1, passthrough_row h2⟩

theorem alike_cons {k : String} {l : List String} {f f' : Frame} {a b : Nat} (h : AlikeAt ["daylength", "potrad"] f f' a b)
    (h' : AlikeAt l f f' a b) (hk : k = "daylength") : AlikeAt (k :: l) f f' a b := by
  subst hk
  intro x hx
  rcases List.mem_cons.1 hx with rfl | hx
  exacts [h _ (by decide), h' _ hx]

/-- What each day of the daily frame is made from, with the columns taken over or made up by `passthrough`. -/
theorem passthrough_by_day (q : Cell.Common fuel s elev lat lon d) (q' : Cell.Common fuel' s elev' lat' lon' d')
    (hm : s.method = .passthrough) {a b : Nat} {day : Int} (ha : d.days[a]? = some day) (hb : d'.days[b]? = some day) {v : String}
    (hv : v ∈ ["tskc", "tfmax", "t_day", "seasonal_prec", "pet", "tdew", "vapor_pressure", "shortwave"])
    (hlat : (needsDaily .passthrough v).lat = true → lat = lat') (helev : (needsDaily .passthrough v).elev = true → elev = elev')
    (h : AlikeAt (needsDaily .passthrough v).columns d.frame d'.frame a b) : AlikeAt [v] q.base q'.base a b := by
  obtain ⟨r, r'⟩ := passthrough_alike q q' hm a b
  rw [alike_iff]
  intro x hx
  obtain rfl := List.mem_singleton.1 hx
  simp only [List.mem_cons, List.not_mem_nil, or_false] at hv
  rcases hv with rfl | rfl | rfl | rfl | rfl | rfl | rfl | rfl
  · exact passthrough_apart (alike_iff.1 (frame_alike q q' (by decide) h)) r r' (Or.inl (by decide))
      (Or.inr ⟨by decide, by decide, by decide, by decide, rfl, rfl⟩)
      (Or.inr ⟨by decide, by decide, rfl⟩) (Or.inl (by decide)) (by decide) (by decide) _ (by decide)
  · exact passthrough_apart (alike_iff.1 (frame_alike q q' (by decide) h)) r r' (Or.inl (by decide))
      (Or.inr ⟨by decide, by decide, by decide, by decide, rfl, rfl⟩)
      (Or.inl (by decide)) (Or.inl (by decide)) (by decide) (by decide) _ (by decide)
  · exact passthrough_apart (alike_iff.1 (frame_alike q q' (by decide) h)) r r' (Or.inr ⟨by decide, by decide, by decide, rfl⟩)
      (Or.inl (by decide)) (Or.inl (by decide)) (Or.inl (by decide)) (by decide) (by decide) _ (by decide)
  · exact season_apart (alike_iff.1 (frame_alike q q' (by decide) h)) r r'
  all_goals first
    | exact passthrough_apart (alike_iff.1 (alike_cons (sun_alike q q' ha hb (hlat rfl)).1 (frame_alike q q' (by decide) h) rfl)) r r'
        (Or.inr ⟨by decide, by decide, by decide, rfl⟩) (Or.inl (by decide)) (Or.inl (by decide))
        (Or.inr ⟨by decide, by decide, by decide, by decide, by rw [helev rfl], rfl⟩) (by decide) (by decide) _ (by decide)
    | exact passthrough_apart (alike_iff.1 (frame_alike q q' (by decide) h)) r r' (Or.inl (by decide)) (Or.inl (by decide))
        (Or.inl (by decide)) (Or.inl (by decide)) (by decide) (by decide) _ (by decide)

/-- What `mtclim` makes day by day. -/
theorem mtclim_by_day (q : Cell.Common fuel s elev lat lon d) (q' : Cell.Common fuel' s elev' lat' lon' d') (hm : s.method = .mtclim)
    {a b : Nat} {v : String} (hv : v ∈ ["tskc", "tfmax", "t_day", "seasonal_prec"])
    (h : AlikeAt (needsDaily .mtclim v).columns d.frame d'.frame a b) : AlikeAt [v] q.base q'.base a b := by
  have h1 := q.h_base
  have h2 := q'.h_base
  rw [hm] at h1 h2
  obtain ⟨t, T, dtr, sm, prec, _, _, _, sp, _, _, _, g1, g2, g3, g4, g5, _, _, _, g9, _, _, _, e⟩ := mtclimRun_inv (runMethod_mtclim h1)
  obtain ⟨t', T', dtr', sm', prec', _, _, _, sp', _, _, _, g1', g2', g3', g4', g5', _, _, _, g9', _, _, _, e'⟩ :=
    mtclimRun_inv (runMethod_mtclim h2)
  rw [withGeom_keeps _ _ (by decide)] at g1 g2 g3 g4 g5 g9 g1' g2' g3' g4' g5' g9'
  have same : ∀ {k : String} {x x' : Col}, Dict.get? d.frame k = some x → Dict.get? d'.frame k = some x' →
      k ∈ (needsDaily .mtclim v).columns → x a = x' b := by
    intro k x x' hx hx' hk
    have := h k hk
    rw [hx, hx'] at this
    exact Option.some.inj this
  intro k hk
  obtain rfl := List.mem_singleton.1 hk
  rw [e, e']
  simp only [List.mem_cons, List.not_mem_nil, or_false] at hv
  rcases hv with rfl | rfl | rfl | rfl <;> simp (decide := true) only [Dict.get?_set, if_true, if_false, Option.map_some]
  · rw [same g3 g3' (by decide), same g4 g4' (by decide), same g5 g5' (by decide)]; rfl
  · rw [same g3 g3' (by decide), same g4 g4' (by decide), same g5 g5' (by decide)]; rfl
  · rw [same g1 g1' (by decide), same g2 g2' (by decide)]; rfl
  · rw [same g9 g9' (by decide)]

end

/-- Two cells have the same of a day, as far as it counts. -/
structure SameDate (need : Needs) (x x' : Run.CellIn Data ℝ) (a b : Nat) : Prop where
  columns : AlikeAt need.columns x.data.frame x'.data.frame a b
  lat : need.lat = true → x.lat = x'.lat
  elev : need.elev = true → x.elev = x'.elev

/-- **C146**: what a run in daily steps writes for a day is made from the data of that day. -/
theorem C146_day (j j' : Job) (hj : j.Sane) (hj' : j'.Sane) (hsh : j.shared = j'.shared) (fuel fuel' : Nat)
    (order order' : List (Dict String Chunk.Slice)) (ho : j.Schedule order) (ho' : j'.Schedule order')
    (files files' : Run.Files Output) (hrun : j.run fuel order = .ok files) (hrun' : j'.run fuel' order' = .ok files')
    (hday : j.shared.ts = 1440) (c c' : Run.Cell) (hc : j.Computed c) (hc' : j'.Computed c') (v u : String)
    (hu : j.shared.outVars.get? v = some u) (hv : j.shared.method = .mtclim → v ∉ ["vapor_pressure", "shortwave", "tdew", "pet"])
    (a b : Nat) (ha : a < j.n) (hb : b < j'.n) (hdate : j.d0 + a = j'.d0 + b)
    (hsame : SameDate (needsDaily j.shared.method v) (j.inp c) (j'.inp c') a b)
    (val val' : ℚ → Flt ℝ) (hval : Recorded j files v c val) (hval' : Recorded j' files' v c' val') :
    j.stamp a 0 = j'.stamp b 0 ∧ val (j.stamp a 0) = val' (j'.stamp b 0) := by
  have hst : j.stamp a 0 = j'.stamp b 0 := by
    unfold Job.stamp
    have : (j.d0 : ℚ) + a = j'.d0 + b := by exact_mod_cast hdate
    rw [this, hsh]
  refine ⟨hst, ?_⟩
  obtain ⟨elev, lat, lon, h1, h2, h3, q, rep, hrep, hcol⟩ := written_daily j hj ho hrun hday hc
  have hw := written_daily j' hj' ho' hrun' (hsh ▸ hday) hc'
  rw [← hsh] at hw
  obtain ⟨elev', lat', lon', h1', h2', h3', q', rep', hrep', hcol'⟩ := hw
  obtain ⟨col, w, a1, a2, a3⟩ := hcol v u hu
  obtain ⟨col', w', a1', a2', a3'⟩ := hcol' v u hu
  have hd := days_getElem j hj c ha
  have hd' := days_getElem j' hj' c' hb
  rw [← hdate] at hd'
  have ecols := hsame.columns
  have elat : (needsDaily j.shared.method v).lat = true → lat = lat' := fun h => by
    have := hsame.lat h
    rw [h2, h2'] at this
    exact Flt.fin.inj this
  have eelev : (needsDaily j.shared.method v).elev = true → elev = elev' := fun h => by
    have := hsame.elev h
    rw [h1, h1'] at this
    exact Flt.fin.inj this
  have keep : ∀ {v}, v ∈ ["daylength", "potrad", "tt_max"] →
      AlikeAt [v] (withGeom q.rows (j.inp c).data.frame) (withGeom q'.rows (j'.inp c').data.frame) a b → AlikeAt [v] q.base q'.base a b := by
    intro v hv h k hk
    have := h k hk
    obtain rfl := List.mem_singleton.1 hk
    rw [runMethod_keeps q.h_base, runMethod_keeps q'.h_base]
    · exact this
    all_goals
      simp only [List.mem_cons, List.not_mem_nil, or_false] at hv
      rcases hv with rfl | rfl | rfl <;> decide
  have e : (Dict.get? rep v).map (· a) = (Dict.get? rep' v).map (· b) := by
    unfold dailyShortwave at hrep hrep'
    simp only [bind_ok, pure_ok, Dict.get_ok] at hrep hrep'
    obtain ⟨sw, g1, dl, g2, rfl⟩ := hrep
    obtain ⟨sw', g1', dl', g2', rfl⟩ := hrep'
    rw [Dict.get?_set, Dict.get?_set]
    by_cases hs : "shortwave" = v
    · subst hs
      have hm : j.shared.method = .passthrough := by
        cases hm : j.shared.method with
        | mtclim => exact absurd (by decide) (hv hm)
        | passthrough => rfl
      simp only [if_true, Option.map_some, Option.some.injEq]
      rw [hm] at elat eelev ecols
      have x1 := passthrough_by_day q q' hm hd hd' (v := "shortwave") (by decide) elat eelev ecols _ (List.mem_singleton.2 rfl)
      have x2 := keep (v := "daylength") (by decide) ((sun_alike q q' hd hd' (elat rfl)).1.mono (by decide)) _ (List.mem_singleton.2 rfl)
      rw [g1, g1'] at x1
      rw [g2, g2'] at x2
      simp only [Option.map_some, Option.some.injEq] at x1 x2
      rw [x1, x2]
    · simp only [hs, if_false]
      have hs : ¬ v = "shortwave" := fun e => hs e.symm
      refine (?_ : AlikeAt [v] q.base q'.base a b) _ (List.mem_singleton.2 rfl)
      by_cases hin : v ∈ ["daylength", "potrad", "tt_max"]
      · refine keep hin ?_
        simp only [List.mem_cons, List.not_mem_nil, or_false] at hin
        rcases hin with rfl | rfl | rfl
        · exact (sun_alike q q' hd hd' (elat rfl)).1.mono (by decide)
        · exact (sun_alike q q' hd hd' (elat rfl)).1.mono (by decide)
        · exact (sun_alike q q' hd hd' (elat rfl)).2 (eelev rfl)
      by_cases hin2 : v ∈ ["tskc", "tfmax", "t_day", "seasonal_prec", "pet", "tdew", "vapor_pressure", "shortwave"]
      · cases hm : j.shared.method with
        | mtclim =>
          rw [hm] at ecols
          refine mtclim_by_day q q' hm ?_ ecols
          have := hv hm
          simp only [List.mem_cons, List.not_mem_nil, or_false, not_or] at this hin2 ⊢
          tauto
        | passthrough =>
          rw [hm] at ecols elat eelev
          exact passthrough_by_day q q' hm hd hd' hin2 elat eelev ecols
      · intro k hk
        obtain rfl := List.mem_singleton.1 hk
        have hcv : (needsDaily j.shared.method k).columns = [k] := by
          simp only [List.mem_cons, List.not_mem_nil, or_false, not_or] at hin hin2
          obtain ⟨n1, n2, n3⟩ := hin
          obtain ⟨m1, m2, m3, m4, m5, m6, m7, m8⟩ := hin2
          unfold needsDaily
          split <;> first | contradiction | rfl
        rw [hcv] at ecols
        rw [base_keeps q (by simp only [List.mem_cons, List.not_mem_nil, or_false, not_or] at hin2 ⊢; tauto) hin,
          base_keeps q' (by simp only [List.mem_cons, List.not_mem_nil, or_false, not_or] at hin2 ⊢; tauto) hin]
        exact ecols _ (List.mem_singleton.2 rfl)
  rw [a1, a1'] at e
  have e : col a = col' b := Option.some.inj e
  have b1 := a3 a ha
  have b2 := a3' b hb
  rw [e, b2] at b1
  have h0 : 0 < 1440 / j.shared.ts := by rw [hday]; decide
  rw [recorded_unique j hj hval a2 ha h0, ← Except.ok.inj b1, recorded_unique j' hj' hval' a2' hb (hsh ▸ h0)]

/-- **C146**: what is given is passed through for that day, whatever else is known of it. -/
theorem C146_given (j j' : Job) (hj : j.Sane) (hj' : j'.Sane) (hsh : j.shared = j'.shared) (fuel fuel' : Nat)
    (order order' : List (Dict String Chunk.Slice)) (ho : j.Schedule order) (ho' : j'.Schedule order')
    (files files' : Run.Files Output) (hrun : j.run fuel order = .ok files) (hrun' : j'.run fuel' order' = .ok files')
    (hday : j.shared.ts = 1440) (hm : j.shared.method = .passthrough) (c c' : Run.Cell) (hc : j.Computed c) (hc' : j'.Computed c')
    (v u : String) (hu : j.shared.outVars.get? v = some u)
    (hv : v ∉ ["daylength", "potrad", "tt_max", "seasonal_prec", "shortwave"])
    (a b : Nat) (ha : a < j.n) (hb : b < j'.n) (hdate : j.d0 + a = j'.d0 + b) (hgiven : Dict.get? (j.inp c).data.frame v ≠ none)
    (hsame : AlikeAt [v] (j.inp c).data.frame (j'.inp c').data.frame a b)
    (val val' : ℚ → Flt ℝ) (hval : Recorded j files v c val) (hval' : Recorded j' files' v c' val') :
    j.stamp a 0 = j'.stamp b 0 ∧ val (j.stamp a 0) = val' (j'.stamp b 0) := by
  have hst : j.stamp a 0 = j'.stamp b 0 := by
    unfold Job.stamp
    have : (j.d0 : ℚ) + a = j'.d0 + b := by exact_mod_cast hdate
    rw [this, hsh]
  refine ⟨hst, ?_⟩
  obtain ⟨elev, lat, lon, h1, h2, h3, q, rep, hrep, hcol⟩ := written_daily j hj ho hrun hday hc
  have hw := written_daily j' hj' ho' hrun' (hsh ▸ hday) hc'
  rw [← hsh] at hw
  obtain ⟨elev', lat', lon', h1', h2', h3', q', rep', hrep', hcol'⟩ := hw
  obtain ⟨col, w, a1, a2, a3⟩ := hcol v u hu
  obtain ⟨col', w', a1', a2', a3'⟩ := hcol' v u hu
  obtain ⟨x, hx⟩ := Option.ne_none_iff_exists'.1 hgiven
  have hxx := hsame v (List.mem_singleton.2 rfl)
  rw [hx] at hxx
  cases hx' : Dict.get? (j'.inp c').data.frame v with
  | none => rw [hx'] at hxx; cases hxx
  | some x' =>
    rw [hx'] at hxx
    have hxx : x a = x' b := Option.some.inj hxx
    simp only [List.mem_cons, List.not_mem_nil, or_false, not_or] at hv
    obtain ⟨n1, n2, n3, n4, n5⟩ := hv
    have ng : v ∉ ["daylength", "potrad", "tt_max"] := by simp [*]
    have r := q.h_base
    have r' := q'.h_base
    rw [hm] at r r'
    have e1 := ((C42_passthrough_partial _ _).2 _ r).1 _ _ ((withGeom_keeps _ _ ng).trans hx) (fun h => absurd h n4)
    have e2 := ((C42_passthrough_partial _ _).2 _ r').1 _ _ ((withGeom_keeps _ _ ng).trans hx') (fun h => absurd h n4)
    unfold dailyShortwave at hrep hrep'
    simp only [bind_ok, pure_ok, Dict.get_ok] at hrep hrep'
    obtain ⟨sw, g1, dl, g2, rfl⟩ := hrep
    obtain ⟨sw', g1', dl', g2', rfl⟩ := hrep'
    rw [Dict.get?_set_ne _ _ (Ne.symm n5), e1] at a1
    rw [Dict.get?_set_ne _ _ (Ne.symm n5), e2] at a1'
    have b1 := a3 a ha
    have b2 := a3' b hb
    rw [← Option.some.inj a1, hxx, Option.some.inj a1', b2] at b1
    have h0 : 0 < 1440 / j.shared.ts := by rw [hday]; decide
    rw [recorded_unique j hj hval a2 ha h0, ← Except.ok.inj b1, recorded_unique j' hj' hval' a2' hb (hsh ▸ h0)]

/-! ### There are such runs -/

/-- Runs in daily steps over two or three days, the same on the first two. -/
noncomputable def dailySpan (n : Nat) (x : ℝ) : Job :=
  { span n x with
    shared := { (span n x).shared with ts := 1440, outVars := [("t_min", "C"), ("vapor_pressure", "kPa"), ("shortwave", "W m-2")] } }

theorem dailySpan_sane {n : Nat} (hn : n = 2 ∨ n = 3) (x : ℝ) : (dailySpan n x).Sane where
  step := ⟨by show 0 < 1440; decide, dvd_refl _⟩
  pos := (span_sane hn x).pos
  calendar := regular_standard _ _
  data := fun _ => rfl
  freq := (span_sane hn x).freq
  years := by
    intro T h t ht
    have h' : Times.outputTimes ⟨1440, "standard", false⟩ (consecutive 0 n) = .ok T := h
    have e : ∀ t ∈ T, t ∈ ([0, 1440, 2880] : List ℚ) := by
      rcases hn with rfl | rfl
      · have e : Times.outputTimes ⟨1440, "standard", false⟩ (consecutive 0 2) = .ok [0, 1440] := by decide +kernel
        rw [e] at h'
        injection h' with h'
        subst h'
        decide +kernel
      · have e : Times.outputTimes ⟨1440, "standard", false⟩ (consecutive 0 3) = .ok [0, 1440, 2880] := by decide +kernel
        rw [e] at h'
        injection h' with h'
        subst h'
        decide +kernel
    exact (show ∀ t ∈ ([0, 1440, 2880] : List ℚ),
      0 ≤ Cal.yearOf (Times.ordOf t) ∧ Cal.yearOf (Times.ordOf t) < 10000 by decide +kernel) t (e t ht)
  vars := by
    show (Dict.keys [("t_min", "C"), ("vapor_pressure", "kPa"), ("shortwave", "W m-2")]).Nodup
    decide
  names := by
    show ((Dict.keys [("t_min", "C"), ("vapor_pressure", "kPa"), ("shortwave", "W m-2")]).map id).Nodup
    decide
  dims := (span_sane hn x).dims
  dims_pos := (span_sane hn x).dims_pos
  chunks := (span_sane hn x).chunks
  chunks_pos := (span_sane hn x).chunks_pos
  same := (span_sane hn x).same

theorem dailySpan_runs {n : Nat} (hn : n = 2 ∨ n = 3) {x : ℝ} (h0 : -60 ≤ x) (h1 : x ≤ 60) :
    ∃ order files, (dailySpan n x).Schedule order ∧ (dailySpan n x).run 0 order = .ok files := by
  obtain ⟨files, h⟩ := (C71_run (dailySpan n x) (dailySpan_sane hn x) 0 [[("lat", none), ("lon", none)]]
    ⟨_, rfl, List.Perm.refl _⟩ (fun c _ => { span_complete h0 h1 c with }) (fun h => by cases h)).2 (by
      intro c _ q hq
      have hq : q ∈ [("t_min", "C"), ("vapor_pressure", "kPa"), ("shortwave", "W m-2")] := hq
      unfold Offers
      rw [if_neg (show ¬ ((dailySpan n x).shared.ts < 1440) from lt_irrefl 1440)]
      simp only [List.mem_cons, List.not_mem_nil, or_false] at hq
      rcases hq with rfl | rfl | rfl
      · exact ⟨Or.inr (by simp [dailySpan, span, Dict.get?_cons]), _, _, rfl, rfl⟩
      · exact ⟨Or.inl (by decide), _, _, rfl, rfl⟩
      · exact ⟨Or.inl (by decide), _, _, rfl, rfl⟩)
  exact ⟨_, files, ⟨_, rfl, List.Perm.refl _⟩, h⟩

/-- **C146**: there are two such runs, one longer than the other and colder on the day after; what they write for the second day is the
same, though it is the last of the one. -/
example : (dailySpan 2 7).Sane ∧ (dailySpan 3 (-9)).Sane ∧ (dailySpan 2 7).shared = (dailySpan 3 (-9)).shared ∧
    (dailySpan 2 7).shared.ts = 1440 ∧ (dailySpan 2 7).Computed [0, 0] ∧ (dailySpan 3 (-9)).Computed [0, 0] ∧
    (∃ order files, (dailySpan 2 7).Schedule order ∧ (dailySpan 2 7).run 0 order = .ok files) ∧
    (∃ order files, (dailySpan 3 (-9)).Schedule order ∧ (dailySpan 3 (-9)).run 0 order = .ok files) ∧
    ∀ v, SameDate (needsDaily .passthrough v) ((dailySpan 2 7).inp [0, 0]) ((dailySpan 3 (-9)).inp [0, 0]) 1 1 := by
  refine ⟨dailySpan_sane (Or.inl rfl) _, dailySpan_sane (Or.inr rfl) _, rfl, rfl,
    ⟨by show _ ∈ gridCells [("lat", 1), ("lon", 2)]; decide, 1, rfl, one_pos⟩,
    ⟨by show _ ∈ gridCells [("lat", 1), ("lon", 2)]; decide, 1, rfl, one_pos⟩,
    dailySpan_runs (Or.inl rfl) (by norm_num) (by norm_num), dailySpan_runs (Or.inr rfl) (by norm_num) (by norm_num),
    fun v => ⟨?_, fun _ => rfl, fun _ => rfl⟩⟩
  intro name _
  simp only [dailySpan, span, Dict.get?_cons]
  split_ifs <;> simp

end Verif.Props
