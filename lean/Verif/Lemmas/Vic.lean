import Verif.Model.Vic
import Verif.Lemmas.Alike
import Verif.Lemmas.Worker
import Verif.Lemmas.Times
import Verif.Spec.Labels
import Mathlib.Data.List.GetD
import Verif.Props.Forcing
import Verif.Props.State

/-! # Files for single cells, and one file for all of them -/

namespace Verif.Vic

open Dataset Worker Cell Forcing Props

/-! ### The cells of a part -/

section part

variable {L K : Type} [Zero K] [LT K] [DecidableLT K] [DecidableEq L]

omit [Zero K] [LT K] [DecidableLT K] in
theorem store_same {S : L × L → Prop} {c : L × L} (ds : Dict String (List (Flt K))) : ∀ (vars : List String) {g g' : Grid L K},
    (∀ v c, S c → g' v c = g v c) →
    Both (fun g g' => ∀ v c, S c → g' v c = g v c)
      (vars.foldlM (m := Except PyErr) (fun (g : Grid L K) v => do
        let col ← ds.get v
        pure (fun v' c' => if v' = v ∧ c' = c then col else g v' c')) g)
      (vars.foldlM (m := Except PyErr) (fun (g : Grid L K) v => do
        let col ← ds.get v
        pure (fun v' c' => if v' = v ∧ c' = c then col else g v' c')) g')
  | [], g, g', h => h
  | v :: vars, g, g', h => by
    rw [List.foldlM_cons, List.foldlM_cons]
    refine .bind (R := fun g g' => ∀ v c, S c → g' v c = g v c) (.same fun col => ?_) fun a b hab => store_same ds vars hab
    intro v' c' hc'
    show (if v' = v ∧ c' = c then col else g' v' c') = if v' = v ∧ c' = c then col else g v' c'
    rw [h v' c' hc']

omit [Zero K] [LT K] [DecidableLT K] in
theorem store_else {c : L × L} (ds : Dict String (List (Flt K))) : ∀ (vars : List String) {g out : Grid L K},
    vars.foldlM (m := Except PyErr) (fun (g : Grid L K) v => do
        let col ← ds.get v
        pure (fun v' c' => if v' = v ∧ c' = c then col else g v' c')) g = .ok out →
    ∀ v c', c' ≠ c → out v c' = g v c'
  | [], g, out, h => by
    rw [List.foldlM_nil, pure_ok] at h
    subst h
    exact fun _ _ _ => rfl
  | v :: vars, g, out, h => by
    rw [List.foldlM_cons] at h
    simp only [bind_ok, pure_ok] at h
    obtain ⟨g1, ⟨col, _, rfl⟩, h⟩ := h
    intro v' c' hc'
    rw [store_else ds vars h v' c' hc']
    simp [hc']

variable {toFloat : Txt.Str → Option L} {mask mask' : L × L → Option (Flt K)} {read : Txt.Str → Except PyErr (Dict String (List (Flt K)))}
  {vars : List String} {S : L × L → Prop}

/-- A file does to the cells of a part what it does to them in the whole. -/
theorem step_part (h1 : ∀ c, S c → mask' c = mask c) (h2 : ∀ c, ¬ S c → mask' c = none) {g g' g1 : Grid L K}
    (hg : ∀ v c, S c → g' v c = g v c) {job : Txt.Str} (h : vicStep toFloat mask read vars g job = .ok g1) :
    ∃ g1', vicStep toFloat mask' read vars g' job = .ok g1' ∧ ∀ v c, S c → g1' v c = g1 v c := by
  unfold vicStep readJob at h ⊢
  cases hl : location toFloat job with
  | error e =>
    rw [hl] at h
    simp only [bind, Except.bind] at h ⊢
    cases e <;> simp only [Except.ok.injEq, reduceCtorEq] at h <;> exact ⟨g', rfl, h ▸ hg⟩
  | ok c =>
    rw [hl] at h
    simp only [bind, Except.bind] at h ⊢
    by_cases hS : S c
    · rw [h1 c hS]
      cases hm : mask c with
      | none =>
        rw [hm] at h
        simp only [throw, throwThe, MonadExceptOf.throw, Except.ok.injEq] at h ⊢
        exact ⟨g', rfl, h ▸ hg⟩
      | some m =>
        rw [hm] at h
        simp only [pure, Except.pure] at h ⊢
        by_cases hb : (!Flt.lt (Flt.fin 0) m) = true
        · simp only [hb, if_true, Except.ok.injEq] at h ⊢
          exact ⟨g', rfl, h ▸ hg⟩
        · simp only [hb] at h ⊢
          cases hr : read job with
          | error e =>
            rw [hr] at h
            cases e <;> simp only [Except.ok.injEq, reduceCtorEq, if_false, Bool.false_eq_true] at h <;> exact ⟨g', rfl, h ▸ hg⟩
          | ok ds =>
            rw [hr] at h
            have := store_same (S := S) (c := c) ds vars hg
            simp only [if_false, Bool.false_eq_true, bind, Except.bind, pure, Except.pure] at h this ⊢
            revert h this
            generalize List.foldlM (m := Except PyErr) _ g vars = x
            generalize List.foldlM (m := Except PyErr) _ g' vars = y
            intro this h
            cases x <;> cases y
            · rename_i e e'
              cases (show e = e' from this)
              cases e <;> simp only [Except.ok.injEq, reduceCtorEq] at h <;> exact ⟨g', rfl, h ▸ hg⟩
            · exact this.elim
            · exact this.elim
            · simp only [Except.ok.injEq] at h
              exact ⟨_, rfl, h ▸ this⟩
    · rw [h2 c hS]
      refine ⟨g', rfl, ?_⟩
      cases hm : mask c with
      | none =>
        rw [hm] at h
        simp only [throw, throwThe, MonadExceptOf.throw, Except.ok.injEq] at h
        exact h ▸ hg
      | some m =>
        rw [hm] at h
        simp only [pure, Except.pure] at h
        by_cases hb : (!Flt.lt (Flt.fin 0) m) = true
        · simp only [hb, if_true, Except.ok.injEq] at h
          exact h ▸ hg
        · simp only [hb] at h
          cases hr : read job with
          | error e =>
            rw [hr] at h
            cases e <;> simp only [Except.ok.injEq, reduceCtorEq, if_false, Bool.false_eq_true] at h <;> exact h ▸ hg
          | ok ds =>
            rw [hr] at h
            have := @store_else L K _ c ds vars g
            simp only [if_false, Bool.false_eq_true, bind, Except.bind, pure, Except.pure] at h this
            revert h this
            generalize List.foldlM (m := Except PyErr) _ g vars = x
            intro this h
            cases x with
            | error e => cases e <;> simp only [Except.ok.injEq, reduceCtorEq] at h <;> exact h ▸ hg
            | ok out =>
              simp only [Except.ok.injEq] at h
              subst h
              intro v c' hc'
              rw [this rfl v c' (by rintro rfl; exact hS hc')]
              exact hg v c' hc'

/-- The files of a whole domain, read for a part of it. -/
theorem process_part (h1 : ∀ c, S c → mask' c = mask c) (h2 : ∀ c, ¬ S c → mask' c = none) {n : Nat} {jobs : List Txt.Str} {out : Grid L K}
    (h : processVic toFloat mask read vars n jobs = .ok out) :
    ∃ out', processVic toFloat mask' read vars n jobs = .ok out' ∧ ∀ v c, S c → out' v c = out v c := by
  unfold processVic at h ⊢
  have : ∀ (jobs : List Txt.Str) (g g' : Grid L K), (∀ v c, S c → g' v c = g v c) → jobs.foldlM (vicStep toFloat mask read vars) g = .ok out →
      ∃ out', jobs.foldlM (vicStep toFloat mask' read vars) g' = .ok out' ∧ ∀ v c, S c → out' v c = out v c := by
    intro jobs
    induction jobs with
    | nil =>
      intro g g' hg h
      rw [List.foldlM_nil, pure_ok] at h
      subst h
      exact ⟨g', rfl, hg⟩
    | cons job jobs ih =>
      intro g g' hg h
      rw [List.foldlM_cons, bind_ok] at h
      obtain ⟨g1, hs, h⟩ := h
      obtain ⟨g1', hs', hg1⟩ := step_part h1 h2 hg hs
      rw [List.foldlM_cons, hs']
      exact ih g1 g1' hg1 h
  exact this jobs _ _ (fun _ _ _ => rfl) h

end part

/-- The cells of a domain. -/
def On (dom : DS ℝ) (c : ℚ × ℚ) : Prop := c.1 ∈ dom.labels "lat" ∧ c.2 ∈ dom.labels "lon"

/-- The dimensions of the mask are latitude and longitude. -/
structure Plane (dims : List String) : Prop where
  lat : "lat" ∈ dims
  lon : "lon" ∈ dims
  only : ∀ d ∈ dims, d = "lat" ∨ d = "lon"

theorem mask_off {dom : DS ℝ} {c : ℚ × ℚ} (h : ¬ On dom c) : maskAt dom c = none := by
  unfold maskAt
  cases dom.vars.get? "mask" with
  | none => rfl
  | some m =>
    simp only
    rw [if_neg]
    rintro ⟨-, -, h1, h2, -⟩
    exact h ⟨List.count_pos_iff.1 (by omega), List.count_pos_iff.1 (by omega)⟩

theorem Cut.place {K : Type} {whole dom : DS K} {chunk : Dict String Chunk.Slice} (h : Cut whole dom chunk) (hw : whole.Distinct) {d : String}
    (hd : (whole.sizes.get? d).isSome) {x : ℚ} (hx : x ∈ dom.labels d) (ix : Index) (hix : ix d = (dom.labels d).idxOf x) :
    x ∈ whole.labels d ∧ inWhole whole chunk ix d = (whole.labels d).idxOf x := by
  have hlt := List.idxOf_lt_length_of_mem hx
  have hl := h.label d _ hd hlt
  rw [List.getElem?_eq_getElem hlt, List.getElem_idxOf] at hl
  rw [inWhole_congr (ix' := fun _ => (dom.labels d).idxOf x) hix]
  have hm := List.mem_of_getElem? hl.symm
  refine ⟨hm, ?_⟩
  obtain ⟨hlt', he⟩ := List.getElem?_eq_some_iff.1 hl.symm
  have := (hw d).idxOf_getElem _ hlt'
  rw [he] at this
  exact this.symm

theorem mask_part {whole dom : DS ℝ} {chunk : Dict String Chunk.Slice} (h : Cut whole dom chunk) (hw : whole.Distinct) {mask : Arr ℝ}
    (hm : whole.vars.get? "mask" = some mask) (hp : Plane mask.dims) (hlat : (whole.sizes.get? "lat").isSome)
    (hlon : (whole.sizes.get? "lon").isSome) {c : ℚ × ℚ} (hc : On dom c) : maskAt dom c = maskAt whole c := by
  have hm' := h.vars "mask"
  rw [hm, Option.map_some] at hm'
  obtain ⟨c1, c2⟩ := hc
  have a1 := Cut.place h hw hlat c1
  have a2 := Cut.place h hw hlon c2
  unfold maskAt
  rw [hm, hm']
  simp only
  have o : ∀ {P : String → Prop} , ∀ d ∈ mask.dims, d ≠ "lat" → d ≠ "lon" → P d := fun d hd n1 n2 => by
    rcases hp.only d hd with e | e
    · exact absurd e n1
    · exact absurd e n2
  have m1 := (a1 (fun _ => (dom.labels "lat").idxOf c.1) rfl).1
  have m2 := (a2 (fun _ => (dom.labels "lon").idxOf c.2) rfl).1
  rw [if_pos ⟨hp.lat, hp.lon, List.count_eq_one_of_mem (h.distinct hw _) c1, List.count_eq_one_of_mem (h.distinct hw _) c2, o⟩,
    if_pos ⟨hp.lat, hp.lon, List.count_eq_one_of_mem (hw _) m1, List.count_eq_one_of_mem (hw _) m2, o⟩]
  congr 1
  apply h.wf.own "mask" mask hm
  intro d hd
  rcases hp.only d hd with rfl | rfl
  · rw [(a1 _ (by simp)).2]; simp
  · rw [(a2 _ (by simp)).2]; simp

/-! ### One file for all cells -/

/-- Series of cells on the axes time, latitude and longitude. -/
def cube (tl la lo : List ℚ) (names : List String) (f : String → Index → Flt ℝ) : DS ℝ where
  sizes := [("time", tl.length), ("lat", la.length), ("lon", lo.length)]
  coords := [("time", tl), ("lat", la), ("lon", lo)]
  vars := names.map fun v => (v, ⟨["time", "lat", "lon"], f v⟩)

theorem gridded_cube (dom : DS ℝ) (days : List Int) (names : List String) (g : Forcing.Grid ℚ ℝ) :
    gridded dom days names g = cube (days.map fun d => ((d - epoch : Int) : ℚ)) (dom.labels "lat") (dom.labels "lon") names fun v ix =>
      (g v ((dom.labels "lat").getD (ix "lat") 0, (dom.labels "lon").getD (ix "lon") 0)).getD (ix "time") .nan := by
  simp [gridded, cube]

/-- Names of variables that are not those of axes. -/
structure Fresh (names : List String) : Prop where
  any : names ≠ []
  nodup : names.Nodup
  time : "time" ∉ names
  lat : "lat" ∉ names
  lon : "lon" ∉ names

variable {tl la lo : List ℚ} {names : List String} {f : String → Index → Flt ℝ}

theorem cube_get (v : String) : (cube tl la lo names f).vars.get? v = if v ∈ names then some ⟨["time", "lat", "lon"], f v⟩ else none := by
  unfold cube
  induction names with
  | nil => rfl
  | cons a l ih =>
    simp only [List.map_cons, Dict.get?_cons, List.mem_cons]
    by_cases e : a = v
    · subst e; simp
    · simp only [e, if_false, Ne.symm e, false_or]
      exact ih

theorem cube_subset (h : Fresh names) : (cube tl la lo names f).subset names = .ok (cube tl la lo names f) := by
  unfold DS.subset
  have h1 : (names.all fun n => ((cube tl la lo names f).vars.get? n).isSome || ((cube tl la lo names f).sizes.get? n).isSome) = true := by
    rw [List.all_eq_true]
    intro n hn
    rw [cube_get, if_pos hn]
    rfl
  rw [if_pos h1]
  have hv : (names.filterMap fun n => ((cube tl la lo names f).vars.get? n).map fun a => (n, a)) = (cube tl la lo names f).vars := by
    have : ∀ l : List String, (∀ n ∈ l, n ∈ names) → (l.filterMap fun n => ((cube tl la lo names f).vars.get? n).map fun a => (n, a)) =
        l.map fun v => (v, (⟨["time", "lat", "lon"], f v⟩ : Arr ℝ)) := by
      intro l
      induction l with
      | nil => intro _; rfl
      | cons a l ih =>
        intro hl
        rw [List.filterMap_cons, cube_get, if_pos (hl a (by simp)), Option.map_some, List.map_cons]
        simp only
        rw [ih fun n hn => hl n (by simp [hn])]
    exact this names fun n hn => hn
  have hd : ∀ d ∈ ["time", "lat", "lon"], d ∈ (cube tl la lo names f).vars.flatMap (fun q => q.2.dims) := by
    intro d hd
    obtain ⟨v, hv⟩ := List.exists_mem_of_ne_nil names h.any
    rw [List.mem_flatMap]
    exact ⟨(v, ⟨["time", "lat", "lon"], f v⟩), List.mem_map.2 ⟨v, hv, rfl⟩, hd⟩
  simp only [hv]
  have hs : ((cube tl la lo names f).sizes.filter fun q => decide (q.1 ∈ (cube tl la lo names f).vars.flatMap (fun q => q.2.dims) ++
      names.filter fun n => ((cube tl la lo names f).sizes.get? n).isSome)) = (cube tl la lo names f).sizes := by
    rw [List.filter_eq_self]
    intro q hq
    rw [decide_eq_true_iff, List.mem_append]
    left
    apply hd
    simp only [cube, List.mem_cons, List.not_mem_nil, or_false] at hq
    rcases hq with rfl | rfl | rfl <;> simp
  rw [hs]
  rfl

theorem newName_id (names : List String) (d : String) : newName (names.map fun k => (k, k)) d = d := by
  unfold newName
  induction names with
  | nil => rfl
  | cons a l ih =>
    rw [List.map_cons, Dict.get?_cons]
    by_cases e : a = d
    · simp [e]
    · simpa [e] using ih

theorem cube_rename (h : Fresh names) : (cube tl la lo names f).rename (names.map fun k => (k, k)) = .ok (cube tl la lo names f) := by
  unfold DS.rename
  rw [if_pos]
  · simp only [newName_id, List.map_id']
    congr 1
    simp [cube, Function.comp_def, newName_id]
  · rw [Bool.and_eq_true, List.all_eq_true, decide_eq_true_iff]
    constructor
    · intro q hq
      obtain ⟨k, hk, rfl⟩ := List.mem_map.1 hq
      rw [cube_get, if_pos hk]
      rfl
    · simp only [newName_id]
      rw [List.nodup_append]
      refine ⟨by simpa [cube, Function.comp_def] using h.nodup, by simp [cube], ?_⟩
      intro a ha b hb
      simp only [cube, List.map_map, Function.comp_def, List.map_id', List.map_cons, List.map_nil, List.mem_cons, List.not_mem_nil,
        or_false] at ha hb
      rintro rfl
      rcases hb with rfl | rfl | rfl
      · exact h.time ha
      · exact h.lat ha
      · exact h.lon ha

theorem find_mem {c labels : List ℚ} (h : ∀ x ∈ labels, x ∈ c) :
    (labels.mapM fun x => if x ∈ c then Except.ok (c.idxOf x) else Except.error PyErr.keyError) = .ok (labels.map c.idxOf) := by
  induction labels with
  | nil => rfl
  | cons a l ih =>
    rw [List.mapM_cons, if_pos (h a (by simp)), ih fun x hx => h x (by simp [hx])]
    rfl

theorem cube_lat {la' : List ℚ} (hn : la.Nodup) (h : ∀ x ∈ la', x ∈ la) : (cube tl la lo names f).selLabels "lat" la' =
    .ok (cube tl la' lo names fun v ix => f v (ix.set "lat" ((la'.map la.idxOf).getD (ix "lat") 0))) := by
  unfold DS.selLabels DS.find
  simp only [show (cube tl la lo names f).coords.get? "lat" = some la from rfl, if_pos hn, find_mem h]
  simp [bind, Except.bind, pure, Except.pure, DS.isel, cube, Dict.set, Arr.take, Function.comp_def]

theorem cube_lon {lo' : List ℚ} (hn : lo.Nodup) (h : ∀ x ∈ lo', x ∈ lo) : (cube tl la lo names f).selLabels "lon" lo' =
    .ok (cube tl la lo' names fun v ix => f v (ix.set "lon" ((lo'.map lo.idxOf).getD (ix "lon") 0))) := by
  unfold DS.selLabels DS.find
  simp only [show (cube tl la lo names f).coords.get? "lon" = some lo from rfl, if_pos hn, find_mem h]
  simp [bind, Except.bind, pure, Except.pure, DS.isel, cube, Dict.set, Arr.take, Function.comp_def]

theorem pair_of {l : List String} (hn : l.Nodup) (ha : "lat" ∈ l) (hb : "lon" ∈ l) (h : ∀ d ∈ l, d = "lat" ∨ d = "lon") :
    l = ["lat", "lon"] ∨ l = ["lon", "lat"] := by
  have hp : l.Perm ["lat", "lon"] := by
    rw [List.perm_ext_iff_of_nodup hn (by decide)]
    intro d
    simp only [List.mem_cons, List.not_mem_nil, or_false]
    exact ⟨h d, by rintro (rfl | rfl) <;> assumption⟩
  match l, hp.length_eq, hn, ha, hb with
  | [a, b], _, hn, ha, hb =>
    simp only [List.mem_cons, List.not_mem_nil, or_false] at ha hb
    rcases ha with rfl | rfl <;> rcases hb with hb | hb
    · exact absurd hb (by decide)
    · left; rw [hb]
    · right; rw [hb]
    · exact absurd hb (by decide)

theorem cube_domain {dom : DS ℝ} (hd : (dom.sizes.map Prod.fst).Nodup) (ht : dom.sizes.get? "time" = none)
    (hla : (dom.sizes.get? "lat").isSome) (hlo : (dom.sizes.get? "lon").isSome) (h1 : la.Nodup) (h2 : lo.Nodup)
    (hs1 : ∀ x ∈ dom.labels "lat", x ∈ la) (hs2 : ∀ x ∈ dom.labels "lon", x ∈ lo) :
    ∃ f', (cube tl la lo names f).selDomain dom = .ok (cube tl (dom.labels "lat") (dom.labels "lon") names f') ∧
      ∀ v ix, f' v ix = f v ((ix.set "lat" (((dom.labels "lat").map la.idxOf).getD (ix "lat") 0)).set "lon"
        (((dom.labels "lon").map lo.idxOf).getD (ix "lon") 0)) := by
  unfold DS.selDomain
  have key : ∀ d, ((cube tl la lo names f).sizes.get? d).isSome ↔ d = "time" ∨ d = "lat" ∨ d = "lon" := by
    intro d
    simp only [cube, Dict.get?_cons]
    by_cases e1 : "time" = d
    · simp [← e1]
    by_cases e2 : "lat" = d
    · simp [← e2]
    by_cases e3 : "lon" = d
    · simp [← e3]
    · simp only [e1, e2, e3, Ne.symm e1, Ne.symm e2, Ne.symm e3, if_false, or_false, iff_false]
      simp [Dict.get?]
  have hl := pair_of (l := (dom.sizes.map Prod.fst).filter fun d => ((cube tl la lo names f).sizes.get? d).isSome) (hd.filter _)
    (by rw [List.mem_filter]; exact ⟨(Dict.isSome_iff _ _).1 hla, by simp [cube, Dict.get?]⟩)
    (by rw [List.mem_filter]; exact ⟨(Dict.isSome_iff _ _).1 hlo, by simp [cube, Dict.get?]⟩)
    (by
      intro d hd
      rw [List.mem_filter, key] at hd
      rcases hd.2 with rfl | h | h
      · exact absurd hd.1 ((Dict.get?_eq_none_iff _ _).1 ht)
      · exact .inl h
      · exact .inr h)
  rcases hl with hl | hl <;> rw [hl]
  · rw [List.foldlM_cons, cube_lat h1 hs1]
    simp only [List.foldlM_cons, List.foldlM_nil, bind, Except.bind, cube_lon h2 hs2]
    refine ⟨_, rfl, fun v ix => ?_⟩
    congr 1
    funext d
    simp only [Index.set]
    by_cases e1 : d = "lat"
    · subst e1; simp
    · by_cases e2 : d = "lon"
      · subst e2; simp
      · simp [e1, e2]
  · rw [List.foldlM_cons, cube_lon h2 hs2]
    simp only [List.foldlM_cons, List.foldlM_nil, bind, Except.bind, cube_lat h1 hs1]
    refine ⟨_, rfl, fun v ix => ?_⟩
    congr 1

/-- The labels of days. -/
def stampsOf (days : List Int) : List ℚ := days.map fun d => ((d - epoch : Int) : ℚ)

theorem stamp_whole (t : Int) : normaliseDay (86400 * (t : ℚ)) = t := by
  have := C25_day_partial t 0 (by norm_num) (by norm_num)
  rwa [add_zero] at this

theorem cube_days (days : List Int) : (cube (stampsOf days) la lo names f).wholeDays = cube (stampsOf days) la lo names f := by
  simp only [DS.wholeDays, cube, List.map_cons, List.map_nil, if_true, stampsOf, List.map_map, Function.comp_def, stamp_whole,
    show ("lat" = "time") = False by decide, show ("lon" = "time") = False by decide, if_false]

theorem dates_eq (calendar : String) (a : Int) {n : Nat} (hn : 0 < n) (hr : HasDays calendar (a - 730120) (a + n - 1 - 730120)) :
    dates calendar a (a + n - 1) = .ok (simDays a n) := by
  unfold dates
  rw [Times.dateRange_grid calendar (1440 * (a - CfTime.origin)) (1440 * (a + n - 1 - CfTime.origin)) n 1440 (by decide) hn hr
    (by unfold CfTime.origin; omega) (by unfold CfTime.origin; omega) (by push_cast; ring)]
  simp only [bind, Except.bind, pure, Except.pure, Except.ok.injEq]
  unfold Times.grid simDays
  rw [List.map_map]
  apply List.map_congr_left
  intro k _
  simp only [Function.comp]
  have : (((1440 * (a - CfTime.origin) + (k : Int) * (1440 : Nat) : Int) : ℚ)) / 1440 = ((a - CfTime.origin + k : Int) : ℚ) := by
    push_cast; ring
  rw [this, Int.floor_intCast]
  ring

theorem stamps_get {a : Int} {n k : Nat} (hk : k < n) : (stampsOf (simDays a n)).getD k 0 = ((a + k - epoch : Int) : ℚ) := by
  unfold stampsOf simDays
  rw [List.map_map, List.getD_eq_getElem?_getD, List.getElem?_map, List.getElem?_range hk]
  rfl

theorem stamps_between (a : Int) (n : Nat) : between (stampsOf (simDays a n)) (some ((a - epoch : Int) : ℚ))
    (some ((a + n - 1 - epoch : Int) : ℚ)) = .ok (List.range n) := by
  have hl : (stampsOf (simDays a n)).length = n := by simp [stampsOf, simDays]
  have hs : (stampsOf (simDays a n)).Pairwise (· ≤ ·) := by
    unfold stampsOf simDays
    rw [List.map_map, List.pairwise_map]
    refine List.pairwise_lt_range.imp ?_
    intro i j hij
    simp only [Function.comp, Int.cast_le]
    omega
  unfold between
  simp only [if_pos hs, hl, Except.ok.injEq]
  rw [List.filter_eq_self]
  intro k hk
  rw [List.mem_range] at hk
  rw [stamps_get hk, Bool.and_eq_true, decide_eq_true_iff, decide_eq_true_iff, Int.cast_le, Int.cast_le]
  omega

/-- What reading a file for all cells says of it. -/
theorem cube_read {dom : DS ℝ} (hn : Fresh names) (hd : (dom.sizes.map Prod.fst).Nodup) (ht : dom.sizes.get? "time" = none)
    (hla : (dom.sizes.get? "lat").isSome) (hlo : (dom.sizes.get? "lon").isSome) (h1 : la.Nodup) (h2 : lo.Nodup)
    (hs1 : ∀ x ∈ dom.labels "lat", x ∈ la) (hs2 : ∀ x ∈ dom.labels "lon", x ∈ lo) (a : Int) (n : Nat) :
    ∃ f' g, readNetcdf (cube (stampsOf (simDays a n)) la lo names f) (some dom) (.ok (some ((a - epoch : Int) : ℚ)))
        (.ok (some ((a + n - 1 - epoch : Int) : ℚ))) (some (names.map fun k => (k, k))) =
      .ok { cube (stampsOf (simDays a n)) (dom.labels "lat") (dom.labels "lon") names f' with
        vars := (cube (stampsOf (simDays a n)) (dom.labels "lat") (dom.labels "lon") names f').vars.set "day_of_year" g } ∧
      ∀ v ix, f' v ix = f v (((ix.set "time" ((List.range n).getD (ix "time") 0)).set "lat"
        (((dom.labels "lat").map la.idxOf).getD (ix "lat") 0)).set "lon" (((dom.labels "lon").map lo.idxOf).getD (ix "lon") 0)) := by
  obtain ⟨f1, e1, e2⟩ := cube_domain (tl := stampsOf (simDays a n)) (names := names) (f := f) hd ht hla hlo h1 h2 hs1 hs2
  have hr : (stampsOf (simDays a n)).length = n := by simp [stampsOf, simDays]
  have hc : (List.range n).map (fun i => (stampsOf (simDays a n)).getD i 0) = stampsOf (simDays a n) := by
    apply List.ext_getElem
    · simp [hr]
    · intro i hi hi'
      rw [List.getElem_map, List.getElem_range, List.getD_eq_getElem?_getD, List.getElem?_eq_getElem hi']
      rfl
  have hi : (cube (stampsOf (simDays a n)) (dom.labels "lat") (dom.labels "lon") names f1).isel "time" (List.range n) =
      cube (stampsOf (simDays a n)) (dom.labels "lat") (dom.labels "lon") names
        fun v ix => f1 v (ix.set "time" ((List.range n).getD (ix "time") 0)) := by
    simp only [DS.isel, cube, List.map_cons, List.map_nil, if_true, List.length_range, hc, List.map_map, Function.comp_def,
      show ("lat" = "time") = False by decide, show ("lon" = "time") = False by decide, if_false, Arr.take, hr]
  refine ⟨fun v ix => f1 v (ix.set "time" ((List.range n).getD (ix "time") 0)), ⟨["time"], fun ix => .fin (((Cal.dayOfYear
    (⌊((cube (stampsOf (simDays a n)) (dom.labels "lat") (dom.labels "lon") names fun v ix =>
      f1 v (ix.set "time" ((List.range n).getD (ix "time") 0))).labels "time").getD (ix "time") 0⌋ + epoch) : Int) : ℚ) : ℝ)⟩, ?_, ?_⟩
  · unfold readNetcdf
    simp only [List.map_map, Function.comp_def, List.map_id', cube_subset hn, bind, Except.bind, cube_rename hn, e1, cube_days]
    unfold DS.selPeriod
    simp only [show (cube (stampsOf (simDays a n)) (dom.labels "lat") (dom.labels "lon") names f1).coords.get? "time" =
      some (stampsOf (simDays a n)) from rfl, stamps_between, bind, Except.bind, pure, Except.pure, hi]
  · intro v ix
    exact e2 v _

/-! ### The forcing of a part, either way -/

/-- Files for single cells, read for a domain: the variables, the period, and what they say. -/
structure Read (fs : Files) (fmt : String) (jobs : List Txt.Str) (vars : Dict String String) (whole : DS ℝ) (n : Nat)
    (G : Forcing.Grid ℚ ℝ) : Prop where
  format : fmt = "ascii" ∨ fmt = "binary"
  days : 0 < n
  names : Fresh vars.keys
  lat : (whole.sizes.get? "lat").isSome
  lon : (whole.sizes.get? "lon").isSome
  time : whole.sizes.get? "time" = none
  distinct : whole.Distinct
  mask : ∃ m, whole.vars.get? "mask" = some m ∧ Plane m.dims
  grid : processVic fs.toFloat (maskAt whole) (readFile fs fmt vars n) vars.keys n jobs = .ok G

variable {fs : Files} {fmt : String} {jobs : List Txt.Str} {vars : Dict String String} {whole dom : DS ℝ} {n : Nat} {G : Forcing.Grid ℚ ℝ}
  {chunk : Dict String Chunk.Slice}

/-- **Files for single cells, read for a part of the domain, are like one file that holds them all.** -/
theorem met_alike (h : Read fs fmt jobs vars whole n G) (hc : Cut whole dom chunk) (calendar : String) (a : Int)
    (hcal : HasDays calendar (a - 730120) (a + n - 1 - 730120)) :
    Both (Alike dom) (metData fs fmt calendar jobs vars dom a (a + n - 1))
      (Dataset.metData .netcdf (gridded whole (simDays a n) vars.keys G) dom (.ok (some ((a - epoch : Int) : ℚ)))
        (.ok (some ((a + n - 1 - epoch : Int) : ℚ))) (some (vars.keys.map fun k => (k, k)))) := by
  obtain ⟨mask, hm, hp⟩ := h.mask
  obtain ⟨g, hg, hgG⟩ := process_part (S := On dom) (fun c hS => mask_part hc h.distinct hm hp h.lat h.lon hS) (fun c hS => mask_off hS) h.grid
  have hlat : (dom.sizes.get? "lat").isSome := by rw [hc.has]; exact h.lat
  have hlon : (dom.sizes.get? "lon").isSome := by rw [hc.has]; exact h.lon
  have htime : dom.sizes.get? "time" = none := by
    have := hc.has "time"
    rw [h.time] at this
    cases hx : dom.sizes.get? "time" with
    | none => rfl
    | some x => rw [hx] at this; simp at this
  have p1 : ∀ x ∈ dom.labels "lat", x ∈ whole.labels "lat" := fun x hx => (Cut.place hc h.distinct h.lat hx (fun _ => _) rfl).1
  have p2 : ∀ x ∈ dom.labels "lon", x ∈ whole.labels "lon" := fun x hx => (Cut.place hc h.distinct h.lon hx (fun _ => _) rfl).1
  have hlen : (simDays a n).length = n := by simp [simDays]
  obtain ⟨f', gy, hr, hf'⟩ := cube_read (f := fun v ix => (G v ((whole.labels "lat").getD (ix "lat") 0,
      (whole.labels "lon").getD (ix "lon") 0)).getD (ix "time") .nan) h.names hc.wf'.sizes_nodup htime hlat hlon (h.distinct _) (h.distinct _)
      p1 p2 a n
  unfold metData Dataset.metData
  rw [if_neg (by rcases h.format with e | e <;> simp [e]), dates_eq calendar a h.days hcal]
  simp only [bind, Except.bind, pure, Except.pure]
  rw [if_neg (by rw [not_or]; exact ⟨by rw [Option.isNone_iff_eq_none]; exact Option.isSome_iff_ne_none.1 hlat,
    by rw [Option.isNone_iff_eq_none]; exact Option.isSome_iff_ne_none.1 hlon⟩), hlen, hg, gridded_cube whole]
  simp only [show (simDays a n).map (fun d => ((d - epoch : Int) : ℚ)) = stampsOf (simDays a n) from rfl, hr]
  have base : Alike dom (gridded dom (simDays a n) vars.keys g)
      { cube (stampsOf (simDays a n)) (dom.labels "lat") (dom.labels "lon") vars.keys f' with
        vars := (cube (stampsOf (simDays a n)) (dom.labels "lat") (dom.labels "lon") vars.keys f').vars.set "day_of_year" gy } := by
    rw [gridded_cube dom]
    constructor
    · intro d; rfl
    · intro d; rfl
    · constructor
      · intro e
        exfalso
        have : vars.keys = [] := by simpa [cube] using e
        exact h.names.any this
      · intro e; exact absurd e (set_ne_nil _ _ _)
    · intro v hv
      show SameVar _ _ (Dict.get? (Dict.set _ _ _) v)
      rw [Dict.get?_set_ne _ _ (show "day_of_year" ≠ v from Ne.symm hv), cube_get, cube_get]
      by_cases hvn : v ∈ vars.keys
      · rw [if_pos hvn, if_pos hvn]
        intro ix hix
        have i0 := hix "time" rfl
        have i1 := hix "lat" rfl
        have i2 := hix "lon" rfl
        replace i0 : ix "time" < n := by
          have : ix "time" < (stampsOf (simDays a n)).length := i0
          simpa [stampsOf, simDays] using this
        replace i1 : ix "lat" < (dom.labels "lat").length := i1
        replace i2 : ix "lon" < (dom.labels "lon").length := i2
        have q1 : (dom.labels "lat").getD (ix "lat") 0 ∈ dom.labels "lat" := by
          rw [List.getD_eq_getElem _ _ i1]; exact List.getElem_mem _
        have q2 : (dom.labels "lon").getD (ix "lon") 0 ∈ dom.labels "lon" := by
          rw [List.getD_eq_getElem _ _ i2]; exact List.getElem_mem _
        simp only [hf']
        rw [hgG v _ ⟨q1, q2⟩]
        have back : ∀ {l m : List ℚ} {i : Nat}, i < m.length → (∀ x ∈ m, x ∈ l) → l.getD ((m.map l.idxOf).getD i 0) 0 = m.getD i 0 := by
          intro l m i hi hs
          have hx := hs _ (List.getElem_mem hi)
          rw [List.getD_eq_getElem m _ hi, List.getD_eq_getElem (m.map l.idxOf) _ (by simpa using hi), List.getElem_map,
            List.getD_eq_getElem _ _ (List.idxOf_lt_length_of_mem hx), List.getElem_idxOf]
        simp only [Index.set, if_true, show ("lat" = "lon") = False by decide, show ("time" = "lon") = False by decide,
          show ("time" = "lat") = False by decide, if_false]
        rw [back i1 p1, back i2 p2, List.getD_eq_getElem (List.range n) _ (by simpa using i0), List.getElem_range]
      · rw [if_neg hvn, if_neg hvn]; exact True.intro
    · intro d hd
      simp only [cube, Dict.get?_cons] at hd
      by_cases e1 : "time" = d
      · exact .inl e1.symm
      by_cases e2 : "lat" = d
      · exact .inr (.inl e2.symm)
      by_cases e3 : "lon" = d
      · exact .inr (.inr e3.symm)
      · simp [e1, e2, e3, Dict.get?] at hd
    · rfl
    · rfl
    · show 0 < (stampsOf (simDays a n)).length
      simpa [stampsOf, simDays] using h.days
  exact .bind (base.assign "elev") fun m m' hm => .bind (hm.assign "lat") fun m m' hm => hm.assign "lon"

/-- The same run over one file that holds the series of all cells. -/
def asNetcdf (v : Inputs) (file : DS ℝ) : Worker.Inputs where
  domFile := v.domFile
  domNames := v.domNames
  forcing := file
  names := v.vars.keys.map fun k => (k, k)
  stateFile := v.stateFile
  stateNames := v.stateNames
  constants := v.constants
  start := v.start
  stop := v.stop

/-- **A worker loads from files for single cells what it would load from one file that holds them all.** -/
theorem load_alike {v : Inputs} (hf : v.domFile.Wf) (hn : (v.domNames.map Prod.fst).Nodup) (hc : (chunk.map Prod.fst).Nodup)
    (hw : readDomain v.domFile (some v.domNames) [] = .ok whole) (h : Read fs v.fmt v.jobs v.vars whole n G)
    (hstop : v.stop = v.start + n - 1) (s : Cell.Shared)
    (hcal : HasDays s.calendar (v.start - 730120) (v.start + n - 1 - 730120)) : Both LoadsAlike (load fs v s chunk)
      (Worker.load (asNetcdf v (gridded whole (simDays v.start n) v.vars.keys G)) s chunk) := by
  unfold load Worker.load
  show Both _ (do let dom ← readDomain v.domFile (some v.domNames) chunk; _) (do let dom ← readDomain v.domFile (some v.domNames) chunk; _)
  cases hd : readDomain v.domFile (some v.domNames) chunk with
  | error e => exact rfl
  | ok dom =>
    have cut := cut_of hf hn hc hw hd
    have hm := met_alike h cut s.calendar v.start hcal
    rw [← hstop] at hm
    obtain ⟨mask, hmask, hp⟩ := h.mask
    change Both LoadsAlike (metData fs v.fmt s.calendar v.jobs v.vars dom v.start v.stop >>= _) (Dataset.metData _ _ _ _ _ _ >>= _)
    refine .bind hm fun m m' hm => .bind (hm.constants v.constants) fun m m' hm => ?_
    simp only [← hm.days]
    refine .same fun _ => .same fun st => ?_
    have hmask' := cut.vars "mask"
    rw [hmask, Option.map_some] at hmask'
    have hdm : dom.vars.get "mask" = .ok ⟨mask.dims, fun ix => mask.val (inWhole whole chunk ix)⟩ := Dict.get_ok.2 hmask'
    have hpl : Placed dom mask.dims := ⟨cut.wf', hp.lat, hp.lon, fun ht => by
      rcases hp.only _ ht with e | e <;> exact absurd e (by decide)⟩
    cases hg : dom.vars.get "mask" with
    | error e => exact rfl
    | ok mk =>
    have hmk : mk.dims = mask.dims := by
      rw [hdm] at hg
      rw [← Except.ok.inj hg]
    rw [← hmk] at hpl
    change Both LoadsAlike (recordDates _ _ >>= _) (recordDates _ _ >>= _)
    refine .same fun record => .same fun old => ?_
    refine .bind (hm.dailies hpl) fun new new' hnew => .bind (aggregate_same hnew) fun agg agg' hagg => ?_
    refine .bind (monthlies_same fun c hc => by rw [hnew c hc]) fun ex ex' hex => ?_
    exact ⟨rfl, rfl, hm, rfl, hagg, hex⟩

end Verif.Vic
