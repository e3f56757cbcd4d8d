import Verif.Lemmas.Dataset
import Verif.Lemmas.Chunk
import Verif.Model.Run
import Mathlib.Tactic.Linarith

/-!
# Reading gridded forcing

The chain from the files to the series of a cell: domain file, chunk of the domain, forcing file.
-/

namespace Verif.Props

open Dataset Forcing

variable {K : Type}

theorem newName_eq {names : Dict String String} {u v : String} (hu : u ∈ names.map Prod.fst) (h : newName names u = v) :
    names.get? u = some v := by
  obtain ⟨w, hw⟩ := Option.isSome_iff_exists.1 ((Dict.isSome_iff names u).2 hu)
  unfold newName at h
  rw [hw] at h ⊢
  exact congrArg some h

/-- The day a time stamp of a file belongs to (in days since 1970). -/
def fileDay (t : ℚ) : ℚ := ((normaliseDay (86400 * t) : Int) : ℚ)

/-! ### The forcing file -/

/-- `read_netcdf` on a domain. -/
theorem readNetcdf_ok [RatCast K] {file dom r : DS K} {names : Dict String String} {a b : ℚ} (hf : file.Wf)
    (hn : (names.map Prod.fst).Nodup) (hdn : (dom.sizes.map Prod.fst).Nodup) (ht : dom.sizes.get? "time" = none)
    (hpos : ∀ d, (file.sizes.get? d).isSome → file.coords.get? d = none → ∀ x ∈ dom.labels (newName names d), 0 ≤ x)
    (h : readNetcdf file (some dom) (.ok (some a)) (.ok (some b)) (some names) = .ok r) :
    ∃ d₀ ps, newName names d₀ = "time" ∧ (file.sizes.get? d₀).isSome ∧
      between ((file.labels d₀).map fileDay) (some a) (some b) = .ok ps ∧
      r.labels "time" = ps.map (((file.labels d₀).map fileDay).getD · 0) ∧ r.Wf ∧
      (∀ d, (r.sizes.get? d).isSome → (dom.sizes.get? d).isSome → r.labels d = dom.labels d) ∧
      (∀ v lab x, v ≠ "day_of_year" → r.Says v lab x → ∃ u raw, names.get? u = some v ∧
        (∀ arr, r.vars.get? v = some arr → "time" ∈ arr.dims → raw ∈ file.labels d₀ ∧ fileDay raw = lab "time") ∧
        file.Says u (fun d => if newName names d = "time" then raw else lab (newName names d)) x) ∧
      (∀ v arr, v ≠ "day_of_year" → r.vars.get? v = some arr → ∃ u b, names.get? u = some v ∧
        file.vars.get? u = some b ∧ arr.dims = b.dims.map (newName names)) := by
  unfold readNetcdf at h
  simp only [bind_ok] at h
  obtain ⟨ds0, h0, ds1, h1, ds2, h2, a', ha, b', hb, h3⟩ := h
  simp only [Except.ok.injEq] at ha hb
  subst ha; subst hb
  obtain ⟨w0, v0, l0, s0⟩ := subset_ok hf hn h0
  obtain ⟨w1, l1, z1, v1, s1⟩ := rename_ok w0 h1
  unfold DS.selDomain at h2
  have hfil : ((dom.sizes.map Prod.fst).filter fun d => (ds1.sizes.get? d).isSome).Nodup := hdn.filter _
  obtain ⟨w2, l2, l2', c2, z2, v2, s2⟩ := selAll_ok _ w1 hfil
    (fun d hd => (List.mem_filter.1 hd).2)
    (fun d hd hc x hx => by
      have hd' := (List.mem_filter.1 hd).2
      obtain ⟨k, hk, rfl⟩ := z1 d hd'
      rw [(l1 k hk).2.2] at hc
      exact hpos k (by rw [← (l0 k hk).1]; exact hk) ((l0 k hk).2.2 hc) x hx) h2
  obtain ⟨c, ps, hc, hps, ltime, lne, v3, z3, z3', w3, s3⟩ := selPeriod_ok (wholeDays_wf w2) h3
  have htn : "time" ∉ (dom.sizes.map Prod.fst).filter fun d => (ds1.sizes.get? d).isSome := by
    intro hm
    have := (List.mem_filter.1 hm).1
    rw [← Dict.isSome_iff, ht] at this
    simp at this
  rw [wholeDays_coords] at hc
  cases hc2 : ds2.coords.get? "time" with
  | none => simp [hc2] at hc
  | some c' =>
    rw [hc2] at hc
    simp only [Option.map_some, if_true, Option.some.injEq] at hc
    have hc1 := c2 "time" htn
    rw [hc2] at hc1
    have hz1 : (ds1.sizes.get? "time").isSome := by rw [w1.coord_len _ _ hc1.symm]; rfl
    obtain ⟨d₀, hd₀, hd₀t⟩ := z1 "time" hz1
    have hlab0 : file.labels d₀ = c' := by
      rw [← (l0 d₀ hd₀).2.1, ← (l1 d₀ hd₀).1, hd₀t]
      exact DS.labels_some hc1.symm
    have hfd : (file.labels d₀).map fileDay = c := by rw [hlab0, ← hc]; rfl
    refine ⟨d₀, ps, hd₀t, ?_, by rw [hfd]; exact hps, by rw [hfd]; exact ltime, w3, ?_, ?_, ?_⟩
    · rw [← (l0 d₀ hd₀).1]; exact hd₀
    · intro d hd hdom
      have hne : d ≠ "time" := by rintro rfl; rw [ht] at hdom; simp at hdom
      rw [lne d hne, wholeDays_labels_ne _ hne]
      refine l2 d (List.mem_filter.2 ⟨(Dict.isSome_iff _ _).1 hdom, ?_⟩)
      rw [z3] at hd
      rw [← z2]; exact hd
    · intro v lab x hv hx
      have hx3 := s3 v lab x hv hx
      obtain ⟨raw, hraw, hx2⟩ := wholeDays_says hc2 hx3
      have hx1 := s2 _ _ _ hx2
      obtain ⟨u, hu, hx0⟩ := s1 _ _ _ hx1
      have hxf := s0 _ _ _ hx0
      have hun : u ∈ names.map Prod.fst := by
        obtain ⟨arr, ix, harr, -⟩ := hx0
        rw [v0] at harr
        by_contra hne
        rw [if_neg hne] at harr
        simp at harr
      refine ⟨u, raw, newName_eq hun hu, fun arr harr hta => ?_, hxf⟩
      rw [hlab0]
      rw [v3 v hv] at harr
      cases hv2 : ds2.vars.get? v with
      | none =>
        replace harr : Option.map _ (ds2.vars.get? v) = some arr := harr
        rw [hv2] at harr; simp at harr
      | some arr' =>
        replace harr : Option.map _ (ds2.vars.get? v) = some arr := harr
        rw [hv2] at harr
        simp only [Option.map_some, Option.some.injEq] at harr
        subst harr
        exact hraw ⟨arr', hv2, hta⟩
    · intro v arr hv harr
      rw [v3 v hv] at harr
      replace harr : Option.map _ (ds2.vars.get? v) = some arr := harr
      cases hv2 : ds2.vars.get? v with
      | none => rw [hv2] at harr; simp at harr
      | some arr' =>
        rw [hv2] at harr
        simp only [Option.map_some, Option.some.injEq] at harr
        have hd2 := v2 v
        rw [hv2, Option.map_some] at hd2
        cases hv1 : ds1.vars.get? v with
        | none => rw [hv1] at hd2; simp at hd2
        | some arr1 =>
          rw [hv1] at hd2
          simp only [Option.map_some, Option.some.injEq] at hd2
          obtain ⟨u, b, hb, hu, hdim⟩ := v1 v arr1 hv1
          rw [v0] at hb
          split at hb
          · rename_i hun
            refine ⟨u, b, newName_eq hun hu, hb, ?_⟩
            rw [← hdim, ← hd2, ← harr]; rfl
          · simp at hb

/-! ### The domain -/

/-- The position in the whole domain that corresponds to a position in a chunk. -/
def inWhole (whole : DS K) (chunk : Dict String Chunk.Slice) (ix : Index) : Index := fun d =>
  match chunk.get? d, whole.sizes.get? d with
  | some s, some n => (Run.sliceIdx s n).getD (ix d) 0
  | _, _ => ix d

theorem sliceIdx_lt {s : Chunk.Slice} {n p : Nat} (h : p ∈ Run.sliceIdx s n) : p < n := by
  unfold Run.sliceIdx at h
  exact List.mem_range.1 (List.mem_filter.1 h).1

/-- Cutting out a chunk. -/
theorem iselAll_ok : ∀ (chunk : Dict String Chunk.Slice) {whole dom : DS K}, whole.Wf →
    (∀ d, (whole.sizes.get? d).isSome → (whole.coords.get? d).isSome) → (chunk.map Prod.fst).Nodup →
    chunk.foldlM (fun (dom : DS K) q => match dom.sizes.get? q.1 with
      | some n => (.ok (dom.isel q.1 (Run.sliceIdx q.2 n)) : Except PyErr (DS K))
      | none => .error .valueError) whole = .ok dom →
    dom.Wf ∧ (∀ d, (dom.sizes.get? d).isSome = (whole.sizes.get? d).isSome) ∧
      (∀ d, (dom.sizes.get? d).isSome → (dom.coords.get? d).isSome) ∧
      (∀ d i, (whole.sizes.get? d).isSome → i < (dom.labels d).length →
        (dom.labels d)[i]? = (whole.labels d)[inWhole whole chunk (fun _ => i) d]?) ∧
      (∀ d, dom.sizes.get? d = match chunk.get? d, whole.sizes.get? d with
        | some s, some n => some (Run.sliceIdx s n).length
        | _, x => x) ∧
      (∀ v, dom.vars.get? v = (whole.vars.get? v).map fun a => ⟨a.dims, fun ix => a.val (inWhole whole chunk ix)⟩)
  | [], whole, dom, hw, hc, _, h => by
    rw [List.foldlM_nil, pure_ok] at h
    subst h
    refine ⟨hw, fun _ => rfl, hc, fun d i _ _ => ?_, fun d => ?_, fun v => ?_⟩
    · simp [inWhole]
    · simp
    · cases h : whole.vars.get? v with
      | none => rfl
      | some a =>
        simp only [Option.map_some]
        have : (fun ix => a.val (inWhole whole [] ix)) = a.val := by
          funext ix; congr 1
        rw [this]
  | (k, s) :: chunk, whole, dom, hw, hc, hn, h => by
    rw [List.foldlM_cons, bind_ok] at h
    obtain ⟨m, hm, hr⟩ := h
    rw [List.map_cons, List.nodup_cons] at hn
    cases hk : whole.sizes.get? k with
    | none => simp [hk] at hm
    | some n =>
      simp only [hk, Except.ok.injEq] at hm
      subst hm
      obtain ⟨ck, hck⟩ := Option.isSome_iff_exists.1 (hc k (by rw [hk]; rfl))
      have hcl : ck.length = n := by
        have := hw.coord_len k ck hck
        rw [hk] at this; exact (Option.some.inj this).symm
      have hsz : ∀ d, ((whole.isel k (Run.sliceIdx s n)).sizes.get? d).isSome = (whole.sizes.get? d).isSome := by
        intro d; rw [isel_sizes]; cases whole.sizes.get? d <;> rfl
      obtain ⟨h1, h2, h2', h3, h4, h5⟩ := iselAll_ok chunk (isel_wf hw k (Run.sliceIdx s n))
        (fun d hd => by
          rw [hsz] at hd
          rw [isel_coords]
          obtain ⟨c, hcd⟩ := Option.isSome_iff_exists.1 (hc d hd)
          rw [hcd]; rfl) hn.2 hr
      have hkn : Dict.get? chunk k = none := (Dict.get?_eq_none_iff chunk k).2 hn.1
      have hin : ∀ ix d, inWhole whole ((k, s) :: chunk) ix d =
          (inWhole (whole.isel k (Run.sliceIdx s n)) chunk ix).set k
            ((Run.sliceIdx s n).getD (inWhole (whole.isel k (Run.sliceIdx s n)) chunk ix k) 0) d := by
        intro ix d
        unfold inWhole Index.set
        rw [Dict.get?_cons]
        by_cases e : k = d
        · subst e
          simp [hk, hkn]
        · simp only [e, if_false, Ne.symm e]
          rw [isel_sizes]
          cases Dict.get? chunk d <;> cases whole.sizes.get? d <;> simp [Ne.symm e]
      refine ⟨h1, fun d => by rw [h2, hsz], h2', fun d i hd hi => ?_, fun d => ?_, fun v => ?_⟩
      · rw [h3 d i (by rw [hsz]; exact hd) hi, hin]
        by_cases e : d = k
        · subst e
          simp only [Index.set, if_true]
          have hi' : inWhole (whole.isel d (Run.sliceIdx s n)) chunk (fun _ => i) d = i := by
            unfold inWhole; rw [hkn]
          have hsz' := h4 d
          rw [hkn] at hsz'
          simp only at hsz'
          rw [isel_sizes, hk] at hsz'
          simp only [Option.map_some, if_true] at hsz'
          have hlt : i < (Run.sliceIdx s n).length := by
            rw [← h1.labels_length hsz']; exact hi
          rw [hi', isel_labels_self whole _ hck, DS.labels_some hck, List.getElem?_map,
            List.getElem?_eq_getElem hlt]
          have hp : (Run.sliceIdx s n)[i] < ck.length := by
            rw [hcl]; exact sliceIdx_lt (List.getElem_mem hlt)
          simp [List.getD, List.getElem?_eq_getElem hlt, List.getElem?_eq_getElem hp]
        · simp only [Index.set, e, if_false]
          rw [isel_labels_ne whole _ e]
      · rw [h4, Dict.get?_cons, isel_sizes]
        by_cases e : k = d
        · subst e; simp [hkn, hk]
        · simp only [e, if_false, Ne.symm e]
          cases Dict.get? chunk d <;> cases whole.sizes.get? d <;> rfl
      · rw [h5, isel_vars]
        cases whole.vars.get? v with
        | none => rfl
        | some arr =>
          simp only [Option.map_some, Arr.take]
          congr 2
          funext ix
          congr 1
          funext d
          exact (hin ix d).symm

/-- `readDomain` with a chunk, from `readDomain` of the whole. -/
theorem readDomain_ok [RatCast K] {file whole dom : DS K} {names : Option (Dict String String)}
    {chunk : Dict String Chunk.Slice} (hw : readDomain file names [] = .ok whole)
    (h : readDomain file names chunk = .ok dom) :
    chunk.foldlM (fun (dom : DS K) q => match dom.sizes.get? q.1 with
      | some n => (.ok (dom.isel q.1 (Run.sliceIdx q.2 n)) : Except PyErr (DS K))
      | none => .error .valueError) whole = .ok dom := by
  unfold readDomain at hw h
  rw [bind_ok] at hw h
  obtain ⟨w, hw1, hw2⟩ := hw
  obtain ⟨w', h1, h2⟩ := h
  rw [List.foldlM_nil, pure_ok] at hw2
  subst hw2
  rw [hw1] at h1
  obtain rfl : w = w' := by injection h1
  exact h2

theorem number_coords (ds : DS K) (d : String) : ds.number.coords.get? d = match ds.coords.get? d with
    | some c => some c
    | none => if (ds.sizes.get? d).isSome then some (ds.labels d) else none := by
  show Dict.get? (ds.coords ++ _) d = _
  rw [Dict.get?_append]
  cases h : ds.coords.get? d with
  | some c => rfl
  | none =>
    simp only
    have h1 := Dict.get?_mapVal (ds.sizes.filter fun q => (ds.coords.get? q.1).isNone) (fun k _ => ds.labels k) d
    rw [h1, Dict.get?_filter ds.sizes (fun k => (ds.coords.get? k).isNone) d, h]
    cases ds.sizes.get? d <;> simp

theorem number_labels (ds : DS K) (d : String) : ds.number.labels d = ds.labels d := by
  have h := number_coords ds d
  unfold DS.labels
  rw [h]
  cases hc : ds.coords.get? d with
  | some c => rfl
  | none =>
    cases hs : ds.sizes.get? d with
    | none => simp [DS.number, hs]
    | some n => simp [DS.labels, hc, hs]

theorem number_wf {ds : DS K} (h : ds.Wf) : ds.number.Wf where
  sizes_nodup := h.sizes_nodup
  coords_nodup := by
    show ((ds.coords ++ _).map Prod.fst).Nodup
    rw [List.map_append, List.nodup_append]
    refine ⟨h.coords_nodup, ?_, ?_⟩
    · rw [List.map_map]
      exact (List.filter_sublist.map Prod.fst).nodup h.sizes_nodup
    · intro a ha b hb e
      subst e
      rw [List.map_map, List.mem_map] at hb
      obtain ⟨q, hq, rfl⟩ := hb
      have := (List.mem_filter.1 hq).2
      have h2 := (Dict.isSome_iff ds.coords q.1).2 ha
      rw [Option.isNone_iff_eq_none] at this
      rw [this] at h2; simp at h2
  vars_nodup := h.vars_nodup
  coord_len := fun d c hc => by
    rw [number_coords] at hc
    show ds.sizes.get? d = _
    cases hd : ds.coords.get? d with
    | some c' =>
      rw [hd] at hc
      simp only [Option.some.injEq] at hc
      subst hc
      exact h.coord_len d _ hd
    | none =>
      rw [hd] at hc
      simp only at hc
      split at hc
      · rename_i hs
        obtain ⟨n, hn⟩ := Option.isSome_iff_exists.1 hs
        rw [← Option.some.inj hc, h.labels_length hn, hn]
      · simp at hc
  var_dims := h.var_dims
  own := h.own

/-- The domain as read: every dimension has labels, those of the file or its numbering. -/
theorem whole_ok [RatCast K] {file whole : DS K} {names : Dict String String} (hf : file.Wf)
    (hn : (names.map Prod.fst).Nodup) (h : readDomain file (some names) [] = .ok whole) :
    whole.Wf ∧ (∀ d, (whole.sizes.get? d).isSome → (whole.coords.get? d).isSome) ∧
      (∀ v lab x, whole.sizes.get? "time" = none → whole.Says v lab x →
        ∃ u, names.get? u = some v ∧ file.Says u (fun d => lab (newName names d)) x) := by
  unfold readDomain at h
  rw [bind_ok] at h
  obtain ⟨w, h1, h2⟩ := h
  rw [List.foldlM_nil, pure_ok] at h2
  subst h2
  unfold readNetcdf at h1
  simp only [bind_ok, pure_ok] at h1
  obtain ⟨ds0, h0, ds1, h1, ds2, rfl, hw⟩ := h1
  obtain ⟨w0, v0, l0, s0⟩ := subset_ok hf hn h0
  obtain ⟨w1, l1, z1, v1, s1⟩ := rename_ok w0 h1
  subst hw
  refine ⟨wholeDays_wf (number_wf w1), fun d hd => ?_, fun v lab x ht hs => ?_⟩
  · rw [wholeDays_coords, number_coords]
    replace hd : (ds1.sizes.get? d).isSome := hd
    cases ds1.coords.get? d with
    | some c => simp
    | none => simp [hd]
  · have hs1 : ds1.Says v lab x := by
      obtain ⟨a, ix, ha, hl, hx⟩ := hs
      refine ⟨a, ix, ha, fun d hd => ?_, hx⟩
      have hne : d ≠ "time" := by
        rintro rfl
        have := w1.var_dims v a ha _ hd
        replace ht : ds1.sizes.get? "time" = none := ht
        rw [ht] at this; simp at this
      have := hl d hd
      rw [wholeDays_labels_ne _ hne, number_labels] at this
      exact this
    obtain ⟨u, hu, hx⟩ := s1 v lab x hs1
    refine ⟨u, newName_eq ?_ hu, s0 _ _ _ hx⟩
    obtain ⟨a, ix, ha, -⟩ := hx
    rw [v0] at ha
    by_contra hne
    rw [if_neg hne] at ha; simp at ha

/-! ### Bringing elevation and position along -/

theorem assignFrom_ok {ds dom r : DS K} {name : String} (h : ds.assignFrom dom name = .ok r) :
    r.sizes = ds.sizes ∧ r.coords = ds.coords ∧ ∀ v, v ≠ name → r.vars.get? v = ds.vars.get? v := by
  unfold DS.assignFrom at h
  split at h
  · simp only [Except.ok.injEq] at h
    subst h
    exact ⟨rfl, rfl, fun v hv => Dict.get?_set_ne _ _ (Ne.symm hv)⟩
  · split at h
    · simp only [Except.ok.injEq] at h
      subst h
      exact ⟨rfl, rfl, fun _ _ => rfl⟩
    · simp at h

theorem labels_congr {ds r : DS K} (hs : r.sizes = ds.sizes) (hc : r.coords = ds.coords) (d : String) :
    r.labels d = ds.labels d := by unfold DS.labels; rw [hs, hc]

/-- Where the labels agree, the domain's variable arrives at its own position. -/
theorem assignFrom_val {ds dom r : DS K} {name : String} {a : Arr K} (hw : dom.Wf)
    (hdist : ∀ d, (dom.labels d).Nodup)
    (h : ds.assignFrom dom name = .ok r) (ha : dom.vars.get? name = some a)
    (hl : ∀ d ∈ a.dims, (ds.sizes.get? d).isSome → ds.labels d = dom.labels d) :
    ∃ a', r.vars.get? name = some a' ∧ ∀ ix : Index, (∀ d ∈ a.dims, ix d < (dom.labels d).length) →
      a'.val ix = a.val ix := by
  unfold DS.assignFrom at h
  rw [ha] at h
  simp only [Except.ok.injEq] at h
  subst h
  refine ⟨_, Dict.get?_set_self _ _ _, fun ix hix => ?_⟩
  have hg : ∀ (d : String) (hd : d ∈ a.dims), (ds.sizes.get? d).isSome →
      (ds.labels d).getD (ix d) 0 = (dom.labels d)[ix d]'(hix d hd) := by
    intro d hd hs
    rw [hl d hd hs]
    simp [List.getD, List.getElem?_eq_getElem (hix d hd)]
  have hall : ((a.dims.filter fun d => (ds.sizes.get? d).isSome).all
      fun d => decide (((ds.labels d).getD (ix d) 0) ∈ dom.labels d)) = true := by
    rw [List.all_eq_true]
    intro d hd
    obtain ⟨hd, hs⟩ := List.mem_filter.1 hd
    rw [hg d hd hs, decide_eq_true_iff]
    exact List.getElem_mem _
  simp only [hall, if_true]
  refine hw.own name a ha _ _ fun d hd => ?_
  by_cases hm : d ∈ a.dims.filter fun d => (ds.sizes.get? d).isSome
  · simp only [hm, if_true]
    rw [hg d hd (List.mem_filter.1 hm).2]
    exact (hdist d).idxOf_getElem (ix d) (hix d hd)
  · simp only [hm, if_false]

/-! ### C86: the series of a cell -/

/-- A run on gridded files: the domain file and the forcing file, the names their variables have there, the first and the
last day. -/
structure Gridded (K : Type) where
  domFile : DS K
  domNames : Dict String String
  forcing : DS K
  names : Dict String String
  start : ℚ
  stop : ℚ

/-- Sound files: see `DS.Wf`; the variable maps are dictionaries. -/
structure Gridded.Proper (g : Gridded K) : Prop where
  domFile : g.domFile.Wf
  forcing : g.forcing.Wf
  domNames : (g.domNames.map Prod.fst).Nodup
  names : (g.names.map Prod.fst).Nodup

/-- What a worker reads for its chunk. -/
structure Loaded [RatCast K] (g : Gridded K) (fmt : Format) (mdims : List String) (whole : DS K)
    (chunk : Dict String Chunk.Slice) (dom met : DS K) : Prop where
  readsWhole : readDomain g.domFile (some g.domNames) [] = .ok whole
  readsDom : readDomain g.domFile (some g.domNames) chunk = .ok dom
  readsMet : metData fmt g.forcing dom (.ok (some g.start)) (.ok (some g.stop)) (some g.names) = .ok met
  slices : (chunk.map Prod.fst).Nodup
  time : whole.sizes.get? "time" = none
  axes : mdims.Nodup
  mask : ∀ d ∈ mdims, (whole.sizes.get? d).isSome

/-- The dimensions of the mask and their sizes. -/
def maskDims (whole : DS K) (mdims : List String) : Dict String Nat :=
  mdims.map fun d => (d, (whole.sizes.get? d).getD 0)

/-- The label of a cell of the whole domain on a dimension. -/
def cellLabel (whole : DS K) (mdims : List String) (c : Run.Cell) (d : String) : ℚ :=
  (whole.labels d).getD (cellIndex mdims c d) 0

theorem Loaded.isel [RatCast K] {g : Gridded K} {fmt : Format} {mdims : List String} {whole dom met : DS K}
    {chunk : Dict String Chunk.Slice} (hg : g.Proper) (h : Loaded g fmt mdims whole chunk dom met) :
    dom.Wf ∧ (∀ d, (dom.sizes.get? d).isSome = (whole.sizes.get? d).isSome) ∧
      (∀ d, (dom.sizes.get? d).isSome → (dom.coords.get? d).isSome) ∧
      (∀ d i, (whole.sizes.get? d).isSome → i < (dom.labels d).length →
        (dom.labels d)[i]? = (whole.labels d)[inWhole whole chunk (fun _ => i) d]?) ∧
      (∀ d, dom.sizes.get? d = match chunk.get? d, whole.sizes.get? d with
        | some s, some n => some (Run.sliceIdx s n).length
        | _, x => x) ∧
      (∀ v, dom.vars.get? v = (whole.vars.get? v).map fun a => ⟨a.dims, fun ix => a.val (inWhole whole chunk ix)⟩) := by
  obtain ⟨w, c, -⟩ := whole_ok hg.domFile hg.domNames h.readsWhole
  exact iselAll_ok chunk w c h.slices (readDomain_ok h.readsWhole h.readsDom)

theorem mem_product_lt {ls : List (List Nat)} {p : List Nat} (h : p ∈ Chunk.product (ls.map fun a => List.range a.length)) :
    p.length = ls.length ∧ ∀ i (hi : i < ls.length), p.getD i 0 < (ls[i]).length := by
  rw [Chunk.mem_product] at h
  have hlen := h.length_eq
  rw [List.length_map] at hlen
  refine ⟨hlen, fun i hi => ?_⟩
  have hi' : i < p.length := by omega
  have := (List.forall₂_iff_get.1 h).2 i hi' (by simpa using hi)
  simp only [List.get_eq_getElem, List.getElem_map, List.mem_range] at this
  simpa [List.getD, List.getElem?_eq_getElem hi'] using this

/-- The axes of a chunk. -/
theorem axes_get (whole : DS K) {mdims : List String} (chunk : Dict String Chunk.Slice)
    (hm : ∀ d ∈ mdims, (whole.sizes.get? d).isSome) {i : Nat} (hi : i < mdims.length) :
    ∃ n, whole.sizes.get? mdims[i] = some n ∧ (Run.axes (maskDims whole mdims) chunk)[i]? =
      some (match chunk.get? mdims[i] with | some s => Run.sliceIdx s n | none => List.range n) := by
  obtain ⟨n, hn⟩ := Option.isSome_iff_exists.1 (hm _ (List.getElem_mem hi))
  refine ⟨n, hn, ?_⟩
  unfold Run.axes maskDims
  rw [List.map_map, List.getElem?_map, List.getElem?_eq_getElem hi]
  simp only [Option.map_some, Function.comp, hn, Option.getD_some]
  cases Dict.get? chunk mdims[i] <;> rfl

/-- A cell of a chunk: its positions are within the chunk, and correspond to those of its global cell. -/
theorem local_cell (whole : DS K) {mdims : List String} (chunk : Dict String Chunk.Slice) (_hn : mdims.Nodup)
    (hm : ∀ d ∈ mdims, (whole.sizes.get? d).isSome) {l : Run.Cell}
    (hl : l ∈ Run.localCells (Run.axes (maskDims whole mdims) chunk)) {d : String} (hd : d ∈ mdims) :
    inWhole whole chunk (cellIndex mdims l) d =
        cellIndex mdims (Run.globalOf (Run.axes (maskDims whole mdims) chunk) l) d ∧
      ∃ n, whole.sizes.get? d = some n ∧ cellIndex mdims l d < (match chunk.get? d with
        | some s => (Run.sliceIdx s n).length | none => n) := by
  obtain ⟨hlen, hlt⟩ := mem_product_lt hl
  have hal : (Run.axes (maskDims whole mdims) chunk).length = mdims.length := by simp [Run.axes, maskDims]
  have hi : mdims.idxOf d < mdims.length := List.idxOf_lt_length_of_mem hd
  obtain ⟨n, hn', hax⟩ := axes_get whole chunk hm hi
  have hdi : mdims[mdims.idxOf d] = d := List.getElem_idxOf hi
  rw [hdi] at hn' hax
  have h1 := hlt (mdims.idxOf d) (by omega)
  have hax' := (List.getElem?_eq_some_iff.1 hax).2
  rw [hax'] at h1
  have hg : cellIndex mdims (Run.globalOf (Run.axes (maskDims whole mdims) chunk) l) d =
      (match chunk.get? d with | some s => Run.sliceIdx s n | none => List.range n).getD (l.getD (mdims.idxOf d) 0) 0 := by
    unfold cellIndex Run.globalOf
    have hll : mdims.idxOf d < l.length := by omega
    simp only [List.getD, List.getElem?_zipWith, hax, List.getElem?_eq_getElem hll, Option.getD_some]
  refine ⟨?_, n, hn', ?_⟩
  · rw [hg]
    unfold inWhole
    cases hc : Dict.get? chunk d with
    | some s => simp only [hn']; rfl
    | none =>
      rw [hc] at h1
      simp only [List.length_range] at h1
      show l.getD (mdims.idxOf d) 0 = (List.range n).getD (l.getD (mdims.idxOf d) 0) 0
      generalize l.getD (mdims.idxOf d) 0 = q at h1
      simp [List.getD, List.getElem?_range h1]
  · cases hc : Dict.get? chunk d with
    | some s => rw [hc] at h1; exact h1
    | none =>
      rw [hc, List.length_range] at h1
      exact h1

section
variable [RatCast K] {g : Gridded K} {mdims : List String} {whole dom met : DS K} {chunk : Dict String Chunk.Slice}

/-- On the mask's dimensions: the labels of a chunk's cell are those of its global cell. -/
theorem Loaded.label {fmt : Format} (hg : g.Proper) (h : Loaded g fmt mdims whole chunk dom met) {l : Run.Cell}
    (hl : l ∈ Run.localCells (Run.axes (maskDims whole mdims) chunk)) {d : String} (hd : d ∈ mdims) :
    (dom.labels d)[cellIndex mdims l d]? =
      some (cellLabel whole mdims (Run.globalOf (Run.axes (maskDims whole mdims) chunk) l) d) := by
  obtain ⟨w, c, -⟩ := whole_ok hg.domFile hg.domNames h.readsWhole
  obtain ⟨h1, h2, h2', h3, h4, h5⟩ := h.isel hg
  obtain ⟨e, n, hn, hlt⟩ := local_cell whole chunk h.axes h.mask hl hd
  have hsz := h4 d
  rw [hn] at hsz
  have hlen : (dom.labels d).length = (match chunk.get? d with
        | some s => (Run.sliceIdx s n).length | none => n) := by
    apply h1.labels_length
    rw [hsz]; cases Dict.get? chunk d <;> rfl
  rw [h3 d _ (h.mask d hd) (by rw [hlen]; exact hlt)]
  have e' : inWhole whole chunk (fun _ => cellIndex mdims l d) d = inWhole whole chunk (cellIndex mdims l) d := rfl
  rw [e', e]
  unfold cellLabel
  have hlt' : cellIndex mdims (Run.globalOf (Run.axes (maskDims whole mdims) chunk) l) d < (whole.labels d).length := by
    rw [w.labels_length hn, ← e]
    unfold inWhole
    rw [hn]
    cases hc : Dict.get? chunk d with
    | some s =>
      rw [hc] at hlt
      simp only at hlt ⊢
      have : (Run.sliceIdx s n).getD (cellIndex mdims l d) 0 = (Run.sliceIdx s n)[cellIndex mdims l d] := by
        simp [List.getD, List.getElem?_eq_getElem hlt]
      rw [this]
      exact sliceIdx_lt (List.getElem_mem hlt)
    | none => rw [hc] at hlt; exact hlt
  simp [List.getD, List.getElem?_eq_getElem hlt']

/-- Reading, then adding elevation and position. -/
theorem Loaded.parts (h : Loaded g .netcdf mdims whole chunk dom met) : ∃ r m1 m2,
    readNetcdf g.forcing (some dom) (.ok (some g.start)) (.ok (some g.stop)) (some g.names) = .ok r ∧
    r.assignFrom dom "elev" = .ok m1 ∧ m1.assignFrom dom "lat" = .ok m2 ∧ m2.assignFrom dom "lon" = .ok met ∧
    (∀ d, m1.labels d = r.labels d) ∧ (∀ d, m2.labels d = r.labels d) ∧ (∀ d, met.labels d = r.labels d) ∧
    met.sizes = r.sizes ∧
    ∀ v, v ≠ "elev" → v ≠ "lat" → v ≠ "lon" → met.vars.get? v = r.vars.get? v := by
  have hm := h.readsMet
  unfold metData at hm
  simp only [bind_ok] at hm
  obtain ⟨r, h1, m1, h2, m2, h3, h4⟩ := hm
  obtain ⟨s1, c1, v1⟩ := assignFrom_ok h2
  obtain ⟨s2, c2, v2⟩ := assignFrom_ok h3
  obtain ⟨s3, c3, v3⟩ := assignFrom_ok h4
  refine ⟨r, m1, m2, h1, h2, h3, h4, labels_congr s1 c1, labels_congr (s2.trans s1) (c2.trans c1),
    labels_congr (s3.trans (s2.trans s1)) (c3.trans (c2.trans c1)), s3.trans (s2.trans s1), fun v e1 e2 e3 => ?_⟩
  rw [v3 v e3, v2 v e2, v1 v e1]

/-- Positive labels are needed only where the forcing file leaves a dimension without labels. -/
def Gridded.Countable (g : Gridded K) (whole : DS K) : Prop :=
  ∀ d, (g.forcing.sizes.get? d).isSome → g.forcing.coords.get? d = none → ∀ x ∈ whole.labels (newName g.names d), 0 ≤ x

theorem Loaded.read (hg : g.Proper) (hc : g.Countable whole) (h : Loaded g .netcdf mdims whole chunk dom met) {r : DS K}
    (hr : readNetcdf g.forcing (some dom) (.ok (some g.start)) (.ok (some g.stop)) (some g.names) = .ok r) :
    ∃ d₀ ps, newName g.names d₀ = "time" ∧ (g.forcing.sizes.get? d₀).isSome ∧
      between ((g.forcing.labels d₀).map fileDay) (some g.start) (some g.stop) = .ok ps ∧
      r.labels "time" = ps.map (((g.forcing.labels d₀).map fileDay).getD · 0) ∧ r.Wf ∧
      (∀ d, (r.sizes.get? d).isSome → (dom.sizes.get? d).isSome → r.labels d = dom.labels d) ∧
      (∀ v lab x, v ≠ "day_of_year" → r.Says v lab x → ∃ u raw, g.names.get? u = some v ∧
        (∀ arr, r.vars.get? v = some arr → "time" ∈ arr.dims → raw ∈ g.forcing.labels d₀ ∧ fileDay raw = lab "time") ∧
        g.forcing.Says u (fun d => if newName g.names d = "time" then raw else lab (newName g.names d)) x) ∧
      (∀ v arr, v ≠ "day_of_year" → r.vars.get? v = some arr → ∃ u b, g.names.get? u = some v ∧
        g.forcing.vars.get? u = some b ∧ arr.dims = b.dims.map (newName g.names)) := by
  obtain ⟨w, -, -⟩ := whole_ok hg.domFile hg.domNames h.readsWhole
  obtain ⟨h1, h2, h2', h3, h4, h5⟩ := h.isel hg
  refine readNetcdf_ok hg.forcing hg.names h1.sizes_nodup ?_ ?_ hr
  · have := h2 "time"
    rw [h.time] at this
    simpa using this
  · intro d hd0 hd x hx
    obtain ⟨i, hi, rfl⟩ := List.getElem_of_mem hx
    have hs : (whole.sizes.get? (newName g.names d)).isSome := by
      rw [← h2]
      by_contra hne
      have hnone : dom.sizes.get? (newName g.names d) = none := by simpa using hne
      have hcn : dom.coords.get? (newName g.names d) = none := by
        cases hcc : dom.coords.get? (newName g.names d) with
        | none => rfl
        | some c => have := h1.coord_len _ _ hcc; rw [hnone] at this; simp at this
      have : dom.labels (newName g.names d) = [] := by unfold DS.labels; rw [hcn, hnone]; rfl
      rw [this] at hi; simp at hi
    have h6 := h3 _ i hs hi
    rw [List.getElem?_eq_getElem hi] at h6
    exact hc d hd0 hd _ (List.mem_of_getElem? h6.symm)

/-- **C86** (NetCDF forcing): whatever the chunk, the value a cell has for a variable on a day is the value the forcing
file has for that variable at the labels of the cell — those of the domain file — and a time stamp of that day.  The order
in which the file stores places, and where in the file they are, does not matter. -/
theorem C86_series (hg : g.Proper) (hc : g.Countable whole) (h : Loaded g .netcdf mdims whole chunk dom met)
    {v : String} (hv : v ≠ "day_of_year" ∧ v ≠ "elev" ∧ v ≠ "lat" ∧ v ≠ "lon")
    (hshape : ∀ u b, g.names.get? u = some v → g.forcing.vars.get? u = some b →
      (∃ d ∈ b.dims, newName g.names d = "time") ∧ ∀ d ∈ b.dims, newName g.names d = "time" ∨ newName g.names d ∈ mdims)
    {l : Run.Cell} (hl : l ∈ Run.localCells (Run.axes (maskDims whole mdims) chunk)) {col : List (Flt K)}
    (hcol : met.series mdims l v = .ok col) :
    col.length = (met.labels "time").length ∧ ∀ (t : Nat) (x : Flt K) (day : ℚ), col[t]? = some x → (met.labels "time")[t]? = some day →
      ∃ u raw, g.names.get? u = some v ∧ fileDay raw = day ∧
        g.forcing.Says u (fun d => if newName g.names d = "time" then raw else
          cellLabel whole mdims (Run.globalOf (Run.axes (maskDims whole mdims) chunk) l) (newName g.names d)) x := by
  obtain ⟨r, m1, m2, hr, -, -, -, -, -, hlab, hsz, hvars⟩ := h.parts
  obtain ⟨d₀, ps, hd₀, -, hps, htime, hw, hdom, hsays, hdims⟩ := h.read hg hc hr
  unfold DS.series at hcol
  rw [bind_ok] at hcol
  obtain ⟨a, ha, hcol⟩ := hcol
  rw [pure_ok] at hcol
  rw [Dict.get_ok, hvars v hv.2.1 hv.2.2.1 hv.2.2.2] at ha
  subst hcol
  refine ⟨by simp, fun t x day hx hday => ?_⟩
  rw [List.getElem?_map] at hx
  have ht : t < (met.labels "time").length := (List.getElem?_eq_some_iff.1 hday).1
  rw [List.getElem?_range ht] at hx
  simp only [Option.map_some, Option.some.injEq] at hx
  obtain ⟨u₀, b₀, hu₀, hb₀, had⟩ := hdims v a hv.1 ha
  obtain ⟨⟨dt, hdt, hdt'⟩, hsh⟩ := hshape u₀ b₀ hu₀ hb₀
  have hmem : ∀ d ∈ a.dims, d = "time" ∨ d ∈ mdims := by
    intro d hd
    rw [had, List.mem_map] at hd
    obtain ⟨k, hk, rfl⟩ := hd
    exact hsh k hk
  have htm : "time" ∈ a.dims := by rw [had, List.mem_map]; exact ⟨dt, hdt, hdt'⟩
  have htnm : "time" ∉ mdims := fun hm => by have := h.mask _ hm; rw [h.time] at this; simp at this
  have hS : r.Says v (fun d => if d = "time" then day else
      cellLabel whole mdims (Run.globalOf (Run.axes (maskDims whole mdims) chunk) l) d) x := by
    refine ⟨a, _, ha, fun d hd => ?_, hx⟩
    rcases hmem d hd with rfl | hm
    · simp only [Index.set, if_true]
      rw [← hlab]; exact hday
    · have hne : d ≠ "time" := fun e => htnm (e ▸ hm)
      simp only [Index.set, hne, if_false]
      rw [hdom d (hw.var_dims v a ha d hd) (by rw [(h.isel hg).2.1]; exact h.mask d hm)]
      exact h.label hg hl hm
  obtain ⟨u, raw, hu, hraw, hf⟩ := hsays v _ x hv.1 hS
  refine ⟨u, raw, hu, ?_, ?_⟩
  · have := (hraw a ha htm).2
    simpa using this.symm ▸ rfl
  · obtain ⟨b, ix, hb, hbl, hbx⟩ := hf
    refine ⟨b, ix, hb, fun d hd => ?_, hbx⟩
    have := hbl d hd
    by_cases e : newName g.names d = "time"
    · simpa [e] using this
    · simpa [e] using this

/-- **C86**: the days of a run are the days of the forcing file from the first to the last day asked for. -/
theorem C86_days (hg : g.Proper) (hc : g.Countable whole) (h : Loaded g .netcdf mdims whole chunk dom met)
    (hs : ∀ d, newName g.names d = "time" → ((g.forcing.labels d).map fileDay).Pairwise (· ≤ ·)) :
    ∃ d₀, newName g.names d₀ = "time" ∧ met.labels "time" =
      ((g.forcing.labels d₀).map fileDay).filter fun t => decide (g.start ≤ t) && decide (t ≤ g.stop) := by
  obtain ⟨r, m1, m2, hr, -, -, -, -, -, hlab, hsz, hvars⟩ := h.parts
  obtain ⟨d₀, ps, hd₀, -, hps, htime, -⟩ := h.read hg hc hr
  refine ⟨d₀, hd₀, ?_⟩
  obtain ⟨ps', hps', he⟩ := between_sorted (hs d₀ hd₀) g.start g.stop
  rw [hps] at hps'
  obtain rfl : ps = ps' := by injection hps'
  rw [hlab, htime, he]

/-- **C86**: the domain says what its file says, at the file's labels; a dimension the file leaves without labels is numbered
from zero. -/
theorem C86_domain (hg : g.Proper) (hwhole : readDomain g.domFile (some g.domNames) [] = .ok whole)
    (ht : whole.sizes.get? "time" = none) :
    (∀ d, (whole.sizes.get? d).isSome → (whole.coords.get? d).isSome) ∧
      ∀ v lab x, whole.Says v lab x → ∃ u, g.domNames.get? u = some v ∧
        g.domFile.Says u (fun d => lab (newName g.domNames d)) x := by
  obtain ⟨-, h1, h2⟩ := whole_ok hg.domFile hg.domNames hwhole
  exact ⟨h1, fun v lab x => h2 v lab x ht⟩

/-- **C86**: every day of the forcing carries the number it has in its own year. -/
theorem C86_day_of_year (h : Loaded g .netcdf mdims whole chunk dom met) (l : Run.Cell) :
    met.series mdims l "day_of_year" = .ok ((met.labels "time").map fun t =>
      .fin (((Cal.dayOfYear (⌊t⌋ + epoch) : Int) : ℚ) : K)) := by
  obtain ⟨r, m1, m2, hr, -, -, -, -, -, hlab, hsz, hvars⟩ := h.parts
  unfold readNetcdf at hr
  simp only [bind_ok] at hr
  obtain ⟨ds0, -, ds1, -, ds2, -, a', ha, b', hb, h3⟩ := hr
  unfold DS.selPeriod at h3
  cases hc : ds2.wholeDays.coords.get? "time" with
  | none => rw [hc] at h3; simp at h3
  | some c =>
    rw [hc] at h3
    simp only [bind_ok, pure_ok] at h3
    obtain ⟨ps, -, h3⟩ := h3
    have hv : met.vars.get? "day_of_year" = some ⟨["time"], fun ix => .fin (((Cal.dayOfYear
        (⌊(r.labels "time").getD (ix "time") 0⌋ + epoch) : Int) : ℚ) : K)⟩ := by
      rw [hvars _ (by decide) (by decide) (by decide)]
      subst h3
      exact Dict.get?_set_self _ _ _
    have hg' : met.vars.get "day_of_year" = .ok _ := Dict.get_ok.2 hv
    unfold DS.series
    rw [bind_ok]
    refine ⟨_, hg', ?_⟩
    rw [pure_ok, ← hlab]
    apply List.ext_getElem
    · simp
    · intro i h1 h2
      have hi : i < (met.labels "time").length := by simpa using h1
      simp [Index.set, List.getD, List.getElem?_eq_getElem hi]

/-- A chunk of a domain without repeated labels has none either. -/
theorem Loaded.distinct {fmt : Format} (hg : g.Proper) (h : Loaded g fmt mdims whole chunk dom met) (hw : whole.Distinct) :
    ∀ d, (dom.labels d).Nodup := by
  obtain ⟨h1, h2, h2', h3, h4, h5⟩ := h.isel hg
  obtain ⟨w, -, -⟩ := whole_ok hg.domFile hg.domNames h.readsWhole
  intro d
  by_cases hs : (whole.sizes.get? d).isSome
  swap
  · have hnone : dom.sizes.get? d = none := by
      have := h2 d
      rw [Bool.not_eq_true] at hs
      rw [hs] at this; simpa using this
    have hcn : dom.coords.get? d = none := by
      cases hcc : dom.coords.get? d with
      | none => rfl
      | some c => have := h1.coord_len _ _ hcc; rw [hnone] at this; simp at this
    have : dom.labels d = [] := by unfold DS.labels; rw [hcn, hnone]; rfl
    rw [this]; exact List.nodup_nil
  obtain ⟨n, hn⟩ := Option.isSome_iff_exists.1 hs
  rw [List.nodup_iff_injective_getElem]
  intro ⟨i, hi⟩ ⟨j, hj⟩ e
  simp only at e
  have ei := h3 d i hs hi
  have ej := h3 d j hs hj
  rw [List.getElem?_eq_getElem hi] at ei
  rw [List.getElem?_eq_getElem hj] at ej
  rw [e, ej] at ei
  have hin := (List.getElem?_eq_some_iff.1 ej.symm).1
  have hij := (List.getElem?_inj hin (hw d)).1 ei
  have hszd := h4 d
  rw [hn] at hszd
  unfold inWhole at hij
  rw [hn] at hij
  cases hc : Dict.get? chunk d with
  | none => rw [hc] at hij; simpa using hij.symm
  | some s =>
    rw [hc] at hij hszd
    simp only at hij hszd
    have hl := h1.labels_length hszd
    have hnd : (Run.sliceIdx s n).Nodup := List.nodup_range.filter _
    have hij' : (Run.sliceIdx s n)[j]'(by omega) = (Run.sliceIdx s n)[i]'(by omega) := by
      simpa [List.getD, List.getElem?_eq_getElem (show j < (Run.sliceIdx s n).length by omega),
        List.getElem?_eq_getElem (show i < (Run.sliceIdx s n).length by omega)] using hij
    replace hij := hij'
    exact Fin.ext ((List.Nodup.getElem_inj_iff hnd).1 hij).symm

/-- **C86**: elevation, latitude and longitude of a chunk's cell are those the domain has for the cell. -/
theorem C86_place (hg : g.Proper) (hc : g.Countable whole) (h : Loaded g .netcdf mdims whole chunk dom met)
    (hw : whole.Distinct) {name : String} (hname : name = "elev" ∨ name = "lat" ∨ name = "lon")
    (hcase : (∃ a, whole.vars.get? name = some a ∧ ∀ d ∈ a.dims, d ∈ mdims) ∨
      whole.vars.get? name = none ∧ name ∈ mdims ∧ (met.sizes.get? name).isSome ∧ met.vars.get? name = none)
    {l : Run.Cell} (hl : l ∈ Run.localCells (Run.axes (maskDims whole mdims) chunk)) :
    met.scalar mdims l name =
      whole.scalar mdims (Run.globalOf (Run.axes (maskDims whole mdims) chunk) l) name := by
  obtain ⟨r, m1, m2, hr, a1, a2, a3, l1, l2, hlab, hsz, hvars⟩ := h.parts
  obtain ⟨d₀, ps, hd₀, -, hps, htime, hrw, hdom, -⟩ := h.read hg hc hr
  obtain ⟨w, -, -⟩ := whole_ok hg.domFile hg.domNames h.readsWhole
  obtain ⟨h1, h2, h2', h3, h4, h5⟩ := h.isel hg
  have hdist := h.distinct hg hw
  obtain ⟨s1, c1, v1⟩ := assignFrom_ok a1
  obtain ⟨s2, c2, v2⟩ := assignFrom_ok a2
  obtain ⟨s3, c3, v3⟩ := assignFrom_ok a3
  rcases hcase with ⟨a, ha, had⟩ | ⟨hnone, hm, hms, hmv⟩
  · have hda : dom.vars.get? name = some ⟨a.dims, fun ix => a.val (inWhole whole chunk ix)⟩ := by rw [h5, ha]; rfl
    have hrl : ∀ d ∈ a.dims, (r.sizes.get? d).isSome → r.labels d = dom.labels d := fun d hd hs =>
      hdom d hs (by rw [h2]; exact h.mask d (had d hd))
    have key : ∃ a', met.vars.get? name = some a' ∧ ∀ ix : Index, (∀ d ∈ a.dims, ix d < (dom.labels d).length) →
        a'.val ix = a.val (inWhole whole chunk ix) := by
      rcases hname with rfl | rfl | rfl
      · obtain ⟨a', e1, e2⟩ := assignFrom_val h1 hdist a1 hda hrl
        exact ⟨a', by rw [v3 _ (by decide), v2 _ (by decide)]; exact e1, e2⟩
      · obtain ⟨a', e1, e2⟩ := assignFrom_val h1 hdist a2 hda
          (fun d hd hs => by rw [l1]; exact hrl d hd (by rw [← s1]; exact hs))
        exact ⟨a', by rw [v3 _ (by decide)]; exact e1, e2⟩
      · obtain ⟨a', e1, e2⟩ := assignFrom_val h1 hdist a3 hda
          (fun d hd hs => by rw [l2]; exact hrl d hd (by rw [← s1, ← s2]; exact hs))
        exact ⟨a', e1, e2⟩
    obtain ⟨a', e1, e2⟩ := key
    unfold DS.scalar
    rw [e1, ha]
    simp only
    rw [e2 _ fun d hd => ?_]
    · congr 1
      exact w.own name a ha _ _ fun d hd => (local_cell whole chunk h.axes h.mask hl (had d hd)).1
    · exact (List.getElem?_eq_some_iff.1 (h.label hg hl (had d hd))).1
  · unfold DS.scalar
    rw [hmv, hnone]
    simp only
    have hrs : (r.sizes.get? name).isSome := by rw [← hsz]; exact hms
    have e : met.labels name = dom.labels name := by
      rw [hlab]; exact hdom name hrs (by rw [h2]; exact h.mask name hm)
    rw [e, h.label hg hl hm]
    have hlw : (whole.labels name)[cellIndex mdims (Run.globalOf (Run.axes (maskDims whole mdims) chunk) l) name]? =
        some (cellLabel whole mdims (Run.globalOf (Run.axes (maskDims whole mdims) chunk) l) name) := by
      have e1 := h3 name (cellIndex mdims l name) (h.mask name hm)
        (List.getElem?_eq_some_iff.1 (h.label hg hl hm)).1
      rw [h.label hg hl hm] at e1
      have e2 : inWhole whole chunk (fun _ => cellIndex mdims l name) name =
        inWhole whole chunk (cellIndex mdims l) name := rfl
      rw [e2, (local_cell whole chunk h.axes h.mask hl hm).1] at e1
      exact e1.symm
    rw [hlw]

omit [RatCast K] in
/-- A file without repeated labels says one thing. -/
theorem says_unique {ds : DS K} (hw : ds.Wf) (hd : ds.Distinct) {v : String} {lab lab' : String → ℚ} {x y : Flt K}
    (hx : ds.Says v lab x) (hy : ds.Says v lab' y)
    (he : ∀ a, ds.vars.get? v = some a → ∀ d ∈ a.dims, lab d = lab' d) : x = y := by
  obtain ⟨a, ix, ha, hl, rfl⟩ := hx
  obtain ⟨a', ix', ha', hl', rfl⟩ := hy
  rw [ha] at ha'
  obtain rfl := Option.some.inj ha'
  refine hw.own v a ha _ _ fun d hda => ?_
  have h1 := hl d hda
  have h2 := hl' d hda
  rw [← he a ha d hda] at h2
  exact (List.getElem?_inj (List.getElem?_eq_some_iff.1 h1).1 (hd d)).1 (h1.trans h2.symm)

omit [RatCast K] in
theorem find_total {ds : DS K} {d : String} {c labels : List ℚ} (hc : ds.coords.get? d = some c) (hn : c.Nodup)
    (hl : ∀ x ∈ labels, x ∈ c) : ∃ ps, ds.find d labels = .ok ps := by
  unfold DS.find
  rw [hc]
  simp only [hn, if_true]
  exact mapM_total fun x hx => ⟨_, if_pos (hl x hx)⟩

omit [RatCast K] in
theorem selAll_total {dom : DS K} : ∀ (ds : List String) {s : DS K}, ds.Nodup →
    (∀ d ∈ ds, ∃ c, s.coords.get? d = some c ∧ c.Nodup ∧ ∀ x ∈ dom.labels d, x ∈ c) →
    ∃ r, ds.foldlM (fun s d => s.selLabels d (dom.labels d)) s = .ok r
  | [], s, _, _ => ⟨s, rfl⟩
  | d :: ds, s, hn, h => by
    obtain ⟨c, hc, hcn, hl⟩ := h d List.mem_cons_self
    obtain ⟨ps, hps⟩ := find_total hc hcn hl
    rw [List.nodup_cons] at hn
    have hsel : s.selLabels d (dom.labels d) =
        .ok { s.isel d ps with coords := (s.isel d ps).coords.set d (dom.labels d) } := by
      unfold DS.selLabels; rw [hps]; rfl
    obtain ⟨r, hr⟩ := selAll_total ds (s := { s.isel d ps with coords := (s.isel d ps).coords.set d (dom.labels d) }) hn.2
      fun k hk => by
        obtain ⟨c', h1, h2, h3⟩ := h k (List.mem_cons_of_mem _ hk)
        have hne : k ≠ d := fun e => hn.1 (e ▸ hk)
        exact ⟨c', by rw [selLabels_coords_ne hsel hne]; exact h1, h2, h3⟩
    refine ⟨r, ?_⟩
    rw [List.foldlM_cons, bind_ok]
    exact ⟨_, hsel, hr⟩

omit [RatCast K] in
theorem iselAll_total : ∀ (chunk : Dict String Chunk.Slice) {whole : DS K},
    (∀ q ∈ chunk, (whole.sizes.get? q.1).isSome) →
    ∃ dom, chunk.foldlM (fun (dom : DS K) q => match dom.sizes.get? q.1 with
      | some n => (.ok (dom.isel q.1 (Run.sliceIdx q.2 n)) : Except PyErr (DS K))
      | none => .error .valueError) whole = .ok dom
  | [], whole, _ => ⟨whole, rfl⟩
  | q :: chunk, whole, h => by
    obtain ⟨n, hn⟩ := Option.isSome_iff_exists.1 (h q List.mem_cons_self)
    obtain ⟨dom, hd⟩ := iselAll_total chunk (whole := whole.isel q.1 (Run.sliceIdx q.2 n)) fun p hp => by
      rw [isel_sizes]
      have := h p (List.mem_cons_of_mem _ hp)
      cases hh : whole.sizes.get? p.1 with
      | none => rw [hh] at this; simp at this
      | some m => rfl
    refine ⟨dom, ?_⟩
    rw [List.foldlM_cons, bind_ok]
    exact ⟨_, by rw [hn], hd⟩

/-- Files fit for a run: the forcing file has the variables it is asked for; no two things in it get one name; on every
dimension it shares with the domain it has all of the domain's labels, each once; its days are in order; the domain has
elevation, latitude and longitude. -/
structure Gridded.Complete (g : Gridded K) (whole : DS K) : Prop where
  vars : ∀ u ∈ g.names.map Prod.fst, (g.forcing.vars.get? u).isSome
  apart : ∀ u ∈ g.names.map Prod.fst, g.forcing.sizes.get? u = none
  fresh : ∀ m m', (m ∈ g.names.map Prod.fst ∨ (g.forcing.sizes.get? m).isSome) →
    (m' ∈ g.names.map Prod.fst ∨ (g.forcing.sizes.get? m').isSome) → newName g.names m = newName g.names m' → m = m'
  covers : ∀ d, (g.forcing.sizes.get? d).isSome → (whole.sizes.get? (newName g.names d)).isSome →
    ∃ c, g.forcing.coords.get? d = some c ∧ c.Nodup ∧ ∀ x ∈ whole.labels (newName g.names d), x ∈ c
  clock : ∃ u b d c, u ∈ g.names.map Prod.fst ∧ g.forcing.vars.get? u = some b ∧ d ∈ b.dims ∧
    newName g.names d = "time" ∧ g.forcing.coords.get? d = some c ∧ (c.map fileDay).Pairwise (· ≤ ·)
  place : ∀ n ∈ ["elev", "lat", "lon"], (whole.vars.get? n).isSome ∨ (whole.sizes.get? n).isSome

omit [RatCast K] in
theorem Gridded.Complete.countable (hw : whole.Wf) (h : g.Complete whole) : g.Countable whole := by
  intro d hd hc x hx
  by_cases hs : (whole.sizes.get? (newName g.names d)).isSome
  · obtain ⟨c, hc', -⟩ := h.covers d hd hs
    rw [hc] at hc'; simp at hc'
  · have hnone : whole.sizes.get? (newName g.names d) = none := by simpa using hs
    have hcn : whole.coords.get? (newName g.names d) = none := by
      cases hcc : whole.coords.get? (newName g.names d) with
      | none => rfl
      | some c => have := hw.coord_len _ _ hcc; rw [hnone] at this; simp at this
    have : whole.labels (newName g.names d) = [] := by unfold DS.labels; rw [hcn, hnone]; rfl
    rw [this] at hx; simp at hx

omit [RatCast K] in
theorem assignFrom_total {ds dom : DS K} {n : String} (h : (dom.vars.get? n).isSome ∨ (dom.sizes.get? n).isSome) :
    ∃ r, ds.assignFrom dom n = .ok r := by
  unfold DS.assignFrom
  cases hv : dom.vars.get? n with
  | some a => exact ⟨_, rfl⟩
  | none =>
    rw [hv] at h
    simp only [Option.isSome_none, Bool.false_eq_true, false_or] at h
    simp [h]

/-- **C86**: complete files can be read, for every chunk. -/
theorem C86_reads (hg : g.Proper) (hcomp : g.Complete whole)
    (hwhole : readDomain g.domFile (some g.domNames) [] = .ok whole) (hm : mdims.Nodup)
    (hmask : ∀ d ∈ mdims, (whole.sizes.get? d).isSome) (ht : whole.sizes.get? "time" = none)
    (hck : (chunk.map Prod.fst).Nodup) (hkeys : ∀ q ∈ chunk, (whole.sizes.get? q.1).isSome) :
    ∃ dom met, Loaded g .netcdf mdims whole chunk dom met := by
  obtain ⟨w, wc, -⟩ := whole_ok hg.domFile hg.domNames hwhole
  -- the domain
  obtain ⟨dom, hdom⟩ := iselAll_total chunk hkeys
  have hread : readDomain g.domFile (some g.domNames) chunk = .ok dom := by
    unfold readDomain at hwhole ⊢
    rw [bind_ok] at hwhole ⊢
    obtain ⟨w', h1, h2⟩ := hwhole
    rw [List.foldlM_nil, pure_ok] at h2
    subst h2
    exact ⟨_, h1, hdom⟩
  obtain ⟨d1, d2, d2', d3, d4, d5⟩ := iselAll_ok chunk w wc hck hdom
  -- the forcing file
  have hsub : ∃ ds0, g.forcing.subset (g.names.map Prod.fst) = .ok ds0 := by
    unfold DS.subset
    have : ((g.names.map Prod.fst).all fun n => (g.forcing.vars.get? n).isSome || (g.forcing.sizes.get? n).isSome) = true := by
      rw [List.all_eq_true]
      intro u hu
      simp [hcomp.vars u hu]
    rw [if_pos this]
    exact ⟨_, rfl⟩
  obtain ⟨ds0, h0⟩ := hsub
  obtain ⟨w0, v0, l0, s0⟩ := subset_ok hg.forcing hg.names h0
  have hv0 : ∀ u, (ds0.vars.get? u).isSome ↔ u ∈ g.names.map Prod.fst := by
    intro u
    rw [v0]
    constructor
    · intro h
      by_contra hne
      rw [if_neg hne] at h; simp at h
    · intro h
      rw [if_pos h]; exact hcomp.vars u h
  have hz0 : ∀ d, (ds0.sizes.get? d).isSome → (g.forcing.sizes.get? d).isSome := fun d hd => by
    rw [← (l0 d hd).1]; exact hd
  have hren : ∃ ds1, ds0.rename g.names = .ok ds1 := by
    unfold DS.rename
    have h1 : (g.names.all fun q => (ds0.vars.get? q.1).isSome || (ds0.sizes.get? q.1).isSome) = true := by
      rw [List.all_eq_true]
      intro q hq
      simp [(hv0 q.1).2 (List.mem_map.2 ⟨q, hq, rfl⟩)]
    have h2 : ((ds0.vars.map fun q => newName g.names q.1) ++ ds0.sizes.map fun q => newName g.names q.1).Nodup := by
      have e : ((ds0.vars.map fun q => newName g.names q.1) ++ ds0.sizes.map fun q => newName g.names q.1) =
          (ds0.vars.map Prod.fst ++ ds0.sizes.map Prod.fst).map (newName g.names) := by
        simp [List.map_append, List.map_map, Function.comp_def]
      rw [e]
      have hk : ∀ m ∈ ds0.vars.map Prod.fst ++ ds0.sizes.map Prod.fst,
          m ∈ g.names.map Prod.fst ∨ (g.forcing.sizes.get? m).isSome := by
        intro m hm
        rcases List.mem_append.1 hm with h | h
        · exact .inl ((hv0 m).1 ((Dict.isSome_iff _ _).2 h))
        · exact .inr (hz0 m ((Dict.isSome_iff _ _).2 h))
      refine List.Nodup.map_on (fun m hm m' hm' e => hcomp.fresh m m' (hk m hm) (hk m' hm') e) ?_
      rw [List.nodup_append]
      refine ⟨w0.vars_nodup, w0.sizes_nodup, fun a ha b hb e => ?_⟩
      subst e
      have h1 := (hv0 a).1 ((Dict.isSome_iff _ _).2 ha)
      have h2 := hz0 a ((Dict.isSome_iff _ _).2 hb)
      rw [hcomp.apart a h1] at h2
      simp at h2
    rw [if_pos (by rw [h1, decide_eq_true h2]; rfl)]
    exact ⟨_, rfl⟩
  obtain ⟨ds1, h1⟩ := hren
  obtain ⟨w1, l1, z1, v1, s1⟩ := rename_ok w0 h1
  -- the domain's labels
  have hnd : ((dom.sizes.map Prod.fst).filter fun d => (ds1.sizes.get? d).isSome).Nodup := d1.sizes_nodup.filter _
  obtain ⟨ds2, h2⟩ := selAll_total (dom := dom) ((dom.sizes.map Prod.fst).filter fun d => (ds1.sizes.get? d).isSome)
    (s := ds1) hnd fun d hd => by
      obtain ⟨hdd, hd1⟩ := List.mem_filter.1 hd
      obtain ⟨k, hk, rfl⟩ := z1 d hd1
      have hwd : (whole.sizes.get? (newName g.names k)).isSome := by
        rw [← d2]; exact (Dict.isSome_iff _ _).2 hdd
      obtain ⟨c, hc, hcn, hl⟩ := hcomp.covers k (hz0 k hk) hwd
      have hck0 : ds0.coords.get? k = some c := by
        cases hh : ds0.coords.get? k with
        | none => have := (l0 k hk).2.2 hh; rw [hc] at this; simp at this
        | some c' =>
          have e1 := (l0 k hk).2.1
          rw [DS.labels_some hh, DS.labels_some hc] at e1
          rw [e1]
      refine ⟨c, by rw [(l1 k hk).2.2]; exact hck0, hcn, fun x hx => hl x ?_⟩
      obtain ⟨i, hi, rfl⟩ := List.getElem_of_mem hx
      have h6 := d3 _ i hwd hi
      rw [List.getElem?_eq_getElem hi] at h6
      exact List.mem_of_getElem? h6.symm
  have htd : "time" ∉ (dom.sizes.map Prod.fst).filter fun d => (ds1.sizes.get? d).isSome := by
    intro hm
    have := (Dict.isSome_iff _ _).2 (List.mem_filter.1 hm).1
    rw [d2, ht] at this
    simp at this
  have c2 : ds2.coords.get? "time" = ds1.coords.get? "time" := by
    clear hdom
    have : ∀ (l : List String) (s r : DS K), "time" ∉ l →
        l.foldlM (fun s d => s.selLabels d (dom.labels d)) s = .ok r → r.coords.get? "time" = s.coords.get? "time" := by
      intro l
      induction l with
      | nil => intro s r _ h; rw [List.foldlM_nil, pure_ok] at h; rw [h]
      | cons d l ih =>
        intro s r hn h
        rw [List.foldlM_cons, bind_ok] at h
        obtain ⟨m, h3, h4⟩ := h
        rw [List.mem_cons, not_or] at hn
        rw [ih m r hn.2 h4, selLabels_coords_ne h3 hn.1]
    exact this _ _ _ htd h2
  -- the period
  obtain ⟨u, b, d, c, hu, hb, hdb, hdt, hdc, hsort⟩ := hcomp.clock
  have hd0 : (ds0.sizes.get? d).isSome := by
    refine w0.var_dims u b ?_ d hdb
    rw [v0, if_pos hu]; exact hb
  have htc : ds1.coords.get? "time" = some c := by
    rw [← hdt, (l1 d hd0).2.2]
    cases hh : ds0.coords.get? d with
    | none => have := (l0 d hd0).2.2 hh; rw [hdc] at this; simp at this
    | some c' =>
      have e1 := (l0 d hd0).2.1
      rw [DS.labels_some hh, DS.labels_some hdc] at e1
      rw [e1]
  have h3 : ∃ r, ds2.wholeDays.selPeriod (some g.start) (some g.stop) = .ok r := by
    unfold DS.selPeriod
    rw [wholeDays_coords, c2, htc]
    simp only [Option.map_some, if_true]
    obtain ⟨ps, hps, -⟩ := between_sorted hsort g.start g.stop
    have hps' : between (c.map fun t => ((normaliseDay (86400 * t) : Int) : ℚ)) (some g.start) (some g.stop) = .ok ps := hps
    rw [hps']
    exact ⟨_, rfl⟩
  obtain ⟨r, h3⟩ := h3
  have hrd : readNetcdf g.forcing (some dom) (.ok (some g.start)) (.ok (some g.stop)) (some g.names) = .ok r := by
    unfold readNetcdf
    simp only [bind_ok]
    exact ⟨ds0, h0, ds1, h1, ds2, h2, _, rfl, _, rfl, h3⟩
  -- elevation and position
  have hpl : ∀ n ∈ ["elev", "lat", "lon"], (dom.vars.get? n).isSome ∨ (dom.sizes.get? n).isSome := by
    intro n hn
    rcases hcomp.place n hn with h | h
    · left
      rw [d5]
      cases hh : whole.vars.get? n with
      | none => rw [hh] at h; simp at h
      | some a => rfl
    · right; rw [d2]; exact h
  obtain ⟨m1, a1⟩ := assignFrom_total (ds := r) (hpl "elev" (by simp))
  obtain ⟨m2, a2⟩ := assignFrom_total (ds := m1) (hpl "lat" (by simp))
  obtain ⟨met, a3⟩ := assignFrom_total (ds := m2) (hpl "lon" (by simp))
  refine ⟨dom, met, hwhole, hread, ?_, hck, ht, hm, hmask⟩
  unfold metData
  simp only [bind_ok]
  exact ⟨r, hrd, m1, a1, m2, a2, a3⟩

end

/-- **C86**: a cell has the same series in whatever chunk it is computed. -/
theorem C86_chunks [RatCast K] {g : Gridded K} {mdims : List String} {whole dom met dom' met' : DS K}
    {chunk chunk' : Dict String Chunk.Slice} (hg : g.Proper) (hc : g.Countable whole)
    (h : Loaded g .netcdf mdims whole chunk dom met) (h' : Loaded g .netcdf mdims whole chunk' dom' met')
    (hd : g.forcing.Distinct)
    (hs : ∀ d, newName g.names d = "time" → ((g.forcing.labels d).map fileDay).Pairwise (· < ·))
    (ht : ∀ d d', newName g.names d = "time" → newName g.names d' = "time" → d = d')
    {v : String} (hv : v ≠ "day_of_year" ∧ v ≠ "elev" ∧ v ≠ "lat" ∧ v ≠ "lon")
    (hone : ∀ u u', g.names.get? u = some v → g.names.get? u' = some v → u = u')
    (hshape : ∀ u b, g.names.get? u = some v → g.forcing.vars.get? u = some b →
      (∃ d ∈ b.dims, newName g.names d = "time") ∧ ∀ d ∈ b.dims, newName g.names d = "time" ∨ newName g.names d ∈ mdims)
    {l l' : Run.Cell} (hl : l ∈ Run.localCells (Run.axes (maskDims whole mdims) chunk))
    (hl' : l' ∈ Run.localCells (Run.axes (maskDims whole mdims) chunk'))
    (hsame : Run.globalOf (Run.axes (maskDims whole mdims) chunk) l =
      Run.globalOf (Run.axes (maskDims whole mdims) chunk') l')
    {col col' : List (Flt K)} (hcol : met.series mdims l v = .ok col) (hcol' : met'.series mdims l' v = .ok col') :
    met.labels "time" = met'.labels "time" ∧ col = col' := by
  have hsw : ∀ d, newName g.names d = "time" → ((g.forcing.labels d).map fileDay).Pairwise (· ≤ ·) :=
    fun d e => (hs d e).imp le_of_lt
  obtain ⟨d₀, e₀, hdays⟩ := C86_days hg hc h hsw
  obtain ⟨d₁, e₁, hdays'⟩ := C86_days hg hc h' hsw
  obtain rfl := ht d₀ d₁ e₀ e₁
  have hdd : met.labels "time" = met'.labels "time" := by rw [hdays, hdays']
  refine ⟨hdd, ?_⟩
  obtain ⟨n1, s1⟩ := C86_series hg hc h hv hshape hl hcol
  obtain ⟨n2, s2⟩ := C86_series hg hc h' hv hshape hl' hcol'
  apply List.ext_getElem?
  intro t
  by_cases htl : t < (met.labels "time").length
  swap
  · rw [List.getElem?_eq_none (by omega), List.getElem?_eq_none (by rw [n2, ← hdd]; omega)]
  have hlt1 : t < col.length := by omega
  have hlt2 : t < col'.length := by rw [n2, ← hdd]; exact htl
  rw [List.getElem?_eq_getElem hlt1, List.getElem?_eq_getElem hlt2]
  congr 1
  obtain ⟨u, raw, hu, hraw, hsay⟩ := s1 t _ _ (List.getElem?_eq_getElem hlt1) (List.getElem?_eq_getElem htl)
  obtain ⟨u', raw', hu', hraw', hsay'⟩ := s2 t _ ((met.labels "time")[t]) (List.getElem?_eq_getElem hlt2)
    (by rw [← hdd]; exact List.getElem?_eq_getElem htl)
  obtain rfl := hone u u' hu hu'
  rw [← hsame] at hsay'
  refine says_unique hg.forcing hd hsay hsay' fun b hb d hdb => ?_
  by_cases e : newName g.names d = "time"
  · simp only [e, if_true]
    -- both stamps are labels of the time dimension, and fall on the same day
    have hmem : ∀ {raw : ℚ} {x : Flt K} {lab : String → ℚ}, g.forcing.Says u lab x → lab d = raw →
        raw ∈ g.forcing.labels d := by
      rintro raw x lab ⟨b', ix, hb', hlb, -⟩ rfl
      rw [hb] at hb'
      obtain rfl := Option.some.inj hb'
      exact List.mem_of_getElem? (hlb d hdb)
    have m1 := hmem (raw := raw) hsay (by simp [e])
    have m2 := hmem (raw := raw') hsay' (by simp [e])
    have hinj := List.inj_on_of_nodup_map ((hs d e).imp ne_of_lt)
    exact hinj m1 m2 (hraw.trans hraw'.symm)
  · simp only [e, if_false]

/-! ### A domain of two rows, its forcing stored in another order and on a larger area -/

namespace ReadingExample

/-- The domain file: two rows, three columns. -/
def domFile : DS ℚ where
  sizes := [("lat", 2), ("lon", 3)]
  coords := [("lat", [45, 44]), ("lon", [-120, -119, -118])]
  vars := [("mask", ⟨["lat", "lon"], fun _ => .fin 1⟩),
    ("height", ⟨["lat", "lon"], fun ix => .fin ((100 * (ix "lat") + 10 * (ix "lon") : Nat) : ℚ)⟩)]

/-- The forcing file: three rows from south to north, four columns from east to west, stamps at noon. -/
def forcing : DS ℚ where
  sizes := [("time", 3), ("y", 3), ("x", 4)]
  coords := [("time", [1/2, 3/2, 5/2]), ("y", [43, 44, 45]), ("x", [-117, -118, -119, -120])]
  vars := [("Prec", ⟨["time", "y", "x"], fun ix => .fin ((100 * (ix "time") + 10 * (ix "y") + ix "x" : Nat) : ℚ)⟩)]

/-- The forcing file's dimensions carry the domain's names. -/
def forcing' : DS ℚ where
  sizes := [("time", 3), ("lat", 3), ("lon", 4)]
  coords := [("time", [1/2, 3/2, 5/2]), ("lat", [43, 44, 45]), ("lon", [-117, -118, -119, -120])]
  vars := [("Prec", ⟨["time", "lat", "lon"], fun ix => .fin ((100 * (ix "time") + 10 * (ix "lat") + ix "lon" : Nat) : ℚ)⟩)]

def domNames : Dict String String := [("mask", "mask"), ("height", "elev"), ("lat", "lat"), ("lon", "lon")]

/-- What a chunk sees of a cell. -/
def sees (fmt : Format) (f : DS ℚ) (names : Dict String String) (chunk : Dict String Chunk.Slice) (l : Run.Cell) :
    Except PyErr (List ℚ × List (Flt ℚ) × Flt ℚ × Flt ℚ) := do
  let dom ← readDomain domFile (some domNames) chunk
  let met ← metData fmt f dom (.ok (some 1)) (.ok (some 2)) (some names)
  let col ← met.series ["lat", "lon"] l "prec"
  let elev ← met.scalar ["lat", "lon"] l "elev"
  let lat ← met.scalar ["lat", "lon"] l "lat"
  pure (met.labels "time", col, elev, lat)

/-- In the second row's own chunk, the last column: row 44, column -118 of the forcing. -/
example : sees .netcdf forcing' [("Prec", "prec")] [("lat", some (1, 2)), ("lon", some (1, 4))] [0, 1] =
    .ok ([1, 2], [.fin 111, .fin 211], .fin 120, .fin 44) := by decide +kernel

/-- The same cell without chunks. -/
example : sees .netcdf forcing' [("Prec", "prec")] [] [1, 2] =
    .ok ([1, 2], [.fin 111, .fin 211], .fin 120, .fin 44) := by decide +kernel

/-- Dimensions named otherwise can be named in the variable map … -/
example : sees .netcdf forcing [("Prec", "prec"), ("y", "lat"), ("x", "lon"), ("time", "time")] [] [0, 0] =
    .ok ([1, 2], [.fin 123, .fin 223], .fin 0, .fin 45) := by decide +kernel

/-- … and a domain that extends beyond the forcing is refused. -/
example : sees .netcdf { forcing' with coords := [("time", [1/2, 3/2, 5/2]), ("lat", [43, 44, 46]),
      ("lon", [-117, -118, -119, -120])] } [("Prec", "prec")] [] [0, 0] = .error .keyError := by decide +kernel

end ReadingExample

end Verif.Props
