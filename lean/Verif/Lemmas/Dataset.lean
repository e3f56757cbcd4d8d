import Verif.Spec.Labels
import Verif.Lemmas.Except

/-!
# Labelled data sets: what the reading steps keep
-/

namespace Verif

namespace Dict

variable {κ α β : Type} [DecidableEq κ]

theorem get?_mapVal (d : Dict κ α) (f : κ → α → β) (k : κ) :
    get? (d.map fun q => (q.1, f q.1 q.2)) k = (get? d k).map (f k) := by
  induction d with
  | nil => rfl
  | cons p d ih =>
    rw [List.map_cons, get?_cons, get?_cons, ih]
    by_cases h : p.1 = k
    · subst h; simp
    · simp [h]

theorem get?_filter (d : Dict κ α) (p : κ → Bool) (k : κ) :
    get? (d.filter fun q => p q.1) k = if p k then get? d k else none := by
  induction d with
  | nil => simp
  | cons q d ih =>
    rw [List.filter_cons]
    by_cases hq : p q.1
    · rw [if_pos hq, get?_cons, get?_cons, ih]
      by_cases h : q.1 = k
      · subst h; simp [hq]
      · simp [h]
    · rw [if_neg hq, ih, get?_cons]
      by_cases h : q.1 = k
      · subst h; simp [hq]
      · simp [h]

theorem get?_append (d e : Dict κ α) (k : κ) :
    get? (d ++ e) k = match get? d k with | some v => some v | none => get? e k := by
  induction d with
  | nil => rfl
  | cons q d ih =>
    rw [List.cons_append, get?_cons, get?_cons, ih]
    by_cases h : q.1 = k <;> simp [h]

theorem get?_filterMap_keys (ks : List κ) (f : κ → Option α) (k : κ) :
    get? (ks.filterMap fun x => (f x).map fun a => (x, a)) k = if k ∈ ks then f k else none := by
  induction ks with
  | nil => rfl
  | cons x ks ih =>
    rw [List.filterMap_cons]
    cases hx : f x with
    | none =>
      simp only [Option.map_none]
      rw [ih]
      by_cases h : x = k
      · subst h; simp [hx]
      · simp [Ne.symm h]
    | some a =>
      simp only [Option.map_some]
      rw [get?_cons, ih]
      by_cases h : x = k
      · subst h; simp [hx]
      · simp [h, Ne.symm h]

theorem mem_keys_of_get? (d : Dict κ α) {k : κ} {v : α} (h : get? d k = some v) : k ∈ d.map Prod.fst :=
  List.mem_map.2 ⟨(k, v), mem_of_get? d h, rfl⟩

theorem isSome_iff (d : Dict κ α) (k : κ) : (get? d k).isSome ↔ k ∈ d.map Prod.fst := by
  have := get?_eq_none_iff d k
  unfold keys at this
  cases h : get? d k with
  | none => simp [this.1 h]
  | some v => simpa using mem_keys_of_get? d h

/-- Keys renamed without collision: look-ups go along. -/
theorem get?_mapKey {κ' : Type} [DecidableEq κ'] (d : Dict κ α) (f : κ → κ') (g : α → β)
    (hn : (d.map fun q => f q.1).Nodup) {k : κ} {v : α} (h : get? d k = some v) :
    get? (d.map fun q => (f q.1, g q.2)) (f k) = some (g v) := by
  refine get?_of_mem _ ?_ (List.mem_map.2 ⟨(k, v), mem_of_get? d h, rfl⟩)
  have : keys (d.map fun q => (f q.1, g q.2)) = d.map fun q => f q.1 := by simp [keys]
  rw [this]; exact hn

theorem of_get?_mapKey {κ' : Type} [DecidableEq κ'] (d : Dict κ α) (f : κ → κ') (g : α → β)
    (hn : (d.map Prod.fst).Nodup) {k' : κ'} {w : β}
    (h : get? (d.map fun q => (f q.1, g q.2)) k' = some w) :
    ∃ k v, get? d k = some v ∧ f k = k' ∧ g v = w := by
  have := mem_of_get? _ h
  rw [List.mem_map] at this
  obtain ⟨⟨k, v⟩, hm, he⟩ := this
  simp only [Prod.mk.injEq] at he
  exact ⟨k, v, get?_of_mem d (by simpa [keys] using hn) hm, he.1, he.2⟩

end Dict

namespace Dataset

open Forcing

variable {K : Type}

theorem DS.Wf.labels_length {ds : DS K} (h : ds.Wf) {d : String} {n : Nat} (hd : ds.sizes.get? d = some n) :
    (ds.labels d).length = n := by
  unfold DS.labels
  cases hc : ds.coords.get? d with
  | none => simp [hd]
  | some c =>
    have := h.coord_len d c hc
    rw [hd] at this
    exact (Option.some.inj this).symm

theorem DS.labels_some {ds : DS K} {d : String} {c : List ℚ} (h : ds.coords.get? d = some c) : ds.labels d = c := by
  unfold DS.labels; rw [h]

/-! ### `isel` -/

theorem isel_sizes (ds : DS K) (d : String) (ps : List Nat) (k : String) :
    (ds.isel d ps).sizes.get? k = (ds.sizes.get? k).map fun n => if k = d then ps.length else n :=
  Dict.get?_mapVal ds.sizes (fun k n => if k = d then ps.length else n) k

theorem isel_coords (ds : DS K) (d : String) (ps : List Nat) (k : String) :
    (ds.isel d ps).coords.get? k = (ds.coords.get? k).map fun c => if k = d then ps.map (c.getD · 0) else c :=
  Dict.get?_mapVal ds.coords (fun k c => if k = d then ps.map (c.getD · 0) else c) k

theorem isel_vars (ds : DS K) (d : String) (ps : List Nat) (v : String) :
    (ds.isel d ps).vars.get? v = (ds.vars.get? v).map fun a => a.take d ps :=
  Dict.get?_mapVal ds.vars (fun _ a => a.take d ps) v

theorem isel_labels_ne (ds : DS K) {d k : String} (ps : List Nat) (h : k ≠ d) :
    (ds.isel d ps).labels k = ds.labels k := by
  unfold DS.labels
  rw [isel_coords, isel_sizes]
  simp only [h, if_false]
  cases ds.coords.get? k <;> cases ds.sizes.get? k <;> simp

theorem isel_labels_self (ds : DS K) {d : String} (ps : List Nat) {c : List ℚ} (h : ds.coords.get? d = some c) :
    (ds.isel d ps).labels d = ps.map (c.getD · 0) := by
  apply DS.labels_some
  rw [isel_coords, h]; simp

theorem isel_wf {ds : DS K} (h : ds.Wf) (d : String) (ps : List Nat) : (ds.isel d ps).Wf where
  sizes_nodup := by
    have : (ds.isel d ps).sizes.map Prod.fst = ds.sizes.map Prod.fst := by simp [DS.isel]
    rw [this]; exact h.sizes_nodup
  coords_nodup := by
    have : (ds.isel d ps).coords.map Prod.fst = ds.coords.map Prod.fst := by simp [DS.isel]
    rw [this]; exact h.coords_nodup
  vars_nodup := by
    have : (ds.isel d ps).vars.map Prod.fst = ds.vars.map Prod.fst := by simp [DS.isel]
    rw [this]; exact h.vars_nodup
  coord_len := fun k c hc => by
    rw [isel_coords] at hc
    rw [isel_sizes]
    cases hk : ds.coords.get? k with
    | none => simp [hk] at hc
    | some c' =>
      rw [hk] at hc
      rw [h.coord_len k c' hk]
      simp only [Option.map_some, Option.some.injEq] at hc ⊢
      by_cases e : k = d
      · simp only [e, if_true] at hc ⊢; rw [← hc]; simp
      · simp only [e, if_false] at hc ⊢; rw [hc]
  var_dims := fun v a ha d' hd' => by
    rw [isel_vars] at ha
    cases hv : ds.vars.get? v with
    | none => simp [hv] at ha
    | some b =>
      rw [hv] at ha
      simp only [Option.map_some, Option.some.injEq] at ha
      subst ha
      rw [isel_sizes]
      simpa using h.var_dims v b hv d' hd'
  own := fun v a ha ix ix' he => by
    rw [isel_vars] at ha
    cases hv : ds.vars.get? v with
    | none => simp [hv] at ha
    | some b =>
      rw [hv] at ha
      simp only [Option.map_some, Option.some.injEq] at ha
      subst ha
      refine h.own v b hv _ _ fun k hk => ?_
      simp only [Index.set]
      by_cases e : k = d
      · subst e
        have := he k hk
        simp only [if_true, this]
      · simp only [e, if_false]; exact he k hk

theorem isel_says {ds : DS K} {d : String} {ps : List Nat} {c : List ℚ} (hc : ds.coords.get? d = some c)
    (hps : ∀ p ∈ ps, p < c.length) {v : String} {lab : String → ℚ} {x : Flt K} (h : (ds.isel d ps).Says v lab x) :
    ds.Says v lab x := by
  obtain ⟨a, ix, ha, hl, hx⟩ := h
  rw [isel_vars] at ha
  cases hv : ds.vars.get? v with
  | none => simp [hv] at ha
  | some b =>
    rw [hv] at ha
    simp only [Option.map_some, Option.some.injEq] at ha
    subst ha
    refine ⟨b, ix.set d (ps.getD (ix d) 0), hv, fun k hk => ?_, hx⟩
    have h1 := hl k hk
    by_cases e : k = d
    · subst e
      rw [isel_labels_self ds ps hc, List.getElem?_map] at h1
      cases hp : ps[ix k]? with
      | none => simp [hp] at h1
      | some p =>
        rw [hp] at h1
        simp only [Option.map_some, Option.some.injEq] at h1
        have hm := hps p (List.mem_of_getElem? hp)
        rw [DS.labels_some hc]
        simp only [Index.set, if_true, List.getD, hp, Option.getD_some]
        rw [← h1, List.getElem?_eq_getElem hm]
        simp [List.getD, List.getElem?_eq_getElem hm]
    · rw [isel_labels_ne ds ps e] at h1
      simpa [Index.set, e] using h1

/-! ### Selection by label -/

theorem find_ok {ds : DS K} {d : String} {labels : List ℚ} {ps : List Nat} (h : ds.find d labels = .ok ps) :
    ps.length = labels.length := by
  unfold DS.find at h
  cases hc : ds.coords.get? d with
  | none => rw [hc] at h; exact (mapM_ok h).1
  | some c =>
    rw [hc] at h
    simp only at h
    split at h
    · exact (mapM_ok h).1
    · simp at h

/-- A label is found where it is. -/
theorem find_label {ds : DS K} {d : String} {labels : List ℚ} {ps : List Nat} (h : ds.find d labels = .ok ps)
    (hs : ds.coords.get? d = none → ∀ x ∈ labels, 0 ≤ x) {i : Nat} {x : ℚ} (hx : labels[i]? = some x) :
    ∃ p, ps[i]? = some p ∧ (ds.labels d)[p]? = some x := by
  have hlen := find_ok h
  have hi := (List.getElem?_eq_some_iff.1 hx).1
  have hp : ps[i]? = some ps[i] := List.getElem?_eq_getElem (by omega)
  refine ⟨_, hp, ?_⟩
  unfold DS.find at h
  cases hc : ds.coords.get? d with
  | none =>
    rw [hc] at h
    have h1 := (mapM_getElem h).2 i x _ hx hp
    have hx0 := hs hc x (List.mem_of_getElem? hx)
    split_ifs at h1 with c1 c2
    · have e : x.num.toNat = ps[i] := by injection h1
      unfold DS.labels
      rw [hc, List.getElem?_map, ← e]
      have hq : ((x.num.toNat : ℕ) : ℚ) = x := by
        have hn : 0 ≤ x.num := Rat.num_nonneg.2 hx0
        have : ((x.num.toNat : ℕ) : ℚ) = ((x.num : ℤ) : ℚ) := by
          have : ((x.num.toNat : ℕ) : ℤ) = x.num := Int.toNat_of_nonneg hn
          exact_mod_cast congrArg (fun z : ℤ => (z : ℚ)) this
        rw [this]
        exact Rat.den_eq_one_iff _ |>.1 c1.1
      have hlt : x.num.toNat < (ds.sizes.get? d).getD 0 := by
        have := c1.2.2
        rw [← hq] at this
        exact_mod_cast this
      rw [List.getElem?_range hlt]
      simp only [Option.map_some, hq]
    · exact absurd hx0 (not_le.2 c2.2.2)
  | some c =>
    rw [hc] at h
    simp only at h
    split at h
    · have h1 := (mapM_getElem h).2 i x _ hx hp
      split_ifs at h1 with c1
      have e : c.idxOf x = ps[i] := by injection h1
      rw [DS.labels_some hc, ← e]
      rw [List.getElem?_eq_getElem (List.idxOf_lt_length_of_mem c1), List.getElem_idxOf]
    · simp at h

theorem selLabels_ok {ds r : DS K} {d : String} {labels : List ℚ} (h : ds.selLabels d labels = .ok r) :
    ∃ ps, ds.find d labels = .ok ps ∧
      r = { ds.isel d ps with coords := (ds.isel d ps).coords.set d labels } := by
  unfold DS.selLabels at h
  simp only [bind_ok, pure_ok] at h
  obtain ⟨ps, h1, h2⟩ := h
  exact ⟨ps, h1, h2.symm⟩

theorem selLabels_labels_self {ds r : DS K} {d : String} {labels : List ℚ} (h : ds.selLabels d labels = .ok r) :
    r.labels d = labels := by
  obtain ⟨ps, _, rfl⟩ := selLabels_ok h
  exact DS.labels_some (Dict.get?_set_self _ _ _)

theorem selLabels_coords_ne {ds r : DS K} {d k : String} {labels : List ℚ} (h : ds.selLabels d labels = .ok r)
    (hk : k ≠ d) : r.coords.get? k = ds.coords.get? k := by
  obtain ⟨ps, _, rfl⟩ := selLabels_ok h
  show Dict.get? (Dict.set _ _ _) k = _
  rw [Dict.get?_set_ne _ _ hk.symm, isel_coords]
  simp only [hk, if_false]
  cases ds.coords.get? k <;> rfl

theorem selLabels_sizes {ds r : DS K} {d k : String} {labels : List ℚ} (h : ds.selLabels d labels = .ok r) :
    r.sizes.get? k = (ds.sizes.get? k).map fun n => if k = d then labels.length else n := by
  obtain ⟨ps, h1, rfl⟩ := selLabels_ok h
  show (ds.isel d ps).sizes.get? k = _
  rw [isel_sizes, find_ok h1]

theorem selLabels_labels_ne {ds r : DS K} {d k : String} {labels : List ℚ} (h : ds.selLabels d labels = .ok r)
    (hk : k ≠ d) : r.labels k = ds.labels k := by
  unfold DS.labels
  rw [selLabels_coords_ne h hk, selLabels_sizes h]
  simp only [hk, if_false]
  cases ds.coords.get? k <;> cases ds.sizes.get? k <;> simp

theorem selLabels_vars {ds r : DS K} {d : String} {labels : List ℚ} (h : ds.selLabels d labels = .ok r) (v : String) :
    ∃ ps, ds.find d labels = .ok ps ∧ r.vars.get? v = (ds.vars.get? v).map fun a => a.take d ps := by
  obtain ⟨ps, h1, rfl⟩ := selLabels_ok h
  exact ⟨ps, h1, isel_vars ds d ps v⟩

theorem selLabels_wf {ds r : DS K} {d : String} {labels : List ℚ} (hw : ds.Wf) (hd : (ds.sizes.get? d).isSome)
    (h : ds.selLabels d labels = .ok r) : r.Wf := by
  have hs := fun k => selLabels_sizes (k := k) h
  obtain ⟨ps, h1, rfl⟩ := selLabels_ok h
  have hi := isel_wf hw d ps
  refine ⟨hi.sizes_nodup, ?_, hi.vars_nodup, ?_, hi.var_dims, hi.own⟩
  · exact Dict.nodup_set _ _ _ hi.coords_nodup
  · intro k c hc
    by_cases e : k = d
    · subst e
      replace hc : Dict.get? (Dict.set _ k labels) k = some c := hc
      rw [Dict.get?_set_self] at hc
      rw [hs k]
      obtain ⟨n, hn⟩ := Option.isSome_iff_exists.1 hd
      rw [hn, ← Option.some.inj hc]
      simp
    · replace hc : Dict.get? (Dict.set _ d labels) k = some c := hc
      rw [Dict.get?_set_ne _ _ (Ne.symm e)] at hc
      exact hi.coord_len k c hc

theorem selLabels_says {ds r : DS K} {d : String} {labels : List ℚ} (h : ds.selLabels d labels = .ok r)
    (hs : ds.coords.get? d = none → ∀ x ∈ labels, 0 ≤ x) {v : String} {lab : String → ℚ} {x : Flt K}
    (hr : r.Says v lab x) : ds.Says v lab x := by
  obtain ⟨a, ix, ha, hl, hx⟩ := hr
  obtain ⟨ps, h1, h2⟩ := selLabels_vars h v
  rw [h2] at ha
  cases hv : ds.vars.get? v with
  | none => simp [hv] at ha
  | some b =>
    rw [hv] at ha
    simp only [Option.map_some, Option.some.injEq] at ha
    subst ha
    refine ⟨b, ix.set d (ps.getD (ix d) 0), hv, fun k hk => ?_, hx⟩
    have h3 := hl k hk
    by_cases e : k = d
    · subst e
      rw [selLabels_labels_self h] at h3
      obtain ⟨p, hp, hq⟩ := find_label h1 hs h3
      simpa [Index.set, List.getD, hp] using hq
    · rw [selLabels_labels_ne h e] at h3
      simpa [Index.set, e] using h3

/-- Selecting by several dimensions. -/
theorem selAll_ok {dom : DS K} : ∀ (ds : List String) {s r : DS K}, s.Wf → ds.Nodup →
    (∀ d ∈ ds, (s.sizes.get? d).isSome) →
    (∀ d ∈ ds, s.coords.get? d = none → ∀ x ∈ dom.labels d, 0 ≤ x) →
    ds.foldlM (fun s d => s.selLabels d (dom.labels d)) s = .ok r →
    r.Wf ∧ (∀ d ∈ ds, r.labels d = dom.labels d) ∧ (∀ d, d ∉ ds → r.labels d = s.labels d) ∧
      (∀ d, d ∉ ds → r.coords.get? d = s.coords.get? d) ∧
      (∀ d, (r.sizes.get? d).isSome = (s.sizes.get? d).isSome) ∧
      (∀ v, (r.vars.get? v).map Arr.dims = (s.vars.get? v).map Arr.dims) ∧
      ∀ v lab x, r.Says v lab x → s.Says v lab x
  | [], s, r, hw, _, _, _, h => by
    rw [List.foldlM_nil, pure_ok] at h
    subst h
    exact ⟨hw, by simp, fun _ _ => rfl, fun _ _ => rfl, fun _ => rfl, fun _ => rfl, fun _ _ _ h => h⟩
  | d :: ds, s, r, hw, hn, hs, hp, h => by
    rw [List.foldlM_cons, bind_ok] at h
    obtain ⟨m, hm, hr⟩ := h
    rw [List.nodup_cons] at hn
    have hsz : ∀ k, (m.sizes.get? k).isSome = (s.sizes.get? k).isSome := by
      intro k; rw [selLabels_sizes hm]; cases s.sizes.get? k <;> rfl
    have hmw := selLabels_wf hw (hs d (by simp)) hm
    obtain ⟨h1, h2, h3, h4, h5, h6, h7⟩ := selAll_ok ds hmw hn.2
      (fun k hk => by rw [hsz]; exact hs k (by simp [hk]))
      (fun k hk => by
        rw [selLabels_coords_ne hm (fun e => hn.1 (e ▸ hk))]; exact hp k (by simp [hk])) hr
    refine ⟨h1, ?_, ?_, ?_, ?_, ?_, ?_⟩
    · intro k hk
      rcases List.mem_cons.1 hk with rfl | hk
      · rw [h3 k hn.1]; exact selLabels_labels_self hm
      · exact h2 k hk
    · intro k hk
      rw [List.mem_cons, not_or] at hk
      rw [h3 k hk.2, selLabels_labels_ne hm hk.1]
    · intro k hk
      rw [List.mem_cons, not_or] at hk
      rw [h4 k hk.2, selLabels_coords_ne hm hk.1]
    · intro k; rw [h5, hsz]
    · intro v
      obtain ⟨ps, -, hv⟩ := selLabels_vars hm v
      rw [h6, hv]
      cases s.vars.get? v <;> rfl
    · intro v lab x hx
      exact selLabels_says hm (hp d (by simp)) (h7 v lab x hx)

/-! ### Choosing variables -/

theorem subset_ok {ds r : DS K} {names : List String} (hw : ds.Wf) (hn : names.Nodup) (h : ds.subset names = .ok r) :
    r.Wf ∧ (∀ v, r.vars.get? v = if v ∈ names then ds.vars.get? v else none) ∧
      (∀ d, (r.sizes.get? d).isSome → r.sizes.get? d = ds.sizes.get? d ∧ r.labels d = ds.labels d ∧
        (r.coords.get? d = none → ds.coords.get? d = none)) ∧
      ∀ v lab x, r.Says v lab x → ds.Says v lab x := by
  unfold DS.subset at h
  split at h
  swap
  · simp at h
  rename_i hall
  simp only [Except.ok.injEq] at h
  generalize hvars : (names.filterMap fun n => (ds.vars.get? n).map fun a => (n, a)) = vars at h
  generalize hneed : (vars.flatMap fun q => q.2.dims) ++ (names.filter fun n => (ds.sizes.get? n).isSome) = needed at h
  generalize hsz : (ds.sizes.filter fun q => decide (q.1 ∈ needed)) = sizes at h
  have hv : ∀ v, Dict.get? vars v = if v ∈ names then ds.vars.get? v else none := by
    intro v; rw [← hvars]; exact Dict.get?_filterMap_keys names (fun n => ds.vars.get? n) v
  have hs : ∀ d, Dict.get? sizes d = if d ∈ needed then ds.sizes.get? d else none := by
    intro d; rw [← hsz, Dict.get?_filter ds.sizes (fun k => decide (k ∈ needed)) d]; simp
  have hc : ∀ d, r.coords.get? d = if d ∈ sizes.map Prod.fst then
      (match ds.coords.get? d with
        | some c => some c
        | none => if d ∈ names then some (ds.labels d) else none) else none := by
    intro d
    rw [← h]
    have := Dict.get?_filterMap_keys (sizes.map Prod.fst) (fun d => match ds.coords.get? d with
        | some c => some c
        | none => if d ∈ names then some (ds.labels d) else none) d
    rw [← this]
    congr 1
    apply List.filterMap_congr
    intro k _
    cases ds.coords.get? k with
    | some c => rfl
    | none => by_cases hk : k ∈ names <;> simp [hk]
  have hmem : ∀ d, d ∈ sizes.map Prod.fst ↔ d ∈ needed ∧ (ds.sizes.get? d).isSome := by
    intro d
    rw [← Dict.isSome_iff, hs]
    by_cases hd : d ∈ needed <;> simp [hd]
  have hlab : ∀ d, (r.sizes.get? d).isSome → r.sizes.get? d = ds.sizes.get? d ∧ r.labels d = ds.labels d ∧
        (r.coords.get? d = none → ds.coords.get? d = none) := by
    intro d hd
    have e : r.sizes = sizes := by rw [← h]
    rw [e] at hd ⊢
    have hd' := hd
    rw [Dict.isSome_iff] at hd'
    have hd2 := (hmem d).1 hd'
    have hc' := hc d
    rw [if_pos hd'] at hc'
    refine ⟨by rw [hs, if_pos hd2.1], ?_, ?_⟩
    · unfold DS.labels
      rw [hc', e]
      cases hcd : ds.coords.get? d with
      | some c => rfl
      | none =>
        by_cases hk : d ∈ names
        · simp [hk, DS.labels, hcd]
        · simp only [hk, if_false]
          rw [hs, if_pos hd2.1]
    · rw [hc']
      cases hcd : ds.coords.get? d with
      | some c => simp
      | none => simp
  have hr : r.vars = vars := by rw [← h]
  have hdims : ∀ v a, Dict.get? vars v = some a → ∀ d ∈ a.dims, (r.sizes.get? d).isSome := by
    intro v a ha d hd
    have e : r.sizes = sizes := by rw [← h]
    rw [e, Dict.isSome_iff, hmem]
    have hm := Dict.mem_of_get? vars ha
    refine ⟨?_, ?_⟩
    · rw [← hneed, List.mem_append]
      exact Or.inl (List.mem_flatMap.2 ⟨_, hm, hd⟩)
    · rw [hv] at ha
      split at ha
      · exact hw.var_dims v a ha d hd
      · simp at ha
  refine ⟨⟨?_, ?_, ?_, ?_, ?_, ?_⟩, ?_, hlab, ?_⟩
  · have e : r.sizes = sizes := by rw [← h]
    rw [e, ← hsz]
    exact (List.filter_sublist.map Prod.fst).nodup hw.sizes_nodup
  · rw [← h]
    have hsn : (sizes.map Prod.fst).Nodup := by
      rw [← hsz]; exact (List.filter_sublist.map Prod.fst).nodup hw.sizes_nodup
    refine List.Sublist.nodup ?_ hsn
    generalize sizes.map Prod.fst = ks
    clear hsn hmem hc
    induction ks with
    | nil => simp
    | cons k ks ih =>
      rw [List.filterMap_cons]
      split
      · exact ih.cons _
      · rename_i b hb
        have : b.1 = k := by
          split at hb
          · simp at hb; rw [← hb]
          · split at hb
            · simp at hb; rw [← hb]
            · simp at hb
        rw [List.map_cons, this]
        exact ih.cons_cons _
  · rw [hr, ← hvars]
    refine List.Sublist.nodup ?_ hn
    clear hvars hn hall hc hlab hneed hv h
    induction names with
    | nil => simp
    | cons k ks ih =>
      rw [List.filterMap_cons]
      split
      · exact ih.cons _
      · rename_i b hb
        have : b.1 = k := by
          cases hk : ds.vars.get? k with
          | none => simp [hk] at hb
          | some a => rw [hk] at hb; simp at hb; rw [← hb]
        rw [List.map_cons, this]
        exact ih.cons_cons _
  · intro d c hcd
    have e : r.sizes = sizes := by rw [← h]
    have hin : d ∈ sizes.map Prod.fst := by
      by_contra hne
      rw [hc, if_neg hne] at hcd
      simp at hcd
    have hd : (r.sizes.get? d).isSome := by rw [e, Dict.isSome_iff]; exact hin
    obtain ⟨h1, h2, -⟩ := hlab d hd
    rw [DS.labels_some hcd] at h2
    obtain ⟨n, hn'⟩ := Option.isSome_iff_exists.1 hd
    rw [h1] at hn'
    rw [h1, hn', h2, hw.labels_length hn']
  · intro v a ha d hd
    rw [hr] at ha
    exact hdims v a ha d hd
  · intro v a ha
    rw [hr, hv] at ha
    split at ha
    · exact hw.own v a ha
    · simp at ha
  · intro v; rw [hr]; exact hv v
  · rintro v lab x ⟨a, ix, ha, hl, hx⟩
    rw [hr] at ha
    have ha' := ha
    rw [hv] at ha'
    split at ha'
    · refine ⟨a, ix, ha', fun d hd => ?_, hx⟩
      rw [← (hlab d (hdims v a ha d hd)).2.1]
      exact hl d hd
    · simp at ha'

/-! ### Renaming -/

theorem rename_ok {ds r : DS K} {names : Dict String String} (hw : ds.Wf) (h : ds.rename names = .ok r) :
    r.Wf ∧ (∀ d, (ds.sizes.get? d).isSome → r.labels (newName names d) = ds.labels d ∧
        r.sizes.get? (newName names d) = ds.sizes.get? d ∧
        r.coords.get? (newName names d) = ds.coords.get? d) ∧
      (∀ d, (r.sizes.get? d).isSome → ∃ k, (ds.sizes.get? k).isSome ∧ newName names k = d) ∧
      (∀ v a, r.vars.get? v = some a → ∃ u b, ds.vars.get? u = some b ∧ newName names u = v ∧
        a.dims = b.dims.map (newName names)) ∧
      ∀ v lab x, r.Says v lab x → ∃ u, newName names u = v ∧ ds.Says u (fun d => lab (newName names d)) x := by
  unfold DS.rename at h
  split at h
  swap
  · simp at h
  rename_i hc
  rw [Bool.and_eq_true, decide_eq_true_iff, List.nodup_append] at hc
  obtain ⟨-, hvn, hsn, -⟩ := hc
  simp only [Except.ok.injEq] at h
  have hsz : r.sizes = ds.sizes.map fun q => (newName names q.1, q.2) := by rw [← h]
  have hco : r.coords = ds.coords.map fun q => (newName names q.1, q.2) := by rw [← h]
  have hva : r.vars = ds.vars.map fun q => (newName names q.1,
      (⟨q.2.dims.map (newName names), fun ix => q.2.val fun d => ix (newName names d)⟩ : Arr K)) := by rw [← h]
  have hinj : ∀ d k, (ds.sizes.get? d).isSome → (ds.sizes.get? k).isSome →
      newName names d = newName names k → d = k := by
    intro d k hd hk e
    rw [Dict.isSome_iff] at hd hk
    obtain ⟨p, hp, rfl⟩ := List.mem_map.1 hd
    obtain ⟨q, hq, rfl⟩ := List.mem_map.1 hk
    exact congrArg Prod.fst (List.inj_on_of_nodup_map hsn hp hq e)
  have hcs : ∀ d c, ds.coords.get? d = some c → (ds.sizes.get? d).isSome := by
    intro d c hdc; rw [hw.coord_len d c hdc]; rfl
  have hsget : ∀ d, (ds.sizes.get? d).isSome → r.sizes.get? (newName names d) = ds.sizes.get? d := by
    intro d hd
    obtain ⟨n, hn⟩ := Option.isSome_iff_exists.1 hd
    rw [hsz, hn]
    exact Dict.get?_mapKey ds.sizes (newName names) id hsn hn
  have hcget : ∀ d, (ds.sizes.get? d).isSome → r.coords.get? (newName names d) = ds.coords.get? d := by
    intro d hd
    cases hr : r.coords.get? (newName names d) with
    | none =>
      cases hdc : ds.coords.get? d with
      | none => rfl
      | some c =>
        exfalso
        have hm := Dict.mem_of_get? _ hdc
        rw [Dict.get?_eq_none_iff] at hr
        apply hr
        rw [hco]
        simp only [Dict.keys, List.map_map, List.mem_map]
        exact ⟨_, hm, rfl⟩
    | some c =>
      rw [hco] at hr
      obtain ⟨k, c', h1, h2, h3⟩ := Dict.of_get?_mapKey ds.coords (newName names) id hw.coords_nodup hr
      have := hinj k d (hcs k c' h1) hd h2
      subst this
      rw [h1]; exact congrArg some h3.symm
  have hlab : ∀ d, (ds.sizes.get? d).isSome → r.labels (newName names d) = ds.labels d := by
    intro d hd
    unfold DS.labels
    rw [hcget d hd, hsget d hd]
  have hrs : ∀ d, (r.sizes.get? d).isSome → ∃ k, (ds.sizes.get? k).isSome ∧ newName names k = d := by
    intro d hd
    obtain ⟨n, hn⟩ := Option.isSome_iff_exists.1 hd
    rw [hsz] at hn
    obtain ⟨k, m, h1, h2, h3⟩ := Dict.of_get?_mapKey ds.sizes (newName names) id hw.sizes_nodup hn
    exact ⟨k, by rw [h1]; rfl, h2⟩
  have hvget : ∀ v a, r.vars.get? v = some a → ∃ u b, ds.vars.get? u = some b ∧ newName names u = v ∧
      a = ⟨b.dims.map (newName names), fun ix => b.val fun d => ix (newName names d)⟩ := by
    intro v a ha
    rw [hva] at ha
    obtain ⟨k, m, h1, h2, h3⟩ := Dict.of_get?_mapKey ds.vars (newName names)
      (fun a => (⟨a.dims.map (newName names), fun ix => a.val fun d => ix (newName names d)⟩ : Arr K)) hw.vars_nodup ha
    exact ⟨k, m, h1, h2, h3.symm⟩
  refine ⟨⟨?_, ?_, ?_, ?_, ?_, ?_⟩, fun d hd => ⟨hlab d hd, hsget d hd, hcget d hd⟩, hrs, ?_, ?_⟩
  · rw [hsz, List.map_map]; exact hsn
  · rw [hco, List.map_map]
    refine (List.nodup_map_iff_inj_on (List.Nodup.of_map _ hw.coords_nodup)).2 ?_
    intro p hp q hq e
    have h1 : ds.coords.get? p.1 = some p.2 := Dict.get?_of_mem _ (by simpa [Dict.keys] using hw.coords_nodup) hp
    have h2 : ds.coords.get? q.1 = some q.2 := Dict.get?_of_mem _ (by simpa [Dict.keys] using hw.coords_nodup) hq
    have := hinj p.1 q.1 (hcs _ _ h1) (hcs _ _ h2) e
    rw [this, h2] at h1
    exact Prod.ext this (Option.some.inj h1).symm
  · rw [hva, List.map_map]; exact hvn
  · intro d c hdc
    rw [hco] at hdc
    obtain ⟨k, c', h1, h2, h3⟩ := Dict.of_get?_mapKey ds.coords (newName names) id hw.coords_nodup hdc
    simp only [id] at h3
    subst h3
    rw [← h2, hsget k (hcs k c' h1)]
    exact hw.coord_len k c' h1
  · intro v a ha d hd
    obtain ⟨u, b, hb, -, rfl⟩ := hvget v a ha
    simp only [List.mem_map] at hd
    obtain ⟨k, hk, rfl⟩ := hd
    have := hw.var_dims u b hb k hk
    rw [hsget k this]; exact this
  · intro v a ha ix ix' he
    obtain ⟨u, b, hb, -, rfl⟩ := hvget v a ha
    exact hw.own u b hb _ _ fun d hd => he (newName names d) (List.mem_map_of_mem hd)
  · intro v a ha
    obtain ⟨u, b, hb, hu, rfl⟩ := hvget v a ha
    exact ⟨u, b, hb, hu, rfl⟩
  · rintro v lab x ⟨a, ix, ha, hl, hx⟩
    obtain ⟨u, b, hb, hu, rfl⟩ := hvget v a ha
    refine ⟨u, hu, b, _, hb, fun d hd => ?_, hx⟩
    have := hl (newName names d) (List.mem_map_of_mem hd)
    rw [hlab d (hw.var_dims u b hb d hd)] at this
    exact this

/-! ### Time stamps -/

theorem wholeDays_coords (ds : DS K) (k : String) :
    ds.wholeDays.coords.get? k = (ds.coords.get? k).map fun c =>
      if k = "time" then c.map fun t => ((normaliseDay (86400 * t) : Int) : ℚ) else c :=
  Dict.get?_mapVal ds.coords (fun k c => if k = "time" then c.map fun t => ((normaliseDay (86400 * t) : Int) : ℚ) else c) k

theorem wholeDays_labels_ne (ds : DS K) {k : String} (h : k ≠ "time") : ds.wholeDays.labels k = ds.labels k := by
  unfold DS.labels
  rw [wholeDays_coords]
  simp only [h, if_false]
  cases ds.coords.get? k <;> rfl

theorem wholeDays_labels_time (ds : DS K) {c : List ℚ} (h : ds.coords.get? "time" = some c) :
    ds.wholeDays.labels "time" = c.map fun t => ((normaliseDay (86400 * t) : Int) : ℚ) := by
  apply DS.labels_some
  rw [wholeDays_coords, h]; simp

theorem wholeDays_wf {ds : DS K} (hw : ds.Wf) : ds.wholeDays.Wf where
  sizes_nodup := hw.sizes_nodup
  coords_nodup := by
    have : ds.wholeDays.coords.map Prod.fst = ds.coords.map Prod.fst := by simp [DS.wholeDays]
    rw [this]; exact hw.coords_nodup
  vars_nodup := hw.vars_nodup
  coord_len := fun k c hc => by
    rw [wholeDays_coords] at hc
    cases hk : ds.coords.get? k with
    | none => simp [hk] at hc
    | some c' =>
      rw [hk] at hc
      simp only [Option.map_some, Option.some.injEq] at hc
      have := hw.coord_len k c' hk
      show ds.sizes.get? k = _
      rw [this, ← hc]
      by_cases e : k = "time" <;> simp [e]
  var_dims := hw.var_dims
  own := hw.own

/-- A whole day stands for the stamp it was made of. -/
theorem wholeDays_says {ds : DS K} {c : List ℚ} (hc : ds.coords.get? "time" = some c) {v : String} {lab : String → ℚ}
    {x : Flt K} (h : ds.wholeDays.Says v lab x) :
    ∃ t, ((∃ a, ds.vars.get? v = some a ∧ "time" ∈ a.dims) →
        t ∈ c ∧ ((normaliseDay (86400 * t) : Int) : ℚ) = lab "time") ∧
      ds.Says v (fun d => if d = "time" then t else lab d) x := by
  obtain ⟨a, ix, ha, hl, hx⟩ := h
  replace ha : ds.vars.get? v = some a := ha
  by_cases ht : "time" ∈ a.dims
  · have h1 := hl "time" ht
    rw [wholeDays_labels_time ds hc, List.getElem?_map] at h1
    cases hp : c[ix "time"]? with
    | none => simp [hp] at h1
    | some t =>
      rw [hp] at h1
      simp only [Option.map_some, Option.some.injEq] at h1
      refine ⟨t, fun _ => ⟨List.mem_of_getElem? hp, h1⟩, a, ix, ha, fun d hd => ?_, hx⟩
      by_cases e : d = "time"
      · subst e; simp only [if_true]; rw [DS.labels_some hc]; exact hp
      · simp only [e, if_false]; rw [← wholeDays_labels_ne ds e]; exact hl d hd
  · refine ⟨0, ?_, a, ix, ha, fun d hd => ?_, hx⟩
    · rintro ⟨b, hb, hbt⟩
      rw [ha] at hb
      exact absurd (Option.some.inj hb ▸ hbt) ht
    · have e : d ≠ "time" := fun e => ht (e ▸ hd)
      simp only [e, if_false]; rw [← wholeDays_labels_ne ds e]; exact hl d hd

theorem between_lt {c : List ℚ} {a b : Option ℚ} {ps : List Nat} (h : between c a b = .ok ps) :
    ∀ p ∈ ps, p < c.length := by
  have key : ∀ f : Nat → Bool, ∀ p ∈ (List.range c.length).filter f, p < c.length := by
    intro f p hp
    exact List.mem_range.1 (List.mem_filter.1 hp).1
  unfold between at h
  simp only at h
  split_ifs at h with h1 h2
  · simp only [Except.ok.injEq] at h; subst h; exact key _
  · simp only [Except.ok.injEq] at h; subst h; exact key _
  · simp only [bind_ok, pure_ok] at h
    obtain ⟨i, -, j, -, rfl⟩ := h
    exact key _

theorem filter_range_map (f : ℚ → Bool) : ∀ (c : List ℚ),
    (((List.range c.length).filter fun i => f (c.getD i 0)).map fun i => c.getD i 0) = c.filter f
  | [] => rfl
  | x :: c => by
    rw [List.length_cons, List.range_succ_eq_map, List.filter_cons, List.filter_cons]
    have ih := filter_range_map f c
    have e : (List.filter (fun i => f ((x :: c).getD i 0)) (List.map Nat.succ (List.range c.length))).map
        (fun i => (x :: c).getD i 0) = c.filter f := by
      rw [List.filter_map, List.map_map]
      exact ih
    by_cases hx : f x
    · simp only [List.getD_cons_zero, hx, if_true, List.map_cons, e]
    · simp only [List.getD_cons_zero, hx]; exact e

/-- On an axis in order: the stamps from `a` to `b`. -/
theorem between_sorted {c : List ℚ} (hs : c.Pairwise (· ≤ ·)) (a b : ℚ) :
    ∃ ps, between c (some a) (some b) = .ok ps ∧
      ps.map (c.getD · 0) = c.filter fun t => decide (a ≤ t) && decide (t ≤ b) := by
  refine ⟨_, ?_, filter_range_map (fun t => decide (a ≤ t) && decide (t ≤ b)) c⟩
  unfold between
  simp only [if_pos hs]

theorem selPeriod_ok [RatCast K] {ds r : DS K} {a b : Option ℚ} (hw : ds.Wf) (h : ds.selPeriod a b = .ok r) :
    ∃ c ps, ds.coords.get? "time" = some c ∧ between c a b = .ok ps ∧
      r.labels "time" = ps.map (c.getD · 0) ∧ (∀ d, d ≠ "time" → r.labels d = ds.labels d) ∧
      (∀ v, v ≠ "day_of_year" → r.vars.get? v = (ds.vars.get? v).map fun a => a.take "time" ps) ∧
      (∀ d, (r.sizes.get? d).isSome = (ds.sizes.get? d).isSome) ∧
      (∀ d, (r.coords.get? d).isSome = (ds.coords.get? d).isSome) ∧
      r.Wf ∧ ∀ v lab x, v ≠ "day_of_year" → r.Says v lab x → ds.Says v lab x := by
  unfold DS.selPeriod at h
  cases hc : ds.coords.get? "time" with
  | none => rw [hc] at h; simp at h
  | some c =>
    rw [hc] at h
    simp only [bind_ok, pure_ok] at h
    obtain ⟨ps, hps, hr⟩ := h
    have hlab : ∀ d, r.labels d = (ds.isel "time" ps).labels d := by intro d; rw [← hr]; rfl
    have hvar : ∀ v, v ≠ "day_of_year" → r.vars.get? v = (ds.vars.get? v).map fun a => a.take "time" ps := by
      intro v hv
      rw [← hr]
      show Dict.get? (Dict.set _ _ _) v = _
      rw [Dict.get?_set_ne _ _ (Ne.symm hv), isel_vars]
    have hi := isel_wf hw "time" ps
    refine ⟨c, ps, rfl, hps, ?_, ?_, hvar, ?_, ?_, ?_, ?_⟩
    · rw [hlab]; exact isel_labels_self ds ps hc
    · intro d hd; rw [hlab]; exact isel_labels_ne ds ps hd
    · intro d; rw [← hr]
      show ((ds.isel "time" ps).sizes.get? d).isSome = _
      rw [isel_sizes]; cases ds.sizes.get? d <;> rfl
    · intro d; rw [← hr]
      show ((ds.isel "time" ps).coords.get? d).isSome = _
      rw [isel_coords]; cases ds.coords.get? d <;> rfl
    · rw [← hr]
      refine ⟨hi.sizes_nodup, hi.coords_nodup, Dict.nodup_set _ _ _ hi.vars_nodup, hi.coord_len, ?_, ?_⟩
      · intro v a ha d hd
        replace ha : Dict.get? (Dict.set _ _ _) v = some a := ha
        rw [Dict.get?_set] at ha
        split at ha
        · simp only [Option.some.injEq] at ha
          subst ha
          simp only [List.mem_singleton] at hd
          subst hd
          show ((ds.isel "time" ps).sizes.get? "time").isSome
          rw [isel_sizes, hw.coord_len _ _ hc]; rfl
        · exact hi.var_dims v a ha d hd
      · intro v a ha ix ix' he
        replace ha : Dict.get? (Dict.set _ _ _) v = some a := ha
        rw [Dict.get?_set] at ha
        split at ha
        · simp only [Option.some.injEq] at ha
          subst ha
          simp only
          rw [he "time" (by simp)]
        · exact hi.own v a ha ix ix' he
    · intro v lab x hv hs
      apply isel_says hc (between_lt hps)
      obtain ⟨a, ix, ha, hl, hx⟩ := hs
      refine ⟨a, ix, ?_, fun d hd => by rw [← hlab]; exact hl d hd, hx⟩
      rw [hvar v hv] at ha
      rw [isel_vars]; exact ha

end Dataset
end Verif
