import Verif.Model.NcFile
import Verif.Lemmas.Except
import Verif.Props.Chunk

/-!
# C94: output files describe what they hold
-/

namespace Verif.Props

open Nc

theorem get?_append {κ α : Type} [DecidableEq κ] (d e : Dict κ α) (k : κ) :
    Dict.get? (d ++ e) k = (Dict.get? d k).or (Dict.get? e k) := by
  induction d with
  | nil => rfl
  | cons p d ih =>
    rw [List.cons_append, Dict.get?_cons, Dict.get?_cons, ih]
    split <;> rfl

theorem keys_set_mem {κ α : Type} [DecidableEq κ] (d : Dict κ α) (k : κ) (v : α) (h : k ∈ d.keys) : (d.set k v).keys = d.keys := by
  induction d with
  | nil => cases h
  | cons p d ih =>
    obtain ⟨a, b⟩ := p
    show Dict.keys (if a = k then (a, v) :: d else (a, b) :: Dict.set d k v) = _
    by_cases hk : a = k
    · rw [if_pos hk]; rfl
    · rw [if_neg hk]
      simp only [Dict.keys, List.map_cons, List.mem_cons] at h ⊢
      rcases h with h | h
      · exact absurd h.symm hk
      · rw [show List.map Prod.fst (Dict.set d k v) = List.map Prod.fst d from ih h]

theorem modify_iff {f g : File} {name : String} {h : Var → Var} :
    f.modify name h = .ok g ↔ ∃ v, f.vars.get? name = some v ∧ g = { f with vars := f.vars.set name (h v) } := by
  unfold File.modify
  simp only [bind_ok, pure_ok, Dict.get_ok]
  exact ⟨fun ⟨v, h1, h2⟩ => ⟨v, h1, h2.symm⟩, fun ⟨v, h1, h2⟩ => ⟨v, h1, h2.symm⟩⟩

theorem modify_facts {f g : File} {name : String} {h : Var → Var} (hg : f.modify name h = .ok g) :
    g.dims = f.dims ∧ g.attrs = f.attrs ∧ g.vars.keys = f.vars.keys ∧
      ∀ n, g.vars.get? n = if name = n then (f.vars.get? n).map h else f.vars.get? n := by
  obtain ⟨v, h1, rfl⟩ := modify_iff.1 hg
  have hmem : name ∈ f.vars.keys := by
    by_contra hc
    rw [(Dict.get?_eq_none_iff _ _).2 hc] at h1
    cases h1
  refine ⟨rfl, rfl, keys_set_mem _ _ _ hmem, fun n => ?_⟩
  rw [Dict.get?_set]
  by_cases hn : name = n
  · subst hn; rw [if_pos rfl, if_pos rfl, h1]; rfl
  · rw [if_neg hn, if_neg hn]

theorem create_iff {known : String → Bool} {f g : File} {name dtype : String} {dims : List String} {chunks : Option (List Int)} :
    f.createVariable known name dtype dims chunks = .ok g ↔ known dtype = true ∧ (∀ d ∈ dims, d ∈ f.dims.keys) ∧ name ∉ f.vars.keys ∧
      (∀ p ∈ dims.zip (chunks.getD []), chunkOk f p = true) ∧
      g = { f with vars := f.vars ++ [(name, ⟨dtype, dims, chunks, [], fun _ => none⟩)] } := by
  unfold File.createVariable
  by_cases h1 : known dtype = false
  · rw [if_pos h1]; simp [h1]
  rw [if_neg h1]
  rw [Bool.not_eq_false] at h1
  by_cases h2 : dims.any (fun d => decide (d ∉ f.dims.keys)) = true
  · rw [if_pos h2]
    simp only [List.any_eq_true, decide_eq_true_eq] at h2
    obtain ⟨d, h2, h3⟩ := h2
    simp only [reduceCtorEq, false_iff, not_and]
    intro _ h; exact absurd (h d h2) h3
  rw [if_neg h2]
  have h2' : ∀ d ∈ dims, d ∈ f.dims.keys := by
    intro d hd
    by_contra hc
    exact h2 (List.any_eq_true.2 ⟨d, hd, by simpa using hc⟩)
  by_cases h3 : name ∈ f.vars.keys
  · rw [if_pos h3]; simp [h3]
  rw [if_neg h3]
  by_cases h4 : (dims.zip (chunks.getD [])).any (fun p => !chunkOk f p) = true
  · rw [if_pos h4]
    simp only [List.any_eq_true, Bool.not_eq_true'] at h4
    obtain ⟨p, h4, h5⟩ := h4
    simp only [reduceCtorEq, false_iff, not_and]
    intro _ _ _ h
    rw [h p h4] at h5; cases h5
  rw [if_neg h4]
  have h4' : ∀ p ∈ dims.zip (chunks.getD []), chunkOk f p = true := by
    intro p hp
    by_contra hc
    exact h4 (List.any_eq_true.2 ⟨p, hp, by simpa using hc⟩)
  constructor
  · intro h; cases h
    exact ⟨h1, h2', h3, h4', rfl⟩
  · rintro ⟨-, -, -, -, rfl⟩; rfl

/-- Dimensions are created one after the other, under different names. -/
theorem dims_iff (ds : List (String × Option Nat)) (f g : File) (hf : f.dims.keys.Nodup) :
    ds.foldlM File.createDimension f = .ok g ↔ (f.dims.keys ++ ds.map Prod.fst).Nodup ∧ g = { f with dims := f.dims ++ ds } := by
  induction ds generalizing f with
  | nil =>
    rw [List.foldlM_nil, pure_ok]
    simp only [List.map_nil, List.append_nil]
    exact ⟨fun h => ⟨hf, h.symm⟩, fun h => h.2.symm⟩
  | cons d ds ih =>
    rw [List.foldlM_cons, bind_ok]
    unfold File.createDimension
    by_cases hd : d.1 ∈ f.dims.keys
    · rw [if_pos hd]
      constructor
      · rintro ⟨_, h, -⟩; cases h
      · rintro ⟨h, -⟩
        rw [List.nodup_append] at h
        exact absurd rfl (h.2.2 _ hd _ (by simp))
    · rw [if_neg hd]
      have hk : Dict.keys (f.dims ++ [d]) = f.dims.keys ++ [d.1] := by simp [Dict.keys]
      have := ih { f with dims := f.dims ++ [d] } (by
        show (Dict.keys (f.dims ++ [d])).Nodup
        rw [hk, List.nodup_append]
        exact ⟨hf, by simp, by
          intro a ha b hb
          rw [List.mem_singleton] at hb; subst hb
          rintro rfl; exact hd ha⟩)
      constructor
      · rintro ⟨_, h, h'⟩
        cases h
        have := this.1 h'
        rw [show Dict.keys (f.dims ++ [d]) = f.dims.keys ++ [d.1] from hk] at this
        simpa using this
      · rintro ⟨h, h'⟩
        refine ⟨_, rfl, this.2 ?_⟩
        rw [show Dict.keys (f.dims ++ [d]) = f.dims.keys ++ [d.1] from hk]
        simpa using And.intro h h'

/-- Variables are created one after the other, under different names. -/
theorem vars_iff {known : String → Bool} {β : Type} (name : β → String) (dtype : β → String) (dims : β → List String)
    (chunks : Option (List Int)) (os : List β) (f g : File) (hf : f.vars.keys.Nodup) :
    os.foldlM (fun f o => f.createVariable known (name o) (dtype o) (dims o) chunks) f = .ok g ↔
      (∀ o ∈ os, known (dtype o) = true ∧ (∀ d ∈ dims o, d ∈ f.dims.keys) ∧
        ∀ p ∈ (dims o).zip (chunks.getD []), chunkOk f p = true) ∧
      (f.vars.keys ++ os.map name).Nodup ∧
      g = { f with vars := f.vars ++ os.map fun o => (name o, ⟨dtype o, dims o, chunks, [], fun _ => none⟩) } := by
  induction os generalizing f with
  | nil =>
    rw [List.foldlM_nil, pure_ok]
    simp only [List.map_nil, List.append_nil]
    exact ⟨fun h => ⟨by simp, hf, h.symm⟩, fun h => h.2.2.symm⟩
  | cons o os ih =>
    rw [List.foldlM_cons, bind_ok]
    have hkeys : ∀ v : Var, Dict.keys (f.vars ++ [(name o, v)]) = f.vars.keys ++ [name o] := by intro v; simp [Dict.keys]
    constructor
    · rintro ⟨f', h1, h2⟩
      obtain ⟨k1, k2, k3, k4, rfl⟩ := create_iff.1 h1
      obtain ⟨e1, e2, e3⟩ := (ih _ (by
        show (Dict.keys (f.vars ++ [_])).Nodup
        rw [hkeys, List.nodup_append]
        exact ⟨hf, by simp, by
          intro a ha b hb
          rw [List.mem_singleton] at hb; subst hb
          rintro rfl; exact k3 ha⟩)).1 h2
      refine ⟨?_, ?_, ?_⟩
      · intro p hp
        rcases List.mem_cons.1 hp with rfl | hp
        · exact ⟨k1, k2, k4⟩
        · exact e1 p hp
      · rw [show Dict.keys (f.vars ++ [_]) = f.vars.keys ++ [name o] from hkeys _] at e2
        simpa using e2
      · rw [e3]; simp
    · rintro ⟨h1, h2, h3⟩
      have k3 : name o ∉ f.vars.keys := by
        intro hc
        rw [List.nodup_append] at h2
        exact h2.2.2 _ hc (name o) (by simp) rfl
      obtain ⟨k1, k2, k4⟩ := h1 o (by simp)
      refine ⟨_, create_iff.2 ⟨k1, k2, k3, k4, rfl⟩, (ih _ ?_).2 ⟨?_, ?_, ?_⟩⟩
      · show (Dict.keys (f.vars ++ [_])).Nodup
        rw [hkeys, List.nodup_append]
        exact ⟨hf, by simp, by
          intro a ha b hb
          rw [List.mem_singleton] at hb; subst hb
          rintro rfl; exact k3 ha⟩
      · intro p hp
        exact h1 p (List.mem_cons_of_mem _ hp)
      · rw [show Dict.keys (f.vars ++ [_]) = f.vars.keys ++ [name o] from hkeys _]
        simpa using h2
      · rw [h3]; simp

theorem set_snoc {α : Type} (d : Dict String α) (k : String) (v w : α) (h : k ∉ d.keys) : Dict.set (d ++ [(k, v)]) k w = d ++ [(k, w)] := by
  induction d with
  | nil => show (if k = k then _ else _) = _; rw [if_pos rfl]; rfl
  | cons p d ih =>
    obtain ⟨a, b⟩ := p
    simp only [Dict.keys, List.map_cons, List.mem_cons, not_or] at h
    show (if a = k then _ else (a, b) :: Dict.set (d ++ [(k, v)]) k w) = _
    rw [if_neg (Ne.symm h.1), ih h.2]
    rfl

/-- The coordinate variables of the domain. -/
theorem labels_iff {known : String → Bool} (c : Cfg) (ds : List (String × Nat)) (f g : File) (hf : f.vars.keys.Nodup) :
    ds.foldlM (fun f d => do
      let f ← f.createVariable known d.1 (dtypeMap c.precision (c.labelType d.1)) [d.1] none
      f.modify d.1 fun v => { v with data := labelData (c.labels d.1) }) f = .ok g ↔
      (∀ d ∈ ds, known (dtypeMap c.precision (c.labelType d.1)) = true ∧ d.1 ∈ f.dims.keys) ∧
      (f.vars.keys ++ ds.map Prod.fst).Nodup ∧
      g = { f with vars := f.vars ++ ds.map fun d => (d.1, ⟨dtypeMap c.precision (c.labelType d.1), [d.1], none, [],
        labelData (c.labels d.1)⟩) } := by
  induction ds generalizing f with
  | nil =>
    rw [List.foldlM_nil, pure_ok]
    simp only [List.map_nil, List.append_nil]
    exact ⟨fun h => ⟨by simp, hf, h.symm⟩, fun h => h.2.2.symm⟩
  | cons o os ih =>
    rw [List.foldlM_cons]
    simp only [bind_ok]
    have hkeys : ∀ v : Var, Dict.keys (f.vars ++ [(o.1, v)]) = f.vars.keys ++ [o.1] := by intro v; simp [Dict.keys]
    have hnd : o.1 ∉ f.vars.keys → ∀ v, (Dict.keys (f.vars ++ [(o.1, v)])).Nodup := by
      intro k3 v
      rw [hkeys, List.nodup_append]
      exact ⟨hf, by simp, by
          intro a ha b hb
          rw [List.mem_singleton] at hb; subst hb
          rintro rfl; exact k3 ha⟩
    have hget : o.1 ∉ f.vars.keys → ∀ v : Var, Dict.get? (f.vars ++ [(o.1, v)]) o.1 = some v := by
      intro k3 v
      rw [get?_append, (Dict.get?_eq_none_iff _ _).2 k3]
      simp [Dict.get?_cons]
    constructor
    · rintro ⟨f', ⟨f'', h1, h1'⟩, h2⟩
      obtain ⟨k1, k2, k3, -, rfl⟩ := create_iff.1 h1
      obtain ⟨v, hv, rfl⟩ := modify_iff.1 h1'
      rw [show Dict.get? (f.vars ++ [_]) o.1 = _ from hget k3 _] at hv
      cases hv
      rw [set_snoc _ _ _ _ k3] at h2
      obtain ⟨e1, e2, e3⟩ := (ih _ (hnd k3 _)).1 h2
      refine ⟨?_, ?_, ?_⟩
      · intro p hp
        rcases List.mem_cons.1 hp with rfl | hp
        · exact ⟨k1, k2 _ (by simp)⟩
        · exact e1 p hp
      · rw [show Dict.keys (f.vars ++ [_]) = f.vars.keys ++ [o.1] from hkeys _] at e2
        simpa using e2
      · rw [e3]; simp
    · rintro ⟨h1, h2, h3⟩
      have k3 : o.1 ∉ f.vars.keys := by
        intro hc
        rw [List.nodup_append] at h2
        exact h2.2.2 _ hc o.1 (by simp) rfl
      obtain ⟨k1, k2⟩ := h1 o (by simp)
      refine ⟨_, ⟨_, create_iff.2 ⟨k1, by simpa using k2, k3, by simp, rfl⟩, modify_iff.2 ⟨_, hget k3 _, rfl⟩⟩, ?_⟩
      rw [set_snoc _ _ _ _ k3]
      refine (ih _ (hnd k3 _)).2 ⟨?_, ?_, ?_⟩
      · intro p hp
        exact h1 p (List.mem_cons_of_mem _ hp)
      · rw [show Dict.keys (f.vars ++ [_]) = f.vars.keys ++ [o.1] from hkeys _]
        simpa using h2
      · rw [h3]; simp

/-! ## The file a run starts with -/

theorem record_ok {p : String × PVal} {g g' : Dict String Attr}
    (h : (do match ← record p with | some a => pure (g.set p.1 a) | none => pure g : Except PyErr (Dict String Attr)) = .ok g') :
    ∃ a, record p = .ok a ∧ g' = match a with | some a => g.set p.1 a | none => g := by
  rw [bind_ok] at h
  obtain ⟨a, h1, h2⟩ := h
  refine ⟨a, h1, ?_⟩
  cases a with
  | none => exact (pure_ok.1 h2).symm
  | some a => exact (pure_ok.1 h2).symm

/-- The global attributes: those of the table, and the recorded parameters. -/
theorem globals_iff (ps : List (String × PVal)) (g : Dict String Attr) (hp : (ps.map Prod.fst).Nodup) :
    ((∃ g', globals ps g = .ok g') ↔ ∀ p ∈ ps, ∃ a, record p = .ok a) ∧
    ∀ g', globals ps g = .ok g' → (g.keys.Nodup → g'.keys.Nodup) ∧
      (∀ p ∈ ps, ∀ a, record p = .ok (some a) → g'.get? p.1 = some a) ∧
      ∀ k, (∀ p ∈ ps, p.1 = k → record p = .ok none) → g'.get? k = g.get? k := by
  induction ps generalizing g with
  | nil =>
    refine ⟨⟨by simp, fun _ => ⟨g, rfl⟩⟩, ?_⟩
    intro g' h
    obtain rfl : g = g' := pure_ok.1 h
    exact ⟨id, by simp, fun _ _ => rfl⟩
  | cons p ps ih =>
    rw [List.map_cons, List.nodup_cons] at hp
    unfold globals
    rw [List.foldlM_cons]
    constructor
    · constructor
      · rintro ⟨g', h⟩
        rw [bind_ok] at h
        obtain ⟨g1, h1, h2⟩ := h
        obtain ⟨a, ha, -⟩ := record_ok h1
        intro q hq
        rcases List.mem_cons.1 hq with rfl | hq
        · exact ⟨a, ha⟩
        · exact ((ih g1 hp.2).1.1 ⟨g', h2⟩) q hq
      · intro h
        obtain ⟨a, ha⟩ := h p (by simp)
        have hps : ∀ q ∈ ps, ∃ a, record q = .ok a := fun q hq => h q (List.mem_cons_of_mem _ hq)
        cases a with
        | none =>
          obtain ⟨g', hg'⟩ := (ih g hp.2).1.2 hps
          exact ⟨g', by rw [bind_ok]; exact ⟨g, by rw [ha]; rfl, hg'⟩⟩
        | some a =>
          obtain ⟨g', hg'⟩ := (ih (g.set p.1 a) hp.2).1.2 hps
          exact ⟨g', by rw [bind_ok]; exact ⟨g.set p.1 a, by rw [ha]; rfl, hg'⟩⟩
    · intro g' h
      rw [bind_ok] at h
      obtain ⟨g1, h1, h2⟩ := h
      obtain ⟨a, ha, hg1⟩ := record_ok h1
      obtain ⟨i1, i2, i3⟩ := (ih g1 hp.2).2 g' h2
      have hskip : ∀ q ∈ ps, q.1 = p.1 → record q = .ok none := by
        intro q hq e
        exact absurd (e ▸ List.mem_map_of_mem hq) hp.1
      refine ⟨?_, ?_, ?_⟩
      · intro hg
        apply i1
        rw [hg1]
        cases a with
        | none => exact hg
        | some a => exact Dict.nodup_set _ _ _ hg
      · intro q hq b hb
        rcases List.mem_cons.1 hq with rfl | hq
        · rw [i3 _ hskip, hg1]
          rw [ha] at hb; cases hb
          show Dict.get? (g.set q.1 b) q.1 = _
          rw [Dict.get?_set, if_pos rfl]
        · exact i2 q hq b hb
      · intro k hk
        rw [i3 k fun q hq => hk q (List.mem_cons_of_mem _ hq), hg1]
        cases a with
        | none => rfl
        | some a =>
          show Dict.get? (g.set p.1 a) k = _
          rw [Dict.get?_set, if_neg]
          intro e
          rw [hk p (by simp) e] at ha
          cases ha

/-- The attributes of the output variables. -/
theorem describe_iff (c : Cfg) (tab : Table) (os : List (String × String)) (f : File) (hn : (os.map Prod.snd).Nodup) :
    let step := fun (f : File) (o : String × String) => f.modify o.2 fun v => { v with attrs := v.attrs.update ((tab.get? o.1).getD []) }
    ((∃ g, os.foldlM step f = .ok g) ↔ ∀ o ∈ os, o.2 ∈ f.vars.keys) ∧
    ∀ g, os.foldlM step f = .ok g → g.dims = f.dims ∧ g.attrs = f.attrs ∧ g.vars.keys = f.vars.keys ∧
      (∀ o ∈ os, g.vars.get? o.2 = (f.vars.get? o.2).map fun v => { v with attrs := v.attrs.update ((tab.get? o.1).getD []) }) ∧
      ∀ n, n ∉ os.map Prod.snd → g.vars.get? n = f.vars.get? n := by
  intro step
  induction os generalizing f with
  | nil =>
    refine ⟨⟨by simp, fun _ => ⟨f, rfl⟩⟩, ?_⟩
    intro g h
    obtain rfl : f = g := pure_ok.1 h
    exact ⟨rfl, rfl, rfl, by simp, fun _ _ => rfl⟩
  | cons o os ih =>
    rw [List.map_cons, List.nodup_cons] at hn
    rw [List.foldlM_cons]
    constructor
    · constructor
      · rintro ⟨g, h⟩
        rw [bind_ok] at h
        obtain ⟨f1, h1, h2⟩ := h
        obtain ⟨-, -, hk, -⟩ := modify_facts h1
        intro q hq
        rcases List.mem_cons.1 hq with rfl | hq
        · obtain ⟨v, hv, -⟩ := modify_iff.1 h1
          by_contra hc
          rw [(Dict.get?_eq_none_iff _ _).2 hc] at hv
          cases hv
        · rw [← hk]; exact (ih f1 hn.2).1.1 ⟨g, h2⟩ q hq
      · intro h
        have ho := h o (by simp)
        obtain ⟨v, hv⟩ : ∃ v, f.vars.get? o.2 = some v := by
          cases hv : f.vars.get? o.2 with
          | none => exact absurd ho ((Dict.get?_eq_none_iff _ _).1 hv)
          | some v => exact ⟨v, rfl⟩
        have h1 : step f o = .ok _ := modify_iff.2 ⟨v, hv, rfl⟩
        obtain ⟨-, -, hk, -⟩ := modify_facts h1
        obtain ⟨g, hg⟩ := (ih _ hn.2).1.2 (fun q hq => by rw [hk]; exact h q (List.mem_cons_of_mem _ hq))
        exact ⟨g, by rw [bind_ok]; exact ⟨_, h1, hg⟩⟩
    · intro g h
      rw [bind_ok] at h
      obtain ⟨f1, h1, h2⟩ := h
      obtain ⟨m1, m2, m3, m4⟩ := modify_facts h1
      obtain ⟨i1, i2, i3, i4, i5⟩ := (ih f1 hn.2).2 g h2
      refine ⟨i1.trans m1, i2.trans m2, i3.trans m3, ?_, ?_⟩
      · intro q hq
        rcases List.mem_cons.1 hq with rfl | hq
        · rw [i5 _ hn.1, m4, if_pos rfl]
        · rw [i4 q hq, m4, if_neg]
          rintro e
          exact hn.1 (e ▸ List.mem_map_of_mem hq)
      · intro n hn'
        rw [List.map_cons, List.mem_cons, not_or] at hn'
        rw [i5 n hn'.2, m4, if_neg (Ne.symm hn'.1)]

/-- What creating a file needs: outputs that are named differently, and not like a dimension or the time; types netCDF knows;
positive sizes; parameters that can be recorded; a calendar that has the stamps. -/
structure Creatable (known : String → Bool) (c : Cfg) (tab : Table) (times : List Int) : Prop where
  names : (c.outs.map Prod.snd ++ "time" :: c.dims.map Prod.fst).Nodup
  stampType : known "i4" = true
  labelTypes : ∀ d ∈ c.dims, known (dtypeMap c.precision (c.labelType d.1)) = true
  precision : c.outs ≠ [] → known c.precision = true
  sizes : c.outs ≠ [] → times ≠ [] ∧ ∀ s ∈ Chunk.chunkSizes c.chunks c.dims, 0 < s
  time : ∃ ta, tab.get? "time" = some ta
  globals : ∃ g, tab.get? "_global" = some g
  params : ∀ p ∈ c.params, ∃ a, record p = .ok a
  stamps : ∃ nums, times.mapM (CfTime.encode c.calendar) = .ok nums

/-- The number of a stamp on a calendar. -/
def OnCalendar (calendar : String) (t : ℚ) (d : Option Datum) : Prop :=
  ∃ m, CfTime.encode calendar ⌊t⌋ = .ok m ∧ d = some (.stamp (BitVec.ofInt 32 m))

theorem onCalendar_of {calendar : String} {g : List ℚ} {nums : List Int} {data : List Nat → Option Datum}
    (h : (g.map fun t => ⌊t⌋).mapM (CfTime.encode calendar) = .ok nums)
    (hd : ∀ k : Nat, data [k] = nums[k]?.map fun t => .stamp (BitVec.ofInt 32 t)) {k : Nat} (hk : k < g.length) :
    OnCalendar calendar g[k] (data [k]) := by
  obtain ⟨h1, h2⟩ := mapM_getElem h
  have hk' : k < nums.length := by rw [h1]; simpa using hk
  refine ⟨nums[k], h2 k _ _ ?_ (List.getElem?_eq_getElem hk'), ?_⟩
  · simp [hk]
  · rw [hd, List.getElem?_eq_getElem hk']; rfl

/-- What is in a file before the first worker writes to it. -/
structure Described (c : Cfg) (tab : Table) (times : List Int) (f : File) : Prop where
  dims : f.dims = ("time", none) :: c.dims.map fun d => (d.1, some d.2)
  names : f.vars.keys = c.outs.map Prod.snd ++ "time" :: c.dims.map Prod.fst
  outs : ∀ o ∈ c.outs, ∃ v, f.vars.get? o.2 = some v ∧ v.dtype = c.precision ∧ v.dims = "time" :: c.dims.map Prod.fst ∧
    v.chunks = some (sizes c times) ∧
    (∀ a, v.attrs.get? a = (tab.get? o.1).bind fun t => t.get? a) ∧ ∀ ix, v.data ix = none
  time : ∃ v, f.vars.get? "time" = some v ∧ v.dtype = "i4" ∧ v.dims = ["time"] ∧
    (∃ nums, times.mapM (CfTime.encode c.calendar) = .ok nums ∧
      ∀ k : Nat, v.data [k] = nums[k]?.map fun t => .stamp (BitVec.ofInt 32 t)) ∧
    (∀ ta, tab.get? "time" = some ta → (∀ a x, ta.get? a = some x → v.attrs.get? a = some x) ∧
      (ta.get? "calendar" = none → v.attrs.get? "calendar" = some (.text c.calendar)))
  labels : ∀ d ∈ c.dims, ∃ v, f.vars.get? d.1 = some v ∧ v.dtype = dtypeMap c.precision (c.labelType d.1) ∧ v.dims = [d.1] ∧
    ∀ k : Nat, v.data [k] = (c.labels d.1)[k]?.map Datum.label
  params : ∀ p ∈ c.params, ∀ a, record p = .ok (some a) → f.attrs.get? p.1 = some a
  rest : ∀ g, tab.get? "_global" = some g → ∀ k, (∀ p ∈ c.params, p.1 = k → record p = .ok none) → f.attrs.get? k = g.get? k

/-- The table of the module holds dictionaries. -/
def Table.Proper (tab : Table) : Prop := ∀ k d, tab.get? k = some d → (Dict.keys d).Nodup

theorem zip_mem_sizes {c : Cfg} {f : File} (hd : f.dims = ("time", none) :: c.dims.map fun d => (d.1, some d.2))
    (hn : (c.dims.map Prod.fst).Nodup) (ht : "time" ∉ c.dims.map Prod.fst) (times : List Int) :
    (∀ p ∈ ("time" :: c.dims.map Prod.fst).zip (sizes c times), chunkOk f p = true) ↔
      times ≠ [] ∧ ∀ s ∈ Chunk.chunkSizes c.chunks c.dims, 0 < s := by
  unfold sizes
  rw [List.zip_cons_cons, List.forall_mem_cons]
  have e1 : chunkOk f ("time", (times.length : Int)) = true ↔ times ≠ [] := by
    unfold chunkOk
    rw [hd, Dict.get?_cons]
    simp [List.length_pos_iff]
  have e2 : (∀ p ∈ (c.dims.map Prod.fst).zip (Chunk.chunkSizes c.chunks c.dims), chunkOk f p = true) ↔
      ∀ s ∈ Chunk.chunkSizes c.chunks c.dims, 0 < s := by
    unfold Chunk.chunkSizes
    rw [List.zip_map', List.forall_mem_map, List.forall_mem_map]
    apply forall₂_congr
    intro d hd'
    obtain ⟨d, n⟩ := d
    have hg : Dict.get? f.dims d = some (some n) := by
      rw [hd, Dict.get?_cons, if_neg]
      · apply Dict.get?_of_mem
        · simpa [Dict.keys, List.map_map, Function.comp_def] using hn
        · exact List.mem_map.2 ⟨(d, n), hd', rfl⟩
      · rintro rfl
        exact ht (List.mem_map.2 ⟨_, hd', rfl⟩)
    unfold chunkOk
    dsimp only
    rw [hg]
    dsimp only
    rw [Bool.and_eq_true, decide_eq_true_eq, decide_eq_true_eq, and_iff_left]
    split_ifs with h
    · exact h
    · exact le_refl _
  rw [e1, e2]

/-- The file once the variables are there. -/
def stage (c : Cfg) (times nums : List Int) : File where
  dims := ("time", none) :: c.dims.map fun d => (d.1, some d.2)
  vars := (c.outs.map (fun o => (o.2, (⟨c.precision, "time" :: c.dims.map Prod.fst, some (sizes c times), [], fun _ => none⟩ : Var))) ++
    [("time", ⟨"i4", ["time"], none, [("calendar", .text c.calendar)], timeData nums⟩)]) ++
    c.dims.map fun d => (d.1, ⟨dtypeMap c.precision (c.labelType d.1), [d.1], none, [], labelData (c.labels d.1)⟩)
  attrs := []

theorem stage_keys (c : Cfg) (times nums : List Int) : (stage c times nums).vars.keys = c.outs.map Prod.snd ++ "time" :: c.dims.map Prod.fst := by
  simp [stage, Dict.keys, Function.comp_def]

theorem stage_iff (known : String → Bool) (c : Cfg) (tab : Table) (times : List Int) (k : File → Dict String Attr → Except PyErr (File × Table))
    (r : File × Table) :
    (do
      let f ← (("time", none) :: c.dims.map fun d : String × Nat => (d.1, some d.2)).foldlM File.createDimension ⟨[], [], []⟩
      let f ← makeOuts known c times f
      let f ← f.createVariable known "time" "i4" ["time"] none
      let ta ← tab.get "time"
      let nums ← times.mapM (CfTime.encode c.calendar)
      let f ← f.modify "time" fun v => { v with attrs := v.attrs.set "calendar" (.text c.calendar), data := timeData nums }
      let f ← makeLabels known c f
      k f ta) = .ok r ↔
    (c.outs.map Prod.snd ++ "time" :: c.dims.map Prod.fst).Nodup ∧ known "i4" = true ∧
    (∀ d ∈ c.dims, known (dtypeMap c.precision (c.labelType d.1)) = true) ∧ (c.outs ≠ [] → known c.precision = true) ∧
    (c.outs ≠ [] → times ≠ [] ∧ ∀ s ∈ Chunk.chunkSizes c.chunks c.dims, 0 < s) ∧
    ∃ ta nums, tab.get? "time" = some ta ∧ times.mapM (CfTime.encode c.calendar) = .ok nums ∧ k (stage c times nums) ta = .ok r := by
  have hd : ∀ f, (("time", none) :: c.dims.map fun d : String × Nat => (d.1, some d.2)).foldlM File.createDimension ⟨[], [], []⟩ = .ok f ↔
      ("time" :: c.dims.map Prod.fst).Nodup ∧ f = ⟨("time", none) :: c.dims.map fun d => (d.1, some d.2), [], []⟩ := by
    intro f
    rw [dims_iff _ ⟨[], [], []⟩ _ List.nodup_nil]
    simp [Dict.keys, Function.comp_def]
  have hset : Dict.set ([] : Dict String Attr) "calendar" (.text c.calendar) = [("calendar", .text c.calendar)] := rfl
  simp only [bind_ok]
  constructor
  · rintro ⟨f0, h1, f1, h2, f2, h3, ta, h4, nums, h45, f3, h5, f4, h6, h7⟩
    obtain ⟨n1, rfl⟩ := (hd f0).1 h1
    obtain ⟨q1, q2, q3⟩ := (vars_iff (fun o : String × String => o.2) (fun _ => c.precision) (fun _ => "time" :: c.dims.map Prod.fst)
      (some (sizes c times)) c.outs ⟨_, [], []⟩ f1 List.nodup_nil).1 h2
    subst q3
    obtain ⟨r1, r2, r3, -, rfl⟩ := create_iff.1 h3
    obtain ⟨v, hv, rfl⟩ := modify_iff.1 h5
    rw [List.nil_append] at hv r3
    rw [show Dict.get? ((c.outs.map fun o => (o.2, (⟨c.precision, "time" :: c.dims.map Prod.fst, some (sizes c times), [], fun _ => none⟩ : Var))) ++
        [("time", ⟨"i4", ["time"], none, [], fun _ => none⟩)]) "time" = some ⟨"i4", ["time"], none, [], fun _ => none⟩ by
      rw [get?_append, (Dict.get?_eq_none_iff _ _).2 r3]
      simp [Dict.get?_cons]] at hv
    cases hv
    rw [List.nil_append, set_snoc _ _ _ _ r3] at h6
    rw [hset] at h6
    have hk : Dict.keys ((c.outs.map fun o => (o.2, (⟨c.precision, "time" :: c.dims.map Prod.fst, some (sizes c times), [], fun _ => none⟩ : Var))) ++
        [("time", ⟨"i4", ["time"], none, [("calendar", .text c.calendar)], timeData nums⟩)]) = c.outs.map Prod.snd ++ ["time"] := by
      simp [Dict.keys, Function.comp_def]
    have hout : (c.outs.map Prod.snd).Nodup := by simpa [Dict.keys] using q2
    have r3' : "time" ∉ c.outs.map Prod.snd := by simpa [Dict.keys, Function.comp_def] using r3
    have hnd : (c.outs.map Prod.snd ++ ["time"]).Nodup := by
      rw [List.nodup_append]
      exact ⟨hout, by simp, by
        intro a ha b hb
        rw [List.mem_singleton] at hb; subst hb
        rintro rfl; exact r3' ha⟩
    obtain ⟨s1, s2, s3⟩ := (labels_iff c c.dims _ f4 (by show (Dict.keys (_ ++ _)).Nodup; rw [hk]; exact hnd)).1 h6
    rw [show Dict.keys (List.map _ c.outs ++ _) = _ from hk, List.append_assoc] at s2
    rw [List.nodup_cons] at n1
    refine ⟨s2, r1, fun d hd => (s1 d hd).1, ?_, ?_, ta, nums, Dict.get_ok.1 h4, h45, ?_⟩
    · intro ho
      obtain ⟨o, ho⟩ := List.exists_mem_of_ne_nil _ ho
      exact (q1 o ho).1
    · intro ho
      obtain ⟨o, ho⟩ := List.exists_mem_of_ne_nil _ ho
      exact (zip_mem_sizes rfl n1.2 n1.1 times).1 (q1 o ho).2.2
    · rw [s3] at h7
      exact h7
  · rintro ⟨hn, h1, h2, h3, h4, ta, nums, h5, h55, h6⟩
    have hn' := hn
    rw [List.nodup_append] at hn
    obtain ⟨n1, n2, n3⟩ := hn
    have n2' := n2
    rw [List.nodup_cons] at n2
    have r3 : "time" ∉ c.outs.map Prod.snd := fun h => n3 _ h "time" (by simp) rfl
    have r3' : ∀ g : String × String → Var, "time" ∉ Dict.keys (c.outs.map fun o => (o.2, g o)) := by
      intro g
      simpa [Dict.keys, Function.comp_def] using r3
    have hk : Dict.keys ((c.outs.map fun o => (o.2, (⟨c.precision, "time" :: c.dims.map Prod.fst, some (sizes c times), [], fun _ => none⟩ : Var))) ++
        [("time", ⟨"i4", ["time"], none, [("calendar", .text c.calendar)], timeData nums⟩)]) = c.outs.map Prod.snd ++ ["time"] := by
      simp [Dict.keys, Function.comp_def]
    refine ⟨_, (hd _).2 ⟨n2', rfl⟩, _, (vars_iff (fun o : String × String => o.2) (fun _ => c.precision) (fun _ => "time" :: c.dims.map Prod.fst)
      (some (sizes c times)) c.outs ⟨_, [], []⟩ _ List.nodup_nil).2 ⟨?_, ?_, rfl⟩, _, create_iff.2 ⟨h1, ?_, ?_, by simp, rfl⟩, ta,
      Dict.get_ok.2 h5, nums, h55, _, modify_iff.2 ⟨⟨"i4", ["time"], none, [], fun _ => none⟩, ?_, rfl⟩, stage c times nums, ?_, h6⟩
    · intro o ho
      have ho := List.ne_nil_of_mem ho
      refine ⟨h3 ho, ?_, (zip_mem_sizes rfl n2.2 n2.1 times).2 (h4 ho)⟩
      intro d hd
      simpa [Dict.keys, Function.comp_def] using hd
    · simpa [Dict.keys] using n1
    · intro d hd; rw [List.mem_singleton] at hd; subst hd; simp [Dict.keys]
    · exact r3' _
    · show Dict.get? (([] ++ _) ++ _) _ = _
      rw [List.nil_append, get?_append, (Dict.get?_eq_none_iff _ _).2 (r3' _)]
      simp [Dict.get?_cons]
    · rw [List.nil_append, set_snoc _ _ _ _ (r3' _), hset]
      refine (labels_iff c c.dims _ _ ?_).2 ⟨?_, ?_, rfl⟩
      · show (Dict.keys (_ ++ _)).Nodup
        rw [hk]
        rw [show "time" :: c.dims.map Prod.fst = ["time"] ++ c.dims.map Prod.fst from rfl, ← List.append_assoc] at hn'
        exact (List.nodup_append.1 hn').1
      · intro d hd
        refine ⟨h2 d hd, ?_⟩
        show d.1 ∈ Dict.keys (("time", none) :: c.dims.map fun d => (d.1, some d.2))
        simp only [Dict.keys, List.map_cons, List.map_map, List.mem_cons]
        exact Or.inr (List.mem_map.2 ⟨d, hd, rfl⟩)
      · rw [show Dict.keys (List.map _ c.outs ++ _) = _ from hk, List.append_assoc]
        exact hn'

/-- **C94**: a file is created exactly if the outputs have names of their own (different from each other, from the dimensions and from
`time`), types and sizes are possible, the parameters can be recorded and the calendar has the stamps; it then has the dimensions of the domain, one
variable per output under its name with the table's attributes and no values yet, the stamps, the domain's coordinates, and the
parameters. -/
theorem C94_created (known : String → Bool) (c : Cfg) (tab : Table) (times : List Int) (hp : (c.params.map Prod.fst).Nodup)
    (htab : Table.Proper tab) :
    ((∃ r, setup known c tab times = .ok r) ↔ Creatable known c tab times) ∧
    ∀ f tab', setup known c tab times = .ok (f, tab') → Described c tab times f ∧
      ∃ g g', tab.get? "_global" = some g ∧ globals c.params g = .ok g' ∧ tab' = tab.set "_global" g' := by
  have hget : ∀ nums, ∀ o ∈ c.outs, (stage c times nums).vars.keys.Nodup → (stage c times nums).vars.get? o.2 =
      some ⟨c.precision, "time" :: c.dims.map Prod.fst, some (sizes c times), [], fun _ => none⟩ := by
    intro nums o ho hn
    apply Dict.get?_of_mem _ hn
    exact List.mem_append_left _ (List.mem_append_left _ (List.mem_map.2 ⟨o, ho, rfl⟩))
  have htime : ∀ nums, (stage c times nums).vars.keys.Nodup → (stage c times nums).vars.get? "time" =
      some ⟨"i4", ["time"], none, [("calendar", .text c.calendar)], timeData nums⟩ := by
    intro nums hn
    apply Dict.get?_of_mem _ hn
    exact List.mem_append_left _ (List.mem_append_right _ (by simp))
  have hlab : ∀ nums, ∀ d ∈ c.dims, (stage c times nums).vars.keys.Nodup → (stage c times nums).vars.get? d.1 =
      some ⟨dtypeMap c.precision (c.labelType d.1), [d.1], none, [], labelData (c.labels d.1)⟩ := by
    intro nums d hd hn
    apply Dict.get?_of_mem _ hn
    exact List.mem_append_right _ (List.mem_map.2 ⟨d, hd, rfl⟩)
  have key := stage_iff known c tab times (fun f ta => do
    let g ← tab.get "_global"
    let g ← globals c.params g
    let f : File := { f with attrs := f.attrs.update g }
    let f ← f.modify "time" fun v => { v with attrs := v.attrs.update ta }
    let f ← describe c tab f
    pure (f, tab.set "_global" g))
  have hsplit : (c.outs.map Prod.snd ++ "time" :: c.dims.map Prod.fst).Nodup → (c.outs.map Prod.snd).Nodup ∧
      ("time" ∉ c.outs.map Prod.snd) ∧ ∀ d ∈ c.dims, d.1 ∉ c.outs.map Prod.snd ∧ d.1 ≠ "time" := by
    intro h
    rw [List.nodup_append, List.nodup_cons] at h
    refine ⟨h.1, fun h' => h.2.2 _ h' "time" (by simp) rfl, fun d hd => ⟨fun h' => h.2.2 _ h' d.1 ?_ rfl, ?_⟩⟩
    · exact List.mem_cons_of_mem _ (List.mem_map_of_mem hd)
    · rintro e
      exact h.2.1.1 (e ▸ List.mem_map_of_mem hd)
  constructor
  · constructor
    · rintro ⟨r, hr⟩
      obtain ⟨a1, a2, a3, a4, a5, ta, nums, a6, a65, a7⟩ := (key r).1 hr
      simp only [bind_ok] at a7
      obtain ⟨g, b1, g', b2, -⟩ := a7
      exact ⟨a1, a2, a3, a4, a5, ⟨ta, a6⟩, ⟨g, Dict.get_ok.1 b1⟩, (globals_iff _ g hp).1.1 ⟨g', b2⟩, ⟨nums, a65⟩⟩
    · intro h
      obtain ⟨ta, h1⟩ := h.time
      obtain ⟨nums, h15⟩ := h.stamps
      obtain ⟨g, h2⟩ := h.globals
      obtain ⟨g', h3⟩ := (globals_iff c.params g hp).1.2 h.params
      have hn : (stage c times nums).vars.keys.Nodup := by rw [stage_keys]; exact h.names
      obtain ⟨hs1, hs2, hs3⟩ := hsplit h.names
      have hm : File.modify { (stage c times nums) with attrs := Dict.update (stage c times nums).attrs g' } "time"
          (fun v => { v with attrs := v.attrs.update ta }) = .ok _ := modify_iff.2 ⟨_, htime nums hn, rfl⟩
      obtain ⟨-, -, hk, -⟩ := modify_facts hm
      obtain ⟨f, hf⟩ := (describe_iff c tab c.outs _ hs1).1.2 (fun o ho => by
        rw [hk]
        show o.2 ∈ (stage c times nums).vars.keys
        rw [stage_keys]
        exact List.mem_append_left _ (List.mem_map_of_mem ho))
      refine ⟨(f, tab.set "_global" g'), (key _).2 ⟨h.names, h.stampType, h.labelTypes, h.precision, h.sizes, ta, nums, h1, h15, ?_⟩⟩
      simp only [bind_ok]
      exact ⟨g, Dict.get_ok.2 h2, g', h3, _, hm, f, hf, rfl⟩
  · intro f tab' hr
    obtain ⟨a1, a2, a3, a4, a5, ta, nums, a6, a65, a7⟩ := (key _).1 hr
    simp only [bind_ok] at a7
    obtain ⟨g, b1, g', b2, f1, b3, f2, b4, b5⟩ := a7
    obtain ⟨rfl, rfl⟩ := Prod.mk.inj (pure_ok.1 b5)
    rw [Dict.get_ok] at b1
    have hn : (stage c times nums).vars.keys.Nodup := by rw [stage_keys]; exact a1
    obtain ⟨hs1, hs2, hs3⟩ := hsplit a1
    obtain ⟨m1, m2, m3, m4⟩ := modify_facts b3
    obtain ⟨d1, d2, d3, d4, d5⟩ := (describe_iff c tab c.outs f1 hs1).2 f2 b4
    obtain ⟨e1, e2, e3⟩ := (globals_iff c.params g hp).2 g' b2
    have hgn := htab _ _ b1
    have hattr : ∀ k, f2.attrs.get? k = g'.get? k := by
      intro k
      rw [d2, m2]
      show Dict.get? (Dict.update [] g') k = _
      rw [Dict.get?_update _ _ (e1 hgn)]
      cases g'.get? k <;> rfl
    refine ⟨⟨d1.trans m1, (d3.trans m3).trans (stage_keys c times nums), ?_, ?_, ?_, ?_, ?_⟩, g, g', b1, b2, rfl⟩
    · intro o ho
      refine ⟨⟨c.precision, "time" :: c.dims.map Prod.fst, some (sizes c times), Dict.update [] ((tab.get? o.1).getD []), fun _ => none⟩,
        (d4 o ho).trans ?_, rfl, rfl, rfl, ?_, fun _ => rfl⟩
      · rw [m4, if_neg]
        · rw [show Dict.get? (stage c times nums).vars o.2 = _ from hget nums o ho hn]; rfl
        · rintro e
          exact hs2 (e ▸ List.mem_map_of_mem ho)
      · intro a
        show Dict.get? (Dict.update [] ((tab.get? o.1).getD [])) a = _
        cases ht : tab.get? o.1 with
        | none => rfl
        | some t =>
          rw [Option.getD_some, Dict.get?_update _ _ (htab _ _ ht), Option.bind_some]
          cases t.get? a <;> rfl
    · refine ⟨⟨"i4", ["time"], none, Dict.update [("calendar", .text c.calendar)] ta, timeData nums⟩, (d5 _ hs2).trans ?_, rfl, rfl,
        ⟨nums, a65, fun k => rfl⟩, ?_⟩
      · rw [m4, if_pos rfl]
        rw [show Dict.get? (stage c times nums).vars "time" = _ from htime nums hn]; rfl
      · intro ta' hta
        rw [a6] at hta
        cases hta
        refine ⟨fun a x hx => ?_, fun hx => ?_⟩
        · show Dict.get? (Dict.update _ ta) a = _
          rw [Dict.get?_update _ _ (htab _ _ a6), hx]
        · show Dict.get? (Dict.update _ ta) "calendar" = _
          rw [Dict.get?_update _ _ (htab _ _ a6), hx]
          rfl
    · intro d hd
      obtain ⟨k1, k2⟩ := hs3 d hd
      refine ⟨_, (d5 _ k1).trans ((m4 d.1).trans ((if_neg (Ne.symm k2)).trans (hlab nums d hd hn))), rfl, rfl, fun k => rfl⟩
    · intro p hpm a ha
      rw [hattr]; exact e2 p hpm a ha
    · intro g0 hg0 k hk
      rw [b1] at hg0
      cases hg0
      rw [hattr]; exact e3 k hk

/-- **C94**: the table of global attributes belongs to the module: a second run in the same process writes the parameters only the first
one had into its own files too. -/
theorem C94_leftover {known : String → Bool} {c c' : Cfg} {tab tab1 tab2 : Table} {times times' : List Int} {f f' : File}
    (hp : (c.params.map Prod.fst).Nodup) (hp' : (c'.params.map Prod.fst).Nodup) (htab : Table.Proper tab)
    (h : setup known c tab times = .ok (f, tab1)) (h' : setup known c' tab1 times' = .ok (f', tab2))
    {p : String × PVal} (hm : p ∈ c.params) {a : Attr} (ha : record p = .ok (some a)) (hno : p.1 ∉ c'.params.map Prod.fst) :
    f'.attrs.get? p.1 = some a := by
  obtain ⟨-, g, g', h1, h2, rfl⟩ := (C94_created known c tab times hp htab).2 f tab1 h
  obtain ⟨e1, e2, -⟩ := (globals_iff c.params g hp).2 g' h2
  have htab' : Table.Proper (Dict.set tab "_global" g') := by
    intro k d hd
    rw [Dict.get?_set] at hd
    split_ifs at hd with hk
    · cases hd; exact e1 (htab _ _ h1)
    · exact htab k d hd
  obtain ⟨hd, -⟩ := (C94_created known c' _ times' hp' htab').2 f' tab2 h'
  rw [hd.rest g' (by rw [Dict.get?_set, if_pos rfl]) p.1 (fun q hq e => absurd (e ▸ List.mem_map_of_mem hq) hno)]
  exact e2 p hm a ha

end Verif.Props
