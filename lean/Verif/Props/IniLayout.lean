import Verif.Props.Ini
import Verif.Lemmas.Except
import Mathlib.Data.List.Nodup

/-!
# INI files with defaults, and the files that are refused (`metsim/io.py:109-112`)

Every file laid out in sections of options, the section `DEFAULT` among them: which of these files are accepted, and what
the accepted ones say.  A line that is neither a section, an option, a comment nor the continuation of a value makes the
reader refuse the file.
-/

namespace Verif.Props

open Txt Ini

/-- `[name]`, the name `DEFAULT` included. -/
def AnyHeader (name l : Str) : Prop :=
  name ≠ [] ∧ ']' ∉ name ∧ ∃ post, ']' ∉ post ∧ l = '[' :: (name ++ ']' :: post)

/-- The lines of a file in which sections may recur and be called `DEFAULT`. -/
inductive Layout : List (Str × List (Str × List Str)) → List Str → Prop
  | done {ls} : (∀ l ∈ ls, Idle l) → Layout [] ls
  | part {s opts rest idle h ms ns} : (∀ l ∈ idle, Idle l) → AnyHeader s h → Section opts ms → Layout rest ns →
      Layout ((s, opts) :: rest) (idle ++ h :: ms ++ ns)

/-- The name of the section of defaults. -/
def dflt : Str := "DEFAULT".toList

/-- The sections proper. -/
def properOf (doc : List (Str × List (Str × List Str))) : List (Str × List (Str × List Str)) :=
  doc.filter fun p => p.1 ≠ dflt

/-- What is said under `DEFAULT`. -/
def defaultsOf (doc : List (Str × List (Str × List Str))) : List (Str × List Str) :=
  (doc.filter fun p => p.1 = dflt).flatMap Prod.snd

/-- Nothing is said twice. -/
structure Unique (doc : List (Str × List (Str × List Str))) : Prop where
  sections : ((properOf doc).map Prod.fst).Nodup
  options : ∀ p ∈ properOf doc, (p.2.map Prod.fst).Nodup
  defaults : ((defaultsOf doc).map Prod.fst).Nodup

/-- Keys with their values. -/
def valued (o : List (Str × List Str)) : List (Str × Str) := o.map fun q => (q.1, spread q.2)

theorem set_twice {β : Type} (d : Dict Str β) (x y : β) (k : Str) : Dict.set (Dict.set d k x) k y = Dict.set d k y := by
  induction d with
  | nil => simp [Dict.set]
  | cons p d ih =>
    simp only [Dict.set]
    split
    · rename_i h; simp [Dict.set, h]
    · rename_i h; simp [Dict.set, h, ih]

theorem set_back {β : Type} (d : Dict Str β) {x : β} {k : Str} (h : Dict.get? d k = some x) : Dict.set d k x = d := by
  induction d with
  | nil => simp at h
  | cons p d ih =>
    rw [Dict.get?_cons] at h
    simp only [Dict.set]
    split
    · rename_i e; rw [if_pos e] at h; rw [← Option.some.inj h]
    · rename_i e; rw [if_neg e] at h; rw [ih h]

/-! ### What the lines say, without the lines -/

/-- Sections and defaults as read so far. -/
structure Said where
  sections : Dict Str (Dict Str Str)
  defaults : Dict Str Str

def Said.own (m : Said) (s : Str) : Dict Str Str := if s = dflt then m.defaults else (m.sections.get? s).getD []

def Said.put (m : Said) (s : Str) (o : Dict Str Str) : Said :=
  if s = dflt then { m with defaults := o } else { m with sections := m.sections.set s o }

theorem Said.own_put (m : Said) (s : Str) (o : Dict Str Str) : (m.put s o).own s = o := by
  unfold Said.put Said.own
  split <;> simp

theorem Said.put_put (m : Said) (s : Str) (o o' : Dict Str Str) : (m.put s o).put s o' = m.put s o' := by
  unfold Said.put
  split
  · rfl
  · simp only [set_twice]

/-- A key and its value. -/
def Said.add (s : Str) (m : Said) (q : Str × List Str) : Except PyErr Said :=
  if q.1 ∈ (m.own s).keys then .error .valueError else .ok (m.put s (m.own s ++ [(q.1, spread q.2)]))

/-- A section begins. -/
def Said.enter (m : Said) (s : Str) : Except PyErr Said :=
  if s ∈ m.sections.keys then .error .valueError
  else if s = dflt then .ok m else .ok { m with sections := m.sections ++ [(s, [])] }

/-- A section. -/
def Said.take (m : Said) (p : Str × List (Str × List Str)) : Except PyErr Said := do
  let m ← m.enter p.1
  p.2.foldlM (Said.add p.1) m

/-! ### The parser follows -/

/-- The parser's state says `m`, the current section being `cur`. -/
structure Says (st : St) (m : Said) (cur : Option Str) : Prop where
  sections : meanSections st.sections = m.sections
  defaults : meanOptions st.defaults = m.defaults
  cur : st.cur = cur
  indent : st.indent = 0
  bad : st.bad = false
  opt : ∀ s o, st.cur = some s → st.opt = some o → ∃ vs, (st.options s).get? o = some vs ∧ vs ≠ []

theorem mean_get (O : Options) (k : Str) : Dict.get? (meanOptions O) k = (Dict.get? O k).map joined := by
  induction O with
  | nil => rfl
  | cons p O ih =>
    show Dict.get? ((p.1, joined p.2) :: meanOptions O) k = _
    rw [Dict.get?_cons, Dict.get?_cons]
    simp only
    split
    · rfl
    · exact ih

theorem mean_set (O : Options) (k : Str) (vs : List Str) :
    meanOptions (Dict.set O k vs) = Dict.set (meanOptions O) k (joined vs) := by
  induction O with
  | nil => rfl
  | cons p O ih =>
    show meanOptions (if _ then _ else _) = (if p.1 = k then _ else _)
    split
    · rfl
    · show (p.1, joined p.2) :: meanOptions (Dict.set O k vs) = _
      rw [ih]; rfl

theorem means_get (D : Dict Str Options) (s : Str) : Dict.get? (meanSections D) s = (Dict.get? D s).map meanOptions := by
  induction D with
  | nil => rfl
  | cons p D ih =>
    show Dict.get? ((p.1, meanOptions p.2) :: meanSections D) s = _
    rw [Dict.get?_cons, Dict.get?_cons]
    simp only
    split
    · rfl
    · exact ih

theorem means_set (D : Dict Str Options) (s : Str) (O : Options) :
    meanSections (Dict.set D s O) = Dict.set (meanSections D) s (meanOptions O) := by
  induction D with
  | nil => rfl
  | cons p D ih =>
    show meanSections (if _ then _ else _) = (if p.1 = s then _ else _)
    split
    · rfl
    · show (p.1, meanOptions p.2) :: meanSections (Dict.set D s O) = _
      rw [ih]; rfl

theorem Says.own {st : St} {m : Said} {c : Option Str} (h : Says st m c) (s : Str) : meanOptions (st.options s) = m.own s := by
  unfold St.options Said.own
  rw [show defaultName = dflt from rfl]
  split
  · exact h.defaults
  · rw [← h.sections, means_get]
    cases Dict.get? st.sections s <;> rfl

theorem options_set (st : St) (s : Str) (O : Options) : (st.setOptions s O).options s = O := by
  unfold St.setOptions St.options
  split <;> simp

theorem setOptions_other (st : St) (s : Str) (O : Options) : (st.setOptions s O).cur = st.cur ∧ (st.setOptions s O).opt = st.opt ∧
    (st.setOptions s O).indent = st.indent ∧ (st.setOptions s O).bad = st.bad := by
  unfold St.setOptions
  split <;> simp

/-- The options of the current section replaced. -/
theorem Says.set {st : St} {m : Said} {s : Str} (h : Says st m (some s)) {O : Options} {k : Str} {vs : List Str}
    (hk : Dict.get? O k = some vs) (hvs : vs ≠ []) {st' : St} (h' : st' = { st.setOptions s O with opt := some k, bad := false }) :
    Says st' (m.put s (meanOptions O)) (some s) := by
  obtain ⟨a, b, c, d⟩ := setOptions_other st s O
  subst h'
  refine ⟨?_, ?_, by rw [← h.cur]; exact a, by rw [← h.indent]; exact c, rfl, ?_⟩
  · show meanSections (st.setOptions s O).sections = _
    unfold St.setOptions Said.put
    rw [show defaultName = dflt from rfl]
    split
    · exact h.sections
    · simp only [means_set, h.sections]
  · show meanOptions (st.setOptions s O).defaults = _
    unfold St.setOptions Said.put
    rw [show defaultName = dflt from rfl]
    split
    · rfl
    · exact h.defaults
  · intro s' o hs' ho
    obtain rfl : s' = s := by
      have : (st.setOptions s O).cur = some s' := hs'
      rw [a, h.cur] at this
      exact (Option.some.inj this).symm
    obtain rfl : k = o := Option.some.inj ho
    refine ⟨vs, ?_, hvs⟩
    show ((st.setOptions s' O).options s').get? k = _
    rw [options_set, hk]

theorem Said.put_own (m : Said) (s : Str) (h : s = dflt ∨ s ∈ m.sections.keys) : m.put s (m.own s) = m := by
  unfold Said.put Said.own
  split
  · rfl
  · rename_i hd
    have hs := h.resolve_left hd
    obtain ⟨S, F⟩ := m
    simp only [Said.mk.injEq, and_true]
    simp only at hs
    induction S with
    | nil => simp [Dict.keys] at hs
    | cons p S ih =>
      rw [Dict.get?_cons]
      simp only [Dict.set]
      split
      · rename_i e; subst e; rfl
      · rename_i e
        have hs' : s ∈ Dict.keys S := by
          simp only [Dict.keys, List.map_cons, List.mem_cons] at hs
          exact hs.resolve_left fun x => e x.symm
        rw [ih (.inr hs') hs']

/-- The current section is there. -/
def Open (m : Said) : Option Str → Prop
  | none => True
  | some s => s = dflt ∨ s ∈ m.sections.keys

theorem Says.extend {st : St} {m : Said} {c : Option Str} (h : Says st m c) (ho : Open m c) : Says (st.extend []) m c := by
  cases hcur : st.cur with
  | none =>
    have : st.extend [] = st := by unfold St.extend; rw [hcur]
    rw [this]; exact h
  | some s =>
    cases hopt : st.opt with
    | none =>
      have : st.extend [] = st := by unfold St.extend; rw [hcur, hopt]
      rw [this]; exact h
    | some o =>
      have hc : c = some s := by rw [← h.cur, hcur]
      subst hc
      obtain ⟨vs, hvs, hne⟩ := h.opt s o hcur hopt
      have e : st.extend [] = { st.setOptions s ((st.options s).set o (vs ++ [[]])) with opt := some o, bad := false } := by
        unfold St.extend
        rw [hcur, hopt]
        simp only
        rw [hvs]
        obtain ⟨a, b, c', d⟩ := setOptions_other st s ((st.options s).set o (vs ++ [[]]))
        rw [hopt] at b; rw [h.bad] at d
        simp only [Option.getD_some]
        rw [← b, ← d]
      have := h.set (O := (st.options s).set o (vs ++ [[]])) (k := o) (vs := vs ++ [[]]) (by simp) (by simp) e
      rw [mean_set, joined_blank hne] at this
      have back : Dict.set (meanOptions (st.options s)) o (joined vs) = meanOptions (st.options s) := by
        exact set_back _ (by rw [mean_get, hvs]; rfl)
      rw [back, h.own, Said.put_own _ _ ho] at this
      exact this

theorem says_idle {ls : List Str} (h : ∀ l ∈ ls, Idle l) {st : St} {m : Said} {c : Option Str} (hst : Says st m c) (ho : Open m c) :
    ∃ st', ls.foldlM step st = .ok st' ∧ Says st' m c := by
  induction ls generalizing st with
  | nil => exact ⟨st, rfl, hst⟩
  | cons l ls ih =>
    rw [List.foldlM_cons]
    rcases idle_step (h l (by simp)) st with e | e
    · rw [e]; exact ih (fun x hx => h x (by simp [hx])) hst
    · rw [e]; exact ih (fun x hx => h x (by simp [hx])) (hst.extend ho)

/-- The parser does as `x` says. -/
def Follows (got : Except PyErr St) (x : Except PyErr Said) (c : Option Str) : Prop :=
  match x with
  | .ok m => ∃ st, got = .ok st ∧ Says st m c ∧ Open m c
  | .error _ => got = .error .valueError

theorem says_header {s h : Str} (hh : AnyHeader s h) {st : St} {m : Said} {c : Option Str} (hst : Says st m c) :
    Follows (step st h) (m.enter s) (some s) := by
  obtain ⟨h1, h2, post, h4, rfl⟩ := hh
  obtain ⟨value, hv, hhead⟩ := header_seen (post := post) h1 h2
  have hkeys : st.sections.keys = m.sections.keys := by
    show st.sections.map Prod.fst = m.sections.map Prod.fst
    rw [← hst.sections, mean_names]
  unfold step Said.enter
  simp only [hv.strip]
  rw [if_neg hv.plain, if_neg hv.full, hv.level, if_neg (by omega), hhead]
  simp only
  rw [hkeys, show defaultName = dflt from rfl]
  by_cases hn : s ∈ m.sections.keys
  · rw [if_pos hn, if_pos hn]; exact rfl
  · rw [if_neg hn, if_neg hn]
    by_cases hd : s = dflt
    · rw [if_pos hd, if_pos hd]
      exact ⟨_, rfl, ⟨hst.sections, hst.defaults, rfl, rfl, hst.bad, fun _ _ _ h => by cases h⟩, .inl hd⟩
    · rw [if_neg hd, if_neg hd]
      refine ⟨_, rfl, ⟨?_, hst.defaults, rfl, rfl, hst.bad, fun _ _ _ h => by cases h⟩, .inr (by simp [Dict.keys])⟩
      show meanSections (Dict.set st.sections s []) = _
      rw [means_set, hst.sections, set_new (show s ∉ m.sections.map Prod.fst from hn)]
      rfl

theorem says_more {cs ms : List Str} (h : List.Forall₂ MoreLine cs ms) {st : St} {s k : Str} {vs : List Str}
    (hc : st.cur = some s) (ho : st.opt = some k) (hi : st.indent = 0) (hg : (st.options s).get? k = some vs) :
    ms.foldlM step st = .ok (st.setOptions s ((st.options s).set k (vs ++ cs))) := by
  induction h generalizing st vs with
  | nil =>
    rw [List.append_nil]
    rw [set_back _ hg]
    show Except.ok st = _
    congr 1
    unfold St.setOptions St.options at *
    split
    · rfl
    · rename_i hd
      rw [if_neg hd] at hg
      cases hs : Dict.get? st.sections s with
      | none => rw [hs] at hg; simp at hg
      | some O =>
        simp [set_back _ hs]
  | @cons c l cs ms hl hrest ih =>
    have hstep : step st l = .ok (st.setOptions s ((st.options s).set k (vs ++ [c]))) := by
      obtain ⟨pre, post, rfl, hp, b1, b2, c0, ct, c1, c2⟩ := hl
      have hs := strip_mid b1 b2 ct
      unfold step
      simp only [hs]
      rw [if_neg (by push Not; exact ⟨c1, c2⟩), if_neg c0]
      have hlev : 0 < ((pre ++ c ++ post).takeWhile isSpace).length := by
        obtain ⟨y, ys, rfl⟩ := List.exists_cons_of_ne_nil hp
        have := b1 y (by simp)
        simp [this]
      rw [if_pos ⟨by rw [hc]; rfl, by rw [ho]; rfl, by omega⟩]
      unfold St.extend
      rw [hc, ho]
      simp only [hg, Option.getD_some]
    obtain ⟨a, b, c', d⟩ := setOptions_other st s ((st.options s).set k (vs ++ [c]))
    rw [List.foldlM_cons, hstep]
    have := @ih (st.setOptions s ((st.options s).set k (vs ++ [c]))) (vs ++ [c]) (by rw [a, hc]) (by rw [b, ho]) (by rw [c', hi])
      (by rw [options_set]; simp)
    rw [options_set] at this
    refine this.trans ?_
    congr 1
    rw [set_twice, List.append_assoc, List.singleton_append]
    unfold St.setOptions
    split
    · rfl
    · simp only [set_twice]

theorem says_entry {k : Str} {vs ls : List Str} (hk : KeyOk k) (h : Entry k vs ls) {st : St} {m : Said} {s : Str}
    (hst : Says st m (some s)) : Follows (ls.foldlM step st) (m.add s (k, vs)) (some s) := by
  obtain ⟨v, cs, l, ms, rfl, rfl, hl, hms⟩ := h
  obtain ⟨value, hv, hhead, hopt⟩ := option_seen hk hl
  have hv' : Trimmed v := by obtain ⟨-, -, -, -, -, -, -, -, -, hv⟩ := hl; exact hv
  have hc : ∀ c ∈ cs, c ≠ [] ∧ Trimmed c := by
    clear hst
    induction hms with
    | nil => simp
    | cons h1 h2 ih =>
      intro x hx
      rcases List.mem_cons.1 hx with rfl | hx
      · obtain ⟨-, -, -, -, -, -, a, b, -⟩ := h1
        exact ⟨a, b⟩
      · exact ih x hx
  rw [List.foldlM_cons]
  have hkeys : (st.options s).keys = (m.own s).keys := by
    show (st.options s).map Prod.fst = (m.own s).map Prod.fst
    rw [← hst.own, mean_keys]
  have hopts : ({ st with indent := 0 } : St).options s = st.options s := rfl
  have hstep : step st l = if k ∈ (m.own s).keys then .error .valueError else
      .ok { st.setOptions s ((st.options s).set k [v]) with opt := some k, bad := false } := by
    unfold step
    simp only [hv.strip]
    rw [if_neg hv.plain, if_neg hv.full, hv.level, if_neg (by omega), hhead]
    simp only [hst.cur, hopt]
    rw [show ({ st with cur := some s, indent := 0 } : St) = st by rw [← hst.cur, ← hst.indent], hkeys]
    split
    · rfl
    · congr 1
      simp [hst.bad, hk.1]
  rw [hstep]
  unfold Said.add
  simp only
  by_cases hin : k ∈ (m.own s).keys
  · rw [if_pos hin, if_pos hin]; rfl
  · rw [if_neg hin, if_neg hin]
    obtain ⟨a, b, c, d⟩ := setOptions_other st s ((st.options s).set k [v])
    have hin' : k ∉ (st.options s).map Prod.fst := by rw [← hkeys] at hin; exact hin
    have hmore := says_more hms (st := { st.setOptions s ((st.options s).set k [v]) with opt := some k, bad := false }) (s := s)
      (k := k) (vs := [v]) (by show (st.setOptions s _).cur = _; rw [a, hst.cur]) rfl
      (by show (st.setOptions s _).indent = _; rw [c, hst.indent])
      (by show ((st.setOptions s _).options s).get? k = _; rw [options_set]; simp)
    refine ⟨_, hmore, ?_⟩
    have e1 : ({ st.setOptions s ((st.options s).set k [v]) with opt := some k, bad := false } : St).options s =
        (st.options s).set k [v] := options_set st s _
    rw [e1, set_twice]
    have hsays := hst.set (O := (st.options s).set k ([v] ++ cs)) (k := k) (vs := [v] ++ cs) (by simp) (by simp)
      (st' := ({ st.setOptions s ((st.options s).set k [v]) with opt := some k, bad := false } : St).setOptions s
        ((st.options s).set k ([v] ++ cs))) (by
        unfold St.setOptions
        split
        · rfl
        · simp only [set_twice])
    rw [mean_set, hst.own, show [v] ++ cs = v :: cs from rfl, joined_value hv' hc,
      set_new (show k ∉ (m.own s).map Prod.fst from hin)] at hsays
    refine ⟨hsays, ?_⟩
    unfold Said.put
    split
    · rename_i e; exact .inl e
    · right
      rw [← not_not (a := s ∈ _), ← Dict.get?_eq_none_iff]
      simp

theorem follows_bind {got : Except PyErr St} {x : Except PyErr Said} {c c' : Option Str} (h : Follows got x c) {f : St → Except PyErr St}
    {g : Said → Except PyErr Said} (hf : ∀ st m, Says st m c → Open m c → Follows (f st) (g m) c') : Follows (got >>= f) (x >>= g) c' := by
  cases x with
  | error e => rw [show got = .error .valueError from h]; exact rfl
  | ok m =>
    obtain ⟨st, rfl, hs, ho⟩ := h
    exact hf st m hs ho

theorem says_section {opts : List (Str × List Str)} {ls : List Str} (h : Section opts ls) {st : St} {m : Said} {s : Str}
    (hst : Says st m (some s)) (ho : Open m (some s)) : Follows (ls.foldlM step st) (opts.foldlM (Said.add s) m) (some s) := by
  induction h generalizing st m with
  | done hi =>
    obtain ⟨st', e, h⟩ := says_idle hi hst ho
    exact ⟨st', e, h, ho⟩
  | @entry k vs rest idle ls ms hi hk he hrest ih =>
    obtain ⟨st1, e1, h1⟩ := says_idle hi hst ho
    rw [List.foldlM_append, List.foldlM_append, e1, List.foldlM_cons]
    exact follows_bind (says_entry hk he h1) fun st m a b => ih a b

theorem says_layout {doc : List (Str × List (Str × List Str))} {ls : List Str} (h : Layout doc ls) {st : St} {m : Said}
    {c : Option Str} (hst : Says st m c) (ho : Open m c) : ∃ c', Follows (ls.foldlM step st) (doc.foldlM Said.take m) c' ∧
      (doc ≠ [] → c'.isSome) ∧ (doc = [] → c' = c) := by
  induction h generalizing st m c with
  | done hi =>
    obtain ⟨st', e, h⟩ := says_idle hi hst ho
    exact ⟨c, ⟨st', e, h, ho⟩, by simp, by simp⟩
  | @part s opts rest idle h ms ns hi hh hsec hrest ih =>
    obtain ⟨st1, e1, h1⟩ := says_idle hi hst ho
    rw [List.foldlM_append, List.foldlM_append, e1]
    have hpart : Follows ((h :: ms).foldlM step st1) (m.take (s, opts)) (some s) := by
      rw [List.foldlM_cons]
      exact follows_bind (says_header hh h1) fun st m a b => says_section hsec a b
    rw [List.foldlM_cons]
    change ∃ c', Follows ((h :: ms).foldlM step st1 >>= fun b => ns.foldlM step b) _ c' ∧ _
    by_cases hr : rest = []
    · refine ⟨some s, follows_bind hpart fun st m a b => ?_, by simp, by simp⟩
      obtain ⟨c', h1, -, h3⟩ := ih a b
      rw [h3 hr] at h1; exact h1
    · generalize m.take (s, opts) = x at hpart
      cases x with
      | error e => exact ⟨some s, by rw [show (h :: ms).foldlM step st1 = .error .valueError from hpart]; exact rfl, by simp, by simp⟩
      | ok m' =>
        obtain ⟨st', e', a, b⟩ := hpart
        obtain ⟨c', h1, h2, -⟩ := ih a b
        refine ⟨c', by rw [e']; exact h1, fun _ => h2 hr, by simp⟩

/-! ### What is said -/

theorem add_all (s : Str) (opts : List (Str × List Str)) (m : Said) (hm : (m.own s).keys.Nodup) (ho : Open m (some s)) :
    ((m.own s).keys ++ opts.map Prod.fst).Nodup ∧ opts.foldlM (Said.add s) m = .ok (m.put s (m.own s ++ valued opts)) ∨
    ¬((m.own s).keys ++ opts.map Prod.fst).Nodup ∧ opts.foldlM (Said.add s) m = .error .valueError := by
  induction opts generalizing m with
  | nil => exact .inl ⟨by simpa using hm, by simp [valued, Said.put_own m s ho, pure, Except.pure]⟩
  | cons o opts ih =>
    rw [List.foldlM_cons]
    unfold Said.add
    by_cases hin : o.1 ∈ (m.own s).keys
    · right
      rw [if_pos hin]
      refine ⟨fun h => ?_, rfl⟩
      exact (List.nodup_append.1 h).2.2 _ hin o.1 (by simp) rfl
    · rw [if_neg hin]
      have ho' : Open (m.put s (m.own s ++ [(o.1, spread o.2)])) (some s) := by
        unfold Said.put
        split
        · rename_i e; exact .inl e
        · right
          rw [← not_not (a := s ∈ _), ← Dict.get?_eq_none_iff]
          simp
      have hk : (m.own s ++ [(o.1, spread o.2)] : Dict Str Str).keys = (m.own s).keys ++ [o.1] := by simp [Dict.keys]
      have := ih (m.put s (m.own s ++ [(o.1, spread o.2)])) (by
        rw [Said.own_put, hk, List.nodup_append]
        exact ⟨hm, by simp, fun a ha b hb => by
          obtain rfl : b = o.1 := by simpa using hb
          rintro rfl; exact hin ha⟩) ho'
      rw [Said.own_put, hk, Said.put_put, List.append_assoc, List.append_assoc] at this
      exact this

/-- A section: accepted unless it or one of its keys was there already. -/
theorem take_all (doc : List (Str × List (Str × List Str))) (m : Said) (hs : dflt ∉ m.sections.keys) (hd : m.defaults.keys.Nodup)
    (hn : m.sections.keys.Nodup) :
    let good := (m.sections.keys ++ (properOf doc).map Prod.fst).Nodup ∧ (∀ p ∈ properOf doc, (p.2.map Prod.fst).Nodup) ∧
      (m.defaults.keys ++ (defaultsOf doc).map Prod.fst).Nodup
    good ∧ doc.foldlM Said.take m =
      .ok ⟨m.sections ++ (properOf doc).map fun p => (p.1, valued p.2), m.defaults ++ valued (defaultsOf doc)⟩ ∨
    ¬good ∧ doc.foldlM Said.take m = .error .valueError := by
  induction doc generalizing m with
  | nil => exact .inl ⟨⟨by simpa [properOf] using hn, by simp [properOf], by simpa [defaultsOf] using hd⟩, by
      simp [properOf, defaultsOf, valued, pure, Except.pure]⟩
  | cons p doc ih =>
    obtain ⟨s, opts⟩ := p
    rw [List.foldlM_cons]
    unfold Said.take Said.enter
    by_cases e : s = dflt
    · subst e
      have p1 : properOf ((dflt, opts) :: doc) = properOf doc := by simp [properOf]
      have p2 : defaultsOf ((dflt, opts) :: doc) = opts ++ defaultsOf doc := by simp [defaultsOf]
      rw [p1, p2]
      simp only [if_neg hs, if_true]
      have hown : m.own dflt = m.defaults := by simp [Said.own]
      change _ ∧ (opts.foldlM (Said.add dflt) m >>= _) = _ ∨ _ ∧ (opts.foldlM (Said.add dflt) m >>= _) = _
      rcases add_all dflt opts m (by rw [hown]; exact hd) (.inl rfl) with ⟨a, b⟩ | ⟨a, b⟩
      · rw [b, hown]
        have hput : m.put dflt (m.defaults ++ valued opts) = ⟨m.sections, m.defaults ++ valued opts⟩ := by simp [Said.put]
        rw [hown] at a
        have hk : Dict.keys (m.defaults ++ valued opts) = m.defaults.keys ++ opts.map Prod.fst := by
          simp [Dict.keys, valued]
        have := ih ⟨m.sections, m.defaults ++ valued opts⟩ hs (by rw [hk]; exact a) hn
        rw [hput]
        simp only [hk, List.append_assoc, List.map_append] at this ⊢
        rw [show valued (opts ++ defaultsOf doc) = valued opts ++ valued (defaultsOf doc) by simp [valued]]
        exact this
      · right
        rw [b]
        refine ⟨fun h => a ?_, rfl⟩
        rw [hown]
        have := h.2.2
        rw [List.map_append, ← List.append_assoc] at this
        exact (List.nodup_append.1 this).1
    · have p1 : properOf ((s, opts) :: doc) = (s, opts) :: properOf doc := by simp [properOf, e]
      have p2 : defaultsOf ((s, opts) :: doc) = defaultsOf doc := by simp [defaultsOf, e]
      rw [p1, p2]
      by_cases hin : s ∈ m.sections.keys
      · right
        simp only [if_pos hin]
        refine ⟨fun h => ?_, rfl⟩
        exact (List.nodup_append.1 h.1).2.2 _ hin s (by simp) rfl
      · simp only [if_neg hin, if_neg e]
        have hown : Said.own ⟨m.sections ++ [(s, [])], m.defaults⟩ s = [] := by
          unfold Said.own
          rw [if_neg e]
          show (Dict.get? (m.sections ++ [(s, [])]) s).getD [] = []
          rw [get_last (show s ∉ m.sections.map Prod.fst from hin)]; rfl
        change _ ∧ (opts.foldlM (Said.add s) _ >>= _) = _ ∨ _ ∧ (opts.foldlM (Said.add s) _ >>= _) = _
        rcases add_all s opts ⟨m.sections ++ [(s, [])], m.defaults⟩ (by rw [hown]; simp [Dict.keys]) (.inr (by simp [Dict.keys]))
          with ⟨a, b⟩ | ⟨a, b⟩
        · rw [b, hown]
          have hput : Said.put ⟨m.sections ++ [(s, [])], m.defaults⟩ s ([] ++ valued opts) =
              ⟨m.sections ++ [(s, valued opts)], m.defaults⟩ := by
            unfold Said.put
            rw [if_neg e]
            simp only [set_last (show s ∉ m.sections.map Prod.fst from hin), List.nil_append]
          rw [hown] at a
          have hk : Dict.keys (m.sections ++ [(s, valued opts)]) = m.sections.keys ++ [s] := by simp [Dict.keys]
          have hn' : (m.sections.keys ++ [s]).Nodup := by
            rw [List.nodup_append]
            exact ⟨hn, by simp, fun a ha b hb => by
              obtain rfl : b = s := by simpa using hb
              rintro rfl; exact hin ha⟩
          have := ih ⟨m.sections ++ [(s, valued opts)], m.defaults⟩ (by
            show dflt ∉ Dict.keys (m.sections ++ [(s, valued opts)])
            rw [hk]; simp [hs, Ne.symm e]) hd (by rw [hk]; exact hn')
          rw [hput]
          have a' : (opts.map Prod.fst).Nodup := by simpa [Dict.keys] using a
          simp only [hk, List.append_assoc, List.map_cons, List.singleton_append, List.mem_cons, forall_eq_or_imp, a',
            true_and] at this ⊢
          exact this
        · right
          rw [b]
          refine ⟨fun h => a ?_, rfl⟩
          rw [hown]
          have := h.2.1 (s, opts) (by simp)
          simpa [Dict.keys] using this

/-! ### Files -/

theorem says_start : Says {} ⟨[], []⟩ none := ⟨rfl, rfl, rfl, rfl, rfl, fun _ _ h => by cases h⟩

theorem read_follows {doc : List (Str × List (Str × List Str))} {lines : List Str} (h : Layout doc lines) :
    Unique doc ∧ (∃ st c, lines.foldlM step {} = .ok st ∧ Says st ⟨(properOf doc).map fun p => (p.1, valued p.2), valued (defaultsOf doc)⟩ c ∧
      (doc ≠ [] → c.isSome) ∧ (doc = [] → c = none)) ∨
    ¬Unique doc ∧ lines.foldlM step {} = .error .valueError := by
  obtain ⟨c, hf, hc, hc'⟩ := says_layout h says_start trivial
  have := take_all doc ⟨[], []⟩ (by simp [Dict.keys]) (by simp [Dict.keys]) (by simp [Dict.keys])
  simp only [Dict.keys, List.map_nil, List.nil_append] at this
  rcases this with ⟨a, b⟩ | ⟨a, b⟩
  · left
    rw [b] at hf
    obtain ⟨st, e, hs, -⟩ := hf
    exact ⟨⟨a.1, a.2.1, a.2.2⟩, st, c, e, hs, hc, hc'⟩
  · right
    rw [b] at hf
    exact ⟨fun hu => a ⟨hu.1, hu.2, hu.3⟩, hf⟩

/-- **C91, with defaults.**  A file laid out in sections of options is accepted exactly if no section but `DEFAULT` recurs and no
    key recurs in a section; it then reads as its sections, each with its own options and, behind them, the options of
    `DEFAULT` that it does not have itself. -/
theorem C91_defaults {doc : List (Str × List (Str × List Str))} {lines : List Str} (h : Layout doc lines) :
    (Unique doc → Ini.read lines = .ok ⟨(properOf doc).map fun p =>
      (p.1, valued p.2 ++ (valued (defaultsOf doc)).filter fun o => decide (o.1 ∉ p.2.map Prod.fst))⟩) ∧
    (¬Unique doc → Ini.read lines = .error .valueError) := by
  rcases read_follows h with ⟨a, st, c, e, hs, -⟩ | ⟨a, b⟩
  · refine ⟨fun _ => ?_, fun hu => absurd a hu⟩
    unfold Ini.read
    rw [e]
    show (if st.bad = true then _ else _) = _
    rw [hs.bad]
    simp only [Bool.false_eq_true, if_false]
    have h1 := hs.defaults
    have h2 := hs.sections
    simp only at h1 h2
    unfold meanOptions at h1
    show Except.ok _ = _
    rw [h1]
    congr 2
    have : ∀ (D : Dict Str Options) (P : List (Str × List (Str × List Str))), meanSections D = P.map (fun p => (p.1, valued p.2)) →
        (D.map fun q => (q.1, (q.2.map fun o => (o.1, joined o.2)) ++
          (valued (defaultsOf doc)).filter fun o => decide (o.1 ∉ q.2.keys))) =
        P.map fun p => (p.1, valued p.2 ++ (valued (defaultsOf doc)).filter fun o => decide (o.1 ∉ p.2.map Prod.fst)) := by
      intro D
      induction D with
      | nil => intro P hP; cases P with
        | nil => rfl
        | cons p P => simp [meanSections] at hP
      | cons q D ih =>
        intro P hP
        cases P with
        | nil => simp [meanSections] at hP
        | cons p P =>
          obtain ⟨hq, hP⟩ := List.cons_eq_cons.1 (show (q.1, meanOptions q.2) :: meanSections D = _ from hP)
          rw [List.map_cons, List.map_cons, ih P hP]
          obtain ⟨e1, e2⟩ := Prod.mk.inj hq
          congr 1
          have hk : Dict.keys q.2 = p.2.map Prod.fst := by
            show q.2.map Prod.fst = _
            rw [← mean_keys, e2]; simp [valued]
          rw [e1, hk, ← e2]; rfl
    exact this _ _ h2
  · refine ⟨fun hu => absurd hu a, fun _ => ?_⟩
    unfold Ini.read
    rw [b]; rfl

/-! ### Lines that are nothing -/

theorem step_error {st : St} {l : Str} {e : PyErr} (h : step st l = .error e) : e = .valueError := by
  unfold step at h
  simp only at h
  split at h
  · cases h
  · split at h
    · cases h
    · split at h
      · cases h
      · split at h
        · split at h
          · cases h; rfl
          · split at h <;> cases h
        · split at h
          · cases h; rfl
          · split at h
            · cases h
            · split at h
              · cases h; rfl
              · cases h

theorem extend_bad (st : St) (v : Str) : (st.extend v).bad = st.bad := by
  unfold St.extend
  split
  · exact (setOptions_other _ _ _).2.2.2
  · rfl

theorem step_bad {st st' : St} {l : Str} (h : step st l = .ok st') (hb : st.bad = true) : st'.bad = true := by
  unfold step at h
  simp only at h
  split at h
  · cases h; exact hb
  · split at h
    · cases h; rw [extend_bad]; exact hb
    · split at h
      · cases h; rw [extend_bad]; exact hb
      · split at h
        · split at h
          · cases h
          · split at h <;> (cases h; exact hb)
        · split at h
          · cases h
          · split at h
            · cases h; rfl
            · split at h
              · cases h
              · cases h; simp [hb]

theorem steps_bad {ls : List Str} {st : St} (hb : st.bad = true) :
    ls.foldlM step st = .error .valueError ∨ ∃ st', ls.foldlM step st = .ok st' ∧ st'.bad = true := by
  induction ls generalizing st with
  | nil => exact .inr ⟨st, rfl, hb⟩
  | cons l ls ih =>
    rw [List.foldlM_cons]
    cases h : step st l with
    | error e => left; rw [step_error h]; rfl
    | ok st' => exact ih (step_bad h hb)

/-- A line that begins with something but is no comment, no section and no option: without separator, or without a key. -/
def Junk (l : Str) : Prop :=
  ∃ x r, l = x :: r ∧ isSpace x = false ∧ x ≠ '#' ∧ x ≠ ';' ∧ (x = '[' → ']' ∉ r) ∧ ((∀ c ∈ l, c ≠ '=' ∧ c ≠ ':') ∨ x = '=' ∨ x = ':')

theorem first_seen {x : Char} {pre r : Str} (hp : Blanks pre) (hx : isSpace x = false) (h1 : x ≠ '#') (h2 : x ≠ ';') :
    ∃ lv, Seen (pre ++ x :: r) (x :: rstrip r) lv := by
  have e1 : lstrip (pre ++ x :: r) = x :: r := by
    unfold lstrip
    rw [List.dropWhile_append_of_pos hp]
    simp [hx]
  exact ⟨_, by rw [strip_eq, e1, rstrip_snoc _ _ hx], rfl, by simp, by simp [h1, h2]⟩

theorem mem_rstrip {c : Char} {r : Str} (h : c ∈ rstrip r) : c ∈ r := by
  unfold rstrip lstrip at h
  rw [List.mem_reverse] at h
  exact List.mem_reverse.1 ((List.dropWhile_sublist _).subset h)

theorem no_header {x : Char} {r : Str} (h : x = '[' → ']' ∉ r) : header (x :: rstrip r) = none := by
  unfold header
  split
  · rename_i rest heq
    obtain ⟨rfl, rfl⟩ := List.cons_eq_cons.1 heq
    rw [if_neg]
    rintro ⟨-, hm⟩
    exact h rfl (mem_rstrip hm)
  · rfl

/-- **C91: a line that is neither section nor option makes the reader refuse the file**, wherever it stands and whatever
    comes behind it. -/
theorem C91_junk {doc : List (Str × List (Str × List Str))} {lines rest : List Str} {l : Str} (h : Layout doc lines) (hl : Junk l) :
    Ini.read (lines ++ l :: rest) = .error .valueError := by
  obtain ⟨x, r, rfl, hx, h1, h2, hh, hd⟩ := hl
  obtain ⟨lv, hv⟩ := first_seen (pre := []) (r := r) (by intro c hc; simp at hc) hx h1 h2
  rw [List.nil_append] at hv
  have hlv : lv = 0 := by rw [← hv.level]; simp [hx]
  subst hlv
  have hhead := no_header hh
  unfold Ini.read
  rw [List.foldlM_append]
  rcases read_follows h with ⟨-, st, c, e, hs, hc, hc'⟩ | ⟨-, b⟩
  · rw [e]
    change ((x :: r) :: rest).foldlM step st >>= _ = _
    rw [List.foldlM_cons]
    have key : step st (x :: r) = .error .valueError ∨ ∃ st', step st (x :: r) = .ok st' ∧ st'.bad = true := by
      unfold step
      simp only [hv.strip]
      rw [if_neg hv.plain, if_neg hv.full, hv.level, if_neg (by omega), hhead]
      simp only
      split
      · exact .inl rfl
      · rename_i s hcur
        rcases hd with hd | hd
        · have : option (x :: rstrip r) = none := by
            unfold option
            rw [if_neg]
            rw [List.any_eq_true]
            rintro ⟨c, hc, hcd⟩
            have hm : c ∈ x :: r := by
              rcases List.mem_cons.1 hc with rfl | hc
              · simp
              · exact List.mem_cons_of_mem _ (mem_rstrip hc)
            have := hd c hm
            unfold isDelim at hcd
            rcases (by simpa using hcd : c = '=' ∨ c = ':') with e | e
            · exact this.1 e
            · exact this.2 e
          rw [this]
          exact .inr ⟨_, rfl, rfl⟩
        · have hxd : isDelim x = true := by rcases hd with rfl | rfl <;> decide
          have : option (x :: rstrip r) = some ([], strip (rstrip r)) := by
            unfold option
            rw [if_pos (by rw [List.any_cons, hxd]; rfl), List.takeWhile_cons_of_neg (by simp [hxd]),
              List.dropWhile_cons_of_neg (by simp [hxd])]
            rfl
          rw [this]
          simp only
          split
          · exact .inl rfl
          · exact .inr ⟨_, rfl, by simp⟩
    rcases key with k | ⟨st', k, hb⟩
    · rw [k]; rfl
    · rw [k]
      change rest.foldlM step st' >>= _ = _
      rcases steps_bad hb (ls := rest) with k | ⟨st'', k, hb⟩
      · rw [k]; rfl
      · rw [k]
        show (if st''.bad = true then _ else _) = _
        rw [if_pos hb]; rfl
  · rw [b]; rfl

/-- **C91: nothing but comments may stand before the first section.** -/
theorem C91_headless {idle rest : List Str} {pre r : Str} {x : Char} (hi : ∀ l ∈ idle, Idle l) (hp : Blanks pre)
    (hx : isSpace x = false) (h1 : x ≠ '#') (h2 : x ≠ ';') (h3 : x = '[' → ']' ∉ r) :
    Ini.read (idle ++ (pre ++ x :: r) :: rest) = .error .valueError := by
  obtain ⟨lv, hv⟩ := first_seen (r := r) hp hx h1 h2
  unfold Ini.read
  rw [List.foldlM_append, idle_start hi]
  change ((pre ++ x :: r) :: rest).foldlM step {} >>= _ = _
  rw [List.foldlM_cons]
  have : step {} (pre ++ x :: r) = .error .valueError := by
    unfold step
    simp only [hv.strip]
    rw [if_neg hv.plain, if_neg hv.full, if_neg (by simp), no_header h3]
  rw [this]; rfl

namespace IniExample

/-- Defaults stand behind the options of every section; options of the section's own come first. -/
example : Ini.read (["[DEFAULT]", "lat = 1", "lon = 2", "[chunks]", "lat = 3"].map String.toList) =
    .ok ⟨[("chunks".toList, [("lat".toList, "3".toList), ("lon".toList, "2".toList)])]⟩ := by decide +kernel

example : Junk "time_step 60".toList :=
  ⟨'t', "ime_step 60".toList, rfl, by decide, by decide, by decide, by decide, .inl (by decide)⟩

example : Ini.read (["[MetSim]", "time_step 60", "[chunks]"].map String.toList) = .error .valueError := by decide +kernel

example : Layout [("chunks".toList, []), ("chunks".toList, [])] (["[chunks]", "[chunks]"].map String.toList) := by
  have hh : AnyHeader "chunks".toList "[chunks]".toList := ⟨by decide, by decide, [], by decide, rfl⟩
  exact Layout.part (idle := []) (ms := []) (by simp) hh (Section.done (by simp))
    (Layout.part (idle := []) (ms := []) (ns := []) (by simp) hh (Section.done (by simp)) (Layout.done (by simp)))

example : ¬Unique [("chunks".toList, []), ("chunks".toList, [])] := fun h => absurd h.sections (by decide)

end IniExample

end Verif.Props
