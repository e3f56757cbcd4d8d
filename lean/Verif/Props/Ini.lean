import Verif.Model.Ini
import Verif.Model.Config
import Verif.Lemmas.Except
import Mathlib.Data.List.Forall2
import Mathlib.Tactic.Linarith

/-!
# C91: INI files say what they seem to say
-/

namespace Verif.Props

open Txt Ini

/-! ### The layout of a file -/

/-- Nothing but white space. -/
def Blanks (s : Str) : Prop := ∀ c ∈ s, isSpace c = true

/-- No white space at either end. -/
def Trimmed (s : Str) : Prop :=
  (∀ c, s.head? = some c → isSpace c = false) ∧ ∀ c, s.getLast? = some c → isSpace c = false

/-- An empty line or a comment. -/
def Idle (l : Str) : Prop :=
  ∃ pre rest, l = pre ++ rest ∧ Blanks pre ∧ (rest = [] ∨ rest.head? = some '#' ∨ rest.head? = some ';')

/-- `[name]`, with anything but another bracket behind it. -/
def HeaderLine (name l : Str) : Prop :=
  name ≠ [] ∧ ']' ∉ name ∧ name ≠ "DEFAULT".toList ∧ ∃ post, ']' ∉ post ∧ l = '[' :: (name ++ ']' :: post)

/-- A name that can be written in front of `=`. -/
def KeyOk (k : Str) : Prop :=
  k ≠ [] ∧ Trimmed k ∧ (∀ c ∈ k, c ≠ '=' ∧ c ≠ ':') ∧ k.head? ≠ some '[' ∧ k.head? ≠ some '#' ∧ k.head? ≠ some ';'

/-- `key = value` or `key: value`. -/
def OptionLine (k v l : Str) : Prop :=
  ∃ a b post d, l = k ++ a ++ d :: (b ++ v ++ post) ∧ Blanks a ∧ Blanks b ∧ Blanks post ∧ (d = '=' ∨ d = ':') ∧ Trimmed v

/-- A further line of a value, indented. -/
def MoreLine (c l : Str) : Prop :=
  ∃ pre post, l = pre ++ c ++ post ∧ pre ≠ [] ∧ Blanks pre ∧ Blanks post ∧ c ≠ [] ∧ Trimmed c ∧
    c.head? ≠ some '#' ∧ c.head? ≠ some ';'

/-- The lines of a key and its value. -/
def Entry (k : Str) (value ls : List Str) : Prop :=
  ∃ v cs l ms, value = v :: cs ∧ ls = l :: ms ∧ OptionLine k v l ∧ List.Forall₂ MoreLine cs ms

/-- The lines of a section behind its header. -/
inductive Section : List (Str × List Str) → List Str → Prop
  | done {ls} : (∀ l ∈ ls, Idle l) → Section [] ls
  | entry {k vs rest idle ls ms} : (∀ l ∈ idle, Idle l) → KeyOk k → Entry k vs ls → Section rest ms →
      Section ((k, vs) :: rest) (idle ++ ls ++ ms)

/-- The lines of a file. -/
inductive Text : List (Str × List (Str × List Str)) → List Str → Prop
  | done {ls} : (∀ l ∈ ls, Idle l) → Text [] ls
  | part {s opts rest idle h ms ns} : (∀ l ∈ idle, Idle l) → HeaderLine s h → Section opts ms → Text rest ns →
      Text ((s, opts) :: rest) (idle ++ h :: ms ++ ns)

/-- The value of several lines. -/
def spread (vs : List Str) : Str := List.intercalate ['\n'] vs

/-! ### Lemmas -/

theorem strip_blanks {s : Str} (h : Blanks s) : strip s = [] := by
  have : lstrip s = [] := by
    unfold lstrip
    rw [List.dropWhile_eq_nil_iff]
    exact h
  unfold strip
  rw [this]; rfl

theorem strip_mid {pre t post : Str} (h1 : Blanks pre) (h2 : Blanks post) (ht : Trimmed t) : strip (pre ++ t ++ post) = t := by
  by_cases h : t = []
  · subst h
    apply strip_blanks
    intro c hc
    rw [List.append_nil, List.mem_append] at hc
    exact hc.elim (h1 c) (h2 c)
  · exact strip_of_decomp pre t post h1 h2 ht.1 ht.2 h

theorem rstrip_snoc (a : Str) (x : Char) (hx : isSpace x = false) : rstrip (x :: a) = x :: rstrip a := by
  unfold rstrip lstrip
  rw [List.reverse_cons, List.dropWhile_append]
  split
  · rename_i h
    have h' : a.reverse.dropWhile isSpace = [] := by simpa using h
    rw [h']
    simp [hx]
  · simp

theorem strip_eq (s : Str) : strip s = rstrip (lstrip s) := rfl

theorem head_strip {pre rest : Str} (h1 : Blanks pre) (c : Char) (h : rest.head? = some c) (hc : isSpace c = false) :
    (strip (pre ++ rest)).head? = some c := by
  cases rest with
  | nil => simp at h
  | cons x xs =>
    obtain rfl : x = c := by simpa using h
    have e1 : lstrip (pre ++ x :: xs) = x :: xs := by
      unfold lstrip
      rw [List.dropWhile_append_of_pos h1]
      simp [hc]
    rw [strip_eq, e1, rstrip_snoc _ _ hc]
    rfl

theorem rstrip_blank (a : Str) (x : Char) (hx : isSpace x = true) : rstrip (a ++ [x]) = rstrip a := by
  unfold rstrip lstrip
  rw [List.reverse_append]
  simp [hx]

theorem rstrip_trimmed {a : Str} (h : ∀ c, a.getLast? = some c → isSpace c = false) : rstrip a = a := by
  unfold rstrip lstrip
  rcases List.eq_nil_or_concat a with rfl | ⟨a', x, rfl⟩
  · rfl
  · have := h x (by simp)
    simp [this]

theorem intercalate_snoc {vs : List Str} (h : vs ≠ []) (c : Str) : spread (vs ++ [c]) = spread vs ++ '\n' :: c := by
  unfold spread
  induction vs with
  | nil => exact absurd rfl h
  | cons v vs ih =>
    cases vs with
    | nil => simp [List.intercalate]
    | cons w vs =>
      have := ih (by simp)
      simp only [List.intercalate, List.cons_append, List.intersperse_cons_cons, List.flatten_cons] at this ⊢
      rw [this]
      simp

theorem joined_blank {vs : List Str} (h : vs ≠ []) : joined (vs ++ [[]]) = joined vs := by
  unfold joined
  have := intercalate_snoc h []
  unfold spread at this
  rw [this]
  exact rstrip_blank _ _ (by decide)

theorem joined_value {v : Str} {cs : List Str} (hv : Trimmed v) (hc : ∀ c ∈ cs, c ≠ [] ∧ Trimmed c) :
    joined (v :: cs) = spread (v :: cs) := by
  unfold joined
  change rstrip (spread (v :: cs)) = _
  apply rstrip_trimmed
  rcases List.eq_nil_or_concat cs with rfl | ⟨cs', c, rfl⟩
  · simpa [spread, List.intercalate] using hv.2
  · intro x hx
    rw [show v :: (cs'.concat c) = (v :: cs') ++ [c] by simp, intercalate_snoc (by simp)] at hx
    obtain ⟨h1, h2⟩ := hc c (by simp)
    apply h2.2
    rw [List.getLast?_append] at hx
    have : (('\n' :: c).getLast?) = c.getLast? := by
      cases c with
      | nil => exact absurd rfl h1
      | cons a b => simp
    rw [this] at hx
    cases hl : c.getLast? with
    | none => rw [List.getLast?_eq_none_iff] at hl; exact absurd hl h1
    | some y => rw [hl] at hx; simpa using hx

theorem set_last {β : Type} {d : Dict Str β} {k : Str} (h : k ∉ d.map Prod.fst) (v v' : β) :
    Dict.set (d ++ [(k, v)]) k v' = d ++ [(k, v')] := by
  induction d with
  | nil => simp [Dict.set]
  | cons p d ih =>
    simp only [List.map_cons, List.mem_cons, not_or] at h
    simp only [List.cons_append, Dict.set]
    rw [if_neg (fun e => h.1 e.symm), ih h.2]

theorem set_new {β : Type} {d : Dict Str β} {k : Str} (h : k ∉ d.map Prod.fst) (v : β) : Dict.set d k v = d ++ [(k, v)] := by
  induction d with
  | nil => simp [Dict.set]
  | cons p d ih =>
    simp only [List.map_cons, List.mem_cons, not_or] at h
    simp only [List.cons_append, Dict.set]
    rw [if_neg (fun e => h.1 e.symm), ih h.2]

theorem get_last {β : Type} {d : Dict Str β} {k : Str} (h : k ∉ d.map Prod.fst) (v : β) : Dict.get? (d ++ [(k, v)]) k = some v := by
  rw [← set_new h v]; simp

/-! ### Reading -/

/-- What a section's options mean. -/
def meanOptions (o : Options) : List (Str × Str) := o.map fun q => (q.1, joined q.2)

/-- What the sections mean. -/
def meanSections (d : Dict Str Options) : List (Str × List (Str × Str)) := d.map fun q => (q.1, meanOptions q.2)

/-- The state in the middle of section `s`. -/
structure At (st : St) (past : List (Str × List (Str × Str))) (s : Str) (acc : List (Str × Str)) : Prop where
  ex : ∃ D O, st.sections = D ++ [(s, O)] ∧ meanSections D = past ∧ meanOptions O = acc ∧
    (st.opt = none ∨ ∃ O' k vs, O = O' ++ [(k, vs)] ∧ k ∉ O'.map Prod.fst ∧ vs ≠ [] ∧ st.opt = some k)
  new : s ∉ past.map Prod.fst
  named : s ≠ defaultName
  cur : st.cur = some s
  indent : st.indent = 0
  bad : st.bad = false
  defaults : st.defaults = []

theorem mean_keys (O : Options) : (meanOptions O).map Prod.fst = O.map Prod.fst := by
  unfold meanOptions; rw [List.map_map]; rfl

theorem mean_names (D : Dict Str Options) : (meanSections D).map Prod.fst = D.map Prod.fst := by
  unfold meanSections; rw [List.map_map]; rfl

theorem At.extend {st : St} {past : List (Str × List (Str × Str))} {s : Str} {acc : List (Str × Str)} (h : At st past s acc) :
    At (st.extend []) past s acc := by
  obtain ⟨⟨D, O, e1, e2, e3, e4⟩, h2, h3, h4, h5, h6, h7⟩ := h
  have hnew : s ∉ D.map Prod.fst := by rw [← mean_names, e2]; exact h2
  rcases e4 with e4 | ⟨O', k, vs, rfl, hk, hvs, e4⟩
  · have : st.extend [] = st := by
      unfold St.extend; rw [h4, e4]
    rw [this]
    exact ⟨⟨D, O, e1, e2, e3, .inl e4⟩, h2, h3, h4, h5, h6, h7⟩
  · have hget : st.options s = O' ++ [(k, vs)] := by
      unfold St.options
      rw [if_neg h3, e1, get_last hnew]; rfl
    have : st.extend [] = { st with sections := D ++ [(s, O' ++ [(k, vs ++ [[]])])] } := by
      unfold St.extend
      rw [h4, e4]
      simp only [hget]
      rw [get_last hk, set_last hk]
      unfold St.setOptions
      rw [if_neg h3, e1, set_last hnew]
      simp [h4, e4]
    rw [this]
    refine ⟨⟨D, _, rfl, e2, ?_, .inr ⟨O', k, _, rfl, hk, by simp, e4⟩⟩, h2, h3, h4, h5, h6, h7⟩
    rw [← e3]
    unfold meanOptions
    simp only [List.map_append, List.map_cons, List.map_nil]
    rw [joined_blank hvs]

theorem idle_step {l : Str} (h : Idle l) (st : St) : step st l = .ok st ∨ step st l = .ok (st.extend []) := by
  obtain ⟨pre, rest, rfl, hp, h⟩ := h
  have key : ∀ c, rest.head? = some c → c = '#' ∨ c = ';' → step st (pre ++ rest) = .ok st := by
    intro c hc hcc
    have := head_strip hp c hc (by rcases hcc with rfl | rfl <;> decide)
    unfold step
    rw [if_pos]
    rw [this]
    rcases hcc with rfl | rfl <;> simp
  rcases h with rfl | h | h
  · right
    unfold step
    rw [List.append_nil, strip_blanks hp]
    simp
  · exact .inl (key _ h (.inl rfl))
  · exact .inl (key _ h (.inr rfl))

theorem idle_at {ls : List Str} (h : ∀ l ∈ ls, Idle l) {st : St} {past : List (Str × List (Str × Str))} {s : Str}
    {acc : List (Str × Str)} (hst : At st past s acc) : ∃ st', ls.foldlM step st = .ok st' ∧ At st' past s acc := by
  induction ls generalizing st with
  | nil => exact ⟨st, rfl, hst⟩
  | cons l ls ih =>
    rw [List.foldlM_cons]
    rcases idle_step (h l (by simp)) st with e | e
    · rw [e]; exact ih (fun x hx => h x (by simp [hx])) hst
    · rw [e]; exact ih (fun x hx => h x (by simp [hx])) hst.extend

/-- The state before the first section. -/
theorem idle_start {ls : List Str} (h : ∀ l ∈ ls, Idle l) : ls.foldlM step ({} : St) = .ok {} := by
  induction ls with
  | nil => rfl
  | cons l ls ih =>
    rw [List.foldlM_cons]
    have : step {} l = .ok {} := by
      rcases idle_step (h l (by simp)) {} with e | e <;> exact e
    rw [this]
    exact ih fun x hx => h x (by simp [hx])

/-- A line as the parser sees it. -/
structure Seen (l value : Str) (level : Nat) : Prop where
  strip : Txt.strip l = value
  level : (l.takeWhile isSpace).length = level
  full : value ≠ []
  plain : ¬(value.head? = some '#' ∨ value.head? = some ';')

theorem header_seen {s post : Str} (h1 : s ≠ []) (h2 : ']' ∉ s) :
    ∃ value, Seen ('[' :: (s ++ ']' :: post)) value 0 ∧ header value = some s := by
  have hl : lstrip ('[' :: (s ++ ']' :: post)) = '[' :: (s ++ ']' :: post) := by
    unfold lstrip
    rw [List.dropWhile_cons_of_neg (by decide)]
  have hs : strip ('[' :: (s ++ ']' :: post)) = '[' :: (s ++ ']' :: rstrip post) := by
    rw [strip_eq, hl]
    have gen : ∀ a : Str, rstrip (a ++ ']' :: post) = a ++ ']' :: rstrip post := by
      intro a
      unfold rstrip lstrip
      rw [List.reverse_append, List.reverse_cons, List.append_assoc, List.dropWhile_append]
      split
      · rename_i h
        have h' : post.reverse.dropWhile isSpace = [] := by simpa using h
        rw [h']
        rw [List.cons_append, List.nil_append, List.dropWhile_cons_of_neg (by decide)]
        simp
      · simp
    exact gen ('[' :: s)
  have hhead : header ('[' :: (s ++ ']' :: rstrip post)) = some s := by
    unfold header
    have ht : (s ++ ']' :: rstrip post).takeWhile (· != ']') = s := by
      rw [List.takeWhile_append_of_pos]
      · simp
      · intro c hc
        simp only [bne_iff_ne, ne_eq]
        rintro rfl
        exact h2 hc
    simp only [ht]
    rw [if_pos ⟨h1, by simp⟩]
  refine ⟨_, ⟨hs, ?_, by simp, by simp⟩, hhead⟩
  rw [List.takeWhile_cons_of_neg (by decide)]; rfl

theorem header_step {s h : Str} (hh : HeaderLine s h) (st : St) (hcur : st.indent = 0) (hnew : s ∉ st.sections.keys) :
    step st h = .ok { st with sections := st.sections ++ [(s, [])], cur := some s, opt := none } := by
  obtain ⟨h1, h2, h3, post, h4, rfl⟩ := hh
  obtain ⟨value, hv, hhead⟩ := header_seen (post := post) h1 h2
  unfold step
  simp only [hv.strip]
  rw [if_neg hv.plain, if_neg hv.full, hv.level, if_neg (by omega), hhead]
  simp only
  rw [if_neg hnew, if_neg (show s ≠ defaultName from h3), set_new hnew, hcur]

theorem option_seen {k v l : Str} (hk : KeyOk k) (hl : OptionLine k v l) :
    ∃ value, Seen l value 0 ∧ header value = none ∧ option value = some (k, v) := by
  obtain ⟨a, b, post, d, rfl, ha, hb, hp, hd, hv⟩ := hl
  obtain ⟨k1, ⟨k2, k2'⟩, k3, k4, k5, k6⟩ := hk
  have hdd : isDelim d = true := by rcases hd with rfl | rfl <;> decide
  have hds : isSpace d = false := by rcases hd with rfl | rfl <;> decide
  obtain ⟨x, k', rfl⟩ := List.exists_cons_of_ne_nil k1
  have hx : isSpace x = false := k2 x rfl
  -- the stripped line
  obtain ⟨tail, ht, htail⟩ : ∃ tail, strip (x :: k' ++ a ++ d :: (b ++ v ++ post)) = x :: k' ++ a ++ d :: tail ∧ strip tail = v := by
    have hls : lstrip (x :: k' ++ a ++ d :: (b ++ v ++ post)) = x :: k' ++ a ++ d :: (b ++ v ++ post) := by
      unfold lstrip
      simp [hx]
    refine ⟨rstrip (b ++ v ++ post), ?_, ?_⟩
    · rw [strip_eq, hls]
      unfold rstrip lstrip
      rw [List.reverse_append, List.reverse_cons, List.append_assoc, List.dropWhile_append]
      split
      · rename_i h
        have h' : (b ++ v ++ post).reverse.dropWhile isSpace = [] := by simpa using h
        rw [h']
        rw [List.cons_append, List.nil_append, List.dropWhile_cons_of_neg (by simp [hds])]
        simp
      · simp
    · have hr : ∀ t : Str, Blanks post → rstrip (t ++ post) = rstrip t := by
        intro t hpo
        unfold rstrip lstrip
        rw [List.reverse_append, List.dropWhile_append_of_pos]
        intro c hc
        exact hpo c (List.mem_reverse.1 hc)
      rw [hr _ hp]
      by_cases hv0 : v = []
      · subst hv0
        have : rstrip (b ++ []) = [] := by
          unfold rstrip lstrip
          rw [List.append_nil, List.dropWhile_eq_nil_iff.2]
          · rfl
          · intro c hc; exact hb c (List.mem_reverse.1 hc)
        rw [this]; rfl
      · have : rstrip (b ++ v) = b ++ v := by
          apply rstrip_trimmed
          intro c hc
          apply hv.2
          rw [List.getLast?_append] at hc
          cases hvl : v.getLast? with
          | none => rw [List.getLast?_eq_none_iff] at hvl; exact absurd hvl hv0
          | some y => rw [hvl] at hc; simpa using hc
        rw [this]
        have := strip_mid (post := []) hb (by intro c hc; simp at hc) hv
        simpa using this
  have hplain : ¬((x :: k' ++ a ++ d :: tail).head? = some '#' ∨ (x :: k' ++ a ++ d :: tail).head? = some ';') := by
    simp only [List.cons_append, List.head?_cons, Option.some.injEq] at k5 k6 ⊢
    push Not
    exact ⟨fun e => k5 (by simp [e]), fun e => k6 (by simp [e])⟩
  have hlev : ((x :: k' ++ a ++ d :: (b ++ v ++ post)).takeWhile isSpace).length = 0 := by
    simp [hx]
  have hhead : header (x :: k' ++ a ++ d :: tail) = none := by
    unfold header
    simp only [List.cons_append]
    split
    · rename_i rest heq
      simp only [List.cons.injEq] at heq
      exact absurd (by simp [heq.1]) k4
    · rfl
  have hnd : ∀ c ∈ x :: k' ++ a, (!isDelim c) = true := by
    intro c hc
    rcases List.mem_append.1 hc with h | h
    · have := k3 c h
      unfold isDelim
      simp [this.1, this.2]
    · have := ha c h
      by_contra hcon
      have hcd : isDelim c = true := by simpa using hcon
      unfold isDelim at hcd
      rcases (by simpa using hcd : c = '=' ∨ c = ':') with rfl | rfl <;> exact absurd this (by decide)
  have hopt : option (x :: k' ++ a ++ d :: tail) = some (x :: k', v) := by
    unfold option
    rw [if_pos (by
      rw [List.any_append, List.any_cons, hdd]; simp)]
    rw [List.takeWhile_append_of_pos hnd, List.dropWhile_append_of_pos hnd,
      List.takeWhile_cons_of_neg (by simp [hdd]), List.dropWhile_cons_of_neg (by simp [hdd])]
    simp only [List.append_nil, List.drop_one, List.tail_cons, htail, Option.some.injEq, Prod.mk.injEq, and_true]
    have : rstrip (x :: k' ++ a) = rstrip (x :: k') := by
      unfold rstrip lstrip
      rw [List.reverse_append, List.dropWhile_append_of_pos]
      intro c hc
      exact ha c (List.mem_reverse.1 hc)
    rw [this]
    exact rstrip_trimmed k2'
  exact ⟨_, ⟨ht, hlev, by simp, hplain⟩, hhead, hopt⟩

theorem option_step {k v l : Str} (hk : KeyOk k) (hl : OptionLine k v l) {st : St} {past : List (Str × List (Str × Str))} {s : Str}
    {acc : List (Str × Str)} (hst : At st past s acc) (hnew : k ∉ acc.map Prod.fst) : ∃ D O, meanSections D = past ∧ meanOptions O = acc ∧
      step st l = .ok { st with sections := D ++ [(s, O ++ [(k, [v])])], opt := some k } := by
  obtain ⟨⟨D, O, e1, e2, e3, -⟩, h2, h3, h4, h5, h6, h7⟩ := hst
  refine ⟨D, O, e2, e3, ?_⟩
  have hDn : s ∉ D.map Prod.fst := by rw [← mean_names, e2]; exact h2
  obtain ⟨value, hv, hhead, hopt⟩ := option_seen hk hl
  unfold step
  simp only [hv.strip]
  rw [if_neg hv.plain, if_neg hv.full, hv.level, if_neg (by omega), hhead]
  simp only [h4]
  rw [hopt]
  simp only
  have hopts : ∀ (i : Nat), ({ st with cur := some s, indent := i } : St).options s = O := by
    intro i
    unfold St.options
    rw [if_neg h3]
    show ((st.sections).get? s).getD [] = O
    rw [e1, get_last hDn]; rfl
  have hkO : k ∉ O.map Prod.fst := by rw [← mean_keys, e3]; exact hnew
  rw [hopts, if_neg (show k ∉ Dict.keys O from hkO)]
  unfold St.setOptions
  rw [if_neg h3, set_new hkO]
  congr 1
  simp only [e1]
  rw [set_last hDn, h5, h6]
  simp [hk.1]

theorem more_step {c l : Str} (hl : MoreLine c l) {st : St} {D : Dict Str Options} {s : Str} {O : Options} {k : Str} {vs : List Str}
    (e1 : st.sections = D ++ [(s, O ++ [(k, vs)])]) (hD : s ∉ D.map Prod.fst) (hO : k ∉ O.map Prod.fst) (h3 : s ≠ defaultName)
    (h4 : st.cur = some s) (h5 : st.indent = 0) (h6 : st.opt = some k) :
    step st l = .ok { st with sections := D ++ [(s, O ++ [(k, vs ++ [c])])] } := by
  obtain ⟨pre, post, rfl, hp, b1, b2, c0, ct, c1, c2⟩ := hl
  have hs := strip_mid b1 b2 ct
  unfold step
  simp only [hs]
  rw [if_neg (by push Not; exact ⟨c1, c2⟩), if_neg c0]
  have hlev : 0 < ((pre ++ c ++ post).takeWhile isSpace).length := by
    obtain ⟨y, ys, rfl⟩ := List.exists_cons_of_ne_nil hp
    have := b1 y (by simp)
    simp [this]
  rw [if_pos ⟨by rw [h4]; rfl, by rw [h6]; rfl, by omega⟩]
  have hget : st.options s = O ++ [(k, vs)] := by
    unfold St.options
    rw [if_neg h3, e1, get_last hD]; rfl
  unfold St.extend
  rw [h4, h6]
  simp only [hget]
  rw [get_last hO, set_last hO]
  unfold St.setOptions
  rw [if_neg h3, e1, set_last hD]
  simp [h4, h6]

theorem more_steps {cs ms : List Str} (h : List.Forall₂ MoreLine cs ms) {st : St} {D : Dict Str Options} {s : Str} {O : Options}
    {k : Str} {vs : List Str} (e1 : st.sections = D ++ [(s, O ++ [(k, vs)])]) (hD : s ∉ D.map Prod.fst) (hO : k ∉ O.map Prod.fst)
    (h3 : s ≠ defaultName) (h4 : st.cur = some s) (h5 : st.indent = 0) (h6 : st.opt = some k) :
    ms.foldlM step st = .ok { st with sections := D ++ [(s, O ++ [(k, vs ++ cs)])] } := by
  induction h generalizing st vs with
  | nil =>
    rw [List.append_nil, ← e1]; rfl
  | @cons c l cs ms hl hrest ih =>
    rw [List.foldlM_cons, more_step hl e1 hD hO h3 h4 h5 h6]
    have := @ih { st with sections := D ++ [(s, O ++ [(k, vs ++ [c])])] } (vs ++ [c]) rfl h4 h5 h6
    rw [List.append_assoc] at this
    exact this

theorem entry_at {k : Str} {vs ls : List Str} (hk : KeyOk k) (h : Entry k vs ls) {st : St} {past : List (Str × List (Str × Str))}
    {s : Str} {acc : List (Str × Str)} (hst : At st past s acc) (hnew : k ∉ acc.map Prod.fst) :
    ∃ st', ls.foldlM step st = .ok st' ∧ At st' past s (acc ++ [(k, spread vs)]) := by
  obtain ⟨v, cs, l, ms, rfl, rfl, hl, hms⟩ := h
  obtain ⟨D, O, rfl, rfl, e⟩ := option_step hk hl hst hnew
  have hD : s ∉ D.map Prod.fst := by rw [← mean_names]; exact hst.new
  have hO : k ∉ O.map Prod.fst := by rw [← mean_keys]; exact hnew
  refine ⟨_, by rw [List.foldlM_cons, e]; exact more_steps hms rfl hD hO hst.named hst.cur hst.indent rfl, ?_⟩
  refine ⟨⟨D, _, rfl, rfl, ?_, .inr ⟨O, k, _, rfl, hO, by simp, rfl⟩⟩, hst.new, hst.named, hst.cur, hst.indent, hst.bad, hst.defaults⟩
  unfold meanOptions
  rw [List.map_append, List.map_cons, List.map_nil]
  have hv : Trimmed v := by obtain ⟨-, -, -, -, -, -, -, -, -, hv⟩ := hl; exact hv
  have hc : ∀ c ∈ cs, c ≠ [] ∧ Trimmed c := by
    clear e
    induction hms with
    | nil => simp
    | cons h1 h2 ih =>
      intro x hx
      rcases List.mem_cons.1 hx with rfl | hx
      · obtain ⟨-, -, -, -, -, -, a, b, -⟩ := h1
        exact ⟨a, b⟩
      · exact ih x hx
  rw [show [v] ++ cs = v :: cs from rfl, joined_value hv hc]

theorem section_at {opts : List (Str × List Str)} {ls : List Str} (h : Section opts ls) {st : St}
    {past : List (Str × List (Str × Str))} {s : Str} {acc : List (Str × Str)} (hst : At st past s acc)
    (hnd : (acc.map Prod.fst ++ opts.map Prod.fst).Nodup) :
    ∃ st', ls.foldlM step st = .ok st' ∧ At st' past s (acc ++ opts.map fun o => (o.1, spread o.2)) := by
  induction h generalizing st acc with
  | done hi =>
    obtain ⟨st', e, h⟩ := idle_at hi hst
    exact ⟨st', e, by simpa using h⟩
  | @entry k vs rest idle ls ms hi hk he hrest ih =>
    obtain ⟨st1, e1, h1⟩ := idle_at hi hst
    have hkn : k ∉ acc.map Prod.fst := fun hk' => (List.nodup_append.1 hnd).2.2 k hk' k (by simp) rfl
    obtain ⟨st2, e2, h2⟩ := entry_at hk he h1 hkn
    obtain ⟨st3, e3, h3⟩ := ih h2 (by simpa using hnd)
    refine ⟨st3, ?_, by simpa using h3⟩
    rw [List.foldlM_append, List.foldlM_append, e1]
    show (ls.foldlM step st1 >>= fun b => ms.foldlM step b) = _
    rw [e2]
    exact e3

/-- The state between two sections: everything read so far is kept. -/
structure Between (st : St) (past : List (Str × List (Str × Str))) : Prop where
  mean : meanSections st.sections = past
  indent : st.indent = 0
  bad : st.bad = false
  defaults : st.defaults = []
  idle : ∀ ls : List Str, (∀ l ∈ ls, Idle l) → ∃ st', ls.foldlM step st = .ok st' ∧ meanSections st'.sections = past ∧
    st'.indent = 0 ∧ st'.bad = false ∧ st'.defaults = []

theorem At.between {st : St} {past : List (Str × List (Str × Str))} {s : Str} {acc : List (Str × Str)} (h : At st past s acc) :
    Between st (past ++ [(s, acc)]) := by
  have mean : ∀ {st}, At st past s acc → meanSections st.sections = past ++ [(s, acc)] := by
    intro st h
    obtain ⟨⟨D, O, e1, e2, e3, -⟩, -⟩ := h
    rw [e1]
    unfold meanSections at e2 ⊢
    rw [List.map_append, e2, ← e3]; rfl
  refine ⟨mean h, h.indent, h.bad, h.defaults, fun ls hl => ?_⟩
  obtain ⟨st', e, h'⟩ := idle_at hl h
  exact ⟨st', e, mean h', h'.indent, h'.bad, h'.defaults⟩

theorem text_from {doc : List (Str × List (Str × List Str))} {ls : List Str} (h : Text doc ls) {st : St}
    {past : List (Str × List (Str × Str))} (hst : Between st past) (hnd : (past.map Prod.fst ++ doc.map Prod.fst).Nodup)
    (hkeys : ∀ p ∈ doc, (p.2.map Prod.fst).Nodup) :
    ∃ st', ls.foldlM step st = .ok st' ∧ st'.bad = false ∧ st'.defaults = [] ∧
      meanSections st'.sections = past ++ doc.map fun p => (p.1, p.2.map fun o => (o.1, spread o.2)) := by
  induction h generalizing st past with
  | done hi =>
    obtain ⟨st', e, h1, -, h2, h3⟩ := hst.idle _ hi
    exact ⟨st', e, h2, h3, by simpa using h1⟩
  | @part s opts rest idle h ms ns hi hh hsec hrest ih =>
    obtain ⟨st1, e1, m1, i1, b1, d1⟩ := hst.idle _ hi
    have hs : s ∉ past.map Prod.fst := fun hk' => (List.nodup_append.1 hnd).2.2 s hk' s (by simp) rfl
    have hs1 : s ∉ st1.sections.keys := by
      show s ∉ st1.sections.map Prod.fst
      rw [← mean_names, m1]; exact hs
    have e2 := header_step hh st1 i1 hs1
    have hat : At { st1 with sections := st1.sections ++ [(s, [])], cur := some s, opt := none } past s [] :=
      ⟨⟨_, _, rfl, m1, rfl, .inl rfl⟩, hs, hh.2.2.1, rfl, i1, b1, d1⟩
    obtain ⟨st3, e3, h3⟩ := section_at hsec hat (by simpa using hkeys (s, opts) (by simp))
    obtain ⟨st4, e4, h4, h5, h6⟩ := ih h3.between (by simpa using hnd) (fun p hp => hkeys p (by simp [hp]))
    refine ⟨st4, ?_, h4, h5, by simpa using h6⟩
    rw [List.foldlM_append, List.foldlM_append, e1]
    show ((h :: ms).foldlM step st1 >>= fun b => ns.foldlM step b) = _
    rw [List.foldlM_cons, e2]
    show (ms.foldlM step _ >>= fun b => ns.foldlM step b) = _
    rw [e3]
    exact e4

/-- **C91.** A file laid out in sections of options reads as those sections and options, in that order, whatever comments,
    empty lines and white space stand between them. -/
theorem C91_ini {doc : List (Str × List (Str × List Str))} {lines : List Str} (h : Text doc lines)
    (hs : (doc.map Prod.fst).Nodup) (hk : ∀ p ∈ doc, (p.2.map Prod.fst).Nodup) :
    Ini.read lines = .ok ⟨doc.map fun p => (p.1, p.2.map fun o => (o.1, spread o.2))⟩ := by
  have start : Between ({} : St) [] :=
    ⟨rfl, rfl, rfl, rfl, fun ls hl => ⟨{}, idle_start hl, rfl, rfl, rfl, rfl⟩⟩
  obtain ⟨st, e, hb, hd, hm⟩ := text_from h start (by simpa using hs) hk
  unfold Ini.read
  rw [e]
  show (if st.bad = true then _ else _) = _
  rw [hb, hd]
  simp only [Bool.false_eq_true, if_false, List.map_nil, List.filter_nil, List.append_nil]
  rw [List.nil_append] at hm
  rw [← hm]
  rfl

/-! ### Comments behind a value -/

theorem mem_strip {c : Char} (hc : isSpace c = false) {s : Str} (h : c ∈ s) : c ∈ strip s := by
  obtain ⟨a, b, rfl⟩ := List.append_of_mem h
  have key : ∀ t u : Str, ∃ t', lstrip (t ++ c :: u) = t' ++ c :: u := by
    intro t u
    unfold lstrip
    rw [List.dropWhile_append]
    split
    · exact ⟨[], by rw [List.dropWhile_cons_of_neg (by simp [hc])]; rfl⟩
    · exact ⟨_, rfl⟩
  obtain ⟨t, ht⟩ := key a b
  rw [strip_eq, ht]
  unfold rstrip
  obtain ⟨t', ht'⟩ := key b.reverse t.reverse
  rw [List.reverse_append, List.reverse_cons, List.append_assoc, List.cons_append, List.nil_append, ht']
  simp

/-- **C91: a comment behind a value belongs to the value**, so a switch with a comment behind it is off, whatever it says. -/
theorem C91_comment_behind_switch (s : Str) (h : '#' ∈ s) : Config.iniBool (some s) = false := by
  unfold Config.iniBool
  have h1 : '#' ∈ lower (strip s) := by
    have := mem_strip (c := '#') (by decide) h
    unfold lower
    exact List.mem_map.2 ⟨'#', this, by decide⟩
  have : lower (strip s) ≠ "true".toList := by
    intro e
    rw [e] at h1
    revert h1; decide
  exact if_neg this

/-! ### A file -/

namespace IniExample

def lines : List Str := ["# a run", "[MetSim]", "time_step = 60   ", "", "out_vars = ['temp',", "   # not this", "   'prec']",
  "utc_offset: True # hours", "[chunks]", "", "lat=3"].map String.toList

def doc : List (Str × List (Str × List Str)) :=
  [("MetSim".toList, [("time_step".toList, ["60".toList]), ("out_vars".toList, ["['temp',".toList, "'prec']".toList]),
    ("utc_offset".toList, ["True # hours".toList])]), ("chunks".toList, [("lat".toList, ["3".toList])])]

/-- A comment inside a value is skipped, one behind it is not. -/
example : Ini.read lines = .ok ⟨doc.map fun p => (p.1, p.2.map fun o => (o.1, spread o.2))⟩ := by decide +kernel

/-- A small file has the layout of the theorem. -/
example : Text [("chunks".toList, [("lat".toList, ["3".toList])])] (["# a run", "[chunks]", "", "lat=3"].map String.toList) := by
  have hsec : Section [("lat".toList, ["3".toList])] (["", "lat=3"].map String.toList) := by
    have := Section.entry (k := "lat".toList) (vs := ["3".toList]) (idle := ["".toList]) (ls := ["lat=3".toList]) (ms := [])
      (by intro l hl; obtain rfl : l = [] := by simpa using hl
          exact ⟨[], [], rfl, by simp [Blanks], .inl rfl⟩)
      (by refine ⟨by decide, ⟨by decide, by decide⟩, by decide, by decide, by decide, by decide⟩)
      ⟨"3".toList, [], "lat=3".toList, [], rfl, rfl, ⟨[], [], [], '=', rfl, by simp [Blanks], by simp [Blanks], by simp [Blanks],
        .inl rfl, ⟨by decide, by decide⟩⟩, .nil⟩ (Section.done (by simp))
    exact this
  exact Text.part (idle := ["# a run".toList]) (h := "[chunks]".toList) (ns := [])
    (by intro l hl; obtain rfl : l = "# a run".toList := by simpa using hl
        exact ⟨[], _, rfl, by simp [Blanks], .inr (.inl (by decide))⟩)
    ⟨by decide, by decide, by decide, [], by decide, rfl⟩ hsec (Text.done (by simp))

end IniExample

end Verif.Props
