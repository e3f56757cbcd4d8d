import Verif.Model.Version

/-!
# C110: the version of a checkout names its commit
-/

namespace Verif.Props

open Txt Version

namespace Vers

/-- What git knows about a checkout: the tag `git describe` finds, the commits since (or, without a tag, all of them), the
hash, how git abbreviates it, and whether tracked files are changed. -/
structure Checkout where
  tag : Option Str
  commits : List Str
  hash : Str
  abbr : Str
  dirty : Bool
  day : Str
  time : Str
  zone : Str

/-- How far the checkout is from its tag. -/
def Checkout.distance (c : Checkout) : Nat := c.commits.length

/-- The abbreviation in the version. -/
def Checkout.rev (c : Checkout) : Str := match c.tag with
  | some _ => c.abbr
  | none => c.hash.take 7

/-- A commit with a tag, and nothing changed. -/
def Checkout.released (c : Checkout) : Prop := c.tag.isSome ∧ c.commits = [] ∧ c.dirty = false

/-- git-describe(1): `TAG-NUM-gHEX[-dirty]` or `HEX[-dirty]`. -/
def Checkout.describe (c : Checkout) : Str :=
  (match c.tag with
    | some t => t ++ ['-'] ++ decimal c.distance ++ ['-', 'g'] ++ c.abbr
    | none => c.abbr) ++ (if c.dirty then "-dirty".toList else [])

/-- What git makes sure of, and `--match [[:digit:]]*`. -/
structure Good (c : Checkout) : Prop where
  tag : ∀ t, c.tag = some t → startsDigit t = true ∧ '\n' ∉ t
  commits : ∀ x ∈ c.commits, x ≠ [] ∧ ∀ a ∈ x, isSpace a = false
  hash : c.hash ≠ [] ∧ ∀ a ∈ c.hash, isHex a = true
  abbr : c.abbr ≠ [] ∧ ∀ a ∈ c.abbr, isHex a = true
  day : c.day ≠ [] ∧ ∀ a ∈ c.day, isSpace a = false
  time : ∀ a ∈ c.time, isSpace a = false
  zone : c.zone ≠ [] ∧ ∀ a ∈ c.zone, isSpace a = false

/-- git can be started and prints this. -/
def Says (sys : System) (args : List String) (out : Str) : Prop :=
  ∃ before g after, gits sys = before ++ g :: after ∧ (∀ d ∈ before, sys.proc d (args.map String.toList) = .missing) ∧
    sys.proc g (args.map String.toList) = .done out 0

/-- git answers for the checkout. -/
structure Answers (sys : System) (c : Checkout) : Prop where
  dir : ∃ d, Says sys ["rev-parse", "--git-dir"] d
  describe : Says sys ["describe", "--tags", "--dirty", "--always", "--long", "--match", "[[:digit:]]*"] (c.describe ++ ['\n'])
  head : Says sys ["rev-parse", "HEAD"] (c.hash ++ ['\n'])
  branch : ∃ b, Says sys ["rev-parse", "--abbrev-ref", "HEAD"] b
  branches : ∃ b, Says sys ["branch", "--contains"] b
  list : c.tag = none → Says sys ["rev-list", "HEAD", "--left-right"] ((c.commits.map fun x => x ++ ['\n']).flatten)
  date : Says sys ["show", "-s", "--format=%ci", "HEAD"] (c.day ++ [' '] ++ c.time ++ [' '] ++ c.zone ++ ['\n'])

/-- The documented form: `TAG[+DISTANCE.gHEX[.dirty]]`, and `0+untagged.DISTANCE.gHEX[.dirty]` without a tag. -/
def Checkout.suffix (c : Checkout) : Str :=
  decimal c.distance ++ ['.', 'g'] ++ c.rev ++ (if c.dirty then ".dirty".toList else [])

/-! ## Texts -/

theorem stripBy_of_decomp (p : Char → Bool) (pre t post : Str) (hpre : ∀ c ∈ pre, p c = true) (hpost : ∀ c ∈ post, p c = true)
    (hh : ∀ c, t.head? = some c → p c = false) (hl : ∀ c, t.getLast? = some c → p c = false) (ht : t ≠ []) :
    stripBy p (pre ++ t ++ post) = t := by
  have e1 : (pre ++ t ++ post).dropWhile p = t ++ post := by
    rw [List.append_assoc, List.dropWhile_append_of_pos hpre]
    cases t with
    | nil => exact absurd rfl ht
    | cons c t => simp [hh c (by simp)]
  rw [stripBy, e1, List.reverse_append, List.dropWhile_append_of_pos (fun c hc => hpost c (List.mem_reverse.1 hc))]
  have hne : t.reverse ≠ [] := by simpa using ht
  cases hr : t.reverse with
  | nil => exact absurd hr hne
  | cons c r =>
    have : t.getLast? = some c := by rw [← List.head?_reverse, hr]; rfl
    simp [hl c this]
    rw [← List.reverse_cons, ← hr, List.reverse_reverse]

/-- A text that neither begins nor ends with a blank, and a line feed. -/
theorem strip_line {t : Str} (hh : ∀ c, t.head? = some c → isSpace c = false) (hl : ∀ c, t.getLast? = some c → isSpace c = false)
    (ht : t ≠ []) : stripBy isByteSpace (t ++ ['\n']) = t ∧ strip t = t := by
  have hb : ∀ c, isSpace c = false → isByteSpace c = false := by
    intro c h
    simp only [isSpace, isByteSpace, Bool.or_eq_false_iff, Bool.and_eq_false_iff, decide_eq_false_iff_not] at h ⊢
    omega
  refine ⟨?_, ?_⟩
  · have := stripBy_of_decomp isByteSpace [] t ['\n'] (by simp) (by decide) (fun c hc => hb c (hh c hc)) (fun c hc => hb c (hl c hc)) ht
    simpa using this
  · have := strip_of_decomp [] t [] (by simp) (by simp) hh hl ht
    simpa using this

theorem not_space_hex {c : Char} (h : isHex c = true) : isSpace c = false := by
  simp only [isHex, isDigit, Bool.or_eq_true, Bool.and_eq_true, decide_eq_true_eq] at h
  simp only [isSpace, Bool.or_eq_false_iff, Bool.and_eq_false_iff, decide_eq_false_iff_not]
  omega

theorem cut_inj (x : Char) {a b r s : Str} (ha : x ∉ a) (hb : x ∉ b) (h : a ++ x :: r = b ++ x :: s) : a = b ∧ r = s := by
  induction a generalizing b with
  | nil => cases b with
    | nil => simpa using h
    | cons c b => simp only [List.nil_append, List.cons_append, List.cons.injEq] at h; simp [h.1] at hb
  | cons c a ih => cases b with
    | nil => simp only [List.nil_append, List.cons_append, List.cons.injEq] at h; simp [h.1] at ha
    | cons d b =>
      simp only [List.cons_append, List.cons.injEq] at h
      simp only [List.mem_cons, not_or] at ha hb
      obtain ⟨e1, e2⟩ := ih ha.2 hb.2 h.2
      exact ⟨by rw [h.1, e1], e2⟩

theorem rcut_append (x : Char) (a b : Str) (hb : x ∉ b) : rcut x (a ++ x :: b) = some (a, b) := by
  have e : (a ++ x :: b).reverse.takeWhile (· != x) = b.reverse := by
    rw [List.reverse_append, List.reverse_cons, List.append_assoc, List.takeWhile_append_of_pos]
    · simp
    · intro c hc
      have : c ≠ x := by rintro rfl; exact hb (List.mem_reverse.1 hc)
      simpa using this
  unfold rcut
  simp only [e]
  rw [if_pos (by simp)]
  simp [List.reverse_append, List.drop_append]

theorem last_cut {x : Char} {s : Str} (hx : x ∈ s) : ∃ a b, s = a ++ x :: b ∧ x ∉ b := by
  induction s with
  | nil => simp at hx
  | cons c s ih =>
    by_cases hs : x ∈ s
    · obtain ⟨p, q, e, hq⟩ := ih hs
      exact ⟨c :: p, q, by rw [e]; rfl, hq⟩
    · have : c = x := by
        rcases List.mem_cons.1 hx with h | h
        · exact h.symm
        · exact absurd h hs
      exact ⟨[], s, by rw [this]; rfl, hs⟩

theorem rcut_some {x : Char} {s a b : Str} (h : rcut x s = some (a, b)) : s = a ++ x :: b ∧ x ∉ b := by
  unfold rcut at h
  dsimp only at h
  split at h
  · rename_i hx
    obtain ⟨a', b', rfl, hb'⟩ := last_cut hx
    have h2 := rcut_append x a' b' hb'
    unfold rcut at h2
    dsimp only at h2
    rw [if_pos hx] at h2
    rw [h2] at h
    obtain ⟨rfl, rfl⟩ := Prod.mk.inj (Option.some.inj h)
    exact ⟨rfl, hb'⟩
  · exact absurd h (by simp)

theorem not_mem_digits {x : Char} (hx : isDigit x = false) {n : Str} (hn : n.all isDigit = true) : x ∉ n := by
  intro h
  rw [List.all_eq_true.1 hn x h] at hx
  exact absurd hx (by simp)

theorem not_mem_hex {x : Char} (hx : isHex x = false) {n : Str} (hn : n.all isHex = true) : x ∉ n := by
  intro h
  rw [List.all_eq_true.1 hn x h] at hx
  exact absurd hx (by simp)

end Vers

open Vers

/-- **C110**: the regular expression takes the output of `git describe` apart in the one possible way, hyphens in the tag or not. -/
theorem C110_groups (s t h : Str) (n : Nat) (hs : s.getLast? ≠ some '\n') : parseDescribe s = some (t, n, h) ↔
    ∃ ds, s = t ++ ['-'] ++ ds ++ ['-', 'g'] ++ h ∧ t ≠ [] ∧ '\n' ∉ t ∧ (ds ≠ [] ∧ ∀ c ∈ ds, isDigit c = true) ∧ parseNat ds = n ∧
      (h ≠ [] ∧ ∀ c ∈ h, isHex c = true) := by
  unfold parseDescribe
  simp only [if_neg hs]
  constructor
  · intro e
    cases h1 : rcut '-' s with
    | none => rw [h1] at e; exact absurd e (by simp)
    | some p =>
      obtain ⟨a, g⟩ := p
      rw [h1] at e
      cases h2 : rcut '-' a with
      | none => simp [h2] at e
      | some p =>
        obtain ⟨t', n'⟩ := p
        simp only [h2, Option.bind_eq_bind, Option.bind_some] at e
        obtain ⟨e1, e2⟩ := rcut_some h1
        obtain ⟨e3, e4⟩ := rcut_some h2
        cases g with
        | nil => simp at e
        | cons x h' =>
          by_cases hx : x = 'g'
          · subst hx
            simp only [] at e
            split at e
            · rename_i hc
              obtain ⟨rfl, e5⟩ := Prod.mk.inj (Option.some.inj e)
              obtain ⟨rfl, rfl⟩ := Prod.mk.inj e5
              refine ⟨n', ?_, hc.2.2.2.2.1, hc.2.2.2.2.2, ⟨hc.2.2.1, ?_⟩, rfl, hc.1, ?_⟩
              · rw [e1, e3]; simp
              · exact List.all_eq_true.1 hc.2.2.2.1
              · exact List.all_eq_true.1 hc.2.1
            · exact absurd e (by simp)
          · exfalso
            split at e
            · rename_i heq; simp only [List.cons.injEq] at heq; exact hx heq.1
            · exact absurd e (by simp)
  · rintro ⟨ds, rfl, ht, hn, hd, rfl, hh⟩
    have hh' : h.all isHex = true := List.all_eq_true.2 hh.2
    have hd' : ds.all isDigit = true := List.all_eq_true.2 hd.2
    have e1 : t ++ ['-'] ++ ds ++ ['-', 'g'] ++ h = (t ++ '-' :: ds) ++ '-' :: ('g' :: h) := by simp
    have e2 : rcut '-' (t ++ ['-'] ++ ds ++ ['-', 'g'] ++ h) = some (t ++ '-' :: ds, 'g' :: h) := by
      rw [e1]; exact rcut_append _ _ _ (by simp [not_mem_hex (x := '-') (by decide) hh'])
    have e3 : rcut '-' (t ++ '-' :: ds) = some (t, ds) := rcut_append _ _ _ (not_mem_digits (by decide) hd')
    rw [e2]
    simp only [Option.bind_eq_bind, Option.bind_some, e3]
    rw [if_pos ⟨hh.1, hh', hd.1, hd', ht, hn⟩]

namespace Vers

theorem says_run {sys : System} {args : List String} {out : Str} (h : Says sys args out) :
    runCommand sys (gits sys) (args.map String.toList) = (some (stripBy isByteSpace out), some 0) := by
  obtain ⟨before, g, after, e, hm, hg⟩ := h
  rw [e]
  clear e
  induction before with
  | nil => simp [runCommand, hg]
  | cons d before ih =>
    rw [List.cons_append, runCommand, hm d (by simp)]
    exact ih fun d hd => hm d (by simp [hd])

theorem space_of_byte {c : Char} (h : isByteSpace c = true) : isSpace c = true := by
  simp only [isByteSpace, Bool.or_eq_true, Bool.and_eq_true, decide_eq_true_eq] at h
  simp only [isSpace, Bool.or_eq_true, Bool.and_eq_true, decide_eq_true_eq]
  omega

theorem words_space (s : Str) {c : Char} (hc : isSpace c = true) : words (c :: s) = words s := by
  simp [words, List.splitOnP_cons, hc]

theorem words_word (x s : Str) {c : Char} (hx : ∀ a ∈ x, isSpace a = false) (hc : isSpace c = true) (hne : x ≠ []) :
    words (x ++ c :: s) = x :: words s := by
  unfold words
  rw [List.splitOnP_append_cons x s hc, List.splitOnP_eq_single fun a ha => by simp [hx a ha]]
  simp [hne]

theorem words_drop (s : Str) : words (s.dropWhile isByteSpace) = words s := by
  induction s with
  | nil => rfl
  | cons c s ih =>
    rw [List.dropWhile_cons]
    split
    · rename_i h
      rw [ih, words_space s (space_of_byte h)]
    · rfl

theorem words_back (s post : Str) (h : ∀ c ∈ post, isSpace c = true) : words (s ++ post) = words s := by
  induction post generalizing s with
  | nil => simp
  | cons c post ih =>
    have e : s ++ c :: post = (s ++ [c]) ++ post := by simp
    rw [e, ih _ fun d hd => h d (by simp [hd])]
    unfold words
    rw [List.splitOnP_append_cons s [] (h c (by simp))]
    simp

theorem words_strip (s : Str) : words (stripBy isByteSpace s) = words s := by
  obtain ⟨post, h3, h4⟩ := dropWhile_prefix (p := isByteSpace) (s.dropWhile isByteSpace).reverse
  have h5 : s.dropWhile isByteSpace = stripBy isByteSpace s ++ post.reverse := by
    have := congrArg List.reverse h3
    rw [List.reverse_reverse, List.reverse_append] at this
    exact this
  rw [← words_drop s, h5, words_back _ _ fun c hc => space_of_byte (h4 c (List.mem_reverse.1 hc))]

theorem words_lines (l : List Str) (h : ∀ x ∈ l, x ≠ [] ∧ ∀ a ∈ x, isSpace a = false) :
    words ((l.map fun x => x ++ ['\n']).flatten) = l := by
  induction l with
  | nil => rfl
  | cons x l ih =>
    have := words_word x ((l.map fun x => x ++ ['\n']).flatten) (c := '\n') (h x (by simp)).2 (by decide) (h x (by simp)).1
    simp only [List.map_cons, List.flatten_cons, List.append_assoc, List.singleton_append]
    rw [this, ih fun y hy => h y (by simp [hy])]

/-- The branch can be found whatever git says about branches. -/
theorem branch_ok {sys : System} {b b' : Str} (h : Says sys ["rev-parse", "--abbrev-ref", "HEAD"] b)
    (h' : Says sys ["branch", "--contains"] b') : ∃ x, branchOf (runCommand sys (gits sys)) = .ok x := by
  have e := says_run h
  have e' := says_run h'
  simp only [List.map_cons, List.map_nil] at e e'
  unfold branchOf
  simp only [e, e', ne_eq, not_true_eq_false, if_false]
  split
  · split <;> split <;> exact ⟨_, rfl⟩
  · exact ⟨_, rfl⟩

theorem splitlines_one (s : Str) (hne : s ≠ []) (h : ∀ c ∈ s, isBreak c = false) : splitlines s = [s] := by
  induction s with
  | nil => exact absurd rfl hne
  | cons c s ih =>
    have hc := h c (by simp)
    unfold splitlines
    split
    · rename_i heq; cases heq
    · rename_i heq
      cases heq
      exact absurd hc (by decide)
    · rename_i heq
      cases heq
      rw [if_neg (by simp [hc])]
      cases s with
      | nil => rfl
      | cons d s => rw [ih (by simp) fun x hx => h x (by simp [hx])]

theorem replaceFirst_at (x : Char) (t a b : Str) (ha : x ∉ a) : replaceFirst x t (a ++ x :: b) = a ++ t ++ b := by
  induction a with
  | nil => simp [replaceFirst]
  | cons c a ih =>
    simp only [List.mem_cons, not_or] at ha
    rw [List.cons_append, replaceFirst, if_neg (Ne.symm ha.1), ih ha.2]
    rfl

theorem not_break {c : Char} (h : isSpace c = false) : isBreak c = false := by
  simp only [isSpace, Bool.or_eq_false_iff, Bool.and_eq_false_iff, decide_eq_false_iff_not] at h
  simp only [isBreak, Bool.or_eq_false_iff, Bool.and_eq_false_iff, decide_eq_false_iff_not]
  omega

/-- git's date as ISO 8601. -/
theorem isoDate_git {d t z : Str} (hd : d ≠ [] ∧ ∀ a ∈ d, isSpace a = false) (ht : ∀ a ∈ t, isSpace a = false)
    (hz : z ≠ [] ∧ ∀ a ∈ z, isSpace a = false) :
    strip (d ++ [' '] ++ t ++ [' '] ++ z) = d ++ [' '] ++ t ++ [' '] ++ z ∧
    stripBy isByteSpace (d ++ [' '] ++ t ++ [' '] ++ z ++ ['\n']) = d ++ [' '] ++ t ++ [' '] ++ z ∧
    isoDate (d ++ [' '] ++ t ++ [' '] ++ z) = .ok (d ++ ['T'] ++ t ++ z) := by
  have hne : d ++ [' '] ++ t ++ [' '] ++ z ≠ [] := by simp
  have hh : ∀ c, (d ++ [' '] ++ t ++ [' '] ++ z).head? = some c → isSpace c = false := by
    intro c hc
    obtain ⟨x, d', rfl⟩ := List.exists_cons_of_ne_nil hd.1
    simp only [List.cons_append, List.head?_cons, Option.some.injEq] at hc
    exact hd.2 c (by simp [hc])
  have hl : ∀ c, (d ++ [' '] ++ t ++ [' '] ++ z).getLast? = some c → isSpace c = false := by
    intro c hc
    rw [List.getLast?_append_of_ne_nil _ hz.1] at hc
    exact hz.2 c (List.mem_of_getLast? hc)
  obtain ⟨e1, e2⟩ := strip_line hh hl hne
  refine ⟨e2, e1, ?_⟩
  have nb : ∀ c ∈ d ++ [' '] ++ t ++ [' '] ++ z, isBreak c = false := by
    intro c hc
    simp only [List.mem_append, List.mem_singleton] at hc
    rcases hc with (((hc | rfl) | hc) | rfl) | hc
    · exact not_break (hd.2 c hc)
    · decide
    · exact not_break (ht c hc)
    · decide
    · exact not_break (hz.2 c hc)
  have sd : ' ' ∉ d := fun h => absurd (hd.2 _ h) (by decide)
  have st : ' ' ∉ t := fun h => absurd (ht _ h) (by decide)
  unfold isoDate
  rw [splitlines_one _ hne nb]
  simp only [List.getLast?_singleton, e2]
  congr 1
  have x1 : d ++ [' '] ++ t ++ [' '] ++ z = d ++ ' ' :: (t ++ ' ' :: z) := by simp
  rw [x1, replaceFirst_at _ _ _ _ sd]
  have x2 : d ++ ['T'] ++ (t ++ ' ' :: z) = (d ++ ['T'] ++ t) ++ ' ' :: z := by simp
  rw [x2, replaceFirst_at _ _ _ _ (by simp [sd, st])]
  simp

theorem head_hex {h : Str} (hh : h ≠ [] ∧ ∀ a ∈ h, isHex a = true) (u : Str) :
    ∀ c, (h ++ u).head? = some c → isSpace c = false := by
  intro c hc
  obtain ⟨x, h', rfl⟩ := List.exists_cons_of_ne_nil hh.1
  simp only [List.cons_append, List.head?_cons, Option.some.injEq] at hc
  exact not_space_hex (hh.2 c (by simp [hc]))

theorem last_hex {h : Str} (hh : h ≠ [] ∧ ∀ a ∈ h, isHex a = true) (u : Str) :
    ∀ c, (u ++ h).getLast? = some c → isSpace c = false := by
  intro c hc
  rw [List.getLast?_append_of_ne_nil _ hh.1] at hc
  exact not_space_hex (hh.2 c (List.mem_of_getLast? hc))

/-- The output of `git describe`, without `-dirty`. -/
def Checkout.text (c : Checkout) : Str := match c.tag with
  | some t => t ++ ['-'] ++ decimal c.distance ++ ['-', 'g'] ++ c.abbr
  | none => c.abbr

theorem text_ne {c : Checkout} (g : Good c) : c.text ≠ [] := by
  unfold Checkout.text
  split
  · simp
  · exact g.abbr.1

theorem text_last {c : Checkout} (g : Good c) : ∀ x, c.text.getLast? = some x → isSpace x = false ∧ isHex x = true := by
  intro x hx
  unfold Checkout.text at hx
  have : c.abbr.getLast? = some x := by
    split at hx
    · rwa [List.getLast?_append_of_ne_nil _ g.abbr.1] at hx
    · exact hx
  exact ⟨not_space_hex (g.abbr.2 x (List.mem_of_getLast? this)), g.abbr.2 x (List.mem_of_getLast? this)⟩

theorem describe_strip {c : Checkout} (g : Good c) :
    stripBy isByteSpace (c.describe ++ ['\n']) = c.describe ∧ strip c.describe = c.describe := by
  have e : c.describe = c.text ++ (if c.dirty then "-dirty".toList else []) := by
    unfold Checkout.describe Checkout.text
    cases c.tag <;> rfl
  apply strip_line
  · intro x hx
    have : c.text.head? = some x := by
      rw [e] at hx
      obtain ⟨y, t, ht⟩ := List.exists_cons_of_ne_nil (text_ne g)
      rw [ht] at hx ⊢
      simpa using hx
    unfold Checkout.text at this
    cases ht : c.tag with
    | none =>
      rw [ht] at this
      exact not_space_hex (g.abbr.2 x (List.mem_of_head? this))
    | some t =>
      rw [ht] at this
      have hd := (g.tag t ht).1
      cases t with
      | nil => simp [startsDigit] at hd
      | cons y t =>
        simp only [List.cons_append, List.head?_cons, Option.some.injEq] at this
        subst this
        exact not_space_of_digit hd
  · intro x hx
    rw [e] at hx
    cases hd : c.dirty with
    | false => rw [hd] at hx; simp only [Bool.false_eq_true, if_false, List.append_nil] at hx; exact (text_last g x hx).1
    | true =>
      rw [hd] at hx
      simp only [if_true] at hx
      rw [List.getLast?_append_of_ne_nil _ (by decide)] at hx
      have : x = 'y' := by
        have h : ("-dirty".toList).getLast? = some 'y' := by decide
        rw [h] at hx; exact (Option.some.inj hx).symm
      rw [this]; decide
  · rw [e]
    intro h
    exact text_ne g (List.append_eq_nil_iff.1 h).1

/-- Whether tracked files are changed, and the rest of the description. -/
theorem describe_dirty {c : Checkout} (g : Good c) : "-dirty".toList.isSuffixOf c.describe = c.dirty ∧
    (if c.dirty then c.describe.take (c.describe.length - 6) else c.describe) = c.text := by
  have e : c.describe = c.text ++ (if c.dirty then "-dirty".toList else []) := by
    unfold Checkout.describe Checkout.text
    cases c.tag <;> rfl
  cases hd : c.dirty with
  | true =>
    rw [hd] at e
    simp only [if_true] at e ⊢
    refine ⟨?_, ?_⟩
    · rw [e]
      exact List.isSuffixOf_iff_suffix.2 (List.suffix_append _ _)
    · have hl : "-dirty".toList.length = 6 := by decide
      rw [e, List.length_append, hl, Nat.add_sub_cancel, List.take_left']
      rfl
  | false =>
    rw [hd] at e
    simp only [Bool.false_eq_true, if_false, List.append_nil] at e ⊢
    refine ⟨?_, e⟩
    rw [Bool.eq_false_iff]
    intro h
    obtain ⟨u, hu⟩ := List.isSuffixOf_iff_suffix.1 h
    have : c.text.getLast? = some 'y' := by
      rw [← e, ← hu, List.getLast?_append_of_ne_nil _ (by decide)]; decide
    exact absurd (text_last g _ this).2 (by decide)

theorem pieces_ok {sys : System} {c : Checkout} (g : Good c) (a : Answers sys c) : ∃ b, gitPieces sys [] =
    .ok (.pieces ⟨c.hash, c.rev, b, c.dirty, c.tag, c.distance, some (c.day ++ ['T'] ++ c.time ++ c.zone)⟩) := by
  obtain ⟨gd, hdir⟩ := a.dir
  obtain ⟨b1, hb1⟩ := a.branch
  obtain ⟨b2, hb2⟩ := a.branches
  obtain ⟨b, hb⟩ := branch_ok hb1 hb2
  refine ⟨b, ?_⟩
  have e1 := says_run hdir
  have e2 := says_run a.describe
  have e3 := says_run a.head
  have e4 := says_run a.date
  obtain ⟨s1, s2⟩ := describe_strip g
  obtain ⟨d1, d2⟩ := describe_dirty g
  obtain ⟨h1, h2⟩ := strip_line (t := c.hash) (by simpa using head_hex g.hash []) (by simpa using last_hex g.hash []) g.hash.1
  obtain ⟨t2, t1, t3⟩ := isoDate_git g.day g.time g.zone
  rw [s1] at e2
  rw [h1] at e3
  rw [t1] at e4
  simp only [List.map_cons, List.map_nil] at e1 e2 e3 e4
  unfold gitPieces
  simp only [e1, e3, e4, hb, describeArgs, List.nil_append, e2, s2, h2, d1, d2, stripped, t2, bind, Except.bind, pure, Except.pure, t3, ne_eq,
    not_true_eq_false, if_false]
  cases ht : c.tag with
  | none =>
    have et : c.text = c.abbr := by unfold Checkout.text; rw [ht]
    have hm : '-' ∉ c.text := by rw [et]; exact fun h => absurd (g.abbr.2 _ h) (by decide)
    have e5 := says_run (a.list ht)
    simp only [List.map_cons, List.map_nil] at e5
    rw [if_neg hm]
    simp only [e5, words_strip, words_lines c.commits g.commits, Checkout.rev, ht, Checkout.distance]
  | some t =>
    have et : c.text = t ++ ['-'] ++ decimal c.distance ++ ['-', 'g'] ++ c.abbr := by unfold Checkout.text; rw [ht]
    have hm : '-' ∈ c.text := by rw [et]; simp
    have hp : parseDescribe c.text = some (t, c.distance, c.abbr) := by
      refine (C110_groups _ _ _ _ ?_).2 ⟨decimal c.distance, et, ?_, (g.tag t ht).2, ⟨decimal_ne_nil _, decimal_digits _⟩,
        parseNat_decimal _, g.abbr⟩
      · intro h
        exact absurd (text_last g _ h).2 (by decide)
      · rintro rfl
        exact absurd (g.tag _ ht).1 (by decide)
    rw [if_pos hm, hp]
    simp [Checkout.rev, ht]

/-- The documented form: `TAG[+DISTANCE.gHEX[.dirty]]`, and `0+untagged.DISTANCE.gHEX[.dirty]` without a tag.  A tag with a `+` is
continued with a dot. -/
def Checkout.version (c : Checkout) : Str := match c.tag with
  | some t => if c.commits = [] ∧ c.dirty = false then t else t ++ (if '+' ∈ t then ['.'] else ['+']) ++ c.suffix
  | none => "0+untagged.".toList ++ c.suffix

theorem not_keywords : versionsFromKeywords unexpanded [] = .error .notThisMethod := by decide +kernel

theorem tag?_eq {c : Checkout} (g : Good c) (long : Str) (b d : Option Str) :
    (Pieces.tag? ⟨long, c.rev, b, c.dirty, c.tag, c.distance, d⟩) = c.tag := by
  unfold Pieces.tag?
  cases ht : c.tag with
  | none => rfl
  | some t =>
    cases t with
    | nil => exact absurd (g.tag _ ht).1 (by decide)
    | cons x t => rfl

theorem opt_eq (b : Bool) (s : String) : opt b s = if b then s.toList else [] := rfl

theorem rendered {c : Checkout} (g : Good c) (long : Str) (b d : Option Str) :
    renderPep440 ⟨long, c.rev, b, c.dirty, c.tag, c.distance, d⟩ = c.version := by
  unfold renderPep440
  rw [tag?_eq g]
  unfold Checkout.version
  cases ht : c.tag with
  | none =>
    simp only [opt_eq, Checkout.suffix, List.append_assoc]
    rfl
  | some t =>
    have hz : c.distance ≠ 0 ↔ c.commits ≠ [] := by simp [Checkout.distance]
    simp only [hz]
    by_cases h : c.commits = [] ∧ c.dirty = false
    · rw [if_pos h, if_neg (by simp [h.1, h.2])]
    · rw [if_neg h, if_pos]
      · simp only [opt_eq, Checkout.suffix, plusOrDot, List.append_assoc]
        rfl
      · by_contra hc
        push_neg at hc
        exact h ⟨by simpa using hc.1, by simpa using hc.2⟩

theorem render_pep440 (p : Pieces) :
    render (.pieces p) "pep440" = .ok ⟨renderPep440 p, some p.long, some p.dirty, none, p.date⟩ := by
  rfl

theorem orElse_not (b : Except Err Versions) : orElse (.error .notThisMethod) b = b := rfl

theorem orElse_ok (v : Versions) (b : Except Err Versions) : orElse (.ok v) b = .ok v := rfl

theorem getVersions_git {kw : Keywords} {sys : System} {file : Str} {p : Pieces}
    (hk : versionsFromKeywords kw [] = .error .notThisMethod) (hp : gitPieces sys [] = .ok (.pieces p)) :
    getVersions {} kw sys (some file) = .ok ⟨renderPep440 p, some p.long, some p.dirty, none, p.date⟩ := by
  unfold getVersions
  rw [show (({} : Cfg).tagPrefix) = [] from rfl, hk, hp, orElse_not]
  dsimp only
  rw [show (do render (← (Except.ok (Found.pieces p) : Except Err Found)) ({} : Cfg).style) = render (.pieces p) "pep440" from rfl,
    render_pep440, orElse_ok]

end Vers

/-- **C110**: in a checkout the version is the documented one, with the hash of the commit and its date: whatever branch is checked out and
wherever the checkout lies. -/
theorem C110_checkout {sys : System} {c : Checkout} (g : Good c) (a : Answers sys c) (file : Str) :
    getVersions {} unexpanded sys (some file) =
      .ok ⟨c.version, some c.hash, some c.dirty, none, some (c.day ++ ['T'] ++ c.time ++ c.zone)⟩ := by
  obtain ⟨b, hb⟩ := pieces_ok g a
  rw [getVersions_git not_keywords hb, rendered g]

/-- **C110**: a commit with a tag, unchanged, has the tag as its version. -/
theorem C110_release {sys : System} {c : Checkout} (g : Good c) (a : Answers sys c) (file t : Str) (ht : c.tag = some t)
    (hr : c.commits = [] ∧ c.dirty = false) : Version.version unexpanded sys (some file) = .ok t := by
  unfold Version.version
  rw [C110_checkout g a file]
  simp only [Except.map, Checkout.version, ht, if_pos hr]

/-- **C110**: configured for the style `git-describe-long`, the version of a checkout with a tag is what git says. -/
theorem C110_describe {sys : System} {c : Checkout} (g : Good c) (a : Answers sys c) (t : Str) (ht : c.tag = some t) :
    (do render (← gitPieces sys []) "git-describe-long") =
      .ok ⟨c.describe, some c.hash, some c.dirty, none, some (c.day ++ ['T'] ++ c.time ++ c.zone)⟩ := by
  obtain ⟨b, hb⟩ := pieces_ok g a
  rw [hb]
  have e : ∀ p, render (.pieces p) "git-describe-long" = .ok ⟨renderGitDescribeLong p, some p.long, some p.dirty, none, p.date⟩ :=
    fun _ => rfl
  refine (e _).trans ?_
  rw [renderGitDescribeLong, tag?_eq g]
  unfold Checkout.describe
  simp only [ht, opt_eq, Checkout.rev]
  rfl

namespace Vers

theorem suffix_inj {c d : Checkout} (gc : Good c) (gd : Good d) (h : c.suffix = d.suffix) :
    c.distance = d.distance ∧ c.rev = d.rev ∧ c.dirty = d.dirty := by
  have hx : ∀ c : Checkout, Good c → '.' ∉ c.rev := by
    intro c g hm
    unfold Checkout.rev at hm
    split at hm
    · exact absurd (g.abbr.2 _ hm) (by decide)
    · exact absurd (g.hash.2 _ (List.mem_of_mem_take hm)) (by decide)
  have hd : ∀ n, '.' ∉ decimal n := fun n hm => absurd (decimal_digits n _ hm) (by decide)
  have e : ∀ c : Checkout, c.suffix = decimal c.distance ++ '.' :: ('g' :: (c.rev ++ if c.dirty then ".dirty".toList else [])) := by
    intro c; simp [Checkout.suffix]
  rw [e, e] at h
  obtain ⟨h1, h2⟩ := cut_inj '.' (hd _) (hd _) h
  obtain ⟨-, h2⟩ := List.cons.inj h2
  refine ⟨decimal_inj h1, ?_⟩
  have tl : ".dirty".toList = '.' :: "dirty".toList := by decide
  cases h3 : c.dirty <;> cases h4 : d.dirty <;> simp only [h3, h4, if_true, Bool.false_eq_true, if_false, List.append_nil] at h2
  · exact ⟨h2, rfl⟩
  · exfalso
    apply hx c gc
    rw [h2, tl]; simp
  · exfalso
    apply hx d gd
    rw [← h2, tl]; simp
  · rw [tl] at h2
    exact ⟨(cut_inj '.' (hx c gc) (hx d gd) h2).1, rfl⟩

theorem suffix_head (c : Checkout) : ∃ x s, c.suffix = x :: s ∧ isDigit x = true := by
  obtain ⟨x, s, h⟩ := List.exists_cons_of_ne_nil (decimal_ne_nil c.distance)
  exact ⟨x, s ++ ['.', 'g'] ++ c.rev ++ (if c.dirty then ".dirty".toList else []), by unfold Checkout.suffix; rw [h]; rfl,
    decimal_digits c.distance x (by simp [h])⟩

/-- A version is a public part, and what distinguishes it from other commits of that name. -/
theorem version_cases (c : Checkout) (hp : ∀ t, c.tag = some t → '+' ∉ t) :
    (∃ t, c.tag = some t ∧ c.released ∧ c.version = t) ∨ (∃ t, c.tag = some t ∧ ¬c.released ∧ c.version = t ++ '+' :: c.suffix) ∨
    (c.tag = none ∧ c.version = "0".toList ++ '+' :: ("untagged.".toList ++ c.suffix)) := by
  cases ht : c.tag with
  | none => exact .inr (.inr ⟨rfl, by simp [Checkout.version, ht]⟩)
  | some t =>
    by_cases h : c.commits = [] ∧ c.dirty = false
    · exact .inl ⟨t, rfl, ⟨by simp [ht], h⟩, by simp [Checkout.version, ht, h]⟩
    · refine .inr (.inl ⟨t, rfl, fun hr => h hr.2, ?_⟩)
      simp only [Checkout.version, ht, if_neg h, if_neg (hp t ht)]
      simp

end Vers

/-- Checkouts with the same version are the same commit, with or without changes. -/
def C110_full : Prop := ∀ c d : Checkout, Good c → Good d → c.version = d.version →
  c.tag = d.tag ∧ c.distance = d.distance ∧ c.dirty = d.dirty ∧ (c.rev = d.rev ∨ c.released ∧ d.released)

/-- **C110**: two checkouts have the same version only if they are of the same tag, as many commits behind it, with the same hash
and equally changed: as long as there is no `+` in the tags. -/
theorem C110_same_partial {c d : Checkout} (gc : Good c) (gd : Good d) (hc : ∀ t, c.tag = some t → '+' ∉ t)
    (hd : ∀ t, d.tag = some t → '+' ∉ t) (h : c.version = d.version) :
    c.tag = d.tag ∧ c.distance = d.distance ∧ c.dirty = d.dirty ∧ (c.rev = d.rev ∨ c.released ∧ d.released) := by
  have key : ∀ e f : Checkout, Good e → (∀ t, e.tag = some t → '+' ∉ t) → ∀ t, e.tag = some t → e.version = t →
      ∀ u s, '+' ∉ u → f.version = u ++ '+' :: s → e.version ≠ f.version := by
    intro e f _ he t ht hv u s hu hf heq
    apply he t ht
    rw [← hv, heq, hf]; simp
  have zero : '+' ∉ "0".toList := by decide
  have unt : ∀ c d : Checkout, c.suffix ≠ "untagged.".toList ++ d.suffix := by
    intro c d he
    obtain ⟨x, s, h1, h2⟩ := suffix_head c
    have e : "untagged.".toList = 'u' :: "ntagged.".toList := by decide
    rw [h1, e] at he
    simp only [List.cons_append, List.cons.injEq] at he
    rw [he.1] at h2
    exact absurd h2 (by decide)
  rcases version_cases c hc with ⟨t, ht, hr, hv⟩ | ⟨t, ht, hr, hv⟩ | ⟨ht, hv⟩ <;>
    rcases version_cases d hd with ⟨u, hu, hs, hw⟩ | ⟨u, hu, hs, hw⟩ | ⟨hu, hw⟩
  · refine ⟨by rw [ht, hu, ← hv, ← hw, h], ?_, by rw [hr.2.2, hs.2.2], .inr ⟨hr, hs⟩⟩
    simp [Checkout.distance, hr.2.1, hs.2.1]
  · exact absurd h (key c d gc hc t ht hv _ _ (hd u hu) hw)
  · exact absurd h (key c d gc hc t ht hv _ _ zero hw)
  · exact absurd h.symm (key d c gd hd u hu hw _ _ (hc t ht) hv)
  · rw [hv, hw] at h
    obtain ⟨e1, e2⟩ := cut_inj '+' (hc t ht) (hd u hu) h
    obtain ⟨e3, e4, e5⟩ := suffix_inj gc gd e2
    exact ⟨by rw [ht, hu, e1], e3, e5, .inl e4⟩
  · rw [hv, hw] at h
    exact absurd (cut_inj '+' (hc t ht) zero h).2 (unt c d)
  · exact absurd h.symm (key d c gd hd u hu hw _ _ zero hv)
  · rw [hv, hw] at h
    exact absurd (cut_inj '+' zero (hd u hu) h).2.symm (unt d c)
  · rw [hv, hw] at h
    obtain ⟨e3, e4, e5⟩ := suffix_inj gc gd (List.append_cancel_left (cut_inj '+' zero zero h).2)
    exact ⟨by rw [ht, hu], e3, e5, .inl e4⟩

/-- Two commits, the second tagged with the version of the first. -/
def twins : Checkout × Checkout :=
  (⟨some "1".toList, [], "ab".toList, "ab".toList, true, "2020-01-02".toList, "03:04:05".toList, "+0000".toList⟩,
   ⟨some "1+0.gab.dirty".toList, [], "cd".toList, "cd".toList, false, "2020-01-02".toList, "03:04:05".toList, "+0000".toList⟩)

theorem C110_refuted : ¬C110_full := by
  intro h
  have g : Good twins.1 ∧ Good twins.2 := by
    constructor <;> refine ⟨?_, ?_, ?_, ?_, ?_, ?_, ?_⟩ <;> first
      | (intro t ht; obtain rfl := Option.some.inj ht; decide)
      | decide
  have := (h twins.1 twins.2 g.1 g.2 (by decide +kernel)).1
  exact absurd this (by decide)

/-! ### PEP 440 -/

namespace Vers

/-- A row of digits. -/
def Number (s : Str) : Prop := s ≠ [] ∧ ∀ c ∈ s, isDigit c = true

/-- `[N!]N(.N)*[{a|b|rc}N][.postN][.devN]`. -/
def Public (s : Str) : Prop := ∃ epoch first rest pre post dev : Str, s = epoch ++ first ++ rest ++ pre ++ post ++ dev ∧
  (epoch = [] ∨ ∃ n, Number n ∧ epoch = n ++ ['!']) ∧ Number first ∧
  (∃ ns : List Str, (∀ n ∈ ns, Number n) ∧ rest = (ns.map fun n => '.' :: n).flatten) ∧
  (pre = [] ∨ ∃ n, Number n ∧ (pre = 'a' :: n ∨ pre = 'b' :: n ∨ pre = 'r' :: 'c' :: n)) ∧
  (post = [] ∨ ∃ n, Number n ∧ post = ".post".toList ++ n) ∧ (dev = [] ∨ ∃ n, Number n ∧ dev = ".dev".toList ++ n)

/-- One part of a local version label. -/
def Part (s : Str) : Prop := s ≠ [] ∧ ∀ c ∈ s, isDigit c = true ∨ (97 ≤ c.toNat ∧ c.toNat ≤ 122)

/-- PEP 440: a public version, and perhaps `+` and a local label. -/
def Pep440 (s : Str) : Prop := ∃ pub, Public pub ∧ (s = pub ∨
  ∃ first : Str, ∃ rest : List Str, Part first ∧ (∀ p ∈ rest, Part p) ∧ s = pub ++ ['+'] ++ first ++ (rest.map fun p => '.' :: p).flatten)

theorem public_no_plus {s : Str} (h : Public s) : '+' ∉ s := by
  obtain ⟨epoch, first, rest, pre, post, dev, rfl, h1, h2, ⟨ns, h3, h3'⟩, h4, h5, h6⟩ := h
  have hn : ∀ n, Number n → '+' ∉ n := fun n hn hm => absurd (hn.2 _ hm) (by decide)
  simp only [List.mem_append, not_or]
  refine ⟨⟨⟨⟨⟨?_, hn _ h2⟩, ?_⟩, ?_⟩, ?_⟩, ?_⟩
  · rcases h1 with rfl | ⟨n, h, rfl⟩
    · simp
    · simp [hn n h]
  · rw [h3']
    simp only [List.mem_flatten, List.mem_map, not_exists, not_and]
    rintro l ⟨n, hm, rfl⟩
    simp [hn n (h3 n hm)]
  · rcases h4 with rfl | ⟨n, h, rfl | rfl | rfl⟩ <;> simp [*]
  · rcases h5 with rfl | ⟨n, h, rfl⟩
    · simp
    · rw [List.mem_append, not_or]; exact ⟨by decide, hn n h⟩
  · rcases h6 with rfl | ⟨n, h, rfl⟩
    · simp
    · rw [List.mem_append, not_or]; exact ⟨by decide, hn n h⟩

theorem part_decimal (n : Nat) : Part (decimal n) := ⟨decimal_ne_nil n, fun c hc => .inl (decimal_digits n c hc)⟩

theorem part_rev {c : Checkout} (g : Good c) : Part ('g' :: c.rev) := by
  refine ⟨by simp, ?_⟩
  intro x hx
  rcases List.mem_cons.1 hx with rfl | hx
  · exact .inr (by decide)
  · have : isHex x = true := by
      unfold Checkout.rev at hx
      split at hx
      · exact g.abbr.2 x hx
      · exact g.hash.2 x (List.mem_of_mem_take hx)
    simp only [isHex, Bool.or_eq_true, Bool.and_eq_true, decide_eq_true_eq] at this
    rcases this with h | h
    · exact .inl h
    · exact .inr ⟨h.1, by omega⟩

/-- The parts of the suffix. -/
theorem suffix_parts {c : Checkout} (g : Good c) : ∃ rest : List Str, (∀ p ∈ rest, Part p) ∧
    c.suffix = decimal c.distance ++ (rest.map fun p => '.' :: p).flatten := by
  have hd : Part "dirty".toList := ⟨by decide, by decide⟩
  cases h : c.dirty with
  | false => exact ⟨['g' :: c.rev], by simp [part_rev g], by simp [Checkout.suffix, h]⟩
  | true =>
    refine ⟨['g' :: c.rev, "dirty".toList], ?_, ?_⟩
    · intro p hp
      simp only [List.mem_cons, List.not_mem_nil, or_false] at hp
      rcases hp with rfl | rfl
      · exact part_rev g
      · exact hd
    · simp [Checkout.suffix, h]

end Vers

/-- **C110**: versions of commits whose tags are versions according to PEP 440 are versions according to PEP 440, also if the tag has a local
label already. -/
theorem C110_pep440 {c : Checkout} (g : Good c) (h : ∀ t, c.tag = some t → Pep440 t) : Pep440 c.version := by
  obtain ⟨rest, hr, hs⟩ := suffix_parts g
  cases ht : c.tag with
  | none =>
    refine ⟨"0".toList, ⟨[], "0".toList, [], [], [], [], by simp, .inl rfl, ⟨by decide, by decide⟩, ⟨[], by simp, by simp⟩, .inl rfl, .inl rfl,
      .inl rfl⟩, .inr ⟨"untagged".toList, decimal c.distance :: rest, ⟨by decide, by decide⟩, ?_, ?_⟩⟩
    · intro p hp
      rcases List.mem_cons.1 hp with rfl | hp
      · exact part_decimal _
      · exact hr p hp
    · simp [Checkout.version, ht, hs]
  | some t =>
    obtain ⟨pub, hp, hl⟩ := h t ht
    by_cases hc : c.commits = [] ∧ c.dirty = false
    · simp only [Checkout.version, ht, if_pos hc]
      exact ⟨pub, hp, hl⟩
    · simp only [Checkout.version, ht, if_neg hc]
      rcases hl with rfl | ⟨first, more, h1, h2, rfl⟩
      · rw [if_neg (public_no_plus hp), hs]
        exact ⟨t, hp, .inr ⟨decimal c.distance, rest, part_decimal _, hr, by simp⟩⟩
      · rw [if_pos (by simp), hs]
        refine ⟨pub, hp, .inr ⟨first, more ++ decimal c.distance :: rest, h1, ?_, by simp⟩⟩
        intro p hp
        rcases List.mem_append.1 hp with hp | hp
        · exact h2 p hp
        · rcases List.mem_cons.1 hp with rfl | hp
          · exact part_decimal _
          · exact hr p hp

/-! ### An example -/

namespace Vers

/-- Two commits behind the tag `2.4-rc-1`, with changes. -/
def sample : Checkout :=
  ⟨some "2.4-rc-1".toList, ["0aa".toList, "1bb".toList], "0123456789".toList, "01234567".toList, true, "2020-01-02".toList,
    "03:04:05".toList, "+0100".toList⟩

/-- A git that tells the commands apart by the number of their arguments. -/
def sampleSys : System where
  windows := false
  proc _ args := match args.length with
    | 7 => .done (sample.describe ++ ['\n']) 0
    | 2 => .done (sample.hash ++ ['\n']) 0
    | 4 => .done (sample.day ++ [' '] ++ sample.time ++ [' '] ++ sample.zone ++ ['\n']) 0
    | _ => .done "main".toList 0

end Vers

example : Good sample ∧ Answers sampleSys sample ∧ sample.version = "2.4-rc-1+2.g01234567.dirty".toList := by
  have hs : ∀ args out, sampleSys.proc "git".toList (args.map String.toList) = .done out 0 → Says sampleSys args out :=
    fun args out h => ⟨[], _, [], rfl, by simp, h⟩
  refine ⟨⟨?_, ?_, ?_, ?_, ?_, ?_, ?_⟩, ⟨⟨_, hs _ _ rfl⟩, hs _ _ rfl, hs _ _ rfl, ⟨_, hs _ _ rfl⟩, ⟨_, hs _ _ rfl⟩, fun h => ?_, hs _ _ rfl⟩, ?_⟩
  · intro t ht
    obtain rfl := Option.some.inj ht
    decide
  · decide
  · decide
  · decide
  · decide
  · decide
  · decide
  · exact absurd h (by decide)
  · decide +kernel

end Verif.Props
