import Verif.Model.YamlText
import Mathlib.Data.Nat.Digits.Defs

/-!
# C144: YAML files say what they seem to say
-/

namespace Verif.Props

open ConfigRead YamlText
open Txt (Str)

/-! ## How a file is laid out -/

namespace YamlLayout

/-- The words of YAML 1.1 that stand for something else than themselves. -/
def words : List (String × Scalar) :=
  [("null", .null), ("Null", .null), ("NULL", .null), ("yes", .bool true), ("Yes", .bool true), ("YES", .bool true), ("no", .bool false),
   ("No", .bool false), ("NO", .bool false), ("true", .bool true), ("True", .bool true), ("TRUE", .bool true), ("false", .bool false),
   ("False", .bool false), ("FALSE", .bool false), ("on", .bool true), ("On", .bool true), ("ON", .bool true), ("off", .bool false),
   ("Off", .bool false), ("OFF", .bool false)]

/-- ASCII, and nothing that moves the cursor. -/
def Printable (c : Char) : Prop := 32 ≤ c.toNat ∧ c.toNat ≤ 126

def Letter (c : Char) : Prop := c.isAlpha = true ∨ c = '_'

def Word (c : Char) : Prop := Letter c ∨ c.isDigit = true

/-- What plain values may be made of. -/
def Plain (c : Char) : Prop := Word c ∨ c ∈ ['.', '/', '+', '-']

/-- The number some digits stand for. -/
def decimal (ds : Str) : Nat := Nat.ofDigits 10 (ds.reverse.map fun c => c.toNat - 48)

def Digits (ds : Str) : Prop := ∀ c ∈ ds, c.isDigit = true

/-- The end of a line: blanks, and a comment after them. -/
inductive Tail : Str → Prop
  | none : Tail []
  | blanks (n : Nat) : Tail (List.replicate (n + 1) ' ')
  | comment (n : Nat) (c : Str) (hc : ∀ x ∈ c, Printable x) : Tail (List.replicate (n + 1) ' ' ++ '#' :: c)

/-- A value and how it is written. -/
inductive Written : Str → Scalar → Prop
  | single (s : Str) (h : ∀ c ∈ s, Printable c ∧ c ≠ '\'') : Written ('\'' :: (s ++ ['\''])) (.str (String.ofList s))
  | double (s : Str) (h : ∀ c ∈ s, Printable c ∧ c ≠ '"' ∧ c ≠ '\\') : Written ('"' :: (s ++ ['"'])) (.str (String.ofList s))
  | word (w : String) (v : Scalar) (h : (w, v) ∈ words) : Written w.toList v
  | zero : Written ['0'] (.int 0)
  | int (c : Char) (ds : Str) (hc : c ≠ '0') (h : Digits (c :: ds)) : Written (c :: ds) (.int (decimal (c :: ds)))
  | negative (c : Char) (ds : Str) (hc : c ≠ '0') (h : Digits (c :: ds)) : Written ('-' :: c :: ds) (.int (-(decimal (c :: ds))))
  | num (a b : Str) (ha : a ≠ []) (h : Digits a) (h' : Digits b) :
      Written (a ++ '.' :: b) (.num (decimal a + decimal b / 10 ^ b.length))
  | below (a b : Str) (ha : a ≠ []) (h : Digits a) (h' : Digits b) :
      Written ('-' :: (a ++ '.' :: b)) (.num (-(decimal a + decimal b / 10 ^ b.length)))
  | text (c : Char) (s : Str) (hc : Letter c ∨ c = '/') (h : ∀ x ∈ c :: s, Plain x) (hw : String.ofList (c :: s) ∉ words.map Prod.fst) :
      Written (c :: s) (.str (String.ofList (c :: s)))
  | signed (q c : Char) (s : Str) (hq : q = '-' ∨ q = '+') (hc : Letter c) (h : ∀ x ∈ c :: s, Plain x ∧ x ≠ '.' ∧ x ≠ '_') :
      Written (q :: c :: s) (.str (String.ofList (q :: c :: s)))
  | path (c : Char) (s : Str) (hc : c = '.' ∨ c = '/') (h : ∀ x ∈ s, Plain x) : Written ('.' :: c :: s) (.str (String.ofList ('.' :: c :: s)))
  | day (y m d : Str) (hy : Digits y) (hm : Digits m) (hd : Digits d) (ly : y.length = 4) (lm : m.length = 2) (ld : d.length = 2)
      (h0 : y.head? ≠ some '0') (h1 : 1 ≤ decimal m ∧ decimal m ≤ 12)
      (h2 : 1 ≤ decimal d ∧ decimal d ≤ (Cal.monthLens (Cal.leap (decimal y)))[decimal m - 1]?.getD 0) :
      Written (y ++ '-' :: (m ++ '-' :: d)) (.date (Cal.ofCivil (decimal y) (decimal m) (decimal d)))
  | loose (y m d : Str) (hy : Digits y) (hm : Digits m) (hd : Digits d) (h0 : y.head? ≠ some '0') (hne : y ≠ [])
      (h : ¬ (y.length = 4 ∧ m.length = 2 ∧ d.length = 2)) :
      Written (y ++ '-' :: (m ++ '-' :: d)) (.str (String.ofList (y ++ '-' :: (m ++ '-' :: d))))

/-- A name as a key. -/
def Key (k : Str) : Prop := (∃ c s, k = c :: s ∧ Letter c) ∧ (∀ c ∈ k, Word c) ∧ String.ofList k ∉ words.map Prod.fst

/-- The line of an entry: the key after `n` blanks, a colon not too far away, and the value, if there is one on the line. -/
inductive Line : Str → Entry → Prop
  | bare (n a : Nat) (k t : Str) (hk : Key k) (ha : k.length + a ≤ 1024) (ht : Tail t) :
      Line (List.replicate n ' ' ++ (k ++ (List.replicate a ' ' ++ ':' :: t))) ⟨n, String.ofList k, none⟩
  | valued (n a b : Nat) (k v t : Str) (s : Scalar) (hk : Key k) (ha : k.length + a ≤ 1024) (hv : Written v s) (ht : Tail t) :
      Line (List.replicate n ' ' ++ (k ++ (List.replicate a ' ' ++ ':' :: (List.replicate (b + 1) ' ' ++ (v ++ t))))) ⟨n, String.ofList k, some s⟩

/-- Lines, with empty lines and comments anywhere between them. -/
inductive Lines : List Str → List Entry → Prop
  | nil : Lines [] []
  | empty (n : Nat) {ls es} (h : Lines ls es) : Lines (List.replicate n ' ' :: ls) es
  | comment (n : Nat) (c : Str) (hc : ∀ x ∈ c, Printable x) {ls es} (h : Lines ls es) : Lines ((List.replicate n ' ' ++ '#' :: c) :: ls) es
  | entry {l e ls es} (he : Line l e) (h : Lines ls es) : Lines (l :: ls) (e :: es)

/-- Keys and values side by side, all with the same indentation. A value may be left out for `null`. -/
def Fields (k : Nat) (d : Dict String Scalar) (es : List Entry) : Prop :=
  List.Forall₂ (fun q e => e.indent = k ∧ e.key = q.1 ∧ e.val.getD .null = q.2) d es

/-- What stands under a key in a section. -/
inductive UnderKey (k : Nat) : String × Item → List Entry → Prop
  | one (e : Entry) (he : e.indent = k) : UnderKey k (e.key, .one (e.val.getD .null)) [e]
  | many (key : String) (m : Nat) (hm : k < m) (d : Dict String Scalar) (hd : d ≠ []) (es : List Entry) (h : Fields m d es) :
      UnderKey k (key, .many d) (⟨k, key, none⟩ :: es)

inductive UnderSection (k : Nat) : Dict String Item → List Entry → Prop
  | nil : UnderSection k [] []
  | cons {q d es es'} (h : UnderKey k q es) (h' : UnderSection k d es') : UnderSection k (q :: d) (es ++ es')

inductive Sections : Dict String (Dict String Item) → List Entry → Prop
  | nil : Sections [] []
  | cons (key : String) (k : Nat) (hk : 0 < k) {d es ds es'} (h : UnderSection k d es) (h' : Sections ds es') :
      Sections ((key, d) :: ds) (⟨0, key, none⟩ :: (es ++ es'))

/-- No key twice in the same place. -/
def Distinct (d : Dict String (Dict String Item)) : Prop :=
  d.keys.Nodup ∧ ∀ s ∈ d, s.2.keys.Nodup ∧ ∀ k m, (k, Item.many m) ∈ s.2 → m.keys.Nodup

/-- A section MetSim looks at, and the dictionary it makes of it: no section, one with nothing in it, or one with values that `R` relates. -/
inductive Gives {α : Type} (R : α → Item → Prop) : Option (Dict String Item) → ConfigRead.Part α → Prop
  | absent : Gives R none .absent
  | empty : Gives R (some []) .empty
  | dict (d : Dict String α) (s : Dict String Item) (hd : d ≠ []) (h : List.Forall₂ (fun q i => i.1 = q.1 ∧ R q.2 i.2) d s) : Gives R (some s) (.dict d)

/-- The name and the units of an output. -/
def Names (o : OutSpec) (i : Item) : Prop :=
  ∃ m, i = .many m ∧ m.get? "out_name" = o.name.map .str ∧ m.get? "units" = o.units.map .str

/-- The sections of a file as dictionaries. -/
structure Tells (d : Dict String (Dict String Item)) (y : Yaml) : Prop where
  main : Gives (fun v i => i = .one v) (d.get? "MetSim") y.main
  forcingVars : Gives (fun v i => i = .one (.str v)) (d.get? "forcing_vars") y.forcingVars
  domainVars : Gives (fun v i => i = .one (.str v)) (d.get? "domain_vars") y.domainVars
  stateVars : Gives (fun v i => i = .one (.str v)) (d.get? "state_vars") y.stateVars
  outVars : Gives Names (d.get? "out_vars") y.outVars
  chunks : Gives (fun v i => i = .one v) (d.get? "chunks") y.chunks
  constantVars : Gives (fun v i => i = .one v) (d.get? "constant_vars") y.constantVars

/-- A file that says `d`. -/
def Says (lines : List Str) (d : Dict String (Dict String Item)) : Prop := Distinct d ∧ ∃ es, Lines lines es ∧ Sections d es

end YamlLayout

open YamlLayout

/-! ## Characters -/

theorem span_append {α : Type} {p : α → Bool} {a b : List α} (ha : ∀ x ∈ a, p x = true) (hb : ∀ c, b.head? = some c → p c = false) :
    (a ++ b).takeWhile p = a ∧ (a ++ b).dropWhile p = b := by
  rw [List.takeWhile_append_of_pos ha, List.dropWhile_append_of_pos ha]
  cases b with
  | nil => simp
  | cons c b =>
    have := hb c rfl
    simp [this]

theorem blanks_replicate (n : Nat) {s : Str} (h : s.head? ≠ some ' ') : YamlText.blanks (List.replicate n ' ' ++ s) = s := by
  unfold YamlText.blanks
  refine (span_append (fun x hx => ?_) fun c hc => ?_).2
  · rw [List.eq_of_mem_replicate hx]; rfl
  · simp only [beq_eq_false_iff_ne]
    rintro rfl
    exact h hc

theorem letter_iff {c : Char} : isLetter c = true ↔ Letter c := by simp [isLetter, Letter]

theorem word_iff {c : Char} : isWord c = true ↔ Word c := by
  simp only [isWord, Word, Letter, Char.isAlphanum, Bool.or_eq_true, beq_iff_eq]
  tauto

theorem plain_iff {c : Char} : isPlain c = true ↔ Plain c := by
  simp only [isPlain, Plain, Bool.or_eq_true, word_iff, beq_iff_eq, List.mem_cons, List.not_mem_nil, or_false]
  tauto

theorem printable_iff {c : Char} : isPrintable c = true ↔ Printable c := by simp [isPrintable, Printable]

theorem digit_range {c : Char} (h : c.isDigit = true) : 48 ≤ c.toNat ∧ c.toNat ≤ 57 := by
  simp only [Char.isDigit, Bool.and_eq_true, decide_eq_true_eq, ge_iff_le, UInt32.le_iff_toNat_le] at h
  exact h

theorem alpha_range {c : Char} (h : c.isAlpha = true) : 65 ≤ c.toNat ∧ c.toNat ≤ 122 := by
  simp only [Char.isAlpha, Char.isUpper, Char.isLower, Bool.or_eq_true, Bool.and_eq_true, decide_eq_true_eq, ge_iff_le,
    UInt32.le_iff_toNat_le] at h
  rcases h with ⟨h1, h2⟩ | ⟨h1, h2⟩
  · have h1 : 65 ≤ c.toNat := h1
    have h2 : c.toNat ≤ 90 := h2
    omega
  · have h1 : 97 ≤ c.toNat := h1
    have h2 : c.toNat ≤ 122 := h2
    omega

theorem letter_range {c : Char} (h : Letter c) : 65 ≤ c.toNat ∧ c.toNat ≤ 122 := by
  rcases h with h | rfl
  · exact alpha_range h
  · decide

theorem word_range {c : Char} (h : Word c) : 48 ≤ c.toNat ∧ c.toNat ≤ 122 := by
  rcases h with h | h
  · have := letter_range h; omega
  · have := digit_range h; omega

theorem plain_range {c : Char} (h : Plain c) : 43 ≤ c.toNat ∧ c.toNat ≤ 122 := by
  rcases h with h | h
  · have := word_range h; omega
  · simp only [List.mem_cons, List.not_mem_nil, or_false] at h
    rcases h with rfl | rfl | rfl | rfl <;> decide

theorem plain_printable {c : Char} (h : Plain c) : Printable c := by
  have := plain_range h
  unfold Printable; omega

theorem digit_plain {c : Char} (h : c.isDigit = true) : Plain c := .inl (.inr h)

theorem tail_head {t : Str} (h : Tail t) {c : Char} (hc : t.head? = some c) : c = ' ' := by
  cases h with
  | none => simp at hc
  | blanks n => simpa [List.replicate_succ, eq_comm] using hc
  | comment n s hs => simpa [List.replicate_succ, eq_comm] using hc

theorem tail_is {t : Str} (h : Tail t) : isTail t = true := by
  cases h with
  | none => rfl
  | blanks n =>
    have := blanks_replicate (n + 1) (s := []) (by simp)
    rw [List.append_nil] at this
    simp only [isTail, this]
    simp [List.replicate_succ]
  | comment n s hs =>
    have := blanks_replicate (n + 1) (s := '#' :: s) (by simp)
    simp only [isTail, this]
    simp [List.replicate_succ]

theorem tail_printable {t : Str} (h : Tail t) : ∀ c ∈ t, Printable c := by
  have hb : Printable ' ' := by unfold Printable; decide
  cases h with
  | none => simp
  | blanks n => intro c hc; rw [List.eq_of_mem_replicate hc]; exact hb
  | comment n s hs =>
    intro c hc
    rcases List.mem_append.1 hc with hc | hc
    · rw [List.eq_of_mem_replicate hc]; exact hb
    · rcases List.mem_cons.1 hc with rfl | hc
      · unfold Printable; decide
      · exact hs c hc

theorem number_decimal (ds : Str) : number ds = decimal ds := by
  unfold number decimal
  induction ds using List.reverseRecOn with
  | nil => rfl
  | append_singleton ds c ih => simp [List.foldl_append, ih, Nat.ofDigits_cons, add_comm]

/-! ## Values -/

theorem words_model (w : String) : w ∈ words.map Prod.fst ↔ w ∈ nulls ++ trues ++ falses := by
  have h1 : ∀ w ∈ words.map Prod.fst, w ∈ nulls ++ trues ++ falses := by decide +kernel
  have h2 : ∀ w ∈ nulls ++ trues ++ falses, w ∈ words.map Prod.fst := by decide +kernel
  exact ⟨h1 w, h2 w⟩

theorem words_letter : ∀ w ∈ nulls ++ trues ++ falses, (w.toList.head?.map isLetter) = some true := by decide +kernel

theorem not_word {s : Str} (h : s.head?.map isLetter ≠ some true) : String.ofList s ∉ nulls ∧ String.ofList s ∉ trues ∧ String.ofList s ∉ falses := by
  have key : String.ofList s ∉ nulls ++ trues ++ falses := by
    intro hm
    have := words_letter _ hm
    rw [String.toList_ofList] at this
    exact h this
  simp only [List.mem_append, not_or] at key
  exact ⟨key.1.1, key.1.2, key.2⟩

theorem resolve_word {w : String} {v : Scalar} (h : (w, v) ∈ words) : resolve w.toList = some v := by
  have : ∀ q ∈ words, resolve q.1.toList = some q.2 := by decide +kernel
  exact this _ h

theorem resolve_text {c : Char} {s : Str} (hc : Letter c ∨ c = '/') (hw : String.ofList (c :: s) ∉ words.map Prod.fst) :
    resolve (c :: s) = some (.str (String.ofList (c :: s))) := by
  rw [words_model] at hw
  simp only [List.mem_append, not_or] at hw
  have hd : c ≠ '.' := by
    rintro rfl
    rcases hc with h | h
    · exact absurd (letter_range h) (by decide)
    · exact absurd h (by decide)
  unfold resolve
  rw [if_neg hw.1.1, if_neg hw.1.2, if_neg hw.2]
  split
  · rename_i e; cases e
  · rename_i e; exact absurd (List.cons.inj e).1 hd
  · rename_i e; exact absurd (List.cons.inj e).1 hd
  · rename_i e
    obtain ⟨rfl, rfl⟩ := List.cons.inj e
    rw [if_pos]
    rcases hc with h | rfl
    · rw [letter_iff.2 h]; rfl
    · rfl

theorem resolve_path {c : Char} {s : Str} (hc : c = '.' ∨ c = '/') : resolve ('.' :: c :: s) = some (.str (String.ofList ('.' :: c :: s))) := by
  obtain ⟨h1, h2, h3⟩ := not_word (s := '.' :: c :: s) (by simp only [List.head?_cons, Option.map_some]; decide)
  unfold resolve
  rw [if_neg h1, if_neg h2, if_neg h3]
  rcases hc with rfl | rfl <;> rfl

/-- Digits and signs go to `numeral`. -/
theorem resolve_numeral {c : Char} {s : Str} (hc : c.isDigit = true ∨ c = '-' ∧ s ≠ []) : resolve (c :: s) = numeral (c :: s) := by
  have hl : isLetter c = false := by
    rw [← Bool.not_eq_true, letter_iff]
    intro h
    have := letter_range h
    rcases hc with h | ⟨rfl, -⟩
    · have := digit_range h; omega
    · revert this; decide
  have hne : c ≠ '.' ∧ c ≠ '/' := by
    constructor <;> rintro rfl <;> exact absurd hc (by simp; try decide)
  obtain ⟨h1, h2, h3⟩ := not_word (s := c :: s) (by simp [hl])
  unfold resolve
  rw [if_neg h1, if_neg h2, if_neg h3]
  split
  · rename_i e; cases e
  · rename_i e; exact absurd (List.cons.inj e).1 hne.1
  · rename_i e; exact absurd (List.cons.inj e).1 hne.1
  · rename_i e
    obtain ⟨rfl, rfl⟩ := List.cons.inj e
    rw [if_neg (by simp [hl, hne.2]), if_neg]
    intro e
    obtain ⟨rfl, rfl⟩ := List.cons.inj e
    rcases hc with h | h
    · revert h; decide
    · exact h.2 rfl

theorem all_digits {s : Str} : s.all Char.isDigit = true ↔ Digits s := by simp [Digits]

theorem digit_head {s : Str} (h : Digits s) : s.head? ≠ some '-' ∧ s.head? ≠ some '+' := by
  cases s with
  | nil => simp
  | cons c s =>
    have := digit_range (h c (by simp))
    simp only [List.head?_cons, ne_eq, Option.some.injEq]
    constructor <;> rintro rfl <;> revert this <;> decide

theorem resolve_signed {q c : Char} {s : Str} (hq : q = '-' ∨ q = '+') (hc : Letter c) (h : ∀ x ∈ c :: s, Plain x ∧ x ≠ '.' ∧ x ≠ '_') :
    resolve (q :: c :: s) = some (.str (String.ofList (q :: c :: s))) := by
  have hd : c.isDigit = false := by
    rw [← Bool.not_eq_true]
    intro h
    have h1 := digit_range h
    have h2 := letter_range hc
    omega
  have h0 : c ≠ '0' := by rintro rfl; revert hd; decide
  obtain ⟨h1, h2, h3⟩ := not_word (s := q :: c :: s) (by rcases hq with rfl | rfl <;> simp <;> decide)
  have hnum : numeral (q :: c :: s) = some (.str (String.ofList (q :: c :: s))) := by
    have ht : (if (q :: c :: s).head? = some '-' ∨ (q :: c :: s).head? = some '+' then (q :: c :: s).tail else q :: c :: s) = c :: s := by
      rw [if_pos (by simpa using hq)]; rfl
    have hdate : YamlText.date (q :: c :: s) = none := by
      unfold YamlText.date
      rw [if_neg]
      rintro ⟨-, h4, -⟩
      have : q.isDigit = true := by
        simp only [List.take_succ_cons, List.all_cons, Bool.and_eq_true] at h4
        exact h4.1
      rcases hq with rfl | rfl <;> revert this <;> decide
    unfold numeral
    simp only [ht, hdate]
    rw [if_neg (by simp [h0]), if_neg (by simp [hd]), if_neg (by simp [List.takeWhile_cons, hd]), if_neg, if_neg]
    · exact fun hm => (h _ hm).2.1 rfl
    · rintro (hm | hm)
      · exact (h _ hm).2.2 rfl
      · exact h0 (by simpa using hm)
  unfold resolve
  rw [if_neg h1, if_neg h2, if_neg h3]
  have hne : q ≠ '.' := by rcases hq with rfl | rfl <;> decide
  split
  · rename_i e; cases e
  · rename_i e; exact absurd (List.cons.inj e).1 hne
  · rename_i e; exact absurd (List.cons.inj e).1 hne
  · rename_i e
    obtain ⟨rfl, rfl⟩ := List.cons.inj e
    rw [if_neg (by rcases hq with rfl | rfl <;> decide), if_neg (by simp)]
    exact hnum

theorem numeral_int {c : Char} {ds : Str} (hc : c ≠ '0') (h : Digits (c :: ds)) : numeral (c :: ds) = some (.int (decimal (c :: ds))) := by
  obtain ⟨h1, h2⟩ := digit_head h
  unfold numeral
  simp only [h1, h2, or_self, if_false]
  rw [if_neg (by simp [hc]), if_pos ⟨by simpa using hc, by simp, all_digits.2 h⟩, one_mul, number_decimal]

theorem numeral_negative {c : Char} {ds : Str} (hc : c ≠ '0') (h : Digits (c :: ds)) :
    numeral ('-' :: c :: ds) = some (.int (-(decimal (c :: ds)))) := by
  unfold numeral
  simp only [List.head?_cons, true_or, if_true, List.tail_cons]
  rw [if_neg (by simp [hc]), if_pos ⟨by simpa using hc, by simp, all_digits.2 h⟩, number_decimal]
  simp

theorem dot_span {a b : Str} (h : Digits a) : (a ++ '.' :: b).takeWhile Char.isDigit = a ∧ (a ++ '.' :: b).dropWhile Char.isDigit = '.' :: b :=
  span_append h (by simp; try decide)

theorem not_digits_dot {a b : Str} : ¬ (a ++ '.' :: b).all Char.isDigit = true := by
  simp

theorem numeral_num {a b : Str} (ha : a ≠ []) (h : Digits a) (h' : Digits b) :
    numeral (a ++ '.' :: b) = some (.num (decimal a + decimal b / 10 ^ b.length)) := by
  have e : (a ++ '.' :: b).head? = a.head? := by cases a with | nil => exact absurd rfl ha | cons => rfl
  obtain ⟨h1, h2⟩ := digit_head h
  obtain ⟨s1, s2⟩ := dot_span (b := b) h
  unfold numeral
  simp only [e, h1, h2, or_self, if_false, s1, s2, List.head?_cons, List.tail_cons]
  rw [if_neg, if_neg, if_pos ⟨ha, trivial, all_digits.2 h'⟩]
  · simp [number_decimal]
  · exact fun h => not_digits_dot h.2.2
  · intro e
    have := congrArg (fun l => '.' ∈ l) e
    simp at this

theorem numeral_below {a b : Str} (ha : a ≠ []) (h : Digits a) (h' : Digits b) :
    numeral ('-' :: (a ++ '.' :: b)) = some (.num (-(decimal a + decimal b / 10 ^ b.length))) := by
  obtain ⟨s1, s2⟩ := dot_span (b := b) h
  unfold numeral
  simp only [List.head?_cons, true_or, if_true, List.tail_cons, s1, s2]
  rw [if_neg, if_neg, if_pos ⟨ha, trivial, all_digits.2 h'⟩]
  · simp [number_decimal]
  · exact fun h => not_digits_dot h.2.2
  · intro e
    have := congrArg (fun l => '.' ∈ l) e
    simp at this

theorem digit_not {s : Str} (h : Digits s) {c : Char} (hc : c.isDigit = false) : c ∉ s := fun hm => by
  rw [h c hm] at hc
  cases hc

/-- A date goes to `date`. -/
theorem numeral_date {y m d : Str} (hy : Digits y) (hm : Digits m) (hd : Digits d) (h0 : y.head? ≠ some '0') (hne : y ≠ []) :
    numeral (y ++ '-' :: (m ++ '-' :: d)) = match YamlText.date (y ++ '-' :: (m ++ '-' :: d)) with
      | some (y, m, d) =>
        if 1 ≤ y ∧ 1 ≤ m ∧ m ≤ 12 ∧ 1 ≤ d ∧ d ≤ (Cal.monthLens (Cal.leap y))[m - 1]?.getD 0 then some (.date (Cal.ofCivil y m d)) else none
      | none => some (.str (String.ofList (y ++ '-' :: (m ++ '-' :: d)))) := by
  have e : (y ++ '-' :: (m ++ '-' :: d)).head? = y.head? := by cases y with | nil => exact absurd rfl hne | cons => rfl
  obtain ⟨h1, h2⟩ := digit_head hy
  obtain ⟨s1, s2⟩ := span_append (p := Char.isDigit) (b := '-' :: (m ++ '-' :: d)) hy (by simp; try decide)
  unfold numeral
  simp only [e, h1, h2, or_self, if_false, s1, s2, List.head?_cons, List.tail_cons]
  rw [if_neg, if_neg, if_neg, if_neg, if_neg]
  · rfl
  · simp [digit_not hy (show Char.isDigit '.' = false by decide), digit_not hm (show Char.isDigit '.' = false by decide),
      digit_not hd (show Char.isDigit '.' = false by decide)]
  · rintro (h | h)
    · revert h
      simp [digit_not hy (show Char.isDigit '_' = false by decide), digit_not hm (show Char.isDigit '_' = false by decide),
        digit_not hd (show Char.isDigit '_' = false by decide)]
    · exact h0 h
  · rintro ⟨-, h, -⟩
    revert h; decide
  · rintro ⟨-, -, h⟩
    rw [List.all_eq_true] at h
    have := h '-' (by simp)
    revert this; decide
  · intro e
    have := congrArg (fun l => '-' ∈ l) e
    simp at this

theorem dash_place {a b : Str} (ha : Digits a) {k : Nat} (h1 : ((a ++ '-' :: b).take k).all Char.isDigit = true)
    (h2 : (a ++ '-' :: b)[k]? = some '-') : a.length = k := by
  rcases lt_trichotomy a.length k with h | h | h
  · rw [List.all_eq_true] at h1
    have : '-' ∈ (a ++ '-' :: b).take k := by
      rw [List.mem_take_iff_getElem]
      exact ⟨a.length, by simp; omega, by simp⟩
    exact absurd (h1 _ this) (by decide)
  · exact h
  · rw [List.getElem?_append_left h] at h2
    exact absurd (ha '-' (List.mem_of_getElem? h2)) (by decide)

theorem date_loose {y m d : Str} (hy : Digits y) (hm : Digits m) (h : ¬ (y.length = 4 ∧ m.length = 2 ∧ d.length = 2)) :
    YamlText.date (y ++ '-' :: (m ++ '-' :: d)) = none := by
  unfold YamlText.date
  rw [if_neg]
  rintro ⟨h1, h2, h3, h4, h5, h6⟩
  have e1 := dash_place hy h2 h3
  have hdrop : (y ++ '-' :: (m ++ '-' :: d)).drop 5 = m ++ '-' :: d := by
    rw [show y ++ '-' :: (m ++ '-' :: d) = (y ++ ['-']) ++ (m ++ '-' :: d) by simp]
    exact List.drop_left' (by simp [e1])
  rw [hdrop] at h4
  have e2 := dash_place hm h4 (by
    rw [← hdrop, List.getElem?_drop]
    exact h5)
  refine h ⟨e1, e2, ?_⟩
  simp only [List.length_append, List.length_cons] at h1
  omega

theorem date_day {y m d : Str} (hy : Digits y) (hm : Digits m) (hd : Digits d) (ly : y.length = 4) (lm : m.length = 2) (ld : d.length = 2) :
    YamlText.date (y ++ '-' :: (m ++ '-' :: d)) = some (decimal y, decimal m, decimal d) := by
  have e1 : (y ++ '-' :: (m ++ '-' :: d)).take 4 = y := List.take_left' ly
  have e2 : (y ++ '-' :: (m ++ '-' :: d)).drop 5 = m ++ '-' :: d := by
    rw [show y ++ '-' :: (m ++ '-' :: d) = (y ++ ['-']) ++ (m ++ '-' :: d) by simp]
    exact List.drop_left' (by simp [ly])
  have e3 : (m ++ '-' :: d).take 2 = m := List.take_left' lm
  have e4 : (y ++ '-' :: (m ++ '-' :: d)).drop 8 = d := by
    rw [show y ++ '-' :: (m ++ '-' :: d) = (y ++ '-' :: (m ++ ['-'])) ++ d by simp]
    exact List.drop_left' (by simp [ly, lm])
  have e5 : (y ++ '-' :: (m ++ '-' :: d))[4]? = some '-' := by rw [← ly]; simp
  have e6 : (y ++ '-' :: (m ++ '-' :: d))[7]? = some '-' := by
    rw [show y ++ '-' :: (m ++ '-' :: d) = (y ++ '-' :: m) ++ '-' :: d by simp, List.getElem?_append_right (by simp [ly, lm])]
    simp [ly, lm]
  unfold YamlText.date
  rw [e1, e2, e3, e4, e5, e6, if_pos ⟨by simp [ly, lm, ld], all_digits.2 hy, rfl, all_digits.2 hm, rfl, all_digits.2 hd⟩]
  simp only [number_decimal]

theorem decimal_pos {c : Char} {s : Str} (h : Digits (c :: s)) (hc : c ≠ '0') : 1 ≤ decimal (c :: s) := by
  have hr := digit_range (h c (by simp))
  have hne : c.toNat ≠ 48 := fun e => hc (by
    apply Char.ext
    apply UInt32.toNat_inj.1
    exact e)
  rw [← number_decimal]
  unfold number
  rw [List.foldl_cons]
  have mono : ∀ (l : Str) (a : Nat), 1 ≤ a → 1 ≤ l.foldl (fun a c => 10 * a + (c.toNat - 48)) a := by
    intro l
    induction l with
    | nil => intro a ha; exact ha
    | cons x l ih => intro a ha; exact ih _ (by have : 1 ≤ 10 * a := by omega
                                                exact le_trans this (Nat.le_add_right _ _))
  exact mono s _ (by rw [Nat.mul_zero, Nat.zero_add]; omega)

/-- Plain values mean what is written. -/
theorem value_plain {v t : Str} {s : Scalar} (ht : Tail t) (hp : ∀ c ∈ v, Plain c) (hr : resolve v = some s) : value (v ++ t) = some s := by
  obtain ⟨e1, e2⟩ := span_append (p := isPlain) (b := t) (fun c hc => plain_iff.2 (hp c hc)) (fun c hc => by
    rw [tail_head ht hc]; decide)
  have key : (if isTail ((v ++ t).dropWhile isPlain) then resolve ((v ++ t).takeWhile isPlain) else none) = some s := by
    rw [e1, e2, if_pos (tail_is ht)]; exact hr
  have hq : ∀ c r, v ++ t = c :: r → c ≠ '\'' ∧ c ≠ '"' := by
    intro c r e
    have : Plain c ∨ c = ' ' := by
      cases v with
      | nil => exact .inr (tail_head ht (by rw [List.nil_append] at e; rw [e]; rfl))
      | cons x v => exact .inl ((List.cons.inj e).1 ▸ hp x (by simp))
    rcases this with h | rfl
    · have := plain_range h
      constructor <;> rintro rfl <;> revert this <;> decide
    · decide
  unfold value
  split
  · rename_i e; exact absurd rfl (hq _ _ e).1
  · rename_i e; exact absurd rfl (hq _ _ e).2
  · exact key

theorem value_ok {v t : Str} {s : Scalar} (hv : Written v s) (ht : Tail t) : value (v ++ t) = some s := by
  have dp : ∀ {a : Str}, Digits a → ∀ c ∈ a, Plain c := fun h c hc => digit_plain (h c hc)
  have pl : ∀ c ∈ ['.', '/', '+', '-'], Plain c := fun c hc => .inr hc
  cases hv with
  | single s h =>
    obtain ⟨e1, e2⟩ := span_append (p := (· != '\'')) (a := s) (b := '\'' :: t) (fun c hc => by simpa using (h c hc).2) (by simp)
    show value ('\'' :: ((s ++ ['\'']) ++ t)) = _
    rw [List.append_assoc, List.singleton_append]
    unfold value
    simp only [e1, e2, List.head?_cons, List.tail_cons]
    rw [if_pos ⟨trivial, tail_is ht⟩]
  | double s h =>
    obtain ⟨e1, e2⟩ := span_append (p := (· != '"')) (a := s) (b := '"' :: t) (fun c hc => by simpa using (h c hc).2.1) (by simp)
    show value ('"' :: ((s ++ ['"']) ++ t)) = _
    rw [List.append_assoc, List.singleton_append]
    unfold value
    simp only [e1, e2, List.head?_cons, List.tail_cons]
    rw [if_pos ⟨trivial, tail_is ht, fun hm => (h _ hm).2.2 rfl⟩]
  | word w v h =>
    refine value_plain ht ?_ (resolve_word h)
    have : ∀ q ∈ words, ∀ c ∈ q.1.toList, isPlain c = true := by decide +kernel
    exact fun c hc => plain_iff.1 (this _ h c hc)
  | zero => exact value_plain ht (by simp only [List.mem_singleton]; rintro c rfl; exact digit_plain (by decide)) (by decide +kernel)
  | int c ds hc h => exact value_plain ht (dp h) ((resolve_numeral (.inl (h c (by simp)))).trans (numeral_int hc h))
  | negative c ds hc h =>
    refine value_plain ht (fun x hx => ?_) ((resolve_numeral (.inr ⟨rfl, by simp⟩)).trans (numeral_negative hc h))
    rcases List.mem_cons.1 hx with rfl | hx
    · exact pl _ (by simp)
    · exact dp h x hx
  | num a b ha h h' =>
    refine value_plain ht (fun x hx => ?_) ?_
    · rcases List.mem_append.1 hx with hx | hx
      · exact dp h x hx
      · rcases List.mem_cons.1 hx with rfl | hx
        · exact pl _ (by simp)
        · exact dp h' x hx
    · rw [← numeral_num ha h h']
      obtain ⟨c, a, rfl⟩ := List.exists_cons_of_ne_nil ha
      exact resolve_numeral (.inl (h c (by simp)))
  | below a b ha h h' =>
    refine value_plain ht (fun x hx => ?_) ((resolve_numeral (.inr ⟨rfl, by simp⟩)).trans (numeral_below ha h h'))
    rcases List.mem_cons.1 hx with rfl | hx
    · exact pl _ (by simp)
    · rcases List.mem_append.1 hx with hx | hx
      · exact dp h x hx
      · rcases List.mem_cons.1 hx with rfl | hx
        · exact pl _ (by simp)
        · exact dp h' x hx
  | text c s hc h hw => exact value_plain ht h (resolve_text hc hw)
  | signed q c s hq hc h =>
    refine value_plain ht (fun x hx => ?_) (resolve_signed hq hc h)
    rcases List.mem_cons.1 hx with rfl | hx
    · rcases hq with rfl | rfl <;> exact pl _ (by simp)
    · exact (h x hx).1
  | path c s hc h =>
    refine value_plain ht (fun x hx => ?_) (resolve_path hc)
    rcases List.mem_cons.1 hx with rfl | hx
    · exact pl _ (by simp)
    · rcases List.mem_cons.1 hx with rfl | hx
      · rcases hc with rfl | rfl <;> exact pl _ (by simp)
      · exact h x hx
  | day y m d hy hm hd ly lm ld h0 h1 h2 =>
    obtain ⟨c, y', rfl⟩ := List.exists_cons_of_ne_nil (l := y) (by rintro rfl; simp at ly)
    refine value_plain ht (fun x hx => ?_) ?_
    · simp only [List.mem_append, List.mem_cons] at hx
      rcases hx with hx | rfl | hx | rfl | hx
      exacts [dp hy x (List.mem_cons.2 hx), pl _ (by simp), dp hm x hx, pl _ (by simp), dp hd x hx]
    · have := numeral_date hy hm hd h0 (by simp)
      rw [date_day hy hm hd ly lm ld] at this
      rw [List.cons_append, resolve_numeral (.inl (hy c (by simp))), ← List.cons_append, this]
      simp only
      rw [if_pos ⟨decimal_pos hy (by simpa using h0), h1.1, h1.2, h2.1, h2.2⟩]
  | loose y m d hy hm hd h0 hne h =>
    obtain ⟨c, y', rfl⟩ := List.exists_cons_of_ne_nil hne
    refine value_plain ht (fun x hx => ?_) ?_
    · simp only [List.mem_append, List.mem_cons] at hx
      rcases hx with hx | rfl | hx | rfl | hx
      exacts [dp hy x (List.mem_cons.2 hx), pl _ (by simp), dp hm x hx, pl _ (by simp), dp hd x hx]
    · have := numeral_date hy hm hd h0 hne
      rw [date_loose hy hm h] at this
      rw [List.cons_append, resolve_numeral (.inl (hy c (by simp))), ← List.cons_append, this]

/-! ## Lines -/

theorem written_head {v : Str} {s : Scalar} (hv : Written v s) : ∃ c r, v = c :: r ∧ c ≠ ' ' ∧ c ≠ '#' := by
  have of_plain : ∀ {v : Str}, v ≠ [] → (∀ c ∈ v, Plain c) → ∃ c r, v = c :: r ∧ c ≠ ' ' ∧ c ≠ '#' := by
    intro v hne h
    obtain ⟨c, r, rfl⟩ := List.exists_cons_of_ne_nil hne
    have := plain_range (h c (by simp))
    refine ⟨c, r, rfl, ?_, ?_⟩ <;> rintro rfl <;> revert this <;> decide
  have of_digit : ∀ {c : Char} (r : Str), c.isDigit = true → ∃ c' r', c :: r = c' :: r' ∧ c' ≠ ' ' ∧ c' ≠ '#' := by
    intro c r hc
    refine ⟨c, r, rfl, ?_, ?_⟩ <;> rintro rfl <;> revert hc <;> decide
  have of_digits : ∀ {a : Str} (r : Str), a ≠ [] → Digits a → ∃ c' r', a ++ r = c' :: r' ∧ c' ≠ ' ' ∧ c' ≠ '#' := by
    intro a r hne h
    obtain ⟨c, a, rfl⟩ := List.exists_cons_of_ne_nil hne
    exact of_digit _ (h c (by simp))
  cases hv with
  | single s h => exact ⟨_, _, rfl, by decide, by decide⟩
  | double s h => exact ⟨_, _, rfl, by decide, by decide⟩
  | word w v h =>
    have : ∀ q ∈ words, q.1.toList ≠ [] ∧ ∀ c ∈ q.1.toList, isPlain c = true := by decide +kernel
    exact of_plain (this _ h).1 fun c hc => plain_iff.1 ((this _ h).2 c hc)
  | zero => exact ⟨_, _, rfl, by decide, by decide⟩
  | int c ds hc h => exact of_digit _ (h c (by simp))
  | negative c ds hc h => exact ⟨_, _, rfl, by decide, by decide⟩
  | num a b ha h h' => exact of_digits _ ha h
  | below a b ha h h' => exact ⟨_, _, rfl, by decide, by decide⟩
  | text c s hc h hw => exact of_plain (by simp) h
  | signed q c s hq hc h => rcases hq with rfl | rfl <;> exact ⟨_, _, rfl, by decide, by decide⟩
  | path c s hc h => exact ⟨_, _, rfl, by decide, by decide⟩
  | day y m d hy hm hd ly lm ld h0 h1 h2 => exact of_digits _ (by rintro rfl; simp at ly) hy
  | loose y m d hy hm hd h0 hne h => exact of_digits _ hne hy

theorem written_printable {v : Str} {s : Scalar} (hv : Written v s) : ∀ c ∈ v, Printable c := by
  have dp : ∀ {a : Str}, Digits a → ∀ c ∈ a, Printable c := fun h c hc => plain_printable (digit_plain (h c hc))
  cases hv with
  | single s h =>
    simp only [List.mem_cons, List.mem_append, List.not_mem_nil, or_false]
    rintro c (rfl | hc | rfl)
    exacts [by unfold Printable; decide, (h c hc).1, by unfold Printable; decide]
  | double s h =>
    simp only [List.mem_cons, List.mem_append, List.not_mem_nil, or_false]
    rintro c (rfl | hc | rfl)
    exacts [by unfold Printable; decide, (h c hc).1, by unfold Printable; decide]
  | word w v h =>
    have : ∀ q ∈ words, ∀ c ∈ q.1.toList, isPlain c = true := by decide +kernel
    exact fun c hc => plain_printable (plain_iff.1 (this _ h c hc))
  | zero => simp only [List.mem_singleton]; rintro c rfl; unfold Printable; decide
  | int c ds hc h => exact dp h
  | negative c ds hc h =>
    rintro x hx
    rcases List.mem_cons.1 hx with rfl | hx
    exacts [by unfold Printable; decide, dp h x hx]
  | num a b ha h h' =>
    simp only [List.mem_append, List.mem_cons]
    rintro x (hx | rfl | hx)
    exacts [dp h x hx, by unfold Printable; decide, dp h' x hx]
  | below a b ha h h' =>
    simp only [List.mem_append, List.mem_cons]
    rintro x (rfl | hx | rfl | hx)
    exacts [by unfold Printable; decide, dp h x hx, by unfold Printable; decide, dp h' x hx]
  | text c s hc h hw => exact fun x hx => plain_printable (h x hx)
  | signed q c s hq hc h =>
    intro x hx
    rcases List.mem_cons.1 hx with rfl | hx
    · rcases hq with rfl | rfl <;> unfold Printable <;> decide
    · exact plain_printable (h x hx).1
  | path c s hc h =>
    simp only [List.mem_cons]
    rintro x (rfl | rfl | hx)
    · unfold Printable; decide
    · rcases hc with rfl | rfl <;> unfold Printable <;> decide
    · exact plain_printable (h x hx)
  | day y m d hy hm hd =>
    simp only [List.mem_append, List.mem_cons]
    rintro x (hx | rfl | hx | rfl | hx)
    exacts [dp hy x hx, by unfold Printable; decide, dp hm x hx, by unfold Printable; decide, dp hd x hx]
  | loose y m d hy hm hd =>
    simp only [List.mem_append, List.mem_cons]
    rintro x (hx | rfl | hx | rfl | hx)
    exacts [dp hy x hx, by unfold Printable; decide, dp hm x hx, by unfold Printable; decide, dp hd x hx]

theorem blanks_printable (n : Nat) : ∀ c ∈ List.replicate n ' ', Printable c := fun c hc => by
  rw [List.eq_of_mem_replicate hc]; unfold Printable; decide

theorem keyed_ok {n a : Nat} {k r : Str} {v : Option Scalar} (hk : Key k) (ha : k.length + a ≤ 1024)
    (hr : (if isTail r then some (⟨n, String.ofList k, none⟩ : Entry)
      else if r.head? ≠ some ' ' then none
      else (value (YamlText.blanks r)).map fun v => ⟨n, String.ofList k, some v⟩) = some ⟨n, String.ofList k, v⟩) :
    keyed n (k ++ (List.replicate a ' ' ++ ':' :: r)) = some ⟨n, String.ofList k, v⟩ := by
  obtain ⟨⟨c, s, rfl, hc⟩, hw, hno⟩ := hk
  obtain ⟨e1, e2⟩ := span_append (p := isWord) (a := c :: s) (b := List.replicate a ' ' ++ ':' :: r) (fun x hx => word_iff.2 (hw x hx)) (by
    intro x hx
    cases a with
    | zero => obtain rfl : ':' = x := by simpa using hx
              decide
    | succ a => obtain rfl : ' ' = x := by simpa [List.replicate_succ] using hx
                decide)
  unfold keyed
  simp only [e1, e2]
  rw [if_neg, blanks_replicate a (by simp)]
  · simp only
    rw [if_neg]
    · exact hr
    · simp only [List.length_append, List.length_cons, List.length_replicate] at ha ⊢
      omega
  · rintro (h | h | h)
    · cases h
    · exact h (by simp [letter_iff.2 hc])
    · exact hno ((words_model _).2 h)

theorem key_printable {k : Str} (hk : Key k) : ∀ c ∈ k, Printable c := fun c hc => plain_printable (.inl (hk.2.1 c hc))

theorem line_ok {l : Str} {e : Entry} (h : Line l e) : YamlText.line l = some (some e) := by
  have key : ∀ {n : Nat} {k r : Str} {e : Entry}, Key k → (∀ c ∈ r, Printable c) → keyed n (k ++ r) = some e →
      YamlText.line (List.replicate n ' ' ++ (k ++ r)) = some (some e) := by
    intro n k r e hk hr he
    have hall : (List.replicate n ' ' ++ (k ++ r)).all isPrintable = true := by
      rw [List.all_eq_true]
      intro c hc
      rw [printable_iff]
      rcases List.mem_append.1 hc with hc | hc
      · exact blanks_printable n c hc
      · rcases List.mem_append.1 hc with hc | hc
        exacts [key_printable hk c hc, hr c hc]
    obtain ⟨⟨c, s, rfl, hc⟩, -⟩ := id hk
    have hcr := letter_range hc
    have h1 : c ≠ ' ' := by rintro rfl; revert hcr; decide
    have h2 : c ≠ '#' := by rintro rfl; revert hcr; decide
    unfold YamlText.line
    rw [if_neg (by rw [hall]; decide)]
    simp only
    rw [blanks_replicate n (by simpa using h1), if_neg (by simpa using h2), List.length_append, Nat.add_sub_cancel, List.length_replicate, he]
    rfl
  cases h with
  | bare n a k t hk ha ht =>
    refine key hk (fun c hc => ?_) (keyed_ok hk ha ?_)
    · rcases List.mem_append.1 hc with hc | hc
      · exact blanks_printable _ c hc
      · rcases List.mem_cons.1 hc with rfl | hc
        exacts [by unfold Printable; decide, tail_printable ht c hc]
    · rw [if_pos (tail_is ht)]
  | valued n a b k v t s hk ha hv ht =>
    obtain ⟨c, r, rfl, h1, h2⟩ := written_head hv
    refine key hk (fun c hc => ?_) (keyed_ok hk ha ?_)
    · rcases List.mem_append.1 hc with hc | hc
      · exact blanks_printable _ c hc
      · rcases List.mem_cons.1 hc with rfl | hc
        · unfold Printable; decide
        · rcases List.mem_append.1 hc with hc | hc
          · exact blanks_printable _ c hc
          · rcases List.mem_append.1 hc with hc | hc
            exacts [written_printable hv c hc, tail_printable ht c hc]
    · have e : YamlText.blanks (List.replicate (b + 1) ' ' ++ (c :: r ++ t)) = c :: r ++ t := blanks_replicate _ (by simpa using h1)
      rw [if_neg, if_neg, e, value_ok hv ht]
      · rfl
      · simp [List.replicate_succ]
      · unfold isTail
        rw [e]
        simp [List.replicate_succ, h2]

theorem entries_ok {ls : List Str} {es : List Entry} (h : Lines ls es) : entries ls = some es := by
  induction h with
  | nil => rfl
  | empty n h ih =>
    have : YamlText.line (List.replicate n ' ') = some none := by
      unfold YamlText.line
      rw [if_neg]
      · have := blanks_replicate n (s := []) (by simp)
        rw [List.append_nil] at this
        simp only [this]
        rw [if_pos (.inl trivial)]
      · simp only [Bool.not_eq_true', Bool.not_eq_false]
        rw [List.all_eq_true]
        exact fun c hc => printable_iff.2 (blanks_printable n c hc)
    unfold entries
    rw [this, ih]
    rfl
  | comment n c hc h ih =>
    have : YamlText.line (List.replicate n ' ' ++ '#' :: c) = some none := by
      unfold YamlText.line
      rw [if_neg]
      · simp only
        rw [blanks_replicate n (by simp), if_pos (.inr rfl)]
      · simp only [Bool.not_eq_true', Bool.not_eq_false]
        rw [List.all_eq_true]
        intro x hx
        rw [printable_iff]
        rcases List.mem_append.1 hx with hx | hx
        · exact blanks_printable n x hx
        · rcases List.mem_cons.1 hx with rfl | hx
          exacts [by unfold Printable; decide, hc x hx]
    unfold entries
    rw [this, ih]
    rfl
  | entry he h ih =>
    unfold entries
    rw [line_ok he, ih]
    rfl

/-! ## Nesting -/

theorem groups_deep {k : Nat} {es rest : List Entry} {gs : List (Entry × List Entry)} (h : ∀ e ∈ es, k < e.indent)
    (hr : groups k rest = some ([], gs)) : groups k (es ++ rest) = some (es, gs) := by
  induction es with
  | nil => exact hr
  | cons e es ih =>
    have he := h e (by simp)
    rw [List.cons_append]
    unfold groups
    rw [ih fun x hx => h x (by simp [hx])]
    simp only [Option.bind_eq_bind, Option.bind_some]
    rw [if_neg (by omega), if_pos he]

theorem groups_head {k : Nat} {e : Entry} {es rest : List Entry} {gs : List (Entry × List Entry)} (he : e.indent = k) (h : ∀ e ∈ es, k < e.indent)
    (hr : groups k rest = some ([], gs)) : groups k (e :: (es ++ rest)) = some ([], (e, es) :: gs) := by
  unfold groups
  rw [groups_deep h hr]
  simp only [Option.bind_eq_bind, Option.bind_some]
  rw [if_pos he]

theorem flat_ok {k : Nat} {d : Dict String Scalar} {es : List Entry} (h : Fields k d es) : flat k es = some d := by
  unfold Fields at h
  induction h with
  | nil => rfl
  | cons h _ ih =>
    unfold flat
    rw [ih]
    simp only [Option.bind_eq_bind, Option.bind_some]
    rw [if_pos h.1, h.2.1, h.2.2]

theorem fields_indent {m : Nat} {d : Dict String Scalar} {es : List Entry} (h : Fields m d es) : ∀ e ∈ es, e.indent = m := by
  unfold Fields at h
  induction h with
  | nil => simp
  | cons h _ ih =>
    intro e he
    rcases List.mem_cons.1 he with rfl | he
    exacts [h.1, ih e he]

theorem section_deep {k : Nat} {d : Dict String Item} {es : List Entry} (h : UnderSection k d es) : ∀ e ∈ es, k ≤ e.indent := by
  induction h with
  | nil => simp
  | cons h h' ih =>
    intro e he
    rcases List.mem_append.1 he with he | he
    · cases h with
      | one e' he' =>
        obtain rfl := List.mem_singleton.1 he
        exact he'.ge
      | many key m hm d hd es h =>
        rcases List.mem_cons.1 he with rfl | he
        · exact le_refl _
        · rw [fields_indent h e he]
          exact hm.le
    · exact ih e he

theorem section_groups {k : Nat} {d : Dict String Item} {es : List Entry} (h : UnderSection k d es) :
    ∃ gs, groups k es = some ([], gs) ∧ items gs = some d := by
  induction h with
  | nil => exact ⟨[], rfl, rfl⟩
  | cons h h' ih =>
    obtain ⟨gs, h1, h2⟩ := ih
    cases h with
    | one e he =>
      refine ⟨(e, []) :: gs, groups_head (es := []) he (by simp) h1, ?_⟩
      unfold items item
      rw [h2]
      rfl
    | many key m hm d hd es h =>
      have hall := fields_indent h
      refine ⟨(⟨k, key, none⟩, es) :: gs, groups_head rfl (fun e he => by rw [hall e he]; exact hm) h1, ?_⟩
      obtain ⟨b, bs, rfl⟩ : ∃ b bs, es = b :: bs := by
        cases es with
        | nil => cases h; exact absurd rfl hd
        | cons b bs => exact ⟨b, bs, rfl⟩
      unfold items item
      simp only [h2]
      rw [if_pos trivial, hall b (by simp), flat_ok h]
      rfl

theorem section_ok {k : Nat} {d : Dict String Item} {es : List Entry} (h : UnderSection k d es) : section_ es = some d := by
  obtain ⟨gs, h1, h2⟩ := section_groups h
  cases h with
  | nil => rfl
  | cons h h' =>
    cases h with
    | one e he =>
      rw [List.singleton_append] at h1 ⊢
      unfold section_
      simp only [he, h1]
      simp only [Option.bind_eq_bind, Option.bind_some]
      rw [if_pos trivial, h2]
    | many key m hm d hd es h =>
      rw [List.cons_append] at h1 ⊢
      unfold section_
      simp only [h1]
      simp only [Option.bind_eq_bind, Option.bind_some]
      rw [if_pos trivial, h2]

theorem sections_ok {d : Dict String (Dict String Item)} {es : List Entry} (h : Sections d es) :
    ∃ gs, groups 0 es = some ([], gs) ∧ sections gs = some d := by
  induction h with
  | nil => exact ⟨[], rfl, rfl⟩
  | cons key k hk h h' ih =>
    obtain ⟨gs, h1, h2⟩ := ih
    refine ⟨_, groups_head rfl (fun e he => lt_of_lt_of_le hk (section_deep h e he)) h1, ?_⟩
    unfold sections
    simp only [section_ok h, h2]
    rw [if_pos trivial]
    rfl

/-- A file laid out in any way, with any comments, indentations and spacing, is read as what it says. -/
theorem C144_text {lines : List Str} {d : Dict String (Dict String Item)} (h : Says lines d) : doc lines = some d := by
  obtain ⟨⟨h1, h2⟩, es, h3, h4⟩ := h
  obtain ⟨gs, h5, h6⟩ := sections_ok h4
  unfold doc
  rw [entries_ok h3]
  simp only [Option.bind_eq_bind, Option.bind_some]
  rw [h5]
  simp only [Option.bind_some]
  rw [if_pos trivial, h6]
  simp only [Option.bind_some]
  rw [if_pos]
  refine ⟨h1, fun s hs => ⟨(h2 s hs).1, ?_⟩⟩
  rintro ⟨k, v⟩ hq
  cases v with
  | one v => exact List.nodup_nil
  | many m => exact (h2 s hs).2 k m hq

/-! ## The sections MetSim looks at -/

theorem part_ok {α : Type} {R : α → Item → Prop} {f : Dict String Item → Option (Dict String α)}
    (hf : ∀ {d s}, List.Forall₂ (fun q i => i.1 = q.1 ∧ R q.2 i.2) d s → f s = some d) {s : Option (Dict String Item)} {p : ConfigRead.Part α}
    (h : Gives R s p) : part f s = some p := by
  cases h with
  | absent => rfl
  | empty => rfl
  | dict d s hd h =>
    obtain ⟨x, s, rfl⟩ : ∃ x s', s = x :: s' := by
      cases s with
      | nil => cases h; exact absurd rfl hd
      | cons x s => exact ⟨x, s, rfl⟩
    unfold part
    simp only [hf h]
    rfl

theorem ones_ok {d : Dict String Scalar} {s : Dict String Item} (h : List.Forall₂ (fun q i => i.1 = q.1 ∧ i.2 = .one q.2) d s) :
    ones s = some d := by
  induction h with
  | nil => rfl
  | @cons q i _ _ h _ ih =>
    obtain ⟨k, v⟩ := q
    obtain ⟨_, _⟩ := i
    simp only at h
    obtain ⟨rfl, rfl⟩ := h
    unfold ones
    rw [ih]
    rfl

theorem strings_ok {d : Dict String String} {s : Dict String Item} (h : List.Forall₂ (fun q i => i.1 = q.1 ∧ i.2 = .one (.str q.2)) d s) :
    strings s = some d := by
  induction h with
  | nil => rfl
  | @cons q i _ _ h _ ih =>
    obtain ⟨k, v⟩ := q
    obtain ⟨_, _⟩ := i
    simp only at h
    obtain ⟨rfl, rfl⟩ := h
    unfold strings
    rw [ih]
    rfl

theorem outs_ok {d : Dict String OutSpec} {s : Dict String Item} (h : List.Forall₂ (fun q i => i.1 = q.1 ∧ Names q.2 i.2) d s) :
    YamlText.outs s = some d := by
  have ht : ∀ o : Option String, text? (o.map .str) = some o := fun o => by cases o <;> rfl
  induction h with
  | nil => rfl
  | @cons q i _ _ h _ ih =>
    obtain ⟨k, o⟩ := q
    obtain ⟨_, _⟩ := i
    simp only at h
    obtain ⟨rfl, m, rfl, h1, h2⟩ := h
    unfold YamlText.outs
    rw [h1, h2, ht, ht, ih]
    rfl

/-- And so are the sections MetSim looks at. -/
theorem C144_read {lines : List Str} {d : Dict String (Dict String Item)} {y : Yaml} (h : Says lines d) (hy : Tells d y) :
    YamlText.read lines = some y := by
  unfold YamlText.read
  rw [C144_text h]
  simp only [Option.bind_eq_bind, Option.bind_some]
  rw [part_ok ones_ok hy.main, part_ok strings_ok hy.forcingVars, part_ok strings_ok hy.domainVars, part_ok strings_ok hy.stateVars,
    part_ok outs_ok hy.outVars, part_ok ones_ok hy.chunks, part_ok ones_ok hy.constantVars]
  rfl

end Verif.Props
