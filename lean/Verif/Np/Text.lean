import Mathlib.Data.Nat.Log
import Mathlib.Tactic.Linarith
import Mathlib.Tactic.Ring
import Mathlib.Data.List.TakeWhile
import Mathlib.Data.List.Basic

/-!
# Python strings

Strings the code computes with are lists of characters.
-/

namespace Verif.Txt

abbrev Str := List Char

/-- The decimal digit `d < 10` as a character. -/
def digitChar (d : Nat) : Char := Char.ofNat (48 + d)

/-- `str(n)` for a natural number. -/
def decimal (n : Nat) : Str :=
  if n < 10 then [digitChar n] else decimal (n / 10) ++ [digitChar (n % 10)]

/-- `str(n)` for an integer. -/
def decimalInt (n : Int) : Str :=
  if n < 0 then '-' :: decimal n.natAbs else decimal n.natAbs

/-- `'{:0wd}'.format(n)` for a natural number. -/
def padded (w n : Nat) : Str := List.replicate (w - (decimal n).length) '0' ++ decimal n

/-- Character class `[0-9]`. -/
def isDigit (c : Char) : Bool := 48 ≤ c.toNat && c.toNat ≤ 57
/-- Character class `[a-zA-Z]`. -/
def isLetter (c : Char) : Bool :=
  (65 ≤ c.toNat && c.toNat ≤ 90) || (97 ≤ c.toNat && c.toNat ≤ 122)

/-- `int(s)` for a string of decimal digits. -/
def parseNat (s : Str) : Nat := s.foldl (fun a c => 10 * a + (c.toNat - 48)) 0

/-- `c.isspace()`: the characters removed by `str.strip()`. -/
def isSpace (c : Char) : Bool :=
  let n := c.toNat
  (9 ≤ n && n ≤ 13) || (28 ≤ n && n ≤ 32) || n = 133 || n = 160 || n = 5760 ||
    (8192 ≤ n && n ≤ 8202) || n = 8232 || n = 8233 || n = 8239 || n = 8287 || n = 12288

/-- `s.lstrip()`. -/
def lstrip (s : Str) : Str := s.dropWhile isSpace
/-- `s.strip()`. -/
def strip (s : Str) : Str := (lstrip (lstrip s).reverse).reverse

/-- ASCII lower case of one character. -/
def lowerChar (c : Char) : Char :=
  if 65 ≤ c.toNat && c.toNat ≤ 90 then Char.ofNat (c.toNat + 32) else c
/-- ASCII upper case of one character. -/
def upperChar (c : Char) : Char :=
  if 97 ≤ c.toNat && c.toNat ≤ 122 then Char.ofNat (c.toNat - 32) else c

/-- `s.lower()` (ASCII). -/
def lower (s : Str) : Str := s.map lowerChar
/-- `s.upper()` (ASCII). -/
def upper (s : Str) : Str := s.map upperChar

/-- `s.split(sep)` with a one-character separator. -/
def splitOn (sep : Char) : Str → List Str
  | [] => [[]]
  | c :: s =>
    if c = sep then [] :: splitOn sep s
    else match splitOn sep s with
      | [] => [[c]]
      | p :: ps => (c :: p) :: ps

theorem splitOn_ne_nil (sep : Char) (s : Str) : splitOn sep s ≠ [] := by
  induction s with
  | nil => simp [splitOn]
  | cons c s ih =>
    unfold splitOn
    split
    · simp
    · split <;> simp

/-- The first piece of a split is the part before the first separator. -/
theorem head_splitOn (sep : Char) (s : Str) :
    (splitOn sep s).head? = some (s.takeWhile (· != sep)) := by
  induction s with
  | nil => simp [splitOn]
  | cons c s ih =>
    unfold splitOn
    by_cases h : c = sep
    · simp [h]
    · simp only [h, if_false]
      cases hs : splitOn sep s with
      | nil => exact absurd hs (splitOn_ne_nil _ _)
      | cons p ps => rw [hs] at ih; simp at ih; simp [h, ih]

/-- A piece without separator, a separator, and the rest. -/
theorem splitOn_append (sep : Char) (a s : Str) (ha : sep ∉ a) :
    splitOn sep (a ++ sep :: s) = a :: splitOn sep s := by
  induction a with
  | nil => simp [splitOn]
  | cons c a ih =>
    simp only [List.mem_cons, not_or] at ha
    rw [List.cons_append, splitOn, if_neg (Ne.symm ha.1), ih ha.2]

theorem splitOn_none (sep : Char) (a : Str) (ha : sep ∉ a) : splitOn sep a = [a] := by
  induction a with
  | nil => simp [splitOn]
  | cons c a ih =>
    simp only [List.mem_cons, not_or] at ha
    rw [splitOn, if_neg (Ne.symm ha.1), ih ha.2]

theorem toNat_digitChar {d : Nat} (h : d < 10) : (digitChar d).toNat = 48 + d := by
  have : ∀ d < 10, (digitChar d).toNat = 48 + d := by decide
  exact this d h

theorem isDigit_digitChar {d : Nat} (h : d < 10) : isDigit (digitChar d) = true := by
  simp [isDigit, toNat_digitChar h]; omega

theorem decimal_digits (n : Nat) : ∀ c ∈ decimal n, isDigit c = true := by
  induction n using decimal.induct with
  | case1 n h => rw [decimal, if_pos h]; simp [isDigit_digitChar h]
  | case2 n h ih =>
    rw [decimal, if_neg h]
    intro c hc
    rcases List.mem_append.1 hc with hc | hc
    · exact ih c hc
    · simp at hc; rw [hc]; exact isDigit_digitChar (Nat.mod_lt _ (by norm_num))

theorem decimal_ne_nil (n : Nat) : decimal n ≠ [] := by
  rw [decimal]; split <;> simp

/-- Reading back a printed number. -/
theorem parseNat_decimal (n : Nat) : parseNat (decimal n) = n := by
  induction n using decimal.induct with
  | case1 n h => rw [decimal, if_pos h]; simp [parseNat, toNat_digitChar h]
  | case2 n h ih =>
    rw [decimal, if_neg h]
    unfold parseNat at *
    rw [List.foldl_append, ih]
    simp [toNat_digitChar (Nat.mod_lt n (by norm_num : 0 < 10))]
    omega

theorem decimal_inj {a b : Nat} (h : decimal a = decimal b) : a = b := by
  rw [← parseNat_decimal a, h, parseNat_decimal]

theorem parseNat_padded (w n : Nat) : parseNat (padded w n) = n := by
  have h0 : ∀ k, parseNat (List.replicate k '0' ++ decimal n) = n := by
    intro k
    induction k with
    | zero => simpa using parseNat_decimal n
    | succ k ih =>
      rw [List.replicate_succ, List.cons_append]
      unfold parseNat at *
      simpa using ih
  exact h0 _

theorem length_decimal_le (w n : Nat) (hw : 0 < w) (h : n < 10 ^ w) : (decimal n).length ≤ w := by
  induction n using decimal.induct generalizing w with
  | case1 n h' => rw [decimal, if_pos h']; simp; omega
  | case2 n h' ih =>
    rw [decimal, if_neg h']
    cases w with
    | zero => omega
    | succ w =>
      have hw' : 0 < w := by
        rcases Nat.eq_zero_or_pos w with rfl | h0
        · simp at h; omega
        · exact h0
      have := ih w hw' (by rw [pow_succ] at h; omega)
      simp; omega

theorem length_padded (w n : Nat) (hw : 0 < w) (h : n < 10 ^ w) : (padded w n).length = w := by
  have := length_decimal_le w n hw h
  simp [padded]; omega

theorem padded_inj {w a b : Nat} (h : padded w a = padded w b) : a = b := by
  rw [← parseNat_padded w a, h, parseNat_padded]

theorem dropWhile_prefix {p : Char → Bool} (s : Str) :
    ∃ pre, s = pre ++ s.dropWhile p ∧ ∀ c ∈ pre, p c = true :=
  ⟨s.takeWhile p, by rw [List.takeWhile_append_dropWhile], fun c hc => List.mem_takeWhile_imp hc⟩

/-- `strip` removes blanks at the ends only. -/
theorem strip_decomp (s : Str) : ∃ pre post, s = pre ++ strip s ++ post ∧
    (∀ c ∈ pre, isSpace c = true) ∧ (∀ c ∈ post, isSpace c = true) := by
  obtain ⟨pre, h1, h2⟩ := dropWhile_prefix (p := isSpace) s
  obtain ⟨post, h3, h4⟩ := dropWhile_prefix (p := isSpace) (lstrip s).reverse
  refine ⟨pre, post.reverse, ?_, h2, fun c hc => h4 c (List.mem_reverse.1 hc)⟩
  have h5 : lstrip s = strip s ++ post.reverse := by
    have := congrArg List.reverse h3
    rw [List.reverse_reverse, List.reverse_append] at this
    exact this
  rw [List.append_assoc, ← h5]; exact h1

/-- `strip` of a text with blanks around it. -/
theorem strip_of_decomp (pre t post : Str) (hpre : ∀ c ∈ pre, isSpace c = true)
    (hpost : ∀ c ∈ post, isSpace c = true)
    (hh : ∀ c, t.head? = some c → isSpace c = false)
    (hl : ∀ c, t.getLast? = some c → isSpace c = false) (ht : t ≠ []) :
    strip (pre ++ t ++ post) = t := by
  have e1 : lstrip (pre ++ t ++ post) = t ++ post := by
    rw [lstrip, List.append_assoc, List.dropWhile_append_of_pos hpre]
    cases t with
    | nil => exact absurd rfl ht
    | cons c t => simp [hh c (by simp)]
  rw [strip, e1, List.reverse_append, lstrip,
    List.dropWhile_append_of_pos (fun c hc => hpost c (List.mem_reverse.1 hc))]
  have hne : t.reverse ≠ [] := by simpa using ht
  cases hr : t.reverse with
  | nil => exact absurd hr hne
  | cons c r =>
    have : t.getLast? = some c := by rw [← List.head?_reverse, hr]; rfl
    simp [hl c this]
    rw [← List.reverse_cons, ← hr, List.reverse_reverse]

theorem padded_digits (w n : Nat) : ∀ c ∈ padded w n, isDigit c = true := by
  intro c hc
  rcases List.mem_append.1 hc with hc | hc
  · rw [List.eq_of_mem_replicate hc]; decide
  · exact decimal_digits n c hc

theorem padded_ne_nil (w n : Nat) : padded w n ≠ [] := by
  unfold padded; intro h; exact decimal_ne_nil n (List.append_eq_nil_iff.1 h).2

theorem not_space_of_digit {c : Char} (h : isDigit c = true) : isSpace c = false := by
  simp only [isDigit, Bool.and_eq_true, decide_eq_true_eq] at h
  simp only [isSpace]
  simp only [Bool.or_eq_false_iff, Bool.and_eq_false_iff, decide_eq_false_iff_not]
  omega

/-- Digits have no blanks around them. -/
theorem strip_digits (s : Str) (h : ∀ c ∈ s, isDigit c = true) : strip s = s := by
  have hl : ∀ t : Str, (∀ c ∈ t, isDigit c = true) → lstrip t = t := by
    intro t ht
    cases t with
    | nil => rfl
    | cons c t =>
      have := not_space_of_digit (ht c (by simp))
      simp [lstrip, this]
  unfold strip
  rw [hl s h, hl _ (by simpa using h), List.reverse_reverse]

end Verif.Txt
