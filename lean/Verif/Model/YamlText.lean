import Verif.Model.ConfigRead
import Verif.Np.Calendar

/-!
# The text of YAML files

What `yaml.load(f, Loader=yaml.SafeLoader)` (io.py:75) makes of the lines of a file, for the part of YAML that configuration files are written
in: block mappings of up to three levels, names as keys, values that are quoted, or plain and of letters, digits and `_./+-`; comments and
empty lines.  Plain values are resolved as in YAML 1.1 (PyYAML's `resolver.py`).  `none` stands for everything else, which may or may not be
YAML.
-/

namespace Verif.YamlText

open ConfigRead Txt

/-- A line with an entry: its indentation, its key, and its value if there is one on the line. -/
structure Entry where
  indent : Nat
  key : String
  val : Option Scalar
  deriving DecidableEq

def isLetter (c : Char) : Bool := c.isAlpha || c == '_'

def isWord (c : Char) : Bool := c.isAlphanum || c == '_'

def isPlain (c : Char) : Bool := isWord c || c == '.' || c == '/' || c == '+' || c == '-'

/-- Characters PyYAML's reader takes and that need no decoding. -/
def isPrintable (c : Char) : Bool := decide (32 ≤ c.toNat ∧ c.toNat ≤ 126)

def nulls : List String := ["null", "Null", "NULL"]

def trues : List String := ["yes", "Yes", "YES", "true", "True", "TRUE", "on", "On", "ON"]

def falses : List String := ["no", "No", "NO", "false", "False", "FALSE", "off", "Off", "OFF"]

/-- The number some digits stand for. -/
def number (s : Str) : Nat := s.foldl (fun a c => 10 * a + (c.toNat - 48)) 0

/-- `2000-01-31`: four, two and two digits. -/
def date (s : Str) : Option (Nat × Nat × Nat) :=
  if s.length = 10 ∧ (s.take 4).all Char.isDigit ∧ s[4]? = some '-' ∧ ((s.drop 5).take 2).all Char.isDigit ∧ s[7]? = some '-' ∧
      (s.drop 8).all Char.isDigit then
    some (number (s.take 4), number ((s.drop 5).take 2), number (s.drop 8))
  else none

/-- A value that begins with a digit, a sign or a dot. -/
def numeral (s : Str) : Option Scalar :=
  let negative := s.head? = some '-'
  let t := if s.head? = some '-' ∨ s.head? = some '+' then s.tail else s
  let sign : Int := if negative then -1 else 1
  if t = ['0'] then some (.int 0)
  else if t.head? ≠ some '0' ∧ t ≠ [] ∧ t.all Char.isDigit then some (.int (sign * number t))
  else
    let whole := t.takeWhile Char.isDigit
    let part := (t.dropWhile Char.isDigit).tail
    if whole ≠ [] ∧ (t.dropWhile Char.isDigit).head? = some '.' ∧ part.all Char.isDigit then
      some (.num (sign * ((number whole : ℚ) + number part / 10 ^ part.length)))
    else if '_' ∈ t ∨ t.head? = some '0' then none
    else if '.' ∈ t then none
    else match date s with
      | some (y, m, d) =>
        if 1 ≤ y ∧ 1 ≤ m ∧ m ≤ 12 ∧ 1 ≤ d ∧ d ≤ (Cal.monthLens (Cal.leap y))[m - 1]?.getD 0 then some (.date (Cal.ofCivil y m d)) else none
      | none => some (.str (String.ofList s))

/-- PyYAML's `resolver.py` and `constructor.py` for a plain value. -/
def resolve (s : Str) : Option Scalar :=
  if String.ofList s ∈ nulls then some .null
  else if String.ofList s ∈ trues then some (.bool true)
  else if String.ofList s ∈ falses then some (.bool false)
  else match s with
    | [] => none
    | '.' :: '.' :: _ => some (.str (String.ofList s))
    | '.' :: '/' :: _ => some (.str (String.ofList s))
    | c :: _ => if isLetter c || c == '/' then some (.str (String.ofList s)) else if s = ['-'] then none else numeral s

def blanks (s : Str) : Str := s.dropWhile (· == ' ')

/-- Nothing but blanks, and a comment after them. -/
def isTail (s : Str) : Bool := s == [] || (s.head? == some ' ' && (blanks s == [] || (blanks s).head? == some '#'))

/-- The value on a line, from its first character on. -/
def value : Str → Option Scalar
  | '\'' :: s =>
    let rest := s.dropWhile (· != '\'')
    if rest.head? = some '\'' ∧ isTail rest.tail then some (.str (String.ofList (s.takeWhile (· != '\'')))) else none
  | '"' :: s =>
    let rest := s.dropWhile (· != '"')
    if rest.head? = some '"' ∧ isTail rest.tail ∧ '\\' ∉ s.takeWhile (· != '"') then some (.str (String.ofList (s.takeWhile (· != '"')))) else none
  | s => if isTail (s.dropWhile isPlain) then resolve (s.takeWhile isPlain) else none

/-- A key and what follows it; PyYAML's `scanner.py` gives up on a colon more than 1024 characters after the start of the key. -/
def keyed (indent : Nat) (s : Str) : Option Entry :=
  let k := s.takeWhile isWord
  if k = [] ∨ (k.head?.map isLetter) ≠ some true ∨ String.ofList k ∈ nulls ++ trues ++ falses then none
  else match blanks (s.dropWhile isWord) with
    | ':' :: r =>
      if 1024 < s.length - (r.length + 1) then none
      else if isTail r then some ⟨indent, String.ofList k, none⟩
      else if r.head? ≠ some ' ' then none
      else (value (blanks r)).map fun v => ⟨indent, String.ofList k, some v⟩
    | _ => none

/-- A line: nothing, or an entry. -/
def line (l : Str) : Option (Option Entry) :=
  if !l.all isPrintable then none
  else
    let s := blanks l
    if s = [] ∨ s.head? = some '#' then some none
    else (keyed (l.length - s.length) s).map some

def entries : List Str → Option (List Entry)
  | [] => some []
  | l :: ls => do
    let e ← line l
    let es ← entries ls
    pure (match e with
      | some e => e :: es
      | none => es)

/-- Each entry with indentation `k`, with the entries that lie deeper and follow it; and what lies deeper before the first one. -/
def groups (k : Nat) : List Entry → Option (List Entry × List (Entry × List Entry))
  | [] => some ([], [])
  | e :: es => do
    let (deep, gs) ← groups k es
    if e.indent = k then some ([], (e, deep) :: gs)
    else if k < e.indent then some (e :: deep, gs)
    else none

/-- What stands under a key in a section. -/
inductive Item where
  | one (v : Scalar)
  | many (d : Dict String Scalar)
  deriving DecidableEq

def Item.keys : Item → List String
  | .one _ => []
  | .many d => d.keys

/-- Entries side by side. -/
def flat (k : Nat) : List Entry → Option (Dict String Scalar)
  | [] => some []
  | e :: es => do
    let d ← flat k es
    if e.indent = k then some ((e.key, e.val.getD .null) :: d) else none

def item (e : Entry) : List Entry → Option Item
  | [] => some (.one (e.val.getD .null))
  | b :: bs => if e.val = none then (flat b.indent (b :: bs)).map .many else none

def items : List (Entry × List Entry) → Option (Dict String Item)
  | [] => some []
  | g :: gs => do
    let i ← item g.1 g.2
    let is ← items gs
    pure ((g.1.key, i) :: is)

/-- The entries of a section; none is no mapping at all. -/
def section_ : List Entry → Option (Dict String Item)
  | [] => some []
  | b :: bs => do
    let (deep, gs) ← groups b.indent (b :: bs)
    if deep = [] then items gs else none

def sections : List (Entry × List Entry) → Option (Dict String (Dict String Item))
  | [] => some []
  | g :: gs => do
    if g.1.val = none then
      let i ← section_ g.2
      let is ← sections gs
      pure ((g.1.key, i) :: is)
    else none

/-- The sections of a file; keys that come twice are left out of the model. -/
def doc (lines : List Str) : Option (Dict String (Dict String Item)) := do
  let es ← entries lines
  let (deep, gs) ← groups 0 es
  if deep = [] then
    let d ← sections gs
    if d.keys.Nodup ∧ ∀ s ∈ d, s.2.keys.Nodup ∧ ∀ q ∈ s.2, q.2.keys.Nodup then some d else none
  else none

/-! ## The sections MetSim looks at -/

def ones : Dict String Item → Option (Dict String Scalar)
  | [] => some []
  | (k, .one v) :: d => (ones d).map ((k, v) :: ·)
  | (_, .many _) :: _ => none

def strings : Dict String Item → Option (Dict String String)
  | [] => some []
  | (k, .one (.str v)) :: d => (strings d).map ((k, v) :: ·)
  | _ :: _ => none

def text? : Option Scalar → Option (Option String)
  | none => some none
  | some (.str s) => some (some s)
  | some _ => none

def outs : Dict String Item → Option (Dict String OutSpec)
  | [] => some []
  | (k, .many m) :: d => do
    let name ← text? (m.get? "out_name")
    let units ← text? (m.get? "units")
    let ds ← outs d
    pure ((k, ⟨name, units⟩) :: ds)
  | _ :: _ => none

def part {α : Type} (f : Dict String Item → Option (Dict String α)) : Option (Dict String Item) → Option (ConfigRead.Part α)
  | none => some .absent
  | some [] => some .empty
  | some d => (f d).map .dict

/-- What `read_yaml_config` gets to see. -/
def read (lines : List Str) : Option Yaml := do
  let d ← doc lines
  let main ← part ones (d.get? "MetSim")
  let fv ← part strings (d.get? "forcing_vars")
  let dv ← part strings (d.get? "domain_vars")
  let sv ← part strings (d.get? "state_vars")
  let ov ← part outs (d.get? "out_vars")
  let ch ← part ones (d.get? "chunks")
  let cv ← part ones (d.get? "constant_vars")
  pure ⟨main, fv, dv, sv, ov, ch, cv⟩

end Verif.YamlText
