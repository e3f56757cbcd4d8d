import Verif.Np.Basic
import Verif.Np.Dict
import Verif.Np.Text

/-!
# INI files (`configparser.ConfigParser` as `metsim/io.py:109-112` uses it)

The reader of the standard library with its defaults: `=` and `:` separate a key from its value, `#` and `;` start comment
lines, there are no comments behind a value, a line indented further than the key's line continues the value, a section or
a key given twice is an error.  Values are fetched with `%` interpolation, which is a parameter of the model.
-/

namespace Verif.Ini

open Txt

/-- The options of one section; a value is the list of its lines. -/
abbrev Options := Dict Str (List Str)

/-- The state of `_read` between two lines. -/
structure St where
  sections : Dict Str Options := []
  defaults : Options := []
  /-- the section being read -/
  cur : Option Str := none
  /-- the option whose value may be continued -/
  opt : Option Str := none
  indent : Nat := 0
  /-- some line could not be parsed -/
  bad : Bool := false
  deriving DecidableEq

/-- The section `DEFAULT` is kept apart. -/
def defaultName : Str := "DEFAULT".toList

/-- The options of the section being read. -/
def St.options (st : St) (s : Str) : Options :=
  if s = defaultName then st.defaults else (st.sections.get? s).getD []

def St.setOptions (st : St) (s : Str) (o : Options) : St :=
  if s = defaultName then { st with defaults := o } else { st with sections := st.sections.set s o }

/-- `cursect[optname].append(line)`. -/
def St.extend (st : St) (line : Str) : St :=
  match st.cur, st.opt with
  | some s, some o => st.setOptions s ((st.options s).set o (((st.options s).get? o).getD [] ++ [line]))
  | _, _ => st

/-- `\[(?P<header>[^]]+)\]` at the start of the line. -/
def header (value : Str) : Option Str :=
  match value with
  | '[' :: rest =>
    let name := rest.takeWhile (· != ']')
    if name ≠ [] ∧ ']' ∈ rest then some name else none
  | _ => none

/-- Does the character separate a key from its value? -/
def isDelim (c : Char) : Bool := c == '=' || c == ':'

/-- `s.rstrip()`. -/
def rstrip (s : Str) : Str := (lstrip s.reverse).reverse

/-- `(?P<option>.*?)\s*(?:(?P<vi>=|:)\s*(?P<value>.*))$`: key and value. -/
def option (value : Str) : Option (Str × Str) :=
  if value.any isDelim then
    some (rstrip (value.takeWhile fun c => !isDelim c), strip ((value.dropWhile fun c => !isDelim c).drop 1))
  else none

/-- A line of the file. -/
def step (st : St) (line : Str) : Except PyErr St :=
  let value := strip line
  if value.head? = some '#' ∨ value.head? = some ';' then .ok st
  else if value = [] then .ok (st.extend [])
  else
    let level := (line.takeWhile isSpace).length
    if st.cur.isSome ∧ st.opt.isSome ∧ st.indent < level then .ok (st.extend value)
    else
      let st := { st with indent := level }
      match header value with
      | some name =>
        if name ∈ st.sections.keys then .error .valueError   -- DuplicateSectionError
        else if name = defaultName then .ok { st with cur := some name, opt := none }
        else .ok { st with sections := st.sections.set name [], cur := some name, opt := none }
      | none =>
        match st.cur with
        | none => .error .valueError                          -- MissingSectionHeaderError
        | some s =>
          match option value with
          | none => .ok { st with bad := true }
          | some (key, val) =>
            if key ∈ (st.options s).keys then .error .valueError   -- DuplicateOptionError
            else .ok { st.setOptions s ((st.options s).set key [val]) with opt := some key, bad := st.bad || key.isEmpty }

/-- `'\n'.join(lines).rstrip()`. -/
def joined (lines : List Str) : Str := rstrip (List.intercalate ['\n'] lines)

/-- A file read: its sections and their options, defaults included behind each section's own. -/
structure File where
  sections : Dict Str (Dict Str Str)
  deriving DecidableEq

/-- `ConfigParser.read`: the sections of the file, before interpolation. -/
def read (lines : List Str) : Except PyErr File := do
  let st ← lines.foldlM step ({} : St)
  if st.bad then throw PyErr.valueError   -- ParsingError
  let defaults := st.defaults.map fun q => (q.1, joined q.2)
  pure ⟨st.sections.map fun q =>
    (q.1, (q.2.map fun o => (o.1, joined o.2)) ++ defaults.filter fun o => decide (o.1 ∉ q.2.keys))⟩

/-- `OrderedDict(config[name])`: every value is interpolated. -/
def items (interp : Str → Except PyErr Str) (f : File) (name : Str) : Except PyErr (Dict Str Str) := do
  let s ← f.sections.get name
  s.mapM fun q => do
    let v ← interp q.2
    pure (q.1, v)

end Verif.Ini
