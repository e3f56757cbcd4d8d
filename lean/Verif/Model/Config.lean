import Verif.Np.Dict
import Verif.Np.Text

/-!
# Configuration reading (`metsim/io.py`)
-/

namespace Verif.Config

open Txt

/-- io.py:38-39 `_invert_dict` -/
def invertDict {α β : Type} [DecidableEq β] (d : Dict α β) : Dict β α :=
  Dict.ofItems (d.map fun (k, v) => (v, k))

/-- Configuration dialects. -/
inductive Dialect where
  | ini | yaml
  deriving DecidableEq, Repr

/-- io.py:48-51 the loop of `check_config_type`: `readline` until a line that is not a comment; at the
end of the file `readline` returns the empty string, which is not a comment. -/
def firstLine : List Str → Str
  | [] => []
  | l :: ls => if (strip l).head? = some '#' then firstLine ls else l

/-- io.py:46-59 `check_config_type`, on the lines of the file. -/
def checkConfigType (lines : List Str) : Dialect :=
  let line := strip (((splitOn '#' (firstLine lines)).head?).getD [])
  if line = "[MetSim]".toList then .ini
  else if line = "MetSim:".toList then .yaml
  else .ini

/-- io.py:128-134 the value recorded for a boolean parameter; `none`: not in the file. -/
def iniBool (v : Option Str) : Bool :=
  match v with
  | some s => if lower (strip s) = "true".toList then true else false
  | none => false

end Verif.Config
