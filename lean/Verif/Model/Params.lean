import Verif.Np.Dict
import Verif.Np.Text
import Verif.Np.Calendar
import Verif.Model.Units

/-!
# Parameters of MetSim objects (`metsim/metsim.py`)

`MetSim.params` is a class attribute: every object reads and writes the same dictionary.
-/

namespace Verif.Params

/-- Parameter values (only the distinctions the code makes). -/
inductive PVal where
  | none
  | bool (b : Bool)
  | int (n : Int)
  | num (q : ℚ)
  | str (s : String)
  /-- a `datetime`, at midnight, as its day number -/
  | day (d : Int)
  /-- a `date` without time, as YAML reads one; it cannot be compared with a `datetime` -/
  | date (d : Int)
  /-- a dictionary or list, by name (contents not needed here) -/
  | obj (items : List String)
  deriving DecidableEq, Repr

abbrev Params := Dict String PVal

/-- metsim.py:140-171 the class-level `params` as at import. -/
def defaults : Params :=
  [("period_ending", .bool false), ("is_worker", .bool false), ("method", .str "mtclim"),
   ("domain", .str ""), ("state", .str ""), ("out_dir", .str ""), ("out_prefix", .str "forcing"),
   ("start", .str "forcing"), ("stop", .str "forcing"), ("forcing_fmt", .str "netcdf"),
   ("time_step", .int (-1)), ("calendar", .str "standard"), ("prec_type", .str "uniform"),
   ("out_precision", .str "f4"), ("verbose", .int 0), ("sw_prec_thresh", .num 0),
   ("utc_offset", .bool false), ("lw_cloud", .str "cloud_deardorff"), ("lw_type", .str "prata"),
   ("tdew_tol", .num (1 / 1000000)), ("tmax_daylength_fraction", .num (67 / 100)),
   ("rain_scalar", .num (3 / 4)), ("tday_coef", .num (45 / 100)), ("lapse_rate", .num (65 / 10000)),
   ("out_vars", .obj Units.defaultOutputs), ("out_freq", .none), ("chunks", .obj []),
   ("scheduler", .str "distributed"), ("num_workers", .int 1)]

/-- What constructing an object reads from outside: the times of the forcing data as returned by the
reader (day numbers), the calendar recorded in its encoding, and pandas' date parser. -/
structure Env where
  force : List Int
  encCalendar : Option String
  parseDate : String → Option Int

/-- `int(s)` on a piece of a date: an optional sign and digits, surrounding blanks allowed. -/
def parseInt (s : Txt.Str) : Option Int :=
  match Txt.strip s with
  | '-' :: ds => if ds ≠ [] ∧ ds.all Txt.isDigit then some (-(Txt.parseNat ds : Int)) else none
  | '+' :: ds => if ds ≠ [] ∧ ds.all Txt.isDigit then some (Txt.parseNat ds) else none
  | ds => if ds ≠ [] ∧ ds.all Txt.isDigit then some (Txt.parseNat ds) else none

/-- `datetime(year, month, day)`: ValueError outside 1..9999 or for impossible dates. -/
def mkDate (y m d : Int) : Except PyErr Int :=
  if 1 ≤ y ∧ y ≤ 9999 ∧ 1 ≤ m ∧ m ≤ 12 ∧ 1 ≤ d ∧
      d ≤ (((Cal.monthLens (Cal.leap y))[(m - 1).toNat]?.getD 0 : Nat) : Int) then
    .ok (Cal.ofCivil y m.toNat d.toNat)
  else .error .valueError

/-- metsim.py:244-254 resolve `start` / `stop`; `forcing` is `force_times.values[i]`. -/
def resolveTime (env : Env) (v : PVal) (forcing : Option Int) : Except PyErr PVal :=
  match v with
  | .str s =>
    if s = "forcing" then
      match forcing with
      | some d => .ok (.day d)
      | none => .error .indexError
    else if '/' ∈ s.toList then
      match (Txt.splitOn '/' s.toList).mapM parseInt with
      | some [y, m, d] => do
        let t ← mkDate y m d
        pure (.day t)
      | _ => .error .valueError
    else
      match env.parseDate s with
      | some d => .ok (.day d)
      | none => .error .valueError
  | v => .ok v

/-- metsim.py:243-267 `_validate_force_times`, the part that concerns parameters. -/
def validateForceTimes (env : Env) (params : Params) : Except PyErr Params := do
  let v ← params.get "start"
  let v ← resolveTime env v env.force.head?
  let params := params.set "start" v
  let w ← params.get "stop"
  let w ← resolveTime env w env.force.getLast?
  let params := params.set "stop" w
  let c ← params.get "calendar"
  let params := params.set "calendar" (match env.encCalendar with | some c => .str c | none => c)
  match v, w with
  | .day start, .day stop =>
    match env.force.head?, env.force.getLast? with
    | some first, some last =>
      if first ≤ start then
        if stop ≤ last then
          let params := params.set "state_start" (.day (start - 90))
          let params := params.set "state_stop" (.day (start - 1))
          pure params
        else .error .assertion
      else .error .assertion
    | _, _ => .error .indexError
  | _, _ => .error .typeError

/-- metsim.py:173-227 `MetSim.__init__`, its effect on the shared class-level dictionary:
`self.params.update(params)`, then (through `_get_output_times` and `met_data`)
`_validate_force_times`. -/
def construct (cls : Params) (env : Env) (p : Params) : Except PyErr Params :=
  validateForceTimes env (cls.update p)

/-- A history of constructions in one process.  All objects share the resulting dictionary: it is
`obj.params` for each of them. -/
def history : List (Env × Params) → Params → Except PyErr Params
  | [], cls => .ok cls
  | (env, p) :: rest, cls => do
    let cls ← construct cls env p
    history rest cls

/-! ## `read_ini_config`: output names -/

/-- One INI file: the `out_vars` list of the `[MetSim]` section (if any) and the `[out_vars]` section
(empty if absent). -/
structure IniOut where
  list : Option (List String)
  section_ : Dict String String

/-- io.py:145-160.  `avail` maps a variable to the `out_name` stored in the (shared, mutable) object
`available_outputs[var]`.  The configuration holds references to those objects, so the result is the
new state and the list of variables the configuration refers to. -/
def readIniOut (avail : Dict String String) (c : IniOut) :
    Except PyErr (Dict String String × List String) := do
  let vars := c.list.getD []
  -- temp[ov] = metsim.available_outputs[ov]
  let _ ← vars.mapM fun v => avail.get v
  -- temp[varname] = available_outputs[varname]; temp[varname]['out_name'] = outname
  let avail' ← c.section_.foldlM (fun (a : Dict String String) (kv : String × String) => do
    let _ ← a.get kv.1
    pure (a.set kv.1 kv.2)) avail
  pure (avail', vars ++ c.section_.keys)

/-- metsim.py:126-127 `out_name` entries at import: every variable is called by its own name. -/
def importNames : Dict String String := Units.importAttrs.map fun (k, _) => (k, k)

/-- A history of configuration reads. -/
def readHistory : List IniOut → Dict String String → Except PyErr (Dict String String)
  | [], a => .ok a
  | c :: cs, a => do
    let (a, _) ← readIniOut a c
    readHistory cs a

end Verif.Params
