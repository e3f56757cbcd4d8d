import Verif.Model.Ini
import Verif.Model.Config
import Verif.Model.Params
import Verif.Model.Cell

/-!
# From a configuration file to the parameters a run uses (`metsim/io.py:42-163`, `metsim/metsim.py:140-171, 183, 461-473`)

The text of an INI file is read by `Ini.read`; a YAML file is given by what the YAML reader of the library makes of it.
File system, `%` interpolation and `float()` of a text are parameters.
-/

namespace Verif.ConfigRead

open Txt

/-- A single value: texts from INI files, texts, numbers, dates and truth values from YAML files. -/
inductive Scalar where
  | null
  | bool (b : Bool)
  | int (n : Int)
  | num (q : ℚ)
  | date (d : Int)
  | str (s : String)
  deriving DecidableEq

/-- The dictionary of an output variable: its `out_name` and `units`, if it has them. -/
structure OutSpec where
  name : Option String
  units : Option String
  deriving DecidableEq

/-- A value of the configuration dictionary. -/
inductive Value where
  | one (s : Scalar)
  | files (l : List String)
  | names (d : Dict String String)
  | nums (d : Dict String Scalar)
  | outs (d : Dict String OutSpec)
  deriving DecidableEq

abbrev Conf := Dict String Value

/-- What reading depends on besides the file. -/
structure Env where
  /-- the files in a directory, in the order of `os.walk`; `none` if the path is not a directory -/
  walk : String → Option (List String)
  /-- `os.path.join` -/
  join : String → String → String
  /-- `os.path.abspath` -/
  abspath : String → String
  /-- `%` interpolation of `ConfigParser` -/
  interp : Str → Except PyErr Str
  /-- `float()` of a text -/
  float : String → Except PyErr ℝ

/-- The command line (cli/ms.py). -/
structure Opts where
  scheduler : String
  numWorkers : Int
  verbose : Bool

/-! ## `_to_list` -/

/-- Where the reader of a list of texts is. -/
inductive Js where
  | start
  | first
  | inside (acc : List Str) (cur : Str)
  | after (acc : List Str)
  | next (acc : List Str)
  | done (acc : List Str)
  deriving DecidableEq

/-- White space of JSON. -/
def jsonSpace (c : Char) : Bool := c == ' ' || c == '\n' || c == '\t' || c == '\r'

/-- `json.loads` on lists of texts without backslashes; anything else is refused here. -/
def Js.step : Js → Char → Except PyErr Js
  | .start, c => if jsonSpace c then .ok .start else if c = '[' then .ok .first else .error .valueError
  | .first, c => if jsonSpace c then .ok .first else if c = ']' then .ok (.done []) else
      if c = '"' then .ok (.inside [] []) else .error .valueError
  | .inside acc cur, c => if c = '"' then .ok (.after (acc ++ [cur])) else
      if c = '\\' ∨ c.toNat < 32 then .error .valueError else .ok (.inside acc (cur ++ [c]))
  | .after acc, c => if jsonSpace c then .ok (.after acc) else if c = ',' then .ok (.next acc) else
      if c = ']' then .ok (.done acc) else .error .valueError
  | .next acc, c => if jsonSpace c then .ok (.next acc) else if c = '"' then .ok (.inside acc []) else .error .valueError
  | .done acc, c => if jsonSpace c then .ok (.done acc) else .error .valueError

/-- io.py:42-43 `_to_list` -/
def toList (s : Str) : Except PyErr (List Str) := do
  let s := ((splitOn '#' (s.map fun c => if c = '\'' then '"' else c)).head?).getD []
  match ← s.foldlM Js.step .start with
  | .done acc => pure acc
  | _ => throw PyErr.valueError

/-! ## Reading -/

/-- io.py:87-92, 117-122: a directory stands for its files. -/
def forcingFiles (env : Env) (path : String) : Value :=
  match env.walk path with
  | some fs => .files (fs.map (env.join path))
  | none => .one (.str path)

/-- io.py:102, 162 `{k: v for k, v in conf.items() if v != []}` -/
def dropEmpty (conf : Conf) : Conf := conf.filter fun p => decide (p.2 ≠ .files [])

/-- Entries with a text for a value. -/
def texts (d : Dict String String) : Conf := d.map fun p => (p.1, .one (.str p.2))

def strs (d : Dict String String) : Dict String Scalar := d.map fun p => (p.1, .str p.2)

/-- `logging.DEBUG` or `logging.INFO` -/
def level (verbose : Bool) : Int := if verbose then 10 else 20

/-- A section of an INI file. -/
def Ini.section (env : Env) (f : Ini.File) (name : String) : Except PyErr (Dict String String) := do
  let d ← Ini.items env.interp f name.toList
  pure (d.map fun p => (String.ofList p.1, String.ofList p.2))

/-- Is there such a section? -/
def Ini.has (f : Ini.File) (name : String) : Bool := decide (name.toList ∈ f.sections.keys)

/-- The output variables of a configuration; they refer to the shared `available_outputs`. -/
def outSpecs (avail : Dict String String) (vars : List String) : Dict String OutSpec :=
  Dict.ofItems (vars.map fun v => (v, ⟨avail.get? v, Units.availableUnits.get? v⟩))

/-- io.py:113-141, 162: the dictionary made of the sections of an INI file. -/
def iniConf (env : Env) (opts : Opts) (main fv dv sv chunks : Dict String String) (cv : Option (Dict String String))
    (forcing outDir : String) (outs : Dict String OutSpec) : Conf :=
  let conf := (((texts main).set "forcing_vars" (.names fv)).set "domain_vars" (.names (Config.invertDict dv))).set
    "state_vars" (.names (Config.invertDict sv))
  let conf := conf.set "chunks" (.nums (strs chunks))
  let conf := match cv with
    | some cv => conf.set "constant_vars" (.nums (strs cv))
    | none => conf
  let bool (k : String) : Value := .one (.bool (Config.iniBool ((main.get? k).map String.toList)))
  let conf := (conf.set "utc_offset" (bool "utc_offset")).set "period_ending" (bool "period_ending")
  let conf := conf.update
    [("calendar", .one (.str ((main.get? "calendar").getD "standard"))), ("scheduler", .one (.str opts.scheduler)),
     ("num_workers", .one (.int opts.numWorkers)), ("verbose", .one (.int (level opts.verbose))),
     ("forcing", forcingFiles env forcing), ("out_dir", .one (.str (env.abspath outDir))),
     ("prec_type", .one (.str ((main.get? "prec_type").getD "uniform")))]
  dropEmpty (conf.set "out_vars" (.outs outs))

/-- A section that need not be there. -/
def Ini.optional (env : Env) (f : Ini.File) (name : String) : Except PyErr (Option (Dict String String)) :=
  if Ini.has f name then do
    let d ← Ini.section env f name
    pure (some d)
  else pure none

/-- io.py:145-146 the list variant of `out_vars` -/
def listed (main : Dict String String) : Except PyErr (Option (List String)) :=
  match main.get? "out_vars" with
  | some s => do
    let l ← toList s.toList
    pure (some (l.map String.ofList))
  | none => pure none

/-- io.py:106-163 `read_ini_config`; `avail` are the `out_name`s in `available_outputs`. -/
def readIni (env : Env) (opts : Opts) (avail : Dict String String) (f : Ini.File) :
    Except PyErr (Conf × Dict String String) := do
  let main ← Ini.section env f "MetSim"
  let fv ← Ini.section env f "forcing_vars"
  let fmt ← main.get "forcing_fmt"
  let fv := if fmt ≠ "binary" then Config.invertDict fv else fv
  let dv ← Ini.section env f "domain_vars"
  let sv ← Ini.section env f "state_vars"
  let chunks ← Ini.section env f "chunks"
  let cv ← Ini.optional env f "constant_vars"
  let forcing ← main.get "forcing"
  let outDir ← main.get "out_dir"
  let list ← listed main
  let sec ← Ini.optional env f "out_vars"
  let (avail, vars) ← Params.readIniOut avail ⟨list, sec.getD []⟩
  pure (iniConf env opts main fv dv sv chunks cv forcing outDir (outSpecs avail vars), avail)

/-- A section of a YAML file: absent, present without entries (`null`), or a dictionary. -/
inductive Part (α : Type) where
  | absent
  | empty
  | dict (d : Dict String α)

/-- `OrderedDict(config[name])` -/
def Part.get {α : Type} : Part α → Except PyErr (Dict String α)
  | .absent => .error .keyError
  | .empty => .error .typeError
  | .dict d => .ok d

/-- A YAML file. -/
structure Yaml where
  main : Part Scalar
  forcingVars : Part String
  domainVars : Part String
  stateVars : Part String
  outVars : Part OutSpec
  chunks : Part Scalar
  constantVars : Part Scalar

/-- A path. -/
def Scalar.path : Scalar → Except PyErr String
  | .str s => .ok s
  | _ => .error .typeError

/-- io.py:81-83: units not given are the default ones. -/
def withUnits (d : Dict String OutSpec) : Except PyErr (Dict String OutSpec) :=
  d.mapM fun p => match p.2.units with
    | some _ => .ok p
    | none => do
      let u ← Units.availableUnits.get p.1
      pure (p.1, { p.2 with units := some u })

/-- io.py:75-102: the dictionary made of the sections of a YAML file. -/
def yamlConf (env : Env) (opts : Opts) (main : Dict String Scalar) (fv dv sv : Dict String String) (chunks : Dict String Scalar)
    (cv : Option (Dict String Scalar)) (forcing outDir : String) (outs : Dict String OutSpec) : Conf :=
  let conf : Conf := main.map fun p => (p.1, .one p.2)
  let conf := ((conf.set "forcing_vars" (.names (Config.invertDict fv))).set "domain_vars" (.names (Config.invertDict dv))).set
    "state_vars" (.names (Config.invertDict sv))
  let conf := (conf.set "out_vars" (.outs outs)).set "chunks" (.nums chunks)
  let conf := match cv with
    | some cv => conf.set "constant_vars" (.nums cv)
    | none => conf
  let conf := conf.update
    [("calendar", .one ((main.get? "calendar").getD (.str "standard"))), ("scheduler", .one (.str opts.scheduler)),
     ("num_workers", .one (.int opts.numWorkers)), ("verbose", .one (.int (level opts.verbose))),
     ("forcing", forcingFiles env forcing), ("out_dir", .one (.str (env.abspath outDir)))]
  dropEmpty conf

/-- A section that need not be there. -/
def Part.optional {α : Type} : Part α → Except PyErr (Option (Dict String α))
  | .absent => .ok none
  | .empty => .error .typeError
  | .dict d => .ok (some d)

/-- io.py:72-103 `read_yaml_config` -/
def readYaml (env : Env) (opts : Opts) (y : Yaml) : Except PyErr Conf := do
  let main ← y.main.get
  let fv ← y.forcingVars.get
  let dv ← y.domainVars.get
  let sv ← y.stateVars.get
  let ov ← y.outVars.get
  let ov ← withUnits ov
  let chunks ← y.chunks.get
  let cv ← y.constantVars.optional
  let forcing ← main.get "forcing"
  let forcing ← forcing.path
  let outDir ← main.get "out_dir"
  let outDir ← outDir.path
  pure (yamlConf env opts main fv dv sv chunks cv forcing outDir ov)

/-! ## Use -/

/-- metsim.py:140-171 the class-level `params`. -/
def classParams (avail : Dict String String) : Conf :=
  [("period_ending", .one (.bool false)), ("is_worker", .one (.bool false)), ("method", .one (.str "mtclim")),
   ("domain", .one (.str "")), ("state", .one (.str "")), ("out_dir", .one (.str "")), ("out_prefix", .one (.str "forcing")),
   ("start", .one (.str "forcing")), ("stop", .one (.str "forcing")), ("forcing_fmt", .one (.str "netcdf")),
   ("time_step", .one (.int (-1))), ("calendar", .one (.str "standard")), ("prec_type", .one (.str "uniform")),
   ("out_precision", .one (.str "f4")), ("verbose", .one (.int 0)), ("sw_prec_thresh", .one (.num 0)),
   ("utc_offset", .one (.bool false)), ("lw_cloud", .one (.str "cloud_deardorff")), ("lw_type", .one (.str "prata")),
   ("tdew_tol", .one (.num (1 / 1000000))), ("tmax_daylength_fraction", .one (.num (67 / 100))),
   ("rain_scalar", .one (.num (3 / 4))), ("tday_coef", .one (.num (45 / 100))), ("lapse_rate", .one (.num (65 / 10000))),
   ("out_vars", .outs (outSpecs avail Units.defaultOutputs)), ("out_freq", .one .null), ("chunks", .nums []),
   ("scheduler", .one (.str "distributed")), ("num_workers", .one (.int 1))]

/-- `int(x)` -/
def Scalar.toInt : Scalar → Except PyErr Int
  | .bool b => .ok (if b then 1 else 0)
  | .int n => .ok n
  | .num q => .ok (if 0 ≤ q then ⌊q⌋ else ⌈q⌉)
  | .str s => match Params.parseInt s.toList with
    | some n => .ok n
    | none => .error .valueError
  | _ => .error .typeError

/-- `float(x)` -/
def Scalar.toFloat (env : Env) : Scalar → Except PyErr ℝ
  | .bool b => .ok (if b then 1 else 0)
  | .int n => .ok n
  | .num q => .ok q
  | .str s => env.float s
  | _ => .error .typeError

/-- `if x:` -/
def Scalar.truth : Scalar → Bool
  | .null => false
  | .bool b => b
  | .int n => decide (n ≠ 0)
  | .num q => decide (q ≠ 0)
  | .date _ => true
  | .str s => decide (s ≠ "")

/-- A text where one is needed. -/
def Scalar.text : Scalar → Except PyErr String
  | .str s => .ok s
  | _ => .error .typeError

/-- The single value of a parameter. -/
def one (p : Conf) (k : String) : Except PyErr Scalar :=
  match p.get? k with
  | some (.one s) => .ok s
  | some _ => .error .typeError
  | none => .error .keyError

def text (p : Conf) (k : String) : Except PyErr String := do
  let s ← one p k
  s.text

def float (env : Env) (p : Conf) (k : String) : Except PyErr ℝ := do
  let s ← one p k
  s.toFloat env

def int (p : Conf) (k : String) : Except PyErr Int := do
  let s ← one p k
  s.toInt

def switch (p : Conf) (k : String) : Except PyErr Bool := do
  let s ← one p k
  pure s.truth

/-- `params.get(k, '')` -/
def optText (p : Conf) (k : String) : Except PyErr String :=
  match p.get? k with
  | none => .ok ""
  | some (.one s) => s.text
  | some _ => .error .typeError

/-- The names of the variables in a file (`params.get(k, None)`). -/
def names (p : Conf) (k : String) : Except PyErr (Option (Dict String String)) :=
  match p.get? k with
  | none => .ok none
  | some (.names d) => .ok (some d)
  | some _ => .error .typeError

/-- `params['out_vars']` -/
def outsOf (p : Conf) : Except PyErr (Dict String OutSpec) :=
  match p.get? "out_vars" with
  | some (.outs d) => .ok d
  | _ => .error .typeError

/-- metsim.py:371, 818: the chunk sizes as whole numbers -/
def chunksOf (p : Conf) : Except PyErr (Dict String Int) :=
  match p.get? "chunks" with
  | some (.nums d) => d.mapM fun q => do
    let n ← q.2.toInt
    pure (q.1, n)
  | _ => .error .typeError

/-- metsim.py:302-307: the constants as numbers -/
def constantsOf (env : Env) (p : Conf) : Except PyErr (Dict String ℝ) :=
  match p.get? "constant_vars" with
  | none => .ok []
  | some (.nums d) => d.mapM fun q => do
    let x ← q.2.toFloat env
    pure (q.1, x)
  | some _ => .error .typeError

/-- disaggregate.py:186 `params.get("theta_s", 0)`, in a difference, only with `utc_offset` -/
def thetaOf (p : Conf) (utc : Bool) : Except PyErr ℝ :=
  match p.get? "theta_s" with
  | none => .ok 0
  | some (.one (.int n)) => .ok n
  | some (.one (.num q)) => .ok q
  | some _ => if utc then .error .typeError else .ok 0

/-- What a run works with. -/
structure Setup where
  shared : Cell.Shared
  timeStep : Int
  forcing : Value
  forcingFmt : String
  domain : String
  state : String
  outDir : String
  outPrefix : String
  outPrecision : String
  outFreq : Scalar
  start : Scalar
  stop : Scalar
  forcingVars : Option (Dict String String)
  domainVars : Option (Dict String String)
  stateVars : Option (Dict String String)
  /-- output variables and their names in the files -/
  outNames : Dict String (Option String)
  /-- the `units` of the module's attribute table -/
  unitTable : Dict String String
  chunks : Dict String Int
  constants : Dict String ℝ

/-- metsim.py:152, 462 -/
def methodOf (s : String) : Except PyErr Cell.Method :=
  if s = "mtclim" then .ok .mtclim else if s = "passthrough" then .ok .passthrough else .error .keyError

/-- The parameters as the run uses them: the conversions at the places of use.  `attrs` is the unit table of the module. -/
def use (env : Env) (attrs : Dict String String) (p : Conf) : Except PyErr Setup := do
  let method ← text p "method"
  let method ← methodOf method
  let ts ← int p "time_step"
  let calendar ← text p "calendar"
  let periodEnding ← switch p "period_ending"
  let utcOffset ← switch p "utc_offset"
  let swAveraging ← optText p "sw_averaging"
  let precType ← text p "prec_type"
  let lwType ← text p "lw_type"
  let lwCloud ← text p "lw_cloud"
  let thetaS ← thetaOf p utcOffset
  let tmaxFraction ← float env p "tmax_daylength_fraction"
  let tdayCoef ← float env p "tday_coef"
  let swPrecThresh ← float env p "sw_prec_thresh"
  let rainScalar ← float env p "rain_scalar"
  let lapseRate ← float env p "lapse_rate"
  let tdewTol ← float env p "tdew_tol"
  let outs ← outsOf p
  let (unitTable, units) ← Units.updateUnitAttrs attrs (outs.map fun q => (q.1, q.2.units))
  let forcing ← p.get "forcing"
  let forcingFmt ← text p "forcing_fmt"
  let domain ← text p "domain"
  let state ← text p "state"
  let outDir ← text p "out_dir"
  let outPrefix ← text p "out_prefix"
  let outPrecision ← text p "out_precision"
  let outFreq ← one p "out_freq"
  let start ← one p "start"
  let stop ← one p "stop"
  let forcingVars ← names p "forcing_vars"
  let domainVars ← names p "domain_vars"
  let stateVars ← names p "state_vars"
  let chunks ← chunksOf p
  let constants ← constantsOf env p
  pure
    { shared :=
        { method, ts := ts.toNat, calendar, periodEnding, utcOffset, swAveraging, precType, lwType, lwCloud, thetaS, tmaxFraction,
          tdayCoef, swPrecThresh, rainScalar, lapseRate, tdewTol, outVars := units }
      timeStep := ts
      forcing, forcingFmt, domain, state, outDir, outPrefix, outPrecision, outFreq, start, stop, forcingVars, domainVars, stateVars
      outNames := outs.map fun q => (q.1, q.2.name)
      unitTable, chunks, constants }

/-- A run started from an INI file in a fresh process (cli/ms.py `main`; metsim.py:183). -/
def fromIni (env : Env) (opts : Opts) (f : Ini.File) : Except PyErr Setup := do
  let (conf, avail) ← readIni env opts Params.importNames f
  use env Units.importAttrs ((classParams avail).update conf)

/-- A run started from a YAML file in a fresh process. -/
def fromYaml (env : Env) (opts : Opts) (y : Yaml) : Except PyErr Setup := do
  let conf ← readYaml env opts y
  use env Units.importAttrs ((classParams Params.importNames).update conf)

end Verif.ConfigRead
