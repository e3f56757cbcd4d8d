import Verif.Model.ConfigRead
import Verif.Model.NcFile
import Verif.Model.Validate
import Verif.Model.Worker

/-!
# A run from its configuration to its output files (`metsim/cli/ms.py:57-62`, `metsim/metsim.py:173-227, 330-343, 799-805`)

The parent object reads domain and forcing, checks the configuration and creates the output files; every worker reads its
part of the inputs, computes its cells and writes them.  Forcing in NetCDF files (`forcing_fmt = netcdf`); opening files,
pandas' reading of dates and frequencies, and texts Python makes of values are parameters.
-/

namespace Verif.Main

open ConfigRead Dataset

/-- What a run finds around it. -/
structure World where
  cfg : ConfigRead.Env
  /-- `xr.open_dataset` / `xr.open_mfdataset` of a path -/
  nc : String → Except PyErr (DS ℝ)
  /-- the calendar in the encoding of the time axis, once the forcing is read -/
  encoding : Option String
  /-- pandas' reading of dates: first and last day -/
  period : String → Option (Int × Int)
  /-- pandas' reading of frequencies -/
  freq : String → Except PyErr Times.Freq
  /-- is there such a directory? -/
  isDir : String → Bool
  /-- types netCDF4 knows -/
  known : String → Bool
  /-- the type of the labels of a dimension of the domain -/
  labelType : String → String
  /-- the `history` attribute -/
  history : String
  /-- `json.dumps` of a dictionary -/
  json : Value → String
  /-- `str()` of a `datetime`, by its day -/
  shown : Int → String
  /-- PyYAML's reading of a file, by its lines -/
  yaml : List Txt.Str → Except PyErr Yaml

/-- `start` and `stop`. -/
def pval : Scalar → Params.PVal
  | .null => .none
  | .bool b => .bool b
  | .int n => .int n
  | .num q => .num q
  | .date d => .date d
  | .str s => .str s

/-- A section of the configuration; configuration files always have it. -/
def required {α : Type} : Option α → Except PyErr α
  | some x => .ok x
  | none => .error .keyError

/-- io.py:268-271: the forcing; a list of files is nothing `open_dataset` understands. -/
def openForcing (w : World) : Value → Except PyErr (DS ℝ)
  | .one (.str path) => w.nc path
  | _ => .error .typeError

/-- metsim.py:221-223, 540-545: `out_freq`. -/
def outFreq (w : World) : Scalar → Except PyErr (Option Times.Freq)
  | .null => .ok none
  | .str s => if s = "" then .ok none else do
    let f ← w.freq s
    pure (some f)
  | _ => .error .typeError

/-- What the parent object knows once it is constructed. -/
structure Parent where
  shared : Cell.Shared
  start : Int
  stop : Int
  whole : DS ℝ
  met : DS ℝ

/-- metsim.py:173-227, 287-310: the parent reads domain and forcing and resolves the period. -/
noncomputable def construct (w : World) (su : Setup) : Except PyErr Parent := do
  -- other formats are not in this model
  if su.forcingFmt ≠ "netcdf" then throw PyErr.keyError
  let domFile ← w.nc su.domain
  let domNames ← required su.domainVars
  let whole ← readDomain domFile (some domNames) []
  let forcing ← openForcing w su.forcing
  let met ← metData .netcdf forcing whole (bound w.period false (pval su.start)) (bound w.period true (pval su.stop)) su.forcingVars
  let met ← Worker.withConstants met su.constants
  let q ← Params.validateForceTimes ⟨Worker.daysOf met, w.encoding, fun s => (w.period s).map Prod.fst⟩
    [("start", pval su.start), ("stop", pval su.stop), ("calendar", .str su.shared.calendar)]
  match q.get? "start", q.get? "stop" with
  | some (.day a), some (.day b) =>
    pure ⟨{ su.shared with calendar := w.encoding.getD su.shared.calendar }, a, b, whole, met⟩
  | _, _ => throw PyErr.typeError

/-- What `_validate_setup` looks at. -/
def checked (su : Setup) (met : DS ℝ) : Validate.Cfg where
  forcing := match su.forcing with
    | .one (.str path) => path.length
    | .files l => l.length
    | _ => 1
  forcingVars := (su.forcingVars.getD []).length
  outDir := some su.outDir
  timeStep := .val su.timeStep
  forcingFmt := some su.forcingFmt
  metVars := met.vars.map Prod.fst ++ met.sizes.map Prod.fst
  outVars := su.outNames.map Prod.fst
  outPrecision := some su.outPrecision
  lwCloud := some su.shared.lwCloud
  lwType := some su.shared.lwType

/-- metsim.py:620-684 -/
def check (su : Setup) (met : DS ℝ) : Except PyErr Unit :=
  match Validate.validate (checked su met) with
  | .accepted => .ok ()
  | .refused _ => .error (.exception ["invalid configuration"])
  | .crashed e => .error e

/-- metsim.py:381, 431: `varconf['out_name']` of every output variable. -/
def outs (su : Setup) : Except PyErr (List (String × String)) :=
  su.outNames.mapM fun q => do
    let n ← required q.2
    pure (q.1, n)

/-- A parameter as the code that records it sees it. -/
def ncVal (w : World) : Value → Nc.PVal
  | .one .null => .none
  | .one (.bool b) => .bool b
  | .one (.int n) => .int n
  | .one (.num q) => .num q
  | .one (.date d) => .time (w.shown d)
  | .one (.str s) => .text s
  | .files l => .list l
  | v => .dict (w.json v)

/-- The parameters once the object is constructed (`state_start` and `state_stop`, which are not recorded, left out). -/
def recorded (w : World) (p : Conf) (pa : Parent) : List (String × Nc.PVal) :=
  let d : Dict String Nc.PVal := p.map fun q => (q.1, ncVal w q.2)
  ((d.set "start" (.time (w.shown pa.start))).set "stop" (.time (w.shown pa.stop))).set "calendar" (.text pa.shared.calendar)

/-- What the output files are made from. -/
def fileCfg (w : World) (p : Conf) (su : Setup) (pa : Parent) (mask : Arr ℝ) (os : List (String × String)) : Nc.Cfg where
  outs := os
  precision := su.outPrecision
  chunks := su.chunks
  calendar := pa.shared.calendar
  params := recorded w p pa
  dims := Worker.fileDims pa.whole mask.dims
  labels := pa.whole.labels
  labelType := w.labelType

/-- The attribute table of the module. -/
def table (w : World) (su : Setup) : Nc.Table := Nc.moduleTable su.unitTable su.shared.utcOffset w.history

/-- The files a worker opens. -/
def inputs (w : World) (su : Setup) (pa : Parent) : Except PyErr Worker.Inputs := do
  let domFile ← w.nc su.domain
  let domNames ← required su.domainVars
  let forcing ← openForcing w su.forcing
  let names ← required su.forcingVars
  let stateFile ← w.nc su.state
  let stateNames ← required su.stateVars
  pure ⟨domFile, domNames, forcing, names, stateFile, stateNames, su.constants, pa.start, pa.stop⟩

/-- metsim.py:558-563: where the files go. -/
def stamps (w : World) (su : Setup) (s : Cell.Shared) (freq : Option Times.Freq) (days : List Int) :
    Except PyErr (List ℚ × Nc.Groups) :=
  Nc.fileStamps s freq (w.cfg.abspath su.outDir).toList su.outPrefix.toList (days.map (· - 730120))

/-- metsim.py:799-805 `wrap_run_slice` -/
noncomputable def worker (w : World) (fuel : Nat) (su : Setup) (pa : Parent) (freq : Option Times.Freq) (os : List (String × String))
    (dir : Nc.Dir) (chunk : Dict String Chunk.Slice) : Except PyErr Nc.Dir := do
  let i ← inputs w su pa
  let ld ← Worker.load i pa.shared chunk
  let (axis, groups) ← stamps w su pa.shared freq ld.days
  check su ld.met
  let out ← Worker.cells (Cell.cellBody fuel) (fun l => ld.mask.val (cellIndex ld.mask.dims l)) (Worker.cellIn ld)
    (Worker.positions ld.dom ld.mask.dims) ⟨pa.shared, .nan, .nan, .nan⟩ (fun _ => none)
  Nc.writeChunk os axis groups chunk out dir

/-- cli/ms.py:57-62 `main`, from the parameters on: `p` are those of the class updated with the configuration, `order` is the order
in which the workers come to write. -/
noncomputable def simulate (w : World) (fuel : Nat) (p : Conf) (order : List (Dict String Chunk.Slice)) : Except PyErr Nc.Dir := do
  let su ← use w.cfg Units.importAttrs p
  let pa ← construct w su
  let freq ← outFreq w su.outFreq
  let (_, groups) ← stamps w su pa.shared freq (Worker.daysOf pa.met)
  check su pa.met
  let os ← outs su
  let mask ← pa.whole.vars.get "mask"
  -- nothing creates the directory
  if w.isDir (w.cfg.abspath su.outDir) = false then throw (PyErr.exception ["no such directory"])
  let (dir, _) ← Nc.create w.known (fileCfg w p su pa mask os) (table w su) groups
  order.foldlM (worker w fuel su pa freq os) dir

/-- A run of an INI file. -/
noncomputable def runIni (w : World) (fuel : Nat) (opts : Opts) (f : Ini.File) (order : List (Dict String Chunk.Slice)) :
    Except PyErr Nc.Dir := do
  let (conf, avail) ← readIni w.cfg opts Params.importNames f
  simulate w fuel ((classParams avail).update conf) order

/-- A run of a YAML file. -/
noncomputable def runYaml (w : World) (fuel : Nat) (opts : Opts) (y : Yaml) (order : List (Dict String Chunk.Slice)) :
    Except PyErr Nc.Dir := do
  let conf ← readYaml w.cfg opts y
  simulate w fuel ((classParams Params.importNames).update conf) order

/-- cli/ms.py:57-62 `main`, io.py:40-59 `read_config`: a run of a configuration file, given by its lines. -/
noncomputable def runText (w : World) (fuel : Nat) (opts : Opts) (lines : List Txt.Str) (order : List (Dict String Chunk.Slice)) :
    Except PyErr Nc.Dir :=
  match Config.checkConfigType lines with
  | .ini => do
    let f ← Ini.read lines
    runIni w fuel opts f order
  | .yaml => do
    let y ← w.yaml lines
    runYaml w fuel opts y order

end Verif.Main
