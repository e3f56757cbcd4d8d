import Verif.Model.Main

/-!
# Runs over files for single cells (`metsim/io.py:213-261, 324-369`, `metsim/metsim.py:287-310, 353-361`)

Forcing in text or binary files, one for each cell (`forcing_fmt = ascii` or `binary`).  Opening files, splitting text files into numbers
and `float()` of a text are parameters; the calendar is one of those `date_range` leaves to pandas.
-/

namespace Verif.Vic

open Dataset ConfigRead Txt

/-- What a run finds in the files for single cells. -/
structure Files where
  /-- the lines of a text file that are not blank, as numbers -/
  table : Str → Except PyErr (List (List (Flt ℝ)))
  /-- the contents of a binary file -/
  bytes : Str → Except PyErr (List UInt8)
  /-- `float()` of a text -/
  toFloat : Str → Option ℚ

/-- `s.split()` -/
def words (s : Str) : List Str := (s.splitOnP isSpace).filter fun p => decide (p ≠ [])

/-- io.py:257-258 `pd.read_csv(..., header=None, delim_whitespace=True, names=names)`: the length of the first line says how many columns
there are, longer lines are refused, shorter ones filled up; with more columns than names, the names are those of the last columns. -/
def columns (names : List String) (rows : List (List (Flt ℝ))) : Except PyErr (List (String → Flt ℝ)) :=
  let width := max ((rows.head?.map List.length).getD 0) names.length
  if rows.any fun r => decide (width < r.length) then .error .valueError
  else .ok (rows.map fun r v => r.getD (names.idxOf v + (width - names.length)) .nan)

/-- io.py:335-337: scale and type of a variable of binary files. -/
noncomputable def binVar (fs : Files) (q : String × String) : Except PyErr (Forcing.BinVar ℝ) :=
  match words q.2.toList with
  | [] => .error .indexError
  | s :: ss => match fs.toFloat s with
    | some x => .ok ⟨q.1, (x : ℝ), String.ofList (((s :: ss).getLast?).getD [])⟩
    | none => .error .valueError

/-- io.py:252-261, 324-369 `read_ascii`, `read_binary`: the series in a file, for `n` days. -/
noncomputable def readFile (fs : Files) (fmt : String) (vars : Dict String String) (n : Nat) (job : Str) :
    Except PyErr (Dict String (List (Flt ℝ))) :=
  if fmt = "ascii" then do
    let rows ← fs.table job
    let rows ← columns vars.keys rows
    Forcing.readAscii vars.keys n rows
  else if fmt = "binary" then do
    let vs ← vars.mapM (binVar fs)
    let _ ← vs.mapM fun v => Forcing.signedness v.word
    let bytes ← fs.bytes job
    Forcing.readBinary vs n bytes
  else .error .keyError

/-- io.py:240 `domain['mask'].sel(lat=lat, lon=lon).values`, where that is a single value. -/
def maskAt (dom : DS ℝ) (c : ℚ × ℚ) : Option (Flt ℝ) :=
  match dom.vars.get? "mask" with
  | none => none
  | some m =>
    if "lat" ∈ m.dims ∧ "lon" ∈ m.dims ∧ (dom.labels "lat").count c.1 = 1 ∧ (dom.labels "lon").count c.2 = 1 ∧
        ∀ d ∈ m.dims, d ≠ "lat" → d ≠ "lon" → dom.sizes.get? d = some 1 then
      some (m.val fun d => if d = "lat" then (dom.labels "lat").idxOf c.1 else if d = "lon" then (dom.labels "lon").idxOf c.2 else 0)
    else none

/-- io.py:221-222: the days from `start` to `stop`. -/
def dates (calendar : String) (start stop : Int) : Except PyErr (List Int) := do
  let r ← Datetime.dateRange calendar (1440 * (start - CfTime.origin)) (1440 * (stop - CfTime.origin)) 1440
  pure (r.map fun t => ⌊t / 1440⌋ + CfTime.origin)

/-- io.py:221-233: series of cells on the axes of the domain. -/
def gridded (dom : DS ℝ) (days : List Int) (names : List String) (g : Forcing.Grid ℚ ℝ) : DS ℝ where
  sizes := [("time", days.length), ("lat", (dom.labels "lat").length), ("lon", (dom.labels "lon").length)]
  coords := [("time", days.map fun d => ((d - epoch : Int) : ℚ)), ("lat", dom.labels "lat"), ("lon", dom.labels "lon")]
  vars := names.map fun v => (v, ⟨["time", "lat", "lon"], fun ix =>
    (g v ((dom.labels "lat").getD (ix "lat") 0, (dom.labels "lon").getD (ix "lon") 0)).getD (ix "time") .nan⟩)

/-- io.py:213-249 `process_vic` and metsim.py:295-299: the forcing of a (sub-)domain. -/
noncomputable def metData (fs : Files) (fmt calendar : String) (jobs : List Str) (vars : Dict String String) (dom : DS ℝ)
    (start stop : Int) : Except PyErr (DS ℝ) := do
  if fmt ≠ "ascii" ∧ fmt ≠ "binary" then throw PyErr.keyError
  let days ← dates calendar start stop
  if (dom.sizes.get? "lat").isNone ∨ (dom.sizes.get? "lon").isNone then throw PyErr.keyError
  let g ← Forcing.processVic fs.toFloat (maskAt dom) (readFile fs fmt vars days.length) vars.keys days.length jobs
  let ds ← (gridded dom days vars.keys g).assignFrom dom "elev"
  let ds ← ds.assignFrom dom "lat"
  ds.assignFrom dom "lon"

/-- What a run over such files reads. -/
structure Inputs where
  domFile : DS ℝ
  domNames : Dict String String
  fmt : String
  jobs : List Str
  vars : Dict String String
  stateFile : DS ℝ
  stateNames : Dict String String
  constants : Dict String ℝ
  start : Int
  stop : Int

/-- metsim.py:353-361 `load_inputs` of a worker, and metsim.py:474-476. -/
noncomputable def load (fs : Files) (i : Inputs) (s : Cell.Shared) (chunk : Dict String Chunk.Slice) : Except PyErr Worker.Loads := do
  let dom ← readDomain i.domFile (some i.domNames) chunk
  let met ← metData fs i.fmt s.calendar i.jobs i.vars dom i.start i.stop
  let met ← Worker.withConstants met i.constants
  Worker.checkPeriod i.start i.stop (Worker.daysOf met)
  let st ← readNetcdf i.stateFile (some dom) (Worker.axisDay (i.start - 90)) (Worker.axisDay (i.start - 1)) (some i.stateNames)
  let mask ← dom.vars.get "mask"
  let record ← Worker.recordDates s.calendar i.start
  let old ← Worker.dailies st mask.dims
  let new ← Worker.dailies met mask.dims
  let agg ← State.aggregateState (st.labels "time").length record i.start i.stop (Worker.daysOf met)
    (Worker.positions dom mask.dims) old new
  let extra ← Worker.monthlies s.precType dom mask.dims (Worker.daysOf met) fun c => (new c).prec
  pure ⟨dom, mask, met, old, agg, extra⟩

/-- io.py:236 `for job in params['forcing']`: a text is gone through character by character. -/
def jobsOf : Value → Except PyErr (List Str)
  | .files l => .ok (l.map String.toList)
  | .one (.str s) => .ok (s.toList.map fun c => [c])
  | _ => .error .typeError

/-- `start` or `stop` as a bound of `pd.date_range`: the first day of what a text stands for. -/
def day (period : String → Option (Int × Int)) : Params.PVal → Except PyErr Int
  | .day d => .ok d
  | .date d => .ok d
  | .str s => match period s with
    | some (a, _) => .ok a
    | none => .error .valueError
  | .none => .error .valueError
  | _ => .error .typeError

/-- metsim.py:173-227, 287-310: the parent reads domain and forcing and resolves the period; the time axis has no calendar of its own. -/
noncomputable def construct (w : Main.World) (fs : Files) (su : Setup) : Except PyErr Main.Parent := do
  let domFile ← w.nc su.domain
  let domNames ← Main.required su.domainVars
  let whole ← readDomain domFile (some domNames) []
  let a ← day w.period (Main.pval su.start)
  let b ← day w.period (Main.pval su.stop)
  let vars ← Main.required su.forcingVars
  let jobs ← jobsOf su.forcing
  let met ← metData fs su.forcingFmt su.shared.calendar jobs vars whole a b
  let met ← Worker.withConstants met su.constants
  let q ← Params.validateForceTimes ⟨Worker.daysOf met, none, fun s => (w.period s).map Prod.fst⟩
    [("start", Main.pval su.start), ("stop", Main.pval su.stop), ("calendar", .str su.shared.calendar)]
  match q.get? "start", q.get? "stop" with
  | some (.day a), some (.day b) => pure ⟨su.shared, a, b, whole, met⟩
  | _, _ => throw PyErr.typeError

/-- The files a worker opens. -/
def inputs (w : Main.World) (su : Setup) (pa : Main.Parent) : Except PyErr Inputs := do
  let domFile ← w.nc su.domain
  let domNames ← Main.required su.domainVars
  let jobs ← jobsOf su.forcing
  let vars ← Main.required su.forcingVars
  let stateFile ← w.nc su.state
  let stateNames ← Main.required su.stateVars
  pure ⟨domFile, domNames, su.forcingFmt, jobs, vars, stateFile, stateNames, su.constants, pa.start, pa.stop⟩

/-- metsim.py:799-805 `wrap_run_slice` -/
noncomputable def worker (w : Main.World) (fs : Files) (fuel : Nat) (su : Setup) (pa : Main.Parent) (freq : Option Times.Freq)
    (os : List (String × String)) (dir : Nc.Dir) (chunk : Dict String Chunk.Slice) : Except PyErr Nc.Dir := do
  let i ← inputs w su pa
  let ld ← load fs i pa.shared chunk
  let (axis, groups) ← Main.stamps w su pa.shared freq ld.days
  Main.check su ld.met
  let out ← Worker.cells (Cell.cellBody fuel) (fun l => ld.mask.val (cellIndex ld.mask.dims l)) (Worker.cellIn ld)
    (Worker.positions ld.dom ld.mask.dims) ⟨pa.shared, .nan, .nan, .nan⟩ (fun _ => none)
  Nc.writeChunk os axis groups chunk out dir

/-- cli/ms.py:57-62 `main`, from the parameters on (as `Main.simulate`). -/
noncomputable def simulate (w : Main.World) (fs : Files) (fuel : Nat) (p : Conf) (order : List (Dict String Chunk.Slice)) :
    Except PyErr Nc.Dir := do
  let su ← use w.cfg Units.importAttrs p
  let pa ← construct w fs su
  let freq ← Main.outFreq w su.outFreq
  let (_, groups) ← Main.stamps w su pa.shared freq (Worker.daysOf pa.met)
  Main.check su pa.met
  let os ← Main.outs su
  let mask ← pa.whole.vars.get "mask"
  if w.isDir (w.cfg.abspath su.outDir) = false then throw (PyErr.exception ["no such directory"])
  let (dir, _) ← Nc.create w.known (Main.fileCfg w p su pa mask os) (Main.table w su) groups
  order.foldlM (worker w fs fuel su pa freq os) dir

/-- A run of an INI file. -/
noncomputable def runIni (w : Main.World) (fs : Files) (fuel : Nat) (opts : Opts) (f : Ini.File) (order : List (Dict String Chunk.Slice)) :
    Except PyErr Nc.Dir := do
  let (conf, avail) ← readIni w.cfg opts Params.importNames f
  simulate w fs fuel ((classParams avail).update conf) order

end Verif.Vic
