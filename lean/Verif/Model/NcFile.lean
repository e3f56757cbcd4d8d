import Verif.Model.Cell
import Mathlib.Data.Real.Basic

/-!
# Output files as NetCDF files (`metsim/metsim.py:363-454`)

`setup_netcdf_output` creates a file with its dimensions, variables and attributes; `write_chunk` assigns the region of a
worker, variable by variable, by the names in the file.  Stamps are minutes since 2000-01-01 on the standard calendar;
the file holds their numbers on the calendar of the run.
Which type names netCDF4 knows is a parameter.
-/

namespace Verif.Nc

/-- A value of an attribute. -/
inductive Attr where
  | text (s : String)
  | int (n : Int)
  | num (q : ℚ)
  | nan
  deriving DecidableEq

/-- A value of `params`, with what Python makes of it as a text where that is used. -/
inductive PVal where
  | text (s : String)
  | int (n : Int)
  | num (q : ℚ)
  | bool (b : Bool)
  | none
  /-- a point in time, as `str()` shows it -/
  | time (s : String)
  /-- a dictionary, as `json.dumps` shows it -/
  | dict (json : String)
  | list (l : List String)
  deriving DecidableEq

/-- What is stored in an array. -/
inductive Datum where
  | stamp (b : BitVec 32)
  | label (q : ℚ)
  | value (x : Flt ℝ)

/-- A variable of a file; a place of `data` that was never written is `none`. -/
structure Var where
  dtype : String
  dims : List String
  chunks : Option (List Int)
  attrs : Dict String Attr
  data : List Nat → Option Datum

/-- A file: dimensions (`none` is unlimited), variables, global attributes. -/
structure File where
  dims : Dict String (Option Nat)
  vars : Dict String Var
  attrs : Dict String Attr

/-- `Dataset.createDimension` -/
def File.createDimension (f : File) (d : String × Option Nat) : Except PyErr File :=
  if d.1 ∈ f.dims.keys then .error (.exception ["name in use"]) else .ok { f with dims := f.dims ++ [d] }

/-- A chunk size netCDF accepts along a dimension. -/
def chunkOk (f : File) (p : String × Int) : Bool :=
  decide (0 < p.2) && match f.dims.get? p.1 with
    | some (some n) => decide (p.2 ≤ n)
    | _ => true

/-- `Dataset.createVariable` -/
def File.createVariable (known : String → Bool) (f : File) (name dtype : String) (dims : List String) (chunks : Option (List Int)) :
    Except PyErr File :=
  if known dtype = false then .error .typeError
  else if dims.any (fun d => decide (d ∉ f.dims.keys)) then .error .keyError
  else if name ∈ f.vars.keys then .error (.exception ["name in use"])
  else if (dims.zip (chunks.getD [])).any (fun p => !chunkOk f p) then .error (.exception ["bad chunk sizes"])
  else .ok { f with vars := f.vars ++ [(name, ⟨dtype, dims, chunks, [], fun _ => none⟩)] }

/-- Changing a variable of a file. -/
def File.modify (f : File) (name : String) (g : Var → Var) : Except PyErr File := do
  let v ← f.vars.get name
  pure { f with vars := f.vars.set name (g v) }

/-- What a file is made from. -/
structure Cfg where
  /-- `params['out_vars']`: variables and their `out_name`s -/
  outs : List (String × String)
  precision : String
  chunks : Dict String Int
  calendar : String
  params : List (String × PVal)
  /-- dimensions of the mask and their sizes -/
  dims : List (String × Nat)
  /-- `domain[dim].values` and their type -/
  labels : String → List ℚ
  labelType : String → String

/-- The attribute tables of the module: per variable, for `time`, and `_global`. -/
abbrev Table := Dict String (Dict String Attr)

/-- metsim.py:75-117: long and standard names -/
def names : List (String × String × String) :=
  [("pet", "potential evaporation", "water_potential_evaporation_flux"), ("prec", "precipitation", "precipitation_flux"),
   ("shortwave", "shortwave radiation", "surface_downwelling_shortwave_flux"), ("longwave", "longwave radiation", "surface_downwelling_longwave_flux"),
   ("t_max", "maximum daily air temperature", "daily_maximum_air_temperature"), ("t_min", "minimum daily air temperature", "daily_minimum_air_temperature"),
   ("temp", "air temperature", "air_temperature"), ("vapor_pressure", "vapor pressure", "vapor_pressure"),
   ("air_pressure", "air pressure", "air_pressure"), ("tskc", "cloud fraction", "cloud_fraction"),
   ("rel_humid", "relative humidity", "relative_humidity"), ("daylength", "daylength", "length of day"),
   ("spec_humid", "specific humidity", "specific_humidity"), ("wind", "wind speed", "wind_speed")]

/-- metsim.py:269-276 -/
def timeAttrs (utc : Bool) : Dict String Attr :=
  [("units", .text "minutes since 2000-01-01 00:00:00.0"), ("long_name", .text (if utc then "UTC time" else "local time at grid location")),
   ("standard_name", .text (if utc then "utc_time" else "local_time"))]

/-- metsim.py:75-124: the tables of the module once an object is constructed and its forcing read; `units` are the `units` entries. -/
def moduleTable (units : Dict String String) (utc : Bool) (history : String) : Table :=
  (names.map fun q => (q.1, [("units", Attr.text ((units.get? q.1).getD "")), ("long_name", .text q.2.1), ("standard_name", .text q.2.2),
    ("missing_value", .nan), ("fill_value", .nan)])) ++
  [("_global", [("conventions", .text "1.6"), ("title", .text "Output from MetSim"), ("institution", .text "University of Washington"),
    ("source", .text "metsim.py"), ("history", .text history), ("comment", .text "no comment at this time")]),
   ("time", timeAttrs utc)]

/-- `v.replace("'", "").replace('"', "")` -/
def unquote (s : String) : String := String.ofList (s.toList.filter fun c => c != '\'' && c != '"')

/-- metsim.py:402-406 -/
def skipped : List String :=
  ["elev", "lat", "lon", "is_worker", "out_vars", "forcing_vars", "domain_vars", "state_vars", "constant_vars", "references", "verbose",
   "num_workers"]

/-- `str(v)` -/
def PVal.str : PVal → String
  | .text s => s
  | .int n => toString n
  | .num q => toString q
  | .bool b => if b then "True" else "False"
  | .none => "None"
  | .time s => s
  | .dict j => j
  | .list l => toString l

/-- metsim.py:407-423: the value recorded for a parameter; `none` if it is left out. -/
def record (p : String × PVal) : Except PyErr (Option Attr) :=
  if p.1 ∈ skipped then .ok none
  else if p.1 ∈ ["state_start", "state_stop", "out_freq"] then .ok none
  else match (if p.1 ∈ ["start", "stop", "utc_offset", "period_ending"] then PVal.text p.2.str else p.2) with
    | .text s => .ok (some (.text (unquote s)))
    | .dict j => .ok (some (.text (unquote j)))
    | .list l => .ok (some (.text (unquote (String.intercalate ", " l))))
    | .int n => .ok (some (.int n))
    | .num q => .ok (some (.num q))
    -- netCDF4 has no type for these
    | .bool _ => .error .typeError
    | .none => .error .typeError
    | .time _ => .error .typeError

/-- metsim.py:407-425: the global attributes, with the parameters. -/
def globals (params : List (String × PVal)) (g : Dict String Attr) : Except PyErr (Dict String Attr) :=
  params.foldlM (fun g p => do
    match ← record p with
    | some a => pure (g.set p.1 a)
    | none => pure g) g

/-- metsim.py:393-394 -/
def dtypeMap (precision t : String) : String :=
  if t = "float64" then "f8" else if t = "float32" then "f4" else if t = "int64" then "i8" else if t = "int32" then "i4" else precision

/-- metsim.py:386-391: an `i4` variable with the stamps. -/
def timeData (times : List Int) : List Nat → Option Datum
  | [k] => times[k]?.map fun t => .stamp (BitVec.ofInt 32 t)
  | _ => none

def labelData (labels : List ℚ) : List Nat → Option Datum
  | [k] => labels[k]?.map Datum.label
  | _ => none

/-- metsim.py:369-376 the chunk sizes of the output variables -/
def sizes (c : Cfg) (times : List Int) : List Int := (times.length : Int) :: Chunk.chunkSizes c.chunks c.dims

/-- The variables of the output. -/
def makeOuts (known : String → Bool) (c : Cfg) (times : List Int) (f : File) : Except PyErr File :=
  c.outs.foldlM (fun f o => f.createVariable known o.2 c.precision ("time" :: c.dims.map Prod.fst) (some (sizes c times))) f

/-- The coordinate variables of the domain. -/
def makeLabels (known : String → Bool) (c : Cfg) (f : File) : Except PyErr File :=
  c.dims.foldlM (fun f d => do
    let f ← f.createVariable known d.1 (dtypeMap c.precision (c.labelType d.1)) [d.1] none
    f.modify d.1 fun v => { v with data := labelData (c.labels d.1) }) f

/-- metsim.py:430-436: the attributes of the output variables. -/
def describe (c : Cfg) (tab : Table) (f : File) : Except PyErr File :=
  c.outs.foldlM (fun f o => f.modify o.2 fun v => { v with attrs := v.attrs.update ((tab.get? o.1).getD []) }) f

/-- metsim.py:363-436 `setup_netcdf_output`; the module's table is changed on the way. -/
def setup (known : String → Bool) (c : Cfg) (tab : Table) (times : List Int) : Except PyErr (File × Table) := do
  let f ← (("time", none) :: c.dims.map fun d => (d.1, some d.2)).foldlM File.createDimension ⟨[], [], []⟩
  let f ← makeOuts known c times f
  let f ← f.createVariable known "time" "i4" ["time"] none
  let ta ← tab.get "time"
  let nums ← times.mapM (CfTime.encode c.calendar)
  let f ← f.modify "time" fun v => { v with attrs := v.attrs.set "calendar" (.text c.calendar), data := timeData nums }
  let f ← makeLabels known c f
  let g ← tab.get "_global"
  let g ← globals c.params g
  let f : File := { f with attrs := f.attrs.update g }
  let f ← f.modify "time" fun v => { v with attrs := v.attrs.update ta }
  let f ← describe c tab f
  pure (f, tab.set "_global" g)

/-! ## Writing -/

/-- Assigning a block: all `n` steps of the cells of a worker. -/
def assign (ax : List (List Nat)) (n : Nat) (block : Nat → Run.Cell → Datum) (data : List Nat → Option Datum) :
    List Nat → Option Datum :=
  fun ix => match ix with
    | [] => data ix
    | k :: c => if k < n then
        match (Run.localCells ax).reverse.find? fun l => decide (Run.globalOf ax l = c) with
        | some l => some (block k l)
        | none => data ix
      else data ix

/-- metsim.py:447-454: the variables of a worker written to one file; `block v k l` is the value of variable `v` at step `k` of the
file and local cell `l`. -/
def writeBlocks (outs : List (String × String)) (slice : Dict String Chunk.Slice) (n : Nat) (block : String → Nat → Run.Cell → Datum)
    (f : File) : Except PyErr File :=
  outs.foldlM (fun f o => do
    let v ← f.vars.get o.2
    let ax ← v.dims.tail.mapM fun d => do
      let sl ← slice.get d
      let size ← f.dims.get d
      pure (Run.sliceIdx sl (size.getD 0))
    f.modify o.2 fun v => { v with data := assign ax n (block o.1) v.data }) f

/-- `self.output[varname].sel(time=time_slice).values`: NaN where nothing was computed (metsim.py:566-590). -/
def blockOf (axis sel : List ℚ) (out : Run.Cell → Option Cell.Output) (v : String) (k : Nat) (l : Run.Cell) : Datum :=
  .value (match out l with
    | none => .nan
    | some r => (((axis.zip ((r.get? v).getD [])).filter fun e => decide (e.1 ∈ sel)).map (·.2))[k]?.getD .nan)

/-- The output directory. -/
abbrev Dir := String → Option File

/-- A file of the output: its name and its stamps. -/
abbrev Groups := List (String × List ℚ)

/-- metsim.py:438-454 `write_chunk` -/
def writeChunk (outs : List (String × String)) (axis : List ℚ) (groups : Groups) (slice : Dict String Chunk.Slice)
    (out : Run.Cell → Option Cell.Output) (dir : Dir) : Except PyErr Dir :=
  if outs = [] then .ok dir
  else groups.foldlM (fun (dir : Dir) g => match dir g.1 with
    | none => .error (.exception ["no such file"])
    | some f => do
      let f' ← writeBlocks outs slice g.2.length (blockOf axis g.2 out) f
      pure fun n => if n = g.1 then some f' else dir n) dir

/-- metsim.py:307-309: the files are created, one after the other; stamps are whole minutes. -/
def create (known : String → Bool) (c : Cfg) (tab : Table) (groups : Groups) : Except PyErr (Dir × Table) :=
  groups.foldlM (fun (r : Dir × Table) g => do
    let (f, tab) ← setup known c r.2 (g.2.map fun t => ⌊t⌋)
    pure (fun n => if n = g.1 then some f else r.1 n, tab)) (fun _ => none, tab)

/-- The files of a run and their stamps. -/
def fileStamps (s : Cell.Shared) (freq : Option Times.Freq) (dir pre : Txt.Str) (days : List Int) : Except PyErr (List ℚ × Groups) := do
  let axis ← Times.outputTimes s.cfg days
  let gs ← Times.getOutputTimes s.cfg freq days
  let groups ← gs.mapM fun g => do
    let name ← Times.filename dir pre g
    let sel ← Times.selected axis g
    pure (String.ofList name, sel)
  pure (axis, groups)

/-- metsim.py:330-343 `run`, with the files as they are on disk. -/
noncomputable def runDir (known : String → Bool) (c : Cfg) (tab : Table) (fuel : Nat) (s : Cell.Shared) (freq : Option Times.Freq)
    (dir pre : Txt.Str) (mask : Run.Cell → Flt ℝ) (inp : Run.Cell → Run.CellIn Cell.Data ℝ) (days : List Int)
    (order : List (Dict String Chunk.Slice)) : Except PyErr Dir := do
  let (axis, groups) ← fileStamps s freq dir pre days
  let (d, _) ← create known c tab groups
  order.foldlM (fun d slice => do
    let out ← Run.runSlice (Cell.cellBody fuel) mask inp ⟨s, .nan, .nan, .nan⟩ (Run.axes c.dims slice)
    writeChunk c.outs axis groups slice out d) d

end Verif.Nc
