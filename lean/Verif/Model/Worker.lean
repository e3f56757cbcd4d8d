import Verif.Model.Dataset
import Verif.Model.State
import Verif.Model.Cell
import Verif.Model.Datetime

/-!
# A worker, from the files to the files (`metsim/metsim.py:278-310, 456-493, 589-618, 799-805`)

What every worker does for its chunk: it reads the domain, the forcing and the state, adds what `_aggregate_state` and
`convert_monthly_param` derive from them, computes its cells and writes them.  The period has been resolved to days
before (`_validate_force_times` in the parent); forcing and state are NetCDF files of floating point variables.
-/

namespace Verif.Worker

open Dataset

/-- The input files of a run, the names of their variables, constants, and the simulated period (day numbers). -/
structure Inputs where
  domFile : DS ℝ
  domNames : Dict String String
  forcing : DS ℝ
  names : Dict String String
  stateFile : DS ℝ
  stateNames : Dict String String
  constants : Dict String ℝ
  start : Int
  stop : Int

/-- A day number as the time axis has it. -/
def axisDay (d : Int) : Except PyErr (Option ℚ) := .ok (some ((d - epoch : Int) : ℚ))

/-- metsim.py:301-307: constants, shaped like the first variable. -/
def withConstants (met : DS ℝ) (consts : Dict String ℝ) : Except PyErr (DS ℝ) :=
  match consts with
  | [] => .ok met
  | _ => match met.vars with
    | [] => .error .indexError
    | (_, t) :: _ =>
      .ok { met with vars := consts.foldl (fun vs p => vs.set p.1 ⟨t.dims, fun _ => .fin p.2⟩) met.vars }

/-- metsim.py:259-262 `_validate_force_times` with days for `start` and `stop`. -/
def checkPeriod (start stop : Int) (days : List Int) : Except PyErr Unit :=
  match days.head?, days.getLast? with
  | some a, some b => if a ≤ start ∧ stop ≤ b then .ok () else .error .assertion
  | _, _ => .error .indexError

/-- The days on a time axis. -/
def daysOf (ds : DS ℝ) : List Int := (ds.labels "time").map fun t => ⌊t⌋ + epoch

/-- A variable of a cell along the time axis of `n` steps. -/
def along (mdims : List String) (n : Nat) (a : Arr ℝ) (c : Run.Cell) : List (Flt ℝ) :=
  (List.range n).map fun t => a.val ((cellIndex mdims c).set "time" t)

/-- Precipitation and temperatures of every cell. -/
def dailies (ds : DS ℝ) (mdims : List String) : Except PyErr (Run.Cell → State.Daily ℝ) := do
  let p ← ds.vars.get "prec"
  let a ← ds.vars.get "t_min"
  let b ← ds.vars.get "t_max"
  let n := (ds.labels "time").length
  pure fun c => ⟨along mdims n p c, along mdims n a c, along mdims n b c⟩

/-- The indices of an array with the dimensions `mdims`, in the order of `np.ndenumerate`. -/
def positions (dom : DS ℝ) (mdims : List String) : List Run.Cell :=
  Chunk.product (mdims.map fun d => List.range ((dom.sizes.get? d).getD 0))

/-- metsim.py:594-596 `date_range(state_start, state_stop, calendar)`. -/
def recordDates (calendar : String) (start : Int) : Except PyErr (List Int) := do
  let r ← Datetime.dateRange calendar (1440 * (start - 90 - CfTime.origin)) (1440 * (start - 1 - CfTime.origin)) 1440
  pure (r.map fun t => ⌊t / 1440⌋ + CfTime.origin)

/-- metsim.py:282 `domain[name].sel(month=m)` of a cell, for the months 0 to 11 the domain has. -/
def monthTable (dom : DS ℝ) (mdims : List String) (a : Arr ℝ) (c : Run.Cell) : Dict Int (Flt ℝ) :=
  (List.range 12).filterMap fun (m : Nat) =>
    if (m : ℚ) ∈ dom.labels "month" then
      some ((m : Int), a.val ((cellIndex mdims c).set "month" ((dom.labels "month").idxOf (m : ℚ))))
    else none

/-- metsim.py:278-284 `convert_monthly_param` of every cell. -/
def monthly (dom : DS ℝ) (mdims : List String) (days : List Int) (prec : Run.Cell → List (Flt ℝ)) (name : String) :
    Except PyErr (Run.Cell → Except PyErr (List (Flt ℝ))) := do
  let a ← dom.vars.get name
  if "month" ∉ a.dims then throw PyErr.valueError
  if (List.range 12).any (fun (m : Nat) => decide ((m : ℚ) ∉ dom.labels "month")) then throw PyErr.keyError
  pure fun c => State.convertMonthly (monthTable dom mdims a c) (days.map fun d => (Cal.monthDay d).1) (prec c)

/-- The two series `convert_monthly_param` adds for triangular precipitation (metsim.py:474-476). -/
def monthlies (precType : String) (dom : DS ℝ) (mdims : List String) (days : List Int)
    (prec : Run.Cell → List (Flt ℝ)) : Except PyErr (Run.Cell → Except PyErr (List (String × List (Flt ℝ)))) :=
  if Lw.upperS precType = "TRIANGLE" ∨ Lw.upperS precType = "MIX" then do
    let dur ← monthly dom mdims days prec "dur"
    let tPk ← monthly dom mdims days prec "t_pk"
    pure fun c => do
      let x ← dur c
      let y ← tPk c
      pure [("dur", x), ("t_pk", y)]
  else pure fun _ => pure []

/-- What a worker holds once its inputs are loaded. -/
structure Loads where
  dom : DS ℝ
  /-- the dimensions of the mask and the mask itself -/
  mask : Arr ℝ
  met : DS ℝ
  state : Run.Cell → State.Daily ℝ
  agg : Run.Cell → State.Agg ℝ
  extra : Run.Cell → Except PyErr (List (String × List (Flt ℝ)))

/-- The simulated days of a worker. -/
def Loads.days (w : Loads) : List Int := daysOf w.met

/-- metsim.py:353-361 `load_inputs` of a worker, and metsim.py:474-476. -/
noncomputable def load (i : Inputs) (s : Cell.Shared) (chunk : Dict String Chunk.Slice) : Except PyErr Loads := do
  let dom ← readDomain i.domFile (some i.domNames) chunk
  let met ← metData .netcdf i.forcing dom (axisDay i.start) (axisDay i.stop) (some i.names)
  let met ← withConstants met i.constants
  checkPeriod i.start i.stop (daysOf met)
  let st ← readNetcdf i.stateFile (some dom) (axisDay (i.start - 90)) (axisDay (i.start - 1)) (some i.stateNames)
  let mask ← dom.vars.get "mask"
  let record ← recordDates s.calendar i.start
  let old ← dailies st mask.dims
  let new ← dailies met mask.dims
  let agg ← State.aggregateState (st.labels "time").length record i.start i.stop (daysOf met)
    (positions dom mask.dims) old new
  let extra ← monthlies s.precType dom mask.dims (daysOf met) fun c => (new c).prec
  pure ⟨dom, mask, met, old, agg, extra⟩

/-- metsim.py:721-729: what `wrap_run_cell` gets for a cell, `met_data.isel(**locs)` and `state.isel(**locs)`. -/
noncomputable def cellIn (w : Loads) (c : Run.Cell) : Except PyErr (Run.CellIn Cell.Data ℝ) := do
  let lat ← w.met.scalar w.mask.dims c "lat"
  let lon ← w.met.scalar w.mask.dims c "lon"
  let elev ← w.met.scalar w.mask.dims c "elev"
  let more ← w.extra c
  let n := (w.met.labels "time").length
  let frame : Methods.Frame := w.met.vars.map fun q => (q.1, Cell.colOf (along w.mask.dims n q.2 c))
  let frame := Dict.set frame "seasonal_prec" (Cell.colOf (w.agg c).seasonalPrec)
  let frame := Dict.set frame "dtr" (Cell.colOf (w.agg c).dtr)
  let frame := Dict.set frame "smoothed_dtr" (Cell.colOf (w.agg c).smoothedDtr)
  let frame := more.foldl (fun f q => Dict.set f q.1 (Cell.colOf q.2)) frame
  pure { elev, lat, lon,
         data := { days := w.days.map (· - 730120), frame,
                   stateEnd := ((w.state c).tMin.getLast?.getD .nan, (w.state c).tMax.getLast?.getD .nan) } }

/-- metsim.py:477-493: the loop over the cells of a chunk. -/
noncomputable def cells {S D R : Type} (body : Run.Body S D R ℝ) (mask : Run.Cell → Flt ℝ)
    (inp : Run.Cell → Except PyErr (Run.CellIn D ℝ)) :
    List Run.Cell → Run.Params S ℝ → (Run.Cell → Option R) → Except PyErr (Run.Cell → Option R)
  | [], _, out => .ok out
  | l :: ls, p, out =>
    if Flt.lt (.fin 0) (mask l) then do
      let c ← inp l
      let (r, p') ← Run.wrapRunCell body p c
      cells body mask inp ls p' (Run.store out l (some r))
    else cells body mask inp ls p out

/-- How the output is to be written. -/
structure Output where
  freq : Option Times.Freq
  dir : Txt.Str
  pre : Txt.Str
  names : String → String

/-- metsim.py:799-805 `wrap_run_slice`: `dims` are the dimensions of the output files. -/
noncomputable def worker (fuel : Nat) (i : Inputs) (s : Cell.Shared) (o : Output) (dims : Dict String Nat)
    (files : Run.Files Cell.Output) (chunk : Dict String Chunk.Slice) : Except PyErr (Run.Files Cell.Output) := do
  let w ← load i s chunk
  let groups ← Cell.fileGroups s o.freq o.dir o.pre o.names (w.days.map (· - 730120))
  let out ← cells (Cell.cellBody fuel) (fun l => w.mask.val (cellIndex w.mask.dims l)) (cellIn w)
    (positions w.dom w.mask.dims) ⟨s, .nan, .nan, .nan⟩ (fun _ => none)
  Run.writeChunk dims chunk groups out files

/-- The dimensions of the output files: those of the mask (metsim.py:366-367). -/
def fileDims (dom : DS ℝ) (mdims : List String) : Dict String Nat :=
  mdims.map fun d => (d, (dom.sizes.get? d).getD 0)

/-- metsim.py:330-343 `run`: the parent knows the domain and the days, creates the files, and lets the workers run;
`order` is the order in which they come to write. -/
noncomputable def runFiles (fuel : Nat) (i : Inputs) (s : Cell.Shared) (o : Output)
    (order : List (Dict String Chunk.Slice)) : Except PyErr (Run.Files Cell.Output) := do
  let dom ← readDomain i.domFile (some i.domNames) []
  let met ← metData .netcdf i.forcing dom (axisDay i.start) (axisDay i.stop) (some i.names)
  let met ← withConstants met i.constants
  checkPeriod i.start i.stop (daysOf met)
  let mask ← dom.vars.get "mask"
  let _ ← Cell.fileGroups s o.freq o.dir o.pre o.names ((daysOf met).map (· - 730120))
  order.foldlM (worker fuel i s o (fileDims dom mask.dims)) (fun _ _ => none)

end Verif.Worker
