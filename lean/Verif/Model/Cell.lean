import Verif.Model.Run
import Verif.Model.Times
import Verif.Model.Methods
import Verif.Model.Disaggregate
import Verif.Model.Units

/-!
# One grid cell, and the whole run (`metsim/metsim.py`)

`wrap_run_cell`, the part of `run_slice` that treats one cell, and `run` with the concrete cell computation.
Dates are on pandas' own (Gregorian) calendar where the day of the year is concerned.  Elevation, latitude and
longitude are finite.  Values are not rounded to `out_precision`.
-/

namespace Verif.Cell

open Flt Methods

/-- `params['method']`. -/
inductive Method where
  | mtclim | passthrough
  deriving DecidableEq, Repr

/-- The parameters all cells share (metsim.py:464-473). -/
structure Shared where
  method : Method
  ts : Nat
  calendar : String
  periodEnding : Bool
  utcOffset : Bool
  swAveraging : String
  precType : String
  lwType : String
  lwCloud : String
  thetaS : ℝ
  tmaxFraction : ℝ
  tdayCoef : ℝ
  swPrecThresh : ℝ
  rainScalar : ℝ
  lapseRate : ℝ
  tdewTol : ℝ
  /-- `params['out_vars']`: variables and their units after `_update_unit_attrs` -/
  outVars : Dict String String

/-- What a cell has of its own besides its position: the daily forcing with the columns of `_aggregate_state`, the
days, and `t_min`, `t_max` of the last day of the state (metsim.py:752-753). -/
structure Data where
  days : List Int
  frame : Frame
  stateEnd : Flt ℝ × Flt ℝ

/-- The values written for a cell, one series per output variable. -/
abbrev Output := Dict String (List (Flt ℝ))

/-- `df.index.dayofyear`; days count from 2000-01-01. -/
def doy (d : Int) : Nat := (Cal.dayOfYear (d + 730120)).toNat

/-- A finite number; others are outside the model. -/
def finite : Flt ℝ → Except PyErr ℝ
  | fin x => .ok x
  | nan => .error .valueError

/-- The parameters of the daily methods (metsim.py:466-473, 726). -/
def Shared.daily (s : Shared) (elev : ℝ) : MParams where
  tdayCoef := s.tdayCoef
  swPrecThresh := s.swPrecThresh
  rainScalar := s.rainScalar
  lapseRate := s.lapseRate
  tdewTol := s.tdewTol
  elev := fin elev
  lwCloud := s.lwCloud

/-- The parameters of `disaggregate`. -/
def Shared.sub (s : Shared) (elev lon : ℝ) : Disaggregate.Par where
  ts := s.ts
  lon := lon
  elev := elev
  lapseRate := s.lapseRate
  thetaS := s.thetaS
  tmaxFraction := s.tmaxFraction
  utcOffset := s.utcOffset
  periodEnding := s.periodEnding
  passthrough := decide (s.method = .passthrough)
  swAveraging := s.swAveraging
  precType := s.precType
  lwType := s.lwType
  lwCloud := s.lwCloud

/-- The parameters of the time axis. -/
def Shared.cfg (s : Shared) : Times.Cfg := ⟨s.ts, s.calendar, s.periodEnding⟩

/-- metsim.py:733-739: the geometry of each day of the record, `table[yday]`. -/
def geomRows (geom : List Solar.DayGeom) (days : List Int) : Except PyErr (List Solar.DayGeom) :=
  days.mapM fun d => match geom[doy d - 1]? with
    | some g => .ok g
    | none => .error .indexError

/-- A column from a list. -/
def colOf (xs : List (Flt ℝ)) : Col := fun i => xs.getD i nan

/-- metsim.py:737-739 the columns of the solar geometry. -/
def withGeom (rows : List Solar.DayGeom) (df : Frame) : Frame :=
  let df := Dict.set df "daylength" (colOf (rows.map fun g => fin g.daylength))
  let df := Dict.set df "potrad" (colOf (rows.map fun g => fin g.potrad))
  Dict.set df "tt_max" (colOf (rows.map (·.ttMax)))

/-- metsim.py:744 `df_base = func(df, params)`.  `fuel` limits the rounds of the dewpoint iteration; an iteration that
needs more is reported as an error of the model's own. -/
noncomputable def runMethod (fuel n : Nat) (m : Method) (df : Frame) (p : MParams) : Except PyErr Frame :=
  match m with
  | .passthrough => passthroughRun df p
  | .mtclim => do
    let r ← mtclimRun n fuel df p
    match r with
    | some df => pure df
    | none => .error (.exception ["rounds exceeded"])

/-- A column of the daily frame, as the values of `n` days. -/
def column (n : Nat) (df : Frame) (name : String) : Except PyErr (List (Flt ℝ)) := do
  let c ← df.get name
  pure ((List.range n).map c)

/-- An optional column of the daily frame. -/
def column? (n : Nat) (df : Frame) (name : String) : Option (List (Flt ℝ)) :=
  (df.get? name).map fun c => (List.range n).map c

/-- The daily frame as `disaggregate` reads it. -/
def dailyOf (days : List Int) (df : Frame) : Except PyErr Disaggregate.Daily := do
  let n := days.length
  let shortwave ← column n df "shortwave"
  let daylength ← column n df "daylength"
  let tMin ← column n df "t_min"
  let tMax ← column n df "t_max"
  let vaporPressure ← column n df "vapor_pressure"
  let tskc ← column n df "tskc"
  let prec ← column n df "prec"
  pure { doy := days.map doy, shortwave, daylength, tMin, tMax, vaporPressure, tskc, prec,
         wind := column? n df "wind", longwave := column? n df "longwave",
         tPk := column? n df "t_pk", dur := column? n df "dur" }

/-- The columns of the sub-daily frame (disaggregate.py:81-126). -/
def subColumn (s : Disaggregate.Sub) : String → Except PyErr (List (Flt ℝ))
  | "shortwave" => .ok s.shortwave
  | "temp" => .ok s.temp
  | "vapor_pressure" => .ok s.vaporPressure
  | "rel_humid" => .ok s.relHumid
  | "air_pressure" => .ok s.airPressure
  | "spec_humid" => .ok s.specHumid
  | "tskc" => .ok s.tskc
  | "longwave" => .ok s.longwave
  | "prec" => .ok s.prec
  | "wind" => match s.wind with
    | some w => .ok w
    | none => .error .keyError
  | _ => .error .keyError

/-- `self.output[varname][locs] = out_vals`: one value is repeated, other lengths must agree. -/
def assignSeries (n : Nat) (vals : List (Flt ℝ)) : Except PyErr (List (Flt ℝ)) :=
  if vals.length = n then .ok vals
  else match vals with
    | [v] => .ok (List.replicate n v)
    | _ => .error .valueError

/-- metsim.py:489-493: the loop over the output variables. `rows` are the rows left by the cut. -/
noncomputable def outputs (s : Shared) (nOut : Nat) (rows : List Nat) (col : String → Except PyErr (List (Flt ℝ))) :
    Except PyErr Output :=
  s.outVars.mapM fun (q : String × String) => do
    let c ← col q.1
    let vals ← rows.mapM fun i => Units.convert q.1 q.2 (c.getD i nan) s.ts
    let vals ← assignSeries nOut vals
    pure (q.1, vals)

/-- metsim.py:721-796 `wrap_run_cell` and metsim.py:481-493, the computation of one cell. -/
noncomputable def cellBody (fuel : Nat) : Run.Body Shared Data Output ℝ := fun p d => do
  let s := p.shared
  let elev ← finite p.elev
  let lat ← finite p.lat
  let lon ← finite p.lon
  let geom ← Solar.solarGeom elev lat s.lapseRate
  let rows ← geomRows geom d.days
  let n := d.days.length
  let base ← runMethod fuel n s.method (withGeom rows d.frame) (s.daily elev)
  let axis ← Times.outputTimes s.cfg d.days
  if s.ts < 1440 then
    let daily ← dailyOf d.days base
    let sub ← Disaggregate.disaggregate daily (s.sub elev lon) geom (some [d.stateEnd.1, d.stateEnd.2]) none
    let frame ← Times.cellFrame s.cfg d.days (List.range sub.time.length)
    let out ← outputs s axis.length (frame.map (·.2)) (subColumn sub)
    -- disaggregate.py:67 has replaced the longitude in the parameters
    pure (out, { p with lon := fin (Disagg.remainder360 lon) })
  else
    let rep ← dailyShortwave base
    let frame ← Times.cellFrame s.cfg d.days (List.range n)
    let out ← outputs s axis.length (frame.map (·.2)) (column n rep)
    pure (out, p)

/-! ### The whole run -/

/-- metsim.py:442-454, one output file: the variables under their output names, at the stamps of the group. -/
def partOf (names : String → String) (axis sel : List ℚ) (r : Output) : Output :=
  r.map fun (q : String × List (Flt ℝ)) =>
    (names q.1, ((axis.zip q.2).filter fun e => decide (e.1 ∈ sel)).map (·.2))

/-- metsim.py:442-454: the output files of a run. -/
def fileGroups (s : Shared) (freq : Option Times.Freq) (dir pre : Txt.Str) (names : String → String) (days : List Int) :
    Except PyErr (List (Run.Group Output Output)) := do
  let axis ← Times.outputTimes s.cfg days
  let gs ← Times.getOutputTimes s.cfg freq days
  gs.mapM fun g => do
    let name ← Times.filename dir pre g
    let sel ← Times.selected axis g
    pure ⟨String.ofList name, partOf names axis sel⟩

/-- metsim.py:330-343 `run` with the concrete cell computation; `order` is any rearrangement of the chunks. -/
noncomputable def runAll (fuel : Nat) (s : Shared) (freq : Option Times.Freq) (dir pre : Txt.Str) (names : String → String)
    (mask : Run.Cell → Flt ℝ) (inp : Run.Cell → Run.CellIn Data ℝ) (dims : Dict String Nat) (days : List Int)
    (order : List (Dict String Chunk.Slice)) : Except PyErr (Run.Files Output) := do
  let groups ← fileGroups s freq dir pre names days
  Run.run (cellBody fuel) mask inp ⟨s, nan, nan, nan⟩ dims groups order

end Verif.Cell
