import Verif.Np.Dict
import Verif.Model.Constants
import Verif.Model.Units

/-!
# `MetSim._validate_setup` (`metsim/metsim.py`)
-/

namespace Verif.Validate

/-- `params['time_step']`: a number (given as a number or as text), `None`, the empty string, or text
that is not a number. -/
inductive TimeStep where
  | val (n : Int) | none | empty | junk
  deriving DecidableEq, Repr

/-- The part of an object's configuration that validation looks at. -/
structure Cfg where
  /-- number of forcing files -/
  forcing : Nat
  forcingVars : Nat
  outDir : Option String
  timeStep : TimeStep
  forcingFmt : Option String
  /-- variables of the forcing data set -/
  metVars : List String
  outVars : List String
  outPrecision : Option String
  lwCloud : Option String
  lwType : Option String

/-- The entries `_validate_setup` can append to its list of problems. -/
inductive Problem where
  | noForcing
  | noForcingVars
  | emptyValue (param : String)
  | timeStep
  | missingInput (var : String)
  | noOutVars
  | outVar (var : String)
  | option (param : String)
  deriving DecidableEq, Repr

/-- metsim.py:660-661 -/
def dailyOutVars : List String :=
  ["t_min", "t_max", "t_day", "prec", "vapor_pressure", "shortwave", "tskc", "pet", "wind", "daylength"]
/-- metsim.py:662-664 -/
def subdailyOutVars : List String :=
  ["temp", "prec", "shortwave", "vapor_pressure", "air_pressure", "rel_humid", "spec_humid",
   "longwave", "tskc", "wind"]

/-- metsim.py:673-677 -/
def precisionOpts : List String := ["f4", "f8"]
def lwCloudOpts : List String := ["default", "cloud_deardorff"]
def lwTypeOpts : List String :=
  ["default", "tva", "anderson", "brutsaert", "satterlund", "idso", "prata"]

/-- metsim.py:665-666 the list output variables are checked against -/
def outVarCheck (ts : Int) : List String := if ts = 1440 then dailyOutVars else subdailyOutVars

/-- metsim.py:624-626 -/
def forcingErrs (c : Cfg) : List Problem := if c.forcing = 0 then [.noForcing] else []
/-- metsim.py:628-632 -/
def forcingVarErrs (c : Cfg) : List Problem := if c.forcingVars = 0 then [.noForcingVars] else []
/-- metsim.py:634-638 -/
def emptyErrs (c : Cfg) : List Problem :=
  (if c.outDir = none ∨ c.outDir = some "" then [.emptyValue "out_dir"] else []) ++
  (if c.timeStep = .none ∨ c.timeStep = .empty then [.emptyValue "time_step"] else []) ++
  (if c.forcingFmt = none ∨ c.forcingFmt = some "" then [.emptyValue "forcing_fmt"] else [])

/-- metsim.py:640-646 the time step check: `1440 % ts` (python remainder) is truthy, or the step is
larger than 6 hours and not a day. -/
def timeStepErrs (ts : Int) : List Problem :=
  if Int.fmod 1440 ts ≠ 0 ∨ (ts > 6 * Cnst.MIN_PER_HOUR ∧ ts ≠ 1440) then [.timeStep] else []

/-- metsim.py:648-653 -/
def inputErrs (c : Cfg) : List Problem :=
  ["t_min", "t_max", "prec"].flatMap fun v => if v ∈ c.metVars then [] else [.missingInput v]
/-- metsim.py:655-657 -/
def noOutErrs (c : Cfg) : List Problem := if c.outVars = [] then [.noOutVars] else []
/-- metsim.py:667-670 -/
def outVarErrs (c : Cfg) (ts : Int) : List Problem :=
  c.outVars.flatMap fun v => if v ∈ outVarCheck ts then [] else [.outVar v]
/-- One entry of the option check, metsim.py:678-680. -/
def optErr (name : String) (v : Option String) (opts : List String) : List Problem :=
  match v with
  | some s => if s ∈ opts then [] else [.option name]
  | none => [.option name]

/-- metsim.py:620-684 `_validate_setup`.  `int(time_step)` raises TypeError for `None` and ValueError
for text that is not a number, `1440 % 0` raises ZeroDivisionError; the problems found so far are then
not reported.  `problems` is what the final `Exception` lists. -/
def problems (c : Cfg) : Except PyErr (List Problem) :=
  match c.timeStep with
  | .none => .error .typeError
  | .empty => .error .valueError
  | .junk => .error .valueError
  | .val ts =>
    if ts = 0 then .error .zeroDivision
    else .ok (forcingErrs c ++ forcingVarErrs c ++ emptyErrs c ++ timeStepErrs ts ++ inputErrs c ++
      noOutErrs c ++ outVarErrs c ts ++ optErr "out_precision" c.outPrecision precisionOpts ++
      optErr "lw_cloud" c.lwCloud lwCloudOpts ++ optErr "lw_type" c.lwType lwTypeOpts)

/-- The outcome of `_validate_setup`. -/
inductive Outcome where
  | accepted
  | refused (ps : List Problem)
  | crashed (e : PyErr)
  deriving DecidableEq, Repr

def validate (c : Cfg) : Outcome :=
  match problems c with
  | .error e => .crashed e
  | .ok [] => .accepted
  | .ok ps => .refused ps

/-! ## What can be produced -/

/-- Columns of the daily frame after `mtclim.run` (mtclim.py:50-79) and the columns it starts from:
forcing variables, metsim.py:297-299, 605, 617-618, 737-739. -/
def dailyColumns (metVars : List String) : List String :=
  metVars ++ ["elev", "lat", "lon", "seasonal_prec", "dtr", "smoothed_dtr", "daylength", "potrad",
    "tt_max", "t_day", "tfmax", "tskc", "tdew", "vapor_pressure", "shortwave", "pet"]

/-- Columns of the disaggregated frame (disaggregate.py:82-126). -/
def subdailyColumns (metVars : List String) : List String :=
  ["shortwave", "temp", "vapor_pressure", "rel_humid", "air_pressure", "spec_humid", "tskc",
   "longwave", "prec"] ++ (if "wind" ∈ metVars then ["wind"] else [])

/-- Columns available when output is written (metsim.py:746, 792, `disagg = ts < 1440`). -/
def columns (metVars : List String) (ts : Int) : List String :=
  if ts < 1440 then subdailyColumns metVars else dailyColumns metVars

end Verif.Validate
