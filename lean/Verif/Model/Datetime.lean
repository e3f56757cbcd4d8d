import Verif.Np.Basic
import Verif.Np.Text
import Verif.Np.CfTime
import Mathlib.Data.Rat.Floor

/-!
# `metsim/datetime.py`

Stamps are minutes since 2000-01-01 00:00 on the standard calendar, exact numbers.  (`date_range` counts in the unit of
its frequency; the outcome is the same.)
-/

namespace Verif.Datetime

open Txt

/-- datetime.py:85-94 the units a frequency string selects. -/
inductive Units where
  | hours | days | minutes
  deriving DecidableEq, Repr

/-- datetime.py:85-94 `units_from_freq` -/
def unitsFromFreq (freq : Str) : Except PyErr Units :=
  if 'H' ∈ freq then .ok .hours
  else if 'D' ∈ freq then .ok .days
  else if 'T' ∈ freq then .ok .minutes
  else .error .notImplemented

/-- datetime.py:75-82 `decode_freq`.  The regular expression `([0-9]+)([a-zA-Z]+)` is matched at the
beginning of the string (greedily, no backtracking is ever needed because the classes are disjoint);
`None.groups()` is an AttributeError, modelled as `typeError`. -/
def decodeFreq (freq : Str) : Except PyErr (Nat × Units) :=
  if 1 < freq.length then
    let step := freq.takeWhile isDigit
    let unit := (freq.dropWhile isDigit).takeWhile isLetter
    if step = [] ∨ unit = [] then .error .typeError
    else do
      let u ← unitsFromFreq unit
      pure (parseNat step, u)
  else do
    let u ← unitsFromFreq freq
    pure (1, u)

/-- datetime.py:50 the calendars handled by pandas (note the spelling). -/
def pandasCalendars : List String := ["standard", "gregorian", "propoleptic_gregorian"]

/-- `pd.date_range(start, end, freq=step)`, for a positive step: `start, start+step, ...`
not beyond `end`.  pandas counts with `range(start, end + 1, step)`. -/
def pdRange (start stop step : Int) : List ℚ :=
  (List.range (Int.fdiv (stop - start) step + 1).toNat).map fun (k : Nat) => ((start + k * step : Int) : ℚ)

/-- datetime.py:59-66 the branch for other calendars, on the numbers `date2num` gives: `periods = int((end - start)/steps) + 1`, then
`np.linspace(start, end, periods)`.  `np.linspace` with a negative count raises ValueError;
`steps = 0` divides by zero (numpy gives inf/nan and `int` of it raises). -/
def cfRange (start stop : Int) (step : Nat) : Except PyErr (List ℚ) :=
  if step = 0 then .error .valueError
  else
    let periods := Np.trunc (((stop - start : Int) : ℚ) / step) + 1
    if periods < 0 then .error .valueError
    else .ok (Np.linspace (start : ℚ) stop periods.toNat)

/-- datetime.py:11-72 `date_range(start, end, freq, calendar)` (with start and end given).  On a calendar that is left to
`cftime` the bounds are numbered on it (ValueError if it is unknown or lacks the day), and the numbers dated. -/
def dateRange (calendar : String) (start stop : Int) (step : Nat) : Except PyErr (List ℚ) :=
  if calendar ∈ pandasCalendars then
    -- pandas rejects a zero frequency
    if step = 0 then .error .valueError else .ok (pdRange start stop step)
  else match CfTime.named calendar with
    | none => .error .valueError
    | some c => do
      let a ← c.minutes start
      let b ← c.minutes stop
      let l ← cfRange a b step
      l.mapM c.stamp

end Verif.Datetime
