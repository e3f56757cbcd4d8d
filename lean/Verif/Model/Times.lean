import Verif.Model.Datetime
import Verif.Np.Calendar

/-!
# Output times, the index of a cell's frame, output groups and file names (`metsim/metsim.py`)

Days are counted from 2000-01-01 (day 0), stamps in minutes from 2000-01-01 00:00 (the origin of the
output's time units), both on the standard calendar.
-/

namespace Verif.Times

open Datetime

/-- The parameters the time axis depends on. -/
structure Cfg where
  /-- `int(params['time_step'])` -/
  ts : Nat
  calendar : String
  periodEnding : Bool

/-- First and last entries of the forcing's time coordinate: `values[0]`, `values[-1]`. -/
def ends (days : List Int) : Except PyErr (Int × Int) :=
  match days.head?, days.getLast? with
  | some a, some b => .ok (a, b)
  | _, _ => .error .indexError

/-- metsim.py:531-549 the times of `_get_output_times` before they are split by `freq`. -/
def outputTimes (c : Cfg) (days : List Int) : Except PyErr (List ℚ) := do
  let (a, b) ← ends days
  let delta : Int := if c.ts < 1440 then 1440 - c.ts else 0
  let offset : Int := if c.periodEnding then c.ts else 0
  dateRange c.calendar (1440 * a + offset) (1440 * b + offset + delta) c.ts

/-- disaggregate.py:69-74 `dates_disagg`. -/
def disaggIndex (c : Cfg) (days : List Int) : Except PyErr (List ℚ) := do
  let (a, b) ← ends days
  dateRange c.calendar (1440 * a) (1440 * b + 1440 - c.ts) c.ts

/-- Attaching values to an index (`DataFrame` column assignment, `df.index = ...`): lengths must
agree. -/
def attach {α : Type} (idx : List ℚ) (rows : List α) : Except PyErr (List (ℚ × α)) :=
  if rows.length = idx.length then .ok (idx.zip rows) else .error .valueError

/-- `frame.loc[new_times[0]:new_times[-1]]`, metsim.py:795. -/
def cut {α : Type} (new : List ℚ) (frame : List (ℚ × α)) : Except PyErr (List (ℚ × α)) :=
  match new.head?, new.getLast? with
  | some a, some b => .ok (frame.filter fun r => decide (a ≤ r.1 ∧ r.1 ≤ b))
  | _, _ => .error .indexError

/-- metsim.py:746-796: the index side of `wrap_run_cell`.  `rows` are the computed rows in order, one
per sub-daily step (or per day), whatever they contain. -/
def cellFrame {α : Type} (c : Cfg) (days : List Int) (rows : List α) :
    Except PyErr (List (ℚ × α)) := do
  let (a, b) ← ends days
  if c.ts < 1440 then
    let idx ← disaggIndex c days
    let frame ← attach idx rows
    -- disaggregate.py:128-129
    let frame := if c.periodEnding then frame.map fun (r : ℚ × α) => (r.1 + (c.ts : ℚ), r.2) else frame
    let off : Int := if c.periodEnding then c.ts else 0
    let new ← dateRange c.calendar (1440 * a + off) (1440 * b + 1440 - c.ts + off) c.ts
    cut new frame
  else
    let new ← dateRange c.calendar (1440 * a) (1440 * b + 1440 - c.ts) c.ts
    let frame ← attach new rows
    cut new frame

/-! ## Splitting by `out_freq` -/

/-- Pandas frequency strings: `nT`, `nH`, `nD` (anchored at midnight of the first stamp, pandas'
`origin='start_day'`), and month and year bins (`MS`/`M`, `AS`/`Y`). -/
inductive Freq where
  | minutes (n : Nat) | hours (n : Nat) | days (n : Nat) | month | year
  deriving DecidableEq, Repr

/-- Whole minutes of a stamp. -/
def minuteOf (t : ℚ) : Int := ⌊t⌋
/-- Gregorian day ordinal of a stamp (2000-01-01 is 730120). -/
def ordOf (t : ℚ) : Int := minuteOf t / 1440 + 730120

/-- Months since year 0. -/
def monthIndex (ord : Int) : Int := 12 * Cal.yearOf ord + (Cal.monthDay ord).1

/-- The (integer) bin of a stamp; `t0` is the first stamp of the axis. -/
def Freq.bin (t0 : ℚ) : Freq → ℚ → Int
  | .minutes n, t => (minuteOf t - 1440 * (minuteOf t0 / 1440)) / n
  | .hours n, t => (minuteOf t - 1440 * (minuteOf t0 / 1440)) / (60 * n : Nat)
  | .days n, t => (minuteOf t - 1440 * (minuteOf t0 / 1440)) / (1440 * n : Nat)
  | .month, t => monthIndex (ordOf t)
  | .year, t => Cal.yearOf (ordOf t)

/-- Frequencies pandas accepts: a positive multiple. -/
def Freq.valid : Freq → Bool
  | .minutes n => 0 < n
  | .hours n => 0 < n
  | .days n => 0 < n
  | _ => true

/-- metsim.py:551-557 `[t.index for k, t in dummy.groupby(pd.Grouper(freq=freq))]`: one group per bin
from the first stamp's bin to the last stamp's bin, empty bins included. `None`/`''` is `none`. -/
def groups (freq : Option Freq) (times : List ℚ) : Except PyErr (List (List ℚ)) :=
  match freq with
  | none => .ok [times]
  | some f =>
    if f.valid = false then .error .valueError
    else match times.head?, times.getLast? with
      | some t0, some t1 =>
        let b0 := f.bin t0 t0
        .ok ((List.range (f.bin t0 t1 - b0 + 1).toNat).map fun (i : Nat) =>
          times.filter fun t => f.bin t0 t = b0 + i)
      | _, _ => .ok []

/-- metsim.py:512-557 `_get_output_times` -/
def getOutputTimes (c : Cfg) (freq : Option Freq) (days : List Int) : Except PyErr (List (List ℚ)) := do
  let t ← outputTimes c days
  groups freq t

/-- `'{:04d}{:02d}{:02d}'.format(t.year, t.month, t.day)` -/
def dateStamp (t : ℚ) : Txt.Str :=
  Txt.padded 4 (Cal.yearOf (ordOf t)).toNat ++ Txt.padded 2 (Cal.monthDay (ordOf t)).1 ++
    Txt.padded 2 (Cal.monthDay (ordOf t)).2

/-- metsim.py:686-690 `get_nc_output_suffix`; `times[[0, -1]]` of an empty group is an IndexError. -/
def suffix (times : List ℚ) : Except PyErr Txt.Str :=
  match times.head?, times.getLast? with
  | some s, some e => .ok (dateStamp s ++ '-' :: dateStamp e)
  | _, _ => .error .indexError

/-- metsim.py:559-564 `_get_output_filename`, for a given absolute directory and prefix. -/
def filename (dir pre : Txt.Str) (times : List ℚ) : Except PyErr Txt.Str := do
  let s ← suffix times
  pure (dir ++ '/' :: (pre ++ '_' :: (s ++ ".nc".toList)))

/-- metsim.py:445, 453-454: the stamps of the output axis selected for one group,
`sel(time=slice(times[0], times[-1]))`. -/
def selected (axis times : List ℚ) : Except PyErr (List ℚ) :=
  match times.head?, times.getLast? with
  | some s, some e => .ok (axis.filter fun t => decide (s ≤ t ∧ t ≤ e))
  | _, _ => .error .indexError

/-! ## The time variable -/

/-- metsim.py:386-391 `date2num(t, 'minutes since 2000-01-01')` stored in an `i4` variable. `t` is
in minutes since 1970-01-01 (the pandas epoch; 10957 days before 2000-01-01). -/
def encodeTime (t : Int) : BitVec 32 := BitVec.ofInt 32 (t - 10957 * 1440)

/-- Reading the variable back: `num2date`. -/
def decodeTime (v : BitVec 32) : Int := v.toInt + 10957 * 1440

end Verif.Times
