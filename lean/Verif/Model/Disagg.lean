import Verif.Np.Basic
import Verif.Model.Constants
import Verif.Model.LwOptions

/-!
# `metsim/disaggregate.py`: precipitation, wind, cloud fraction, shortwave, times of the extremes

Exact arithmetic over an ordered field.  Times are in minutes.
-/

namespace Verif.Disagg

open Flt Np

variable {K : Type} [Field K] [LinearOrder K] [FloorRing K]

/-- Minutes by which the record is shifted: `int((params["lon"] / cnst.DEG_PER_REV) * cnst.MIN_PER_DAY)`
(disaggregate.py:349, 376, 611). -/
def offsetMin (lon : K) : Int := trunc (lon / Cnst.DEG_PER_REV * (Cnst.MIN_PER_DAY : K))

/-- disaggregate.py:331-332 `prec_UNIFORM`. -/
def precUniform (prec : List (Flt K)) : List (Flt K) :=
  repeatEach (prec.map fun p => p / fin (Cnst.MIN_PER_DAY : K)) Cnst.MIN_PER_DAY

/-- disaggregate.py:307-324, the relative intensity of each minute of a day. -/
def triangleShape (tPk dur : Flt K) : List K :=
  let tsPerDay := Cnst.HOURS_PER_DAY * Cnst.MIN_PER_HOUR
  let times := List.range tsPerDay
  let tStart := tPk - fin 0.5 * dur
  let tStop := tPk + fin 0.5 * dur
  let tPlus := times.filter fun (m : Nat) => le (fin (m : K)) tPk && le tStart (fin (m : K))
  let tMinus := times.filter fun (m : Nat) => le tPk (fin (m : K)) && le (fin (m : K)) tStop
  let day := List.replicate tsPerDay 0
  let day := assign day tPlus (linspace 0 1 tPlus.length)
  assign day tMinus (linspace 1 0 tMinus.length)

/-- disaggregate.py:302-327, one day of `prec_TRIANGLE`; `tPk` and `dur` are the day's entries, `none`
when the series was not supplied. -/
def triangleDay (doMix : Bool) (p tMin : Flt K) (tPk dur : Option (Flt K)) : Except PyErr (List (Flt K)) :=
  let tsPerDay := Cnst.HOURS_PER_DAY * Cnst.MIN_PER_HOUR
  if doMix && lt tMin (fin 0) then
    .ok (List.replicate tsPerDay (p * fin 1 / fin (tsPerDay : K)))
  else
    match tPk, dur with
    | some tPk, some dur =>
      let day := triangleShape tPk dur
      let scale := p / fin day.sum
      .ok (day.map fun x => scale * fin x)
    | _, _ => .error .typeError

/-- disaggregate.py:295-329 `prec_TRIANGLE`. -/
def precTriangle (doMix : Bool) (prec tMin : List (Flt K)) (tPk dur : Option (List (Flt K))) :
    Except PyErr (List (Flt K)) := do
  let days ← (List.range prec.length).mapM fun i =>
    triangleDay doMix (prec.getD i nan) (tMin.getD i nan)
      (tPk.map fun l => l.getD i nan) (dur.map fun l => l.getD i nan)
  pure days.flatten

/-- disaggregate.py:339-346: the amounts of all minutes; any `prec_type` other than triangle and mix is
taken for uniform. -/
def precMinutes (prec tMin : List (Flt K)) (precType : String) (tPk dur : Option (List (Flt K))) :
    Except PyErr (List (Flt K)) :=
  if Lw.upperS precType = "TRIANGLE" ∨ Lw.upperS precType = "MIX" then
    precTriangle (decide (Lw.upperS precType = "MIX")) prec tMin tPk dur
  else .ok (precUniform prec)

/-- disaggregate.py:265-352 `prec`. -/
def prec (prec tMin : List (Flt K)) (ts : Nat) (precType : String) (utcOffset : Bool) (lon : K)
    (tPk dur : Option (List (Flt K))) : Except PyErr (List (Flt K)) := do
  let minutes ← precMinutes prec tMin precType tPk dur
  let minutes := if utcOffset then roll minutes (-offsetMin lon) else minutes
  let steps ← reshape minutes ts
  pure (steps.map Flt.sum)

/-- disaggregate.py:355-380 `wind`. -/
def wind (xs : List (Flt K)) (ts : Nat) (utcOffset : Bool) (lon : K) : Except PyErr (List (Flt K)) := do
  let sd := repeatEach xs Cnst.MIN_PER_DAY
  let sd := if utcOffset then roll sd (-offsetMin lon) else sd
  let steps ← reshape sd ts
  pure (steps.map mean)

/-- disaggregate.py:593-615 `tskc`. -/
def tskc (xs : List (Flt K)) (ts : Nat) (utcOffset : Bool) (lon : K) : Except PyErr (List (Flt K)) := do
  let sd := repeatEach xs Cnst.MIN_PER_DAY
  let sd := if utcOffset then roll sd (-offsetMin lon) else sd
  let steps ← reshape sd ts
  pure (steps.map mean)

/-- `np.bincount(ids, weights)` for ids that run from 0 to `n - 1`; `ValueError` unless the lengths agree. -/
def bincount (n : Nat) (ids : List Nat) (weights : List (Flt K)) : Except PyErr (List (Flt K)) :=
  if ids.length ≠ weights.length then .error .valueError
  else .ok ((List.range n).map fun b => Flt.sum (((ids.zip weights).filter fun q => q.1 == b).map (·.2)))

/-- Slots of 30 s per day. -/
def slotsPerDay : Nat := Cnst.SEC_PER_DAY / Cnst.SW_RAD_DT

/-- disaggregate.py:664-678, the values of one day: `a * b` on arrays of different length raises. -/
def shortwaveDay (tsPerDay chunk : Nat) (rad weights : List (Flt K)) : Except PyErr (List (Flt K)) :=
  if rad.length ≠ weights.length then .error .valueError
  else bincount tsPerDay (repeatEach (List.range tsPerDay) chunk) (List.zipWith (· * ·) rad weights)

/-- disaggregate.py:618-680 `shortwave`.  `doy` counts from 1; `table` has a row of 2880 fractions for
each day of the year. -/
def shortwave (sw daylength : List (Flt K)) (doy : List Nat) (table : List (List K)) (ts : Nat)
    (utcOffset : Bool) (lon : K) : Except PyErr (List (Flt K)) := do
  let tsHourly : K := (ts : K) / (Cnst.MIN_PER_HOUR : K)
  let tmp := List.zipWith (fun s d => s * d / fin ((Cnst.SEC_PER_HOUR : K) * tsHourly)) sw daylength
  let nDays := tmp.length
  if ts = 0 then throw PyErr.zeroDivision
  let tsPerDay := Cnst.HOURS_PER_DAY * Cnst.MIN_PER_HOUR / ts
  let tmp := repeatEach tmp slotsPerDay
  let off := trunc (lon / Cnst.DEG_PER_REV * (slotsPerDay : K))
  let flat := (table.flatten).map fin
  let flat := if utcOffset then roll flat (-off) else flat
  let tmp := if utcOffset then roll tmp (-off) else tmp
  let chunk := ts * (Cnst.SEC_PER_MIN / Cnst.SW_RAD_DT)
  let days ← (List.range nDays).mapM fun day =>
    let d := doy.getD day 1
    shortwaveDay tsPerDay chunk ((flat.drop ((d - 1) * slotsPerDay)).take slotsPerDay)
      ((tmp.drop (day * slotsPerDay)).take slotsPerDay)
  pure days.flatten

/-! ### Times of the daily extremes -/

/-- `j` of the last `+1` in `np.diff(row > 0)`, or 0 (disaggregate.py:163-171; the loop over `np.where`
overwrites, starting from zero). -/
def lastRise (row : Nat → K) : Nat :=
  ((List.range (slotsPerDay - 1)).filter fun j => decide (¬ 0 < row j ∧ 0 < row (j + 1))).getLastD 0
/-- `j` of the last `-1`, or 0 (disaggregate.py:173-176). -/
def lastSet (row : Nat → K) : Nat :=
  ((List.range (slotsPerDay - 1)).filter fun j => decide (0 < row j ∧ ¬ 0 < row (j + 1))).getLastD 0

/-- disaggregate.py:168-181: minute of sunrise; 240 if none was found. -/
def riseTime (row : Nat → K) : K :=
  let half : K := (Cnst.SW_RAD_DT : K) / (Cnst.SEC_PER_MIN : K)
  let dayTot : K := (Cnst.SEC_PER_DAY : K) / (Cnst.SW_RAD_DT : K) * half
  let r := (lastRise row : K) * half
  if r = 0 then dayTot / 6 else r
/-- disaggregate.py:173-182: minute of sunset; 960 if none was found. -/
def setTime (row : Nat → K) : K :=
  let half : K := (Cnst.SW_RAD_DT : K) / (Cnst.SEC_PER_MIN : K)
  let dayTot : K := (Cnst.SEC_PER_DAY : K) / (Cnst.SW_RAD_DT : K) * half
  let r := (lastSet row : K) * half
  if r = 0 then 4 * dayTot / 6 else r

/-- Parameters of `set_min_max_hour`. -/
structure HourParams (K : Type) where
  ts : Nat
  utcOffset : Bool
  lon : K
  thetaS : K
  tmaxFraction : K

/-- disaggregate.py:184-189. -/
def utcShift (p : HourParams K) : Int :=
  if p.utcOffset then trunc ((p.lon - p.thetaS) / Cnst.DEG_PER_REV * (Cnst.MIN_PER_DAY : K)) else 0

/-- disaggregate.py:133-201 `set_min_max_hour` for day number `i` of the record, whose row of the table is
`row`: times of minimum and maximum temperature. -/
def minMaxTime (p : HourParams K) (row : Nat → K) (i : Nat) : K × K :=
  let rise := riseTime row - (utcShift p : K) + ((i * (Cnst.MIN_PER_HOUR * Cnst.HOURS_PER_DAY) : Nat) : K)
  let set := setTime row - (utcShift p : K) + ((i * (Cnst.MIN_PER_HOUR * Cnst.HOURS_PER_DAY) : Nat) : K)
  (rise - (p.ts : K), p.tmaxFraction * (set - rise) + rise - (p.ts : K))

/-- disaggregate.py:133-201 for the whole record; `yday` counts from 0, an index outside the table raises. -/
def setMinMaxHour (p : HourParams K) (table : List (Nat → K)) (yday : List Nat) :
    Except PyErr (List (K × K)) :=
  (List.range yday.length).mapM fun i =>
    match table[yday.getD i 0]? with
    | some row => .ok (minMaxTime p row i)
    | none => .error .indexError

/-! ### Longitude -/

/-- `math.remainder(x, 360)`: `x - 360 n` with `n` the integer nearest to `x / 360`, ties to even
(disaggregate.py:67). -/
def remainder360 (x : K) : K :=
  let q := x / 360
  let f := ⌊q⌋
  let n := if q - f < 1 / 2 then f else if 1 / 2 < q - f then f + 1 else if f % 2 = 0 then f else f + 1
  x - 360 * n

end Verif.Disagg
