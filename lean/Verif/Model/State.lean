import Verif.Model.Constants
import Verif.Np.Dict
import Verif.Np.Calendar

/-!
# State and monthly parameters (metsim/metsim.py:278-284, 495-510, 589-618)

Days are numbered; a series with a time coordinate is a list of (day, value).
-/

namespace Verif.State

variable {K : Type} [Field K] [LinearOrder K] {ι : Type}

/-- `da.rolling(time=w).mean()`: missing until `w` values are available, and when one of them is. -/
def rolling (w : Nat) (xs : List (Flt K)) : List (Flt K) :=
  (List.range xs.length).map fun i =>
    if i + 1 < w then .nan else Flt.mean ((xs.drop (i + 1 - w)).take w)

/-- `ds[name] = da`: the values of `da` at the days of the dataset, missing where it has none. -/
def onto (days : List Int) (s : Dict Int (Flt K)) : List (Flt K) :=
  days.map fun d => (Dict.get? s d).getD .nan

/-- Daily inputs of a cell, from the state file or the forcing. -/
structure Daily (K : Type) where
  prec : List (Flt K)
  tMin : List (Flt K)
  tMax : List (Flt K)

/-- What `_aggregate_state` adds to the forcing of a cell. -/
structure Agg (K : Type) where
  seasonalPrec : List (Flt K)
  dtr : List (Flt K)
  smoothedDtr : List (Flt K)

/-- `t_max - t_min`. -/
def range (d : Daily K) : List (Flt K) := List.zipWith (· - ·) d.tMax d.tMin

/-- metsim.py:594-618 for one cell: averages over the joined record. -/
def aggregateCell (record : List Int) (start stop : Int) (days : List Int) (st met : Daily K) : Agg K where
  seasonalPrec := onto days
    ((((record ++ days).zip (rolling 90 (st.prec ++ met.prec))).filter
      fun p => decide (start ≤ p.1 ∧ p.1 ≤ stop)).map fun p => (p.1, .fin Cnst.DAYS_PER_YEAR * p.2))
  dtr := range met
  smoothedDtr := onto days
    (((record ++ days).zip (rolling 30 (range st ++ range met))).filter fun p => decide (p.1 ∉ record))

/-- metsim.py:589-618 `_aggregate_state`: `nState` is the length of the state file's time axis, `record`
the dates from `state_start` to `state_stop`. -/
def aggregateState (nState : Nat) (record : List Int) (start stop : Int) (days : List Int)
    (cells : List ι) (st met : ι → Daily K) : Except PyErr (ι → Agg K) := do
  if nState ≠ 90 then throw PyErr.assertion
  if record.length ≠ nState then throw PyErr.valueError
  if cells.any (fun c => (range (met c)).any fun x => Flt.lt x (.fin 0)) then throw PyErr.valueError
  pure fun c => aggregateCell record start stop days (st c) (met c)

/-- metsim.py:495-510 `_unpack_state` for one variable (not called by anything): the last 90 of the old
state and the new values. -/
def unpackState {α : Type} (old new : List α) : List α :=
  (old ++ new).drop ((old ++ new).length - 90)

/-- metsim.py:278-284 `convert_monthly_param` for one cell: `months` are the calendar months of the
days, `table` the domain variable by its `month` coordinate. -/
def convertMonthly (table : Dict Int (Flt K)) (months : List Nat) (prec : List (Flt K)) :
    Except PyErr (List (Flt K)) :=
  (List.range 12).foldlM (fun (cur : List (Flt K)) (m : Nat) => do
    let param ← table.get (m : Int)
    pure (List.zipWith (fun mo x => if mo = m then param else x) months cur)) prec

end Verif.State
