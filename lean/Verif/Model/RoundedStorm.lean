import Verif.Model.Rounded

/-!
# Storms and given longwave radiation in floating point

Next to `Disagg.precTriangle` and `Humidity.scaleDaily`, which compute exactly.  Numbers only: a storm of no weight, whose
amounts are `nan`, and days of no radiation are outside.
-/

namespace Verif.Rounded
open Verif Verif.Np Verif.Fp

variable {K : Type} [Field K] [LinearOrder K] [IsStrictOrderedRing K] [FloorRing K]

/-- `np.linspace(a, b, n)`: the numbers `0, 1, ...` times the step, plus `a`; the last is set to `b`. -/
def linspace (p : Nat) (a b : K) (n : Nat) : List K :=
  (List.range n).map fun (i : Nat) =>
    if n = 1 then a
    else if i = n - 1 then b
    else rnd p (rnd p ((i : K) * rnd p (rnd p (b - a) / ((n - 1 : Nat) : K))) + a)

/-- disaggregate.py:307-324; the limits of the storm are computed with `pt` digits, those of the parameters. -/
def triangleShape (pt p : Nat) (tPk dur : K) : List K :=
  let times := List.range (Cnst.HOURS_PER_DAY * Cnst.MIN_PER_HOUR)
  let half := rnd pt (0.5 * dur)
  let tStart := rnd pt (tPk - half)
  let tStop := rnd pt (tPk + half)
  let tPlus := times.filter fun (m : Nat) => decide ((m : K) ≤ tPk) && decide (tStart ≤ (m : K))
  let tMinus := times.filter fun (m : Nat) => decide (tPk ≤ (m : K)) && decide ((m : K) ≤ tStop)
  let day := List.replicate (Cnst.HOURS_PER_DAY * Cnst.MIN_PER_HOUR) 0
  let day := assign day tPlus (linspace p 0 1 tPlus.length)
  assign day tMinus (linspace p 1 0 tMinus.length)

/-- What the loop over the days takes from its series. -/
structure Storm (K : Type) where
  amount : K
  tMin : K
  tPk : K
  dur : K

/-- disaggregate.py:302-327, one day. -/
def triangleDay (pt p : Nat) (order : Adding 1440) (doMix : Bool) (s : Storm K) : List K :=
  if doMix && decide (s.tMin < 0) then List.replicate 1440 (rnd p (s.amount / (Cnst.MIN_PER_DAY : K)))
  else
    let day := triangleShape pt p s.tPk s.dur
    let scale := rnd p (s.amount / order.sum p day)
    day.map fun x => rnd p (scale * x)

/-- disaggregate.py:295-352 `prec` with `prec_type` TRIANGLE or MIX -/
def precTriangle (pt p : Nat) (day : Adding 1440) {ts : Nat} (order : Adding ts) (doMix : Bool) (storms : List (Storm K)) (utc : Bool)
    (lon : K) : Except PyErr (List K) := do
  let minutes := storms.flatMap (triangleDay pt p day doMix)
  let minutes := if utc then roll minutes (-offset 53 Cnst.MIN_PER_DAY lon) else minutes
  let steps ← reshape minutes ts
  pure (steps.map fun s => order.sum p s)

/-- disaggregate.py:583-589 the longwave radiation `lw` scaled to the means `daily` -/
def scaleDaily (p : Nat) {n : Nat} (order : Adding n) (lw daily : List K) : Except PyErr (List K) := do
  let days ← reshape lw n
  if days.length ≠ daily.length then throw PyErr.valueError
  let factor := repeatEach (List.zipWith (fun d s => rnd p (d / rnd p (order.sum p s / (n : K)))) daily days) n
  if factor.length ≠ lw.length then throw PyErr.valueError
  pure (List.zipWith (fun x f => rnd p (x * f)) lw factor)

end Verif.Rounded
