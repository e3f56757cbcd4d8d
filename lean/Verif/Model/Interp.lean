import Verif.Model.Disagg

/-!
# Interpolation: `scipy.interpolate.PchipInterpolator`, `scipy.interpolate.interp1d` and `disaggregate.temp`

scipy is not in `/repo`; the two interpolators are written from scipy's published algorithm (Fritsch-Butland
derivatives with one-sided three-point end derivatives, cubic Hermite pieces; piecewise linear) and are part of
the trusted reading of the code.
-/

namespace Verif.Interp

open Flt Np

variable {K : Type} [Field K] [LinearOrder K]

/-- `np.sign`. -/
def sgn (x : K) : Int := if 0 < x then 1 else if x < 0 then -1 else 0

/-- Interpolation knots. -/
structure Knots (K : Type) where
  n : Nat
  x : Nat → K
  y : Nat → K

namespace Knots
variable (k : Knots K)

/-- `hk = x[1:] - x[:-1]` -/
def h (i : Nat) : K := k.x (i + 1) - k.x i
/-- `mk = (y[1:] - y[:-1]) / hk` -/
def m (i : Nat) : K := (k.y (i + 1) - k.y i) / k.h i

end Knots

/-- `PchipInterpolator._edge_case(h0, h1, m0, m1)`. -/
def edge (h0 h1 m0 m1 : K) : K :=
  let d := ((2 * h0 + h1) * m0 - h0 * m1) / (h0 + h1)
  if sgn d ≠ sgn m0 then 0
  else if sgn m0 ≠ sgn m1 ∧ 3 * |m0| < |d| then 3 * m0
  else d

/-- `PchipInterpolator._find_derivatives` at an inner knot: zero at local extremes, else the weighted harmonic mean
of the neighbouring slopes. -/
def inner (h0 h1 m0 m1 : K) : K :=
  if sgn m1 ≠ sgn m0 ∨ m1 = 0 ∨ m0 = 0 then 0
  else
    let w1 := 2 * h1 + h0
    let w2 := h1 + 2 * h0
    1 / ((w1 / m0 + w2 / m1) / (w1 + w2))

/-- `PchipInterpolator._find_derivatives`. -/
def deriv (k : Knots K) (i : Nat) : K :=
  if k.n = 2 then k.m 0
  else if i = 0 then edge (k.h 0) (k.h 1) (k.m 0) (k.m 1)
  else if i = k.n - 1 then edge (k.h (k.n - 2)) (k.h (k.n - 3)) (k.m (k.n - 2)) (k.m (k.n - 3))
  else inner (k.h (i - 1)) (k.h i) (k.m (i - 1)) (k.m i)

/-- The cubic on `[x i, x (i+1)]`, coefficients as in `CubicHermiteSpline`. -/
def hermite (k : Knots K) (i : Nat) (t : K) : K :=
  let s := t - k.x i
  let dx := k.h i
  let c := (deriv k i + deriv k (i + 1) - 2 * k.m i) / dx
  c / dx * s ^ 3 + ((k.m i - deriv k i) / dx - c) * s ^ 2 + deriv k i * s + k.y i

/-- The piece used for `t`: the last one that begins at or before `t`, the first or last piece outside the range
(`extrapolate=True`). -/
def segment (k : Knots K) (t : K) : Nat :=
  ((List.range (k.n - 2)).filter fun j => decide (k.x (j + 1) ≤ t)).length

/-- Value of the interpolant. -/
def pchip (k : Knots K) (t : K) : K := hermite k (segment k t) t

/-- `PchipInterpolator(x, y)`: raises `ValueError` unless there are two or more points, as many of `x` as of `y`, the
`x` strictly increase and the `y` are finite. -/
def mkPchip (xs : List K) (ys : List (Flt K)) : Except PyErr (Knots K) :=
  if xs.length ≠ ys.length ∨ xs.length < 2 ∨ ¬ xs.Pairwise (· < ·) ∨ ¬ (∀ y ∈ ys, isFin y = true) then
    .error .valueError
  else .ok ⟨xs.length, fun i => xs.getD i 0, fun i => match ys.getD i nan with | fin v => v | nan => 0⟩

/-! ### Temperature -/

/-- `np.ravel(np.column_stack((a, b)))`. -/
def interleave {α : Type} (ps : List (α × α)) : List α := ps.flatMap fun p => [p.1, p.2]

/-- disaggregate.py:241-248: the knot times, extended by a day at either end. -/
def knotTimes (times : List (K × K)) : List K :=
  let time := interleave times
  let tsEnds : K := ((Cnst.MIN_PER_HOUR * Cnst.HOURS_PER_DAY : Nat) : K)
  ((time.take 2).map fun t => t - tsEnds) ++ time ++
    ((time.drop (time.length - 2)).map fun t => t + tsEnds)

/-- disaggregate.py:242, 250-257: the knot values. -/
def knotValues (tMin tMax : List (Flt K)) (tBegin tEnd : Option (List (Flt K))) : List (Flt K) :=
  let temp := interleave (tMin.zip tMax)
  tBegin.getD (temp.take 2) ++ temp ++ tEnd.getD (temp.drop (temp.length - 2))

/-- disaggregate.py:204-262 `temp`; `times` are the pairs of `set_min_max_hour`. -/
def temp (tMin tMax : List (Flt K)) (outLen : Nat) (times : List (K × K)) (ts : Nat)
    (tBegin tEnd : Option (List (Flt K))) : Except PyErr (List K) := do
  let k ← mkPchip (knotTimes times) (knotValues tMin tMax tBegin tEnd)
  pure ((List.range outLen).map fun (i : Nat) => pchip k ((ts : K) * (i : K)))

/-! ### Piecewise linear interpolation -/

/-- The last knot at or before `t`. -/
def knotBefore (x : Nat → K) (n : Nat) (t : K) : Nat :=
  ((List.range (n - 1)).filter fun j => decide (x (j + 1) ≤ t)).length

/-- `interp1d(x, y, bounds_error=False)(t)` for strictly increasing `x` (`np.interp` inside the range): missing outside
the range of `x`, the given value at a knot, the chord between two knots. -/
def linear (x : Nat → K) (y : Nat → Flt K) (n : Nat) (t : K) : Flt K :=
  if n = 0 ∨ t < x 0 ∨ x (n - 1) < t then nan
  else
    let j := knotBefore x n t
    if t = x j then y j
    else (y (j + 1) - y j) / fin (x (j + 1) - x j) * fin (t - x j) + y j

end Verif.Interp
