import Verif.Np.Flt
import Mathlib.Data.List.Rotate
import Mathlib.Algebra.Order.Floor.Ring

/-!
# numpy / python primitives

Idealised versions of the library functions `/repo/metsim` calls.  They are part of the trusted
reading of the code: numpy itself is not in `/repo`.
-/

namespace Verif

/-- Python exceptions as values.  Messages are kept only where the code builds them. -/
inductive PyErr where
  | valueError | keyError | indexError | zeroDivision | assertion | notImplemented
  | structError | typeError
  | exception (msgs : List String)
  deriving DecidableEq, Repr

namespace Np

variable {α : Type}

/-- `np.roll(xs, shift)` for one-dimensional `xs`: `out[(i + shift) % n] = xs[i]`. -/
def roll (xs : List α) (shift : Int) : List α :=
  xs.rotate ((-shift) % (xs.length : Int)).toNat

/-- `np.repeat(xs, n)`: every element `n` times, in order. -/
def repeatEach (xs : List α) (n : Nat) : List α :=
  xs.flatMap (List.replicate n)

/-- The rows of a reshaped array: `rows[i] = xs[i*w : (i+1)*w]`. -/
def rows (xs : List α) (w : Nat) : List (List α) :=
  (List.range (xs.length / w)).map fun i => (xs.drop (i * w)).take w

/-- `xs.reshape(-1, w)`: raises `ValueError` unless `w` is positive and divides the length. -/
def reshape (xs : List α) (w : Nat) : Except PyErr (List (List α)) :=
  if w = 0 ∨ xs.length % w ≠ 0 then .error .valueError else .ok (rows xs w)

/-- `np.linspace(a, b, n)` (`endpoint=True`). `n = 0` gives `[]`, `n = 1` gives `[a]`. -/
def linspace {K : Type} [Field K] (a b : K) (n : Nat) : List K :=
  (List.range n).map fun (i : Nat) => if n = 1 then a else a + (i : K) * ((b - a) / ((n : K) - 1))

/-- `arr[idx] = vals` with an integer index array (all indices in range, equal lengths). -/
def assign (arr : List α) (idx : List Nat) (vals : List α) : List α :=
  (idx.zip vals).foldl (fun a p => a.set p.1 p.2) arr

/-- `np.arange(start, stop, step)` on integers.  `step = 0` raises `ZeroDivisionError`. -/
def arange (start stop step : Int) : Except PyErr (List Int) :=
  if step = 0 then .error .zeroDivision
  else .ok ((List.range (-(Int.fdiv (start - stop) step)).toNat).map fun (i : Nat) => start + (i : Int) * step)

/-- Python `int(x)` on a float: truncation towards zero. -/
def trunc {K : Type} [Field K] [LinearOrder K] [FloorRing K] (x : K) : Int :=
  if 0 ≤ x then ⌊x⌋ else ⌈x⌉

/-- `Series.ffill()`: every missing entry takes the last present value before it. -/
def ffill {K : Type} : Flt K → List (Flt K) → List (Flt K)
  | _, [] => []
  | last, .nan :: xs => last :: ffill last xs
  | _, .fin x :: xs => .fin x :: ffill (.fin x) xs

/-- `fillna(method='ffill').fillna(method='bfill')`. -/
def fillBoth {K : Type} (xs : List (Flt K)) : List (Flt K) :=
  (ffill .nan (ffill .nan xs).reverse).reverse

end Np
end Verif
