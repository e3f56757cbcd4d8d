import Mathlib.Algebra.Order.Field.Basic
import Mathlib.Algebra.BigOperators.Group.List.Basic
import Mathlib.Tactic.Ring
import Mathlib.Tactic.Linarith
import Mathlib.Tactic.NormNum

/-!
# Idealised floats

Models the numpy/python `float` values that `/repo/metsim` computes with.  A value is either
`nan` (any non-finite float: NaN and, by simplification, the infinities) or `fin x` with `x` an exact
element of an ordered field.  Rounding, overflow and signed zero are not modelled.
-/

namespace Verif

/-- An idealised float: `nan` stands for every non-finite float. -/
inductive Flt (K : Type) where
  | nan : Flt K
  | fin : K → Flt K
  deriving DecidableEq, Repr

namespace Flt

variable {K : Type}

/-- Lift a binary operation: any `nan` operand gives `nan` (IEEE NaN propagation). -/
def lift₂ (f : K → K → K) : Flt K → Flt K → Flt K
  | fin a, fin b => fin (f a b)
  | _, _ => nan

/-- Lift a unary operation. -/
def map (f : K → K) : Flt K → Flt K
  | fin a => fin (f a)
  | nan => nan

instance [Add K] : Add (Flt K) := ⟨lift₂ (· + ·)⟩
instance [Sub K] : Sub (Flt K) := ⟨lift₂ (· - ·)⟩
instance [Mul K] : Mul (Flt K) := ⟨lift₂ (· * ·)⟩
instance [Neg K] : Neg (Flt K) := ⟨map (- ·)⟩

/-- Float division: division by zero is not finite. -/
def div [Div K] [Zero K] [DecidableEq K] : Flt K → Flt K → Flt K
  | fin a, fin b => if b = 0 then nan else fin (a / b)
  | _, _ => nan

instance [Div K] [Zero K] [DecidableEq K] : Div (Flt K) := ⟨div⟩

/-- `x < y` on floats: false if either side is NaN. -/
def lt [LT K] [DecidableLT K] : Flt K → Flt K → Bool
  | fin a, fin b => decide (a < b)
  | _, _ => false

/-- `x <= y` on floats: false if either side is NaN. -/
def le [LE K] [DecidableLE K] : Flt K → Flt K → Bool
  | fin a, fin b => decide (a ≤ b)
  | _, _ => false

/-- `np.isfinite`. -/
def isFin : Flt K → Bool
  | fin _ => true
  | nan => false

@[simp] theorem add_fin [Add K] (a b : K) : (fin a + fin b : Flt K) = fin (a + b) := rfl
@[simp] theorem sub_fin [Sub K] (a b : K) : (fin a - fin b : Flt K) = fin (a - b) := rfl
@[simp] theorem mul_fin [Mul K] (a b : K) : (fin a * fin b : Flt K) = fin (a * b) := rfl
@[simp] theorem neg_fin [Neg K] (a : K) : (-fin a : Flt K) = fin (-a) := rfl
@[simp] theorem map_fin (f : K → K) (a : K) : map f (fin a) = fin (f a) := rfl
@[simp] theorem map_nan (f : K → K) : map f (nan : Flt K) = nan := rfl
@[simp] theorem nan_add [Add K] (a : Flt K) : (nan + a : Flt K) = nan := by cases a <;> rfl
@[simp] theorem add_nan [Add K] (a : Flt K) : (a + nan : Flt K) = nan := by cases a <;> rfl
@[simp] theorem nan_sub [Sub K] (a : Flt K) : (nan - a : Flt K) = nan := by cases a <;> rfl
@[simp] theorem sub_nan [Sub K] (a : Flt K) : (a - nan : Flt K) = nan := by cases a <;> rfl
@[simp] theorem nan_mul [Mul K] (a : Flt K) : (nan * a : Flt K) = nan := by cases a <;> rfl
@[simp] theorem mul_nan [Mul K] (a : Flt K) : (a * nan : Flt K) = nan := by cases a <;> rfl
@[simp] theorem neg_nan [Neg K] : (-nan : Flt K) = nan := rfl

section
variable [Div K] [Zero K] [DecidableEq K]
theorem div_fin (a b : K) : (fin a / fin b : Flt K) = if b = 0 then nan else fin (a / b) := rfl
@[simp] theorem div_fin_ne {a b : K} (h : b ≠ 0) : (fin a / fin b : Flt K) = fin (a / b) := by
  simp [div_fin, h]
@[simp] theorem div_fin_zero (a : K) : (fin a / fin 0 : Flt K) = nan := by simp [div_fin]
@[simp] theorem nan_div (a : Flt K) : (nan / a : Flt K) = nan := by cases a <;> rfl
@[simp] theorem div_nan (a : Flt K) : (a / nan : Flt K) = nan := by cases a <;> rfl
end

@[simp] theorem lt_fin [LT K] [DecidableLT K] (a b : K) : lt (fin a) (fin b) = decide (a < b) := rfl
@[simp] theorem le_fin [LE K] [DecidableLE K] (a b : K) : le (fin a) (fin b) = decide (a ≤ b) := rfl
@[simp] theorem nan_lt [LT K] [DecidableLT K] (a : Flt K) : lt nan a = false := by cases a <;> rfl
@[simp] theorem lt_nan [LT K] [DecidableLT K] (a : Flt K) : lt a nan = false := by cases a <;> rfl
@[simp] theorem nan_le [LE K] [DecidableLE K] (a : Flt K) : le nan a = false := by cases a <;> rfl
@[simp] theorem le_nan [LE K] [DecidableLE K] (a : Flt K) : le a nan = false := by cases a <;> rfl
@[simp] theorem isFin_fin (a : K) : isFin (fin a) = true := rfl
@[simp] theorem isFin_nan : isFin (nan : Flt K) = false := rfl

theorem isFin_iff (a : Flt K) : isFin a = true ↔ ∃ x, a = fin x := by
  cases a <;> simp [isFin]

/-- `np.sum` of a one-dimensional float array. -/
def sum [Add K] [Zero K] : List (Flt K) → Flt K
  | [] => fin 0
  | x :: xs => x + sum xs

/-- `np.mean` of a one-dimensional float array (NaN for the empty array, as numpy). -/
def mean [Add K] [Zero K] [Div K] [NatCast K] [DecidableEq K] (xs : List (Flt K)) : Flt K :=
  sum xs / fin (xs.length : K)

@[simp] theorem sum_nil [Add K] [Zero K] : sum ([] : List (Flt K)) = fin 0 := rfl
@[simp] theorem sum_cons [Add K] [Zero K] (x : Flt K) (xs : List (Flt K)) :
    sum (x :: xs) = x + sum xs := rfl

theorem sum_map_fin [AddMonoid K] (xs : List K) : sum (xs.map fin) = fin xs.sum := by
  induction xs with
  | nil => rfl
  | cons x xs ih => simp [ih]

theorem sum_of_mem_nan [AddMonoid K] (xs : List (Flt K)) (h : nan ∈ xs) : sum xs = nan := by
  induction xs with
  | nil => simp at h
  | cons x xs ih =>
    rcases List.mem_cons.1 h with h | h
    · subst h; simp
    · simp [ih h]

/-- A list without NaN is the image of a list of numbers. -/
theorem exists_map_fin (xs : List (Flt K)) (h : ∀ x ∈ xs, isFin x = true) :
    ∃ ys : List K, xs = ys.map fin := by
  induction xs with
  | nil => exact ⟨[], rfl⟩
  | cons x xs ih =>
    obtain ⟨ys, rfl⟩ := ih (fun y hy => h y (by simp [hy]))
    obtain ⟨a, rfl⟩ := (isFin_iff x).1 (h x (by simp))
    exact ⟨a :: ys, rfl⟩

end Flt
end Verif
