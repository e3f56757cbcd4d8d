import Verif.Np.Basic
import Mathlib.Analysis.SpecialFunctions.Pow.Real
import Mathlib.Analysis.SpecialFunctions.Trigonometric.Inverse

/-!
# numpy's real functions

Idealised floats over the real numbers: `exp`, `sqrt`, `power` are the exact functions.
-/

namespace Verif.Flt

/-- `np.exp`. -/
noncomputable def exp (x : Flt ℝ) : Flt ℝ := map Real.exp x

/-- `np.sqrt`: NaN for negative numbers. -/
noncomputable def sqrt : Flt ℝ → Flt ℝ
  | fin x => if x < 0 then nan else fin (Real.sqrt x)
  | nan => nan

/-- `np.power(x, y)` with a fractional exponent: NaN for a negative base, not finite for a zero base
and a negative exponent. -/
noncomputable def pow : Flt ℝ → Flt ℝ → Flt ℝ
  | fin x, fin y => if x < 0 ∨ (x = 0 ∧ y < 0) then nan else fin (x ^ y)
  | _, _ => nan

/-- `np.maximum`: NaN if either is. -/
noncomputable def max₂ (x y : Flt ℝ) : Flt ℝ := lift₂ max x y
/-- `np.minimum`. -/
noncomputable def min₂ (x y : Flt ℝ) : Flt ℝ := lift₂ min x y

@[simp] theorem exp_fin (x : ℝ) : exp (fin x) = fin (Real.exp x) := rfl
@[simp] theorem exp_nan : exp nan = nan := rfl
@[simp] theorem sqrt_nan : sqrt nan = nan := rfl
theorem sqrt_fin {x : ℝ} (h : 0 ≤ x) : sqrt (fin x) = fin (Real.sqrt x) := by
  simp [sqrt, not_lt.2 h]
theorem pow_fin {x : ℝ} (h : 0 < x) (y : ℝ) : pow (fin x) (fin y) = fin (x ^ y) := by
  refine if_neg ?_
  rintro (h' | ⟨h', -⟩) <;> linarith
theorem pow_fin_nonneg {x : ℝ} (h : 0 ≤ x) {y : ℝ} (hy : 0 ≤ y) : pow (fin x) (fin y) = fin (x ^ y) := by
  refine if_neg ?_
  rintro (h' | ⟨-, h'⟩) <;> linarith
@[simp] theorem pow_nan_left (y : Flt ℝ) : pow nan y = nan := by cases y <;> rfl
@[simp] theorem pow_nan_right (x : Flt ℝ) : pow x nan = nan := by cases x <;> rfl
@[simp] theorem max₂_fin (x y : ℝ) : max₂ (fin x) (fin y) = fin (max x y) := rfl
@[simp] theorem min₂_fin (x y : ℝ) : min₂ (fin x) (fin y) = fin (min x y) := rfl
@[simp] theorem max₂_nan_left (y : Flt ℝ) : max₂ nan y = nan := by cases y <;> rfl
@[simp] theorem max₂_nan_right (x : Flt ℝ) : max₂ x nan = nan := by cases x <;> rfl

end Verif.Flt
