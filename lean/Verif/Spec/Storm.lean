import Mathlib.Algebra.Order.Floor.Semiring
import Mathlib.Data.Real.Archimedean

/-!
# The storm of a day, minute by minute
-/

namespace Verif.Spec

/-- The documented shape: an isosceles triangle with its peak at minute `tp` and `du` minutes wide. -/
noncomputable def isosceles (tp du : ℝ) (m : ℕ) : ℝ := max 0 (1 - |m - tp| / (du / 2))

/-- A storm squeezed into the day: from the first minute of the day within half a duration before the peak to the last at or before
the peak it grows evenly from nothing to one; from the first minute at or after the peak to the last within half a duration
after it, evenly back to nothing. -/
noncomputable def squeezed (tp du : ℝ) (m : ℕ) : ℝ :=
  if tp ≤ m ∧ m ≤ tp + du / 2 then 1 - ((m : ℝ) - ⌈tp⌉₊) / ((min 1439 ⌊tp + du / 2⌋₊ : ℕ) - (⌈tp⌉₊ : ℝ))
  else if tp - du / 2 ≤ m ∧ m ≤ tp then ((m : ℝ) - ⌈tp - du / 2⌉₊) / ((min 1439 ⌊tp⌋₊ : ℕ) - (⌈tp - du / 2⌉₊ : ℝ))
  else 0

end Verif.Spec
