import Mathlib.Data.Real.Basic

/-!
# The monotone piecewise cubic curve of Fritsch and Butland
-/

namespace Verif.Spec

/-- Slope of the curve at a point: none at a local extreme, else the weighted harmonic mean of the slopes `m0`, `m1` of the
chords to the neighbours, which are `h0` and `h1` away. -/
noncomputable def slope (h0 h1 m0 m1 : ℝ) : ℝ :=
  if m0 * m1 ≤ 0 then 0 else 3 * (h0 + h1) / ((2 * h1 + h0) / m0 + (h1 + 2 * h0) / m1)

/-- The cubic through `(x0, y0)` and `(x1, y1)` with slopes `d0` and `d1` there. -/
noncomputable def hermite (x0 x1 y0 y1 d0 d1 t : ℝ) : ℝ :=
  let u := (t - x0) / (x1 - x0)
  y0 * ((1 + 2 * u) * (1 - u) ^ 2) + y1 * (u ^ 2 * (3 - 2 * u)) +
    (x1 - x0) * (d0 * (u * (1 - u) ^ 2) - d1 * (u ^ 2 * (1 - u)))

/-- Slope of the chord from point `m` to the next. -/
noncomputable def chord (x y : ℕ → ℝ) (m : ℕ) : ℝ := (y (m + 1) - y m) / (x (m + 1) - x m)

/-- Slope of the curve at point `m + 1`. -/
noncomputable def slopeAt (x y : ℕ → ℝ) (m : ℕ) : ℝ :=
  slope (x (m + 1) - x m) (x (m + 2) - x (m + 1)) (chord x y m) (chord x y (m + 1))

/-- The curve between the points `m + 1` and `m + 2`. -/
noncomputable def curve (x y : ℕ → ℝ) (m : ℕ) (t : ℝ) : ℝ :=
  hermite (x (m + 1)) (x (m + 2)) (y (m + 1)) (y (m + 2)) (slopeAt x y m) (slopeAt x y (m + 1)) t

end Verif.Spec
