import Mathlib.Analysis.SpecialFunctions.Trigonometric.Inverse
import Mathlib.MeasureTheory.Integral.IntervalIntegral.Basic

/-!
# Textbook solar geometry

The formulas of any textbook on hydrology or astronomy, with the numerical coefficients of MT-CLIM.
-/

namespace Verif.Spec

/-- Declination of the sun on day `i` of the year (counted from 0). -/
noncomputable def declination (i : ℕ) : ℝ := -0.4092797 * Real.cos ((i + 11.25) * 0.017214)

/-- Solar flux outside the atmosphere, W/m2, with the changing distance of the sun. -/
noncomputable def solarFlux (i : ℕ) : ℝ := 1368 + 45.5 * Real.sin (2 * Real.pi * i / 365.25 + 1.7)

/-- Hour angle of sunset: `cos H = - tan φ tan δ`; 0 in the polar night, `π` in the polar day. -/
noncomputable def sunset (φ δ : ℝ) : ℝ := Real.arccos (min (max (-(Real.tan φ * Real.tan δ)) (-1)) 1)

/-- Energy a horizontal surface outside the atmosphere receives in a day, J/m2. -/
noncomputable def insolation (flux φ δ : ℝ) : ℝ :=
  86400 / Real.pi * flux *
    (sunset φ δ * Real.sin φ * Real.sin δ + Real.cos φ * Real.cos δ * Real.sin (sunset φ δ))

/-- Sine of the elevation of the sun `t` seconds after midnight, solar time. -/
noncomputable def elevation (φ δ t : ℝ) : ℝ :=
  Real.sin φ * Real.sin δ + Real.cos φ * Real.cos δ * Real.cos (2 * Real.pi * (t - 43200) / 86400)

/-- What a horizontal surface outside the atmosphere receives from second `a` to second `b` of a day, as a multiple of the
flux: seconds of overhead sun. -/
noncomputable def sunshine (φ δ a b : ℝ) : ℝ := ∫ t in a..b, max 0 (elevation φ δ t)

/-- Degrees to radians, to the precision of the code. -/
noncomputable def radians (lat : ℝ) : ℝ := lat * 0.01745329

end Verif.Spec
