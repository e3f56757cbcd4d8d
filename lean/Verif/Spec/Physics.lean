import Mathlib.Analysis.SpecialFunctions.Pow.Real
import Mathlib.Analysis.SpecialFunctions.Exp

/-!
# The formulas as published

Nothing here refers to the model.  Temperatures in degrees Celsius, pressures in Pa, water in mm.
-/

namespace Verif.Spec

/-- Saturation vapour pressure over water (Murray 1967; Maidment 1992, eq. 4.2.2). -/
noncomputable def overWater (t : ℝ) : ℝ := 610.78 * Real.exp (17.269 * t / (237.3 + t))

/-- Saturation vapour pressure over ice (Murray 1967). -/
noncomputable def overIce (t : ℝ) : ℝ := 610.78 * Real.exp (21.875 * t / (265.5 + t))

/-- Abbott & Tabony (1985): over water above freezing, with the ice correction below. -/
noncomputable def saturation (t : ℝ) : ℝ :=
  if t < 0 then overWater t * (1 + 9.72e-3 * t + 4.2e-5 * t ^ 2) else overWater t

/-- Thornton & Running (1999): transmittance from the temperature range and its 30-day mean. -/
noncomputable def transmittance (dtr mean : ℝ) : ℝ :=
  1 - 0.9 * Real.exp (-(0.031 + 0.201 * Real.exp (-(0.185 * mean))) * dtr ^ (1.5 : ℝ))

/-- Priestley & Taylor (1972) with albedo 0.2 and a tenth of the absorbed radiation lost to the ground: mm of
water evaporated by `rad` W/m2 over `secs` seconds at pressure `pa`. -/
noncomputable def evaporation (rad t secs pa : ℝ) : ℝ :=
  let latent := 2502300 - 2430.54 * t
  let psychrometric := 1010 * pa / (0.62196351 * latent)
  let slope := (saturation (t + 0.2) - saturation (t - 0.2)) / 0.4
  1.26 * (slope / (slope + psychrometric)) * ((1 - 0.2) * (1 - 0.1) * rad * secs) / latent

/-- Pressure in an atmosphere cooling by `lr` K/m from 288.15 K and 101325 Pa at sea level. -/
noncomputable def barometric (z lr : ℝ) : ℝ :=
  101325 * (1 - lr * z / 288.15) ^ (9.80665 * 28.9644e-3 / (lr * 8.3143) : ℝ)

/-- Hypsometric pressure at height `z` where the air has `t` kelvin, of a column warming by `lr` K/m towards sea level. -/
noncomputable def hypsometric (z lr t : ℝ) : ℝ := 101325 * Real.exp (-(9.80665 * z) / (287 * (t - lr * z / 2)))

/-- Mass of vapour over mass of moist air, at vapour pressure `e` and pressure `p`. -/
noncomputable def moisture (e p : ℝ) : ℝ := 0.62196351 * e / (0.62196351 * e + (p - e))

/-- Kimball et al. (1997): dewpoint from the minimum temperature, the ratio of evaporation to rain and the
temperature range. -/
noncomputable def kimball (tmin ratio dtr : ℝ) : ℝ :=
  (tmin + 273.15) * (-0.127 + 1.121 * (1.003 - 1.444 * ratio + 12.312 * ratio ^ 2 - 32.766 * ratio ^ 3)
    + 0.0006 * dtr) - 273.15

/-- Optical air mass at zenith angles of 70 to 90 degrees (Smithsonian tables, as in MT-CLIM). -/
noncomputable def opticalMass : ℕ → ℝ
  | 70 => 2.90 | 71 => 3.05 | 72 => 3.21 | 73 => 3.39 | 74 => 3.69 | 75 => 3.82 | 76 => 4.07
  | 77 => 4.37 | 78 => 4.72 | 79 => 5.12 | 80 => 5.60 | 81 => 6.18 | 82 => 6.88 | 83 => 7.77
  | 84 => 8.90 | 85 => 10.39 | 86 => 12.44 | 87 => 15.36 | 88 => 19.79 | 89 => 26.96 | _ => 30.00

/-- A value, in SI units, that a quantity of this name can have: radiation, rain, wind speed and vapour pressure are not
negative, absolute temperature and air pressure are positive, cloud cover and relative humidity are fractions, and there
is dry air besides the vapour. -/
def Possible (name : String) (s : ℝ) : Prop :=
  match name with
  | "shortwave" | "longwave" | "prec" | "wind" | "vapor_pressure" => 0 ≤ s
  | "temp" | "air_pressure" => 0 < s
  | "tskc" | "rel_humid" => 0 ≤ s ∧ s ≤ 1
  | "spec_humid" => 0 ≤ s ∧ s < 1
  | _ => False

end Verif.Spec
