import Mathlib.Algebra.Order.Field.Basic
import Mathlib.Tactic.NormNum

/-!
# What unit strings mean

Independent of the model: the SI meaning of the unit strings MetSim uses.
-/

namespace Verif.Spec

/-- Physical kinds of quantity. -/
inductive Kind where
  | waterFlux | energyFlux | temperature | pressure | ratio | speed | duration
  deriving DecidableEq, Repr

/-- The kind of quantity measured in a unit, and the SI value of the number `x` in that unit
(`ts` is the length of one time step in minutes):
water flux in mm/s, energy flux in W/m2, temperature in K, pressure in Pa, ratio as a pure number,
speed in m/s, duration in s. -/
def si {K : Type} [Field K] (unit : String) (ts x : K) : Option (Kind × K) :=
  match unit with
  | "mm timestep-1" => some (.waterFlux, x / (ts * 60))
  | "mm h-1" => some (.waterFlux, x / 3600)
  | "mm s-1" => some (.waterFlux, x)
  | "W m-2" => some (.energyFlux, x)
  | "C" => some (.temperature, x + 273.15)
  | "K" => some (.temperature, x)
  | "Pa" => some (.pressure, x)
  | "hPa" => some (.pressure, 100 * x)
  | "kPa" => some (.pressure, 1000 * x)
  | "fraction" => some (.ratio, x)
  | "%" => some (.ratio, x / 100)
  | "g g-1" => some (.ratio, x)
  | "m s-1" => some (.speed, x)
  | "s" => some (.duration, x)
  | _ => none

/-- The kind of quantity each MetSim output variable is. -/
def kindOf : String → Option Kind
  | "pet" | "prec" => some .waterFlux
  | "shortwave" | "longwave" => some .energyFlux
  | "t_max" | "t_min" | "temp" => some .temperature
  | "vapor_pressure" | "air_pressure" => some .pressure
  | "tskc" | "rel_humid" | "spec_humid" => some .ratio
  | "wind" => some .speed
  | "daylength" => some .duration
  | _ => none

end Verif.Spec
