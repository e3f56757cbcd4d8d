import Verif.Model.Interp
import Verif.Model.Physics
import Verif.Model.LwOptions

/-!
# `metsim/disaggregate.py`: pressure, humidity, longwave radiation

Elementwise functions are written for one element; temperatures in degrees Celsius, vapour and air pressure of the
sub-daily frame in kPa.
-/

namespace Verif.Humidity

open Flt Np Verif.Physics

/-- disaggregate.py:383-403 `pressure` (kPa). -/
noncomputable def pressure (temp : Flt ℝ) (elev lr : ℝ) : Flt ℝ :=
  let tempCorr := fin Cnst.KELVIN + temp + fin (0.5 * elev * -lr)
  let ratio := fin (-(elev * Cnst.G_STD)) / (fin Cnst.R_DRY * tempCorr)
  fin Cnst.P_STD * exp ratio / fin Cnst.MBAR_PER_BAR

/-- disaggregate.py:406-424 `specific_humidity`. -/
noncomputable def specificHumidity (vp p : Flt ℝ) : Flt ℝ :=
  let mixRat := fin Cnst.EPS * vp / (p - vp)
  mixRat / (fin 1 + mixRat)

/-- disaggregate.py:427-447 `relative_humidity`. -/
noncomputable def relativeHumidity (vp temp : Flt ℝ) : Flt ℝ :=
  let rh := fin (Cnst.MAX_PERCENT * Cnst.MBAR_PER_BAR) * (vp / svp temp)
  if lt (fin Cnst.MAX_PERCENT) rh then fin Cnst.MAX_PERCENT else rh

/-- disaggregate.py:484-487: not above saturation. -/
noncomputable def capAtSaturation (vp temp : Flt ℝ) : Flt ℝ :=
  let vpSat := svp temp / fin Cnst.MBAR_PER_BAR
  if lt vpSat vp then vpSat else vp

/-- disaggregate.py:450-488 `vapor_pressure` (kPa); `interp1d` raises unless there are as many times as values. -/
noncomputable def vaporPressure (vpDaily : List (Flt ℝ)) (temp : List (Flt ℝ)) (tTmin : List ℝ) (nOut ts : Nat) :
    Except PyErr (List (Flt ℝ)) := do
  if tTmin.length ≠ vpDaily.length then throw PyErr.valueError
  let y := fun i => vpDaily.getD i nan / fin Cnst.MBAR_PER_BAR
  let vp := (List.range nOut).map fun (i : Nat) =>
    Interp.linear (fun j => tTmin.getD j 0) y vpDaily.length ((ts : ℝ) * (i : ℝ))
  if temp.length ≠ nOut then throw PyErr.valueError
  pure (List.zipWith capAtSaturation vp temp)

/-! ### Longwave -/

/-- disaggregate.py:527-562 clear-sky emissivity; `vp` in hPa, `t` in K. -/
noncomputable def emissivity : Lw.LwType → Flt ℝ → Flt ℝ → Flt ℝ
  | .tva, vp, _ => fin 0.74 + fin 0.0049 * vp
  | .anderson, vp, _ => fin 0.68 + fin 0.036 * pow vp (fin 0.5)
  | .brutsaert, vp, t => fin 1.24 * pow (vp / t) (fin 0.14285714)
  | .satterlund, vp, t => fin 1.08 * (fin 1 - exp (fin (-1) * pow vp (t / fin 2016)))
  | .idso, vp, t => fin 0.7 + fin 5.95e-5 * vp * exp (fin 1500 / t)
  | .prata, vp, t =>
    fin 1 - (fin 1 + fin 46.5 * vp / t) * exp (fin (-1) * sqrt (fin 1.2 + fin 3 * (fin 46.5 * vp / t)))

/-- disaggregate.py:563-572 emissivity of the clouded sky. -/
noncomputable def cloudy : Lw.Cloud → Flt ℝ → Flt ℝ → Flt ℝ
  | .tva, e, tskc => (fin 1 + fin 0.17 * (tskc * tskc)) * e
  | .deardorff, e, tskc => tskc + (fin 1 - tskc) * e

/-- disaggregate.py:573-582, one element: temperature in degrees Celsius, vapour pressure in kPa. -/
noncomputable def lwElem (ty : Lw.LwType) (cl : Lw.Cloud) (temp vp tskc : Flt ℝ) : Flt ℝ :=
  let t := temp + fin Cnst.KELVIN
  let vp := vp * fin 10
  cloudy cl (emissivity ty vp t) tskc * fin Cnst.STEFAN_B * (t * t * t * t)

/-- disaggregate.py:583-589: scaling to a provided daily mean. -/
noncomputable def scaleDaily (lw daily : List (Flt ℝ)) (ts : Nat) : Except PyErr (List (Flt ℝ)) := do
  if ts = 0 then throw PyErr.zeroDivision
  let tsPerDay := Cnst.HOURS_PER_DAY * Cnst.MIN_PER_HOUR / ts
  let days ← reshape lw tsPerDay
  if days.length ≠ daily.length then throw PyErr.valueError
  let factor := repeatEach (List.zipWith (· / ·) daily (days.map mean)) tsPerDay
  if factor.length ≠ lw.length then throw PyErr.valueError
  pure (List.zipWith (· * ·) lw factor)

/-- disaggregate.py:491-590 `longwave`. -/
noncomputable def longwave (temp vp tskc : List (Flt ℝ)) (lwType lwCloud : String) (ts : Nat)
    (daily : Option (List (Flt ℝ))) : Except PyErr (List (Flt ℝ)) := do
  let ty ← Lw.lwTypeOf lwType
  let cl ← Lw.cloudOf lwCloud
  if temp.length ≠ vp.length ∨ temp.length ≠ tskc.length then throw PyErr.valueError
  let lw := List.zipWith (fun (a : Flt ℝ × Flt ℝ) c => lwElem ty cl a.1 a.2 c) (temp.zip vp) tskc
  match daily with
  | none => pure lw
  | some d => scaleDaily lw d ts

end Verif.Humidity
