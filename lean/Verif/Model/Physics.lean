import Verif.Np.Real
import Verif.Model.Constants

/-!
# `metsim/physics.py` (all but `solar_geom`)

Elementwise: one day.
-/

namespace Verif.Physics

open Flt

/-- physics.py:124-152 `svp` (Pa). -/
noncomputable def svp (t : Flt ℝ) (a : ℝ := 0.61078) (b : ℝ := 17.269) (c : ℝ := 237.3) : Flt ℝ :=
  let s := fin a * exp ((fin b * t) / (fin c + t))
  let s := if lt t (fin 0) then s * (fin 1 + fin 0.00972 * t + fin 0.000042 * (t * t)) else s
  s * fin 1000

/-- physics.py:155-174 `svp_slope` (Pa/K). -/
noncomputable def svpSlope (t : Flt ℝ) (a : ℝ := 0.61078) (b : ℝ := 17.269) (c : ℝ := 237.3) : Flt ℝ :=
  fin (b * c) / ((fin c + t) * (fin c + t)) * svp t a b c

/-- physics.py:99-121 `atm_pres` (Pa); a zero lapse rate is a division of Python floats by zero. -/
noncomputable def atmPres (elev : Flt ℝ) (lr : ℝ) : Except PyErr (Flt ℝ) :=
  let t1 := fin 1 - (fin lr * elev) / fin Cnst.T_STD
  if lr = 0 then .error .zeroDivision
  else .ok (fin Cnst.P_STD * pow t1 (fin (Cnst.G_STD / (lr * (Cnst.R / Cnst.MA)))))

/-- physics.py:28-96 `calc_pet` (cm/day). -/
noncomputable def calcPet (rad ta dayl pa : Flt ℝ) (dt : ℝ := 0.2) : Flt ℝ :=
  let rnet := rad * fin 0.72
  let lhvap := fin 2.5023e6 - fin 2430.54 * ta
  let gamma := fin Cnst.CP * pa / (lhvap * fin Cnst.EPS)
  let t1 := ta + fin dt
  let t2 := ta - fin dt
  let pvs1 := svp t1
  let pvs2 := svp t2
  let s := (pvs1 - pvs2) / (t1 - t2)
  let pet := (fin 1.26 * (s / (s + gamma)) * rnet * dayl) / lhvap
  pet / fin 10

end Verif.Physics
