import Verif.Np.Real
import Verif.Model.Constants
import Mathlib.Analysis.Real.Pi.Bounds

/-!
# `metsim/physics.py`: `solar_geom`

The routine is compiled by numba in nopython mode, where a division of scalars by zero raises
`ZeroDivisionError`.  Elevation, latitude and lapse rate are finite.  `tiny_rad_fract[i]` is a function of
the slot number (2880 slots of 30 s).
-/

namespace Verif.Solar

open Flt

/-- One row of the tables `solar_geom` returns. -/
structure DayGeom where
  fract : Nat → ℝ
  daylength : ℝ
  potrad : ℝ
  ttMax : Flt ℝ

/-- physics.py:197-199 optical air mass by degree. -/
noncomputable def optam : List ℝ :=
  [2.90, 3.05, 3.21, 3.39, 3.69, 3.82, 4.07, 4.37, 4.72, 5.12, 5.60, 6.18, 6.88, 7.77,
   8.90, 10.39, 12.44, 15.36, 19.79, 26.96, 30.00]

/-- physics.py:218: `dt`, as a number. -/
noncomputable def dt : ℝ := (Cnst.SW_RAD_DT : ℝ)
/-- physics.py:219 angular step. -/
noncomputable def dh : ℝ := dt / Cnst.SEC_PER_RAD
/-- physics.py:222 `tiny_step_per_day`. -/
def slots : Nat := Cnst.SEC_PER_DAY / Cnst.SW_RAD_DT

/-- physics.py:206-208 transmittance of the clear dry atmosphere at the elevation. -/
noncomputable def trans (elev lr : ℝ) : Except PyErr (Flt ℝ) :=
  let t1 := 1 - lr * elev / Cnst.T_STD
  if lr = 0 then .error .zeroDivision
  else
    let t2 := Cnst.G_STD / (lr * (Cnst.R / Cnst.MA))
    .ok (pow (fin Cnst.TBASE) (pow (fin t1) (fin t2)))

/-- physics.py:211-213 latitude in radians, limited to the poles. -/
noncomputable def latRad (lat : ℝ) : ℝ :=
  min (max (lat * Cnst.RAD_PER_DEG) (-Real.pi / 2)) (Real.pi / 2)

/-- physics.py:226 declination of day `i`. -/
noncomputable def decl (i : Nat) : ℝ := Cnst.MIN_DECL * Real.cos (((i : ℝ) + Cnst.DAYS_OFF) * Cnst.RAD_PER_DAY)

/-- physics.py:238-239 radiation of one slot perpendicular to the beam (J). -/
noncomputable def beam (i : Nat) : ℝ :=
  (1368 + 45.5 * Real.sin (2 * Real.pi * (i : ℝ) / Cnst.DAYS_PER_YEAR + 1.7)) * dt

/-- physics.py:233-234 `hss`: half the daylight, as an angle. -/
noncomputable def halfDay (coseg sineg : ℝ) : ℝ := Real.arccos (min (max (-sineg / coseg) (-1)) 1)

/-- physics.py:243 `np.arange(-hss, hss, dh)`. -/
noncomputable def hours (hss : ℝ) : List ℝ :=
  (List.range ⌈(hss - -hss) / dh⌉.toNat).map fun (k : Nat) => -hss + (k : ℝ) * dh

/-- physics.py:246 cosine of the zenith angle. -/
noncomputable def cza (coseg sineg h : ℝ) : ℝ := coseg * Real.cos h + sineg

/-- physics.py:253-257 optical air mass. -/
noncomputable def airmass (z : ℝ) : ℝ :=
  let am := 1 / (z + 0.0000001)
  if 2.9 < am then
    let ami := min (max (Np.trunc (Real.arccos z / Cnst.RAD_PER_DEG) - 69) 0) 20
    optam.getD ami.toNat 0
  else am

/-- physics.py:264-266 the slot of an hour angle. -/
noncomputable def slot (h : ℝ) : Nat :=
  (Np.trunc (min (max ((12 * (Cnst.SEC_PER_HOUR : ℝ) + h * Cnst.SEC_PER_RAD) / dt) 0) ((slots : ℝ) - 1))).toNat

/-- Loop variables of physics.py:240-267. -/
structure Acc where
  sumTrans : Flt ℝ
  sumFlat : ℝ
  fract : Nat → ℝ

/-- physics.py:244-267, the body of the inner loop. -/
noncomputable def step (tr : Flt ℝ) (b coseg sineg : ℝ) (acc : Acc) (h : ℝ) : Acc :=
  let z := cza coseg sineg h
  if 0 < z then
    let flat := b * z
    let am := airmass z
    { sumTrans := acc.sumTrans + pow tr (fin am) * fin flat
      sumFlat := acc.sumFlat + flat
      fract := Function.update acc.fract (slot h) flat }
  else
    { acc with fract := Function.update acc.fract (slot h) 0 }

/-- physics.py:225-280, one day. -/
noncomputable def solarDay (tr : Flt ℝ) (lat : ℝ) (i : Nat) : Except PyErr DayGeom :=
  let coseg := Real.cos lat * Real.cos (decl i)
  let sineg := Real.sin lat * Real.sin (decl i)
  if coseg = 0 then .error .zeroDivision
  else
    let hss := halfDay coseg sineg
    let daylength := min (2 * hss * Cnst.SEC_PER_RAD) (Cnst.SEC_PER_DAY : ℝ)
    let acc := (hours hss).foldl (step tr (beam i) coseg sineg) ⟨fin 0, 0, fun _ => 0⟩
    let fract := if daylength ≠ 0 ∧ 0 < acc.sumFlat then fun j => acc.fract j / acc.sumFlat else acc.fract
    if daylength ≠ 0 then
      if acc.sumFlat = 0 then .error .zeroDivision
      else .ok { fract, daylength, potrad := acc.sumFlat / daylength, ttMax := acc.sumTrans / fin acc.sumFlat }
    else .ok { fract, daylength, potrad := 0, ttMax := fin 0 }

/-- physics.py:177-285 `solar_geom`: 365 days, and a last row that repeats the one before. -/
noncomputable def solarGeom (elev lat lr : ℝ) : Except PyErr (List DayGeom) := do
  let tr ← trans elev lr
  let rows ← (List.range 365).mapM (solarDay tr (latRad lat))
  pure (rows ++ rows.getLast?.toList)

end Verif.Solar
