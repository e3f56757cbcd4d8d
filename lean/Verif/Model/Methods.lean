import Verif.Model.Physics
import Verif.Model.LwOptions
import Verif.Np.Dict

/-!
# The daily estimation methods (`metsim/methods/mtclim.py`, `metsim/methods/passthrough.py`)

A data frame of `n` days is an ordered dictionary of columns; a column gives a value for each day
number (only days below `n` matter).
-/

namespace Verif.Methods

open Flt Physics

/-- A column of a daily data frame. -/
abbrev Col := Nat → Flt ℝ
/-- A daily data frame. -/
abbrev Frame := Dict String Col

/-- The parameters the daily methods use. -/
structure MParams where
  tdayCoef : ℝ
  swPrecThresh : ℝ
  rainScalar : ℝ
  lapseRate : ℝ
  tdewTol : ℝ
  elev : Flt ℝ
  lwCloud : String

/-- mtclim.py:83-104 `t_day`. -/
noncomputable def tDay (tMin tMax : Flt ℝ) (p : MParams) : Flt ℝ :=
  let mean := (tMin + tMax) / fin 2
  (tMax - mean) * fin p.tdayCoef + mean

/-- mtclim.py:107-133 `tfmax`. -/
noncomputable def tfmax (dtr smDtr prec : Flt ℝ) (p : MParams) : Flt ℝ :=
  let b := fin Cnst.B0 + fin Cnst.B1 * exp (fin (-Cnst.B2) * smDtr)
  let t := fin 1 - fin 0.9 * exp (-b * pow dtr (fin Cnst.C))
  if lt (fin p.swPrecThresh) prec then t * fin p.rainScalar else t

/-- mtclim.py:136-161 `pet`. -/
noncomputable def pet (shortwave tDay daylength : Col) (p : MParams) : Except PyErr Col := do
  let pa ← atmPres p.elev p.lapseRate
  pure fun i => calcPet (shortwave i) (tDay i) (daylength i) pa * fin Cnst.MM_PER_CM

/-- mtclim.py:187-188: the lower limit of 80 mm put (in place) on the seasonal precipitation. -/
noncomputable def clampPrec (seasonal : Flt ℝ) : Flt ℝ := if lt seasonal (fin 80) then fin 80 else seasonal

/-- mtclim.py:164-194 `tdew`. -/
noncomputable def tdew (pet tMin seasonal dtr : Flt ℝ) : Flt ℝ :=
  let ratio := pet / clampPrec seasonal
  (tMin + fin Cnst.KELVIN) *
    (fin (-0.127) + fin 1.121 * (fin 1.003 - fin 1.444 * ratio + fin 12.312 * (ratio * ratio)
      - fin 32.766 * (ratio * ratio * ratio)) + fin 0.0006 * dtr) - fin Cnst.KELVIN

/-- mtclim.py:197-214 `vapor_pressure`. -/
noncomputable def vaporPressure (tdew : Flt ℝ) : Flt ℝ := svp tdew

/-- mtclim.py:217-235 `shortwave`. -/
noncomputable def shortwave (tfmax vp ttMax potrad : Flt ℝ) : Flt ℝ :=
  potrad * max₂ (ttMax + fin Cnst.ABASE * vp) (fin 0.0001) * tfmax

/-- mtclim.py:238-256 `tskc`. -/
noncomputable def tskc (tfmax : Flt ℝ) (p : MParams) : Flt ℝ :=
  if Lw.upperS p.lwCloud = "CLOUD_DEARDORFF" then fin 1 - tfmax
  else sqrt ((fin 1 - tfmax) / fin 0.65)

/-- `np.sqrt(np.mean((a - b)**2)) > tol` over `n` days. -/
noncomputable def moved (n : Nat) (a b : Col) (tol : ℝ) : Bool :=
  lt (fin tol) (sqrt (mean ((List.range n).map fun i => (a i - b i) * (a i - b i))))

/-- The columns one round of the iteration reads. -/
structure Daily where
  tMin : Col
  dtr : Col
  tfmax : Col
  tDay : Col
  ttMax : Col
  potrad : Col
  daylength : Col
  seasonal : Col

/-- mtclim.py:55-61, 64-71: dewpoint from an assumed dewpoint (via vapour pressure, shortwave and
evapotranspiration). -/
noncomputable def nextTdew (d : Daily) (p : MParams) (old : Col) : Except PyErr Col := do
  let e ← pet (fun i => shortwave (d.tfmax i) (vaporPressure (old i)) (d.ttMax i) (d.potrad i))
    d.tDay d.daylength p
  pure fun i => tdew (e i) (d.tMin i) (d.seasonal i) (d.dtr i)

/-- mtclim.py:63-71, the `while` loop; `none` when `fuel` rounds were not enough. -/
noncomputable def iterate (n : Nat) (d : Daily) (p : MParams) : (fuel : Nat) → (old new : Col) →
    Except PyErr (Option Col)
  | 0, old, new => if moved n new old p.tdewTol then .ok none else .ok (some new)
  | fuel + 1, old, new =>
    if moved n new old p.tdewTol then do
      let next ← nextTdew d p new
      iterate n d p fuel new next
    else .ok (some new)

/-- mtclim.py:28-80 `run` on a frame of `n` days; `none` when the iteration is still moving after
`fuel` rounds. -/
noncomputable def mtclimRun (n : Nat) (fuel : Nat) (df : Frame) (p : MParams) :
    Except PyErr (Option Frame) := do
  let tMin ← df.get "t_min"
  let tMax ← df.get "t_max"
  let df := Dict.set df "t_day" fun i => tDay (tMin i) (tMax i) p
  let dtr ← df.get "dtr"
  let smDtr ← df.get "smoothed_dtr"
  let prec ← df.get "prec"
  let df := Dict.set df "tfmax" fun i => tfmax (dtr i) (smDtr i) (prec i) p
  let tf ← df.get "tfmax"
  let df := Dict.set df "tskc" fun i => tskc (tf i) p
  let tMin ← df.get "t_min"
  let tf ← df.get "tfmax"
  let ttMax ← df.get "tt_max"
  let potrad ← df.get "potrad"
  let td ← df.get "t_day"
  let daylength ← df.get "daylength"
  let seasonal ← df.get "seasonal_prec"
  let dtr ← df.get "dtr"
  let d : Daily := { tMin, dtr, tfmax := tf, tDay := td, ttMax, potrad, daylength, seasonal }
  let first ← nextTdew d p tMin
  -- `tdew` has put its lower limit into the column of the frame
  let df := Dict.set df "seasonal_prec" fun i => clampPrec (seasonal i)
  let res ← iterate n d p fuel tMin first
  match res with
  | none => pure none
  | some dew =>
    let df := Dict.set df "tdew" dew
    let df := Dict.set df "vapor_pressure" fun i => vaporPressure (dew i)
    let df := Dict.set df "shortwave" fun i =>
      shortwave (tf i) (vaporPressure (dew i)) (ttMax i) (potrad i)
    let sw ← df.get "shortwave"
    let e ← pet sw td daylength p
    pure (some (Dict.set df "pet" e))

/-- passthrough.py:28-46, one `if name not in df: df[name] = ...`. -/
noncomputable def addIfMissing (name : String) (value : Frame → Except PyErr Col) (df : Frame) :
    Except PyErr Frame :=
  match Dict.get? df name with
  | some _ => .ok df
  | none => do
    let c ← value df
    pure (Dict.set df name c)

/-- passthrough.py:41-43: the dewpoint; `tdew` puts its lower limit into the frame's column. -/
noncomputable def addTdew (df : Frame) : Except PyErr Frame :=
  match Dict.get? df "tdew" with
  | some _ => .ok df
  | none => do
    let e ← df.get "pet"
    let tMin ← df.get "t_min"
    let seasonal ← df.get "seasonal_prec"
    let dtr ← df.get "dtr"
    let df := Dict.set df "seasonal_prec" fun i => clampPrec (seasonal i)
    pure (Dict.set df "tdew" fun i => tdew (e i) (tMin i) (seasonal i) (dtr i))

/-- passthrough.py:28-46 `run`. -/
noncomputable def passthroughRun (df : Frame) (p : MParams) : Except PyErr Frame := do
  if (Dict.get? df "shortwave").isNone then throw PyErr.assertion
  let df ← addIfMissing "t_day" (fun df => do
    let tMin ← df.get "t_min"
    let tMax ← df.get "t_max"
    pure fun i => tDay (tMin i) (tMax i) p) df
  let df ← addIfMissing "tfmax" (fun df => do
    let dtr ← df.get "dtr"
    let smDtr ← df.get "smoothed_dtr"
    let prec ← df.get "prec"
    pure fun i => tfmax (dtr i) (smDtr i) (prec i) p) df
  let df ← addIfMissing "tskc" (fun df => do
    let tf ← df.get "tfmax"
    pure fun i => tskc (tf i) p) df
  let df ← addIfMissing "pet" (fun df => do
    let sw ← df.get "shortwave"
    let td ← df.get "t_day"
    let daylength ← df.get "daylength"
    pet sw td daylength p) df
  let df ← addTdew df
  addIfMissing "vapor_pressure" (fun df => do
    let dew ← df.get "tdew"
    pure fun i => vaporPressure (dew i)) df

/-- metsim.py:780-781, daily output: `df_base['shortwave'] *= df_base['daylength'] / 86400`. -/
noncomputable def dailyShortwave (df : Frame) : Except PyErr Frame := do
  let sw ← df.get "shortwave"
  let dl ← df.get "daylength"
  pure (Dict.set df "shortwave" fun i => sw i * (dl i / fin (Cnst.SEC_PER_DAY : ℝ)))

end Verif.Methods
