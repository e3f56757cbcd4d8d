import Verif.Model.Humidity
import Verif.Model.Disagg
import Verif.Model.Solar

/-!
# `disaggregate` (`metsim/disaggregate.py:34-130`)
-/

namespace Verif.Disaggregate

open Flt Np

/-- The daily frame.  Columns the code reads only if they are present are optional. -/
structure Daily where
  doy : List Nat
  shortwave : List (Flt ℝ)
  daylength : List (Flt ℝ)
  tMin : List (Flt ℝ)
  tMax : List (Flt ℝ)
  vaporPressure : List (Flt ℝ)
  tskc : List (Flt ℝ)
  prec : List (Flt ℝ)
  wind : Option (List (Flt ℝ))
  longwave : Option (List (Flt ℝ))
  tPk : Option (List (Flt ℝ))
  dur : Option (List (Flt ℝ))

/-- The parameters read by `disaggregate` and the functions it calls. -/
structure Par where
  ts : Nat
  lon : ℝ
  elev : ℝ
  lapseRate : ℝ
  thetaS : ℝ
  tmaxFraction : ℝ
  utcOffset : Bool
  periodEnding : Bool
  passthrough : Bool
  swAveraging : String
  precType : String
  lwType : String
  lwCloud : String

/-- The sub-daily frame; `time` in minutes since the first midnight. -/
structure Sub where
  time : List Nat
  shortwave : List (Flt ℝ)
  temp : List (Flt ℝ)
  vaporPressure : List (Flt ℝ)
  relHumid : List (Flt ℝ)
  airPressure : List (Flt ℝ)
  specHumid : List (Flt ℝ)
  tskc : List (Flt ℝ)
  longwave : List (Flt ℝ)
  prec : List (Flt ℝ)
  wind : Option (List (Flt ℝ))

/-- `df_disagg[name] = values`: `ValueError` unless there are as many values as rows. -/
def column (n : Nat) (xs : List (Flt ℝ)) : Except PyErr (List (Flt ℝ)) :=
  if xs.length = n then .ok xs else .error .valueError

/-- disaggregate.py:69-76: number of rows of the sub-daily frame. -/
def nDisagg (nDays ts : Nat) : Nat := nDays * Cnst.MIN_PER_DAY / ts

/-- disaggregate.py:79-80. -/
def daylengthOf (d : Daily) (p : Par) : List (Flt ℝ) :=
  if p.passthrough && p.swAveraging != "daylight" then d.daylength.map fun _ => fin 86400 else d.daylength

/-- disaggregate.py:125-126. -/
noncomputable def windOf (n : Nat) (lon : ℝ) (d : Daily) (p : Par) : Except PyErr (Option (List (Flt ℝ))) :=
  match d.wind with
  | none => .ok none
  | some w => do
    let w ← Disagg.wind w p.ts p.utcOffset lon
    let w ← column n w
    pure (some w)

/-- disaggregate.py:34-130 `disaggregate`. -/
noncomputable def disaggregate (d : Daily) (p : Par) (geom : List Solar.DayGeom) (tBegin tEnd : Option (List (Flt ℝ))) :
    Except PyErr Sub := do
  let lon := Disagg.remainder360 p.lon
  if p.ts = 0 then throw PyErr.valueError
  let n := nDisagg d.doy.length p.ts
  let sw ← Disagg.shortwave d.shortwave (daylengthOf d p) d.doy
    (geom.map fun g => (List.range Disagg.slotsPerDay).map g.fract) p.ts p.utcOffset lon
  let sw ← column n sw
  let times ← Disagg.setMinMaxHour ⟨p.ts, p.utcOffset, lon, p.thetaS, p.tmaxFraction⟩ (geom.map (·.fract))
    (d.doy.map (· - 1))
  let temp ← Interp.temp d.tMin d.tMax n times p.ts tBegin tEnd
  let temp := temp.map fin
  let vp ← Humidity.vaporPressure d.vaporPressure temp (times.map (·.1)) n p.ts
  let vp := fillBoth vp
  let rh := List.zipWith Humidity.relativeHumidity vp temp
  let ap := temp.map fun t => Humidity.pressure t p.elev p.lapseRate
  let sh := List.zipWith Humidity.specificHumidity vp ap
  let cloud ← Disagg.tskc d.tskc p.ts p.utcOffset lon
  let cloud ← column n cloud
  let lw ← Humidity.longwave temp vp cloud p.lwType p.lwCloud p.ts d.longwave
  let pr ← Disagg.prec d.prec d.tMin p.ts p.precType p.utcOffset lon d.tPk d.dur
  let pr ← column n pr
  let wind ← windOf n lon d p
  let time := (List.range n).map fun (i : Nat) => p.ts * i + if p.periodEnding then p.ts else 0
  pure { time := time, shortwave := fillBoth sw, temp := fillBoth temp, vaporPressure := fillBoth vp,
         relHumid := fillBoth rh, airPressure := fillBoth ap, specHumid := fillBoth sh, tskc := fillBoth cloud,
         longwave := fillBoth lw, prec := fillBoth pr, wind := wind.map fillBoth }

end Verif.Disaggregate
