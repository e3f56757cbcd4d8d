import Verif.Np.Dict
import Verif.Model.Constants

/-!
# `metsim/units.py` and the unit bookkeeping of `metsim/metsim.py`
-/

namespace Verif.Units

variable {K : Type} [Field K] [LinearOrder K]

/-- A converter `lambda x, ts: ...` (elementwise; `ts` is `int(params['time_step'])`). -/
abbrev Conv (K : Type) := Flt K → Int → Flt K

/-- units.py:5, 10, ... `lambda x, ts: x` -/
def ident : Conv K := fun x _ => x
/-- units.py:6, 11 `lambda x, ts: x / (ts / cnst.MIN_PER_HOUR)` -/
def perHour : Conv K := fun x ts => x / (.fin (ts : K) / .fin (Cnst.MIN_PER_HOUR : K))
/-- units.py:7, 12 `lambda x, ts: x / (ts * cnst.SEC_PER_MIN)` -/
def perSecond : Conv K := fun x ts => x / (.fin (ts : K) * .fin (Cnst.SEC_PER_MIN : K))
/-- units.py:22, 26, 30 `lambda x, ts: x + 273.15` -/
def toKelvin : Conv K := fun x _ => x + .fin 273.15
/-- units.py `lambda x, ts: x / d` -/
def divBy (d : K) : Conv K := fun x _ => x / .fin d
/-- units.py `lambda x, ts: x * d` -/
def mulBy (d : K) : Conv K := fun x _ => x * .fin d

/-- units.py:3-59 `converters` -/
def converters : Dict String (Dict String (Conv K)) :=
  [("pet", [("mm timestep-1", ident), ("mm h-1", perHour), ("mm s-1", perSecond)]),
   ("prec", [("mm timestep-1", ident), ("mm h-1", perHour), ("mm s-1", perSecond)]),
   ("shortwave", [("W m-2", ident)]),
   ("longwave", [("W m-2", ident)]),
   ("t_max", [("C", ident), ("K", toKelvin)]),
   ("t_min", [("C", ident), ("K", toKelvin)]),
   ("temp", [("C", ident), ("K", toKelvin)]),
   ("vapor_pressure", [("Pa", ident), ("hPa", divBy 100), ("kPa", divBy 1000)]),
   ("air_pressure", [("kPa", ident), ("hPa", mulBy 100), ("Pa", mulBy 1000)]),
   ("tskc", [("fraction", ident), ("%", mulBy 100)]),
   ("rel_humid", [("%", ident), ("fraction", divBy 100)]),
   ("spec_humid", [("g g-1", ident)]),
   ("wind", [("m s-1", ident)]),
   ("daylength", [("s", ident)])]

/-- metsim.py:75-117 the `units` entries of the module-level `attrs`, as at import. -/
def importAttrs : Dict String String :=
  [("pet", "mm timestep-1"), ("prec", "mm timestep-1"), ("shortwave", "W m-2"),
   ("longwave", "W m-2"), ("t_max", "C"), ("t_min", "C"), ("temp", "C"),
   ("vapor_pressure", "Pa"), ("air_pressure", "kPa"), ("tskc", "fraction"),
   ("rel_humid", "%"), ("daylength", "s"), ("spec_humid", "g g-1"), ("wind", "m s-1")]

/-- metsim.py:126-127 the `units` entries of `available_outputs` (strings copied from `attrs` at
import; `available_outputs[k]['units']` is never changed to anything else). -/
def availableUnits : Dict String String := importAttrs

/-- metsim.py:128-129 -/
def defaultOutputs : List String :=
  ["temp", "prec", "shortwave", "longwave", "vapor_pressure", "rel_humid"]

/-- The `units` entry of one `out_vars[k]` dictionary (`none`: no such key). -/
abbrev OutUnits := Dict String (Option String)

/-- metsim.py:229-241 the body of the loop of `_update_unit_attrs` for one variable: returns the new
`attrs[k]['units']` table and the new `v['units']`. -/
def updateOne (attrs : Dict String String) (k : String) (v : Option String) :
    Except PyErr (Dict String String × String) :=
  match v with
  | some u => do
    let table ← (converters (K := ℚ)).get k
    match table.get? u with
    | some _ =>
      -- attrs[k]['units'] = v['units'] (KeyError if k is not in attrs)
      let _ ← attrs.get k
      pure (attrs.set k u, u)
    | none =>
      let d ← availableUnits.get k
      pure (attrs, d)
  | none => do
    let d ← availableUnits.get k
    pure (attrs, d)

/-- metsim.py:229-241 `_update_unit_attrs`: `attrs` is the module-level unit table, `outVars` the
(mutated) `out_vars` dictionary. -/
def updateUnitAttrs (attrs : Dict String String) :
    OutUnits → Except PyErr (Dict String String × Dict String String)
  | [] => .ok (attrs, [])
  | (k, v) :: rest => do
    let (attrs, u) ← updateOne attrs k v
    let (attrs, us) ← updateUnitAttrs attrs rest
    pure (attrs, (k, u) :: us)

/-- metsim.py:489-493 the conversion applied by `run_slice`:
`converters[varname][desired_units](df[varname].values, int(time_step))`. -/
def convert (var units : String) (x : Flt K) (ts : Int) : Except PyErr (Flt K) := do
  let table ← (converters (K := K)).get var
  let f ← table.get units
  pure (f x ts)

end Verif.Units
