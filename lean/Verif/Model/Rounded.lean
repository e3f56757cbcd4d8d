import Verif.Np.Basic
import Verif.Np.Fp
import Verif.Np.Dict
import Verif.Model.Constants

/-!
# Disaggregation in floating point

The parts of `disaggregate.py` whose answer depends on the rounding of `float64`.  The rest of the model computes exactly.
-/

namespace Verif.Rounded
open Verif Verif.Np Verif.Fp

section
variable {K : Type} [Field K] [LinearOrder K] [IsStrictOrderedRing K] [FloorRing K]

/-- disaggregate.py:349, 376, 611 (`per` = `cnst.MIN_PER_DAY`) and 655 (`per` = slots of 30 s in a day):
`int((params["lon"] / cnst.DEG_PER_REV) * per)` -/
def offset (p : Nat) (per : Nat) (lon : K) : Int := trunc (rnd p (rnd p (lon / Cnst.DEG_PER_REV) * (per : K)))

/-- disaggregate.py:186 `int(((lon - theta_s) / cnst.DEG_PER_REV) * cnst.MIN_PER_DAY)` -/
def offsetTheta (p : Nat) (lon theta : K) : Int := offset p Cnst.MIN_PER_DAY (rnd p (lon - theta))

/-- A way of adding up: the additions. -/
inductive Order
  | leaf
  | node (l r : Order)

namespace Order

/-- How many entries it adds. -/
def size : Order → Nat
  | leaf => 1
  | node l r => l.size + r.size

/-- The largest number of additions an entry goes through. -/
def depth : Order → Nat
  | leaf => 0
  | node l r => max l.depth r.depth + 1

/-- The sum, every addition rounded. -/
def sum (p : Nat) : Order → List K → K
  | leaf, xs => xs.headD 0
  | node l r, xs => rnd p (l.sum p (xs.take l.size) + r.sum p (xs.drop l.size))

end Order

/-- How `np.sum` adds the entries of a row: which additions, and which entry goes where.  numpy has eight partial sums, of every eighth entry
each, and halves long rows; nothing of it is fixed here. -/
structure Adding (n : Nat) where
  tree : Order
  pick : List Nat
  size_eq : tree.size = n
  perm : pick.Perm (List.range n)

/-- The entries as they are added. -/
def Adding.arrange {n : Nat} (o : Adding n) (xs : List K) : List K := o.pick.map fun i => xs.getD i 0

def Adding.sum {n : Nat} (p : Nat) (o : Adding n) (xs : List K) : K := o.tree.sum p (o.arrange xs)

/-- One entry after the other. -/
def Order.comb : Nat → Order
  | 0 => .leaf
  | n + 1 => .node (comb n) .leaf

/-- numpy's additions of `n` entries, 8 ≤ n < 128 (`pairwise_sum` of `loops_utils.h`): eight partial sums, added in pairs, then the entries
left over. -/
def Order.eight (n : Nat) : Order :=
  let r := Order.comb (n / 8 - 1)
  let four := Order.node (.node r r) (.node r r)
  (List.range (n % 8)).foldl (fun o _ => .node o .leaf) (.node four four)

/-- The entries they take. -/
def Order.eightPick (n : Nat) : List Nat :=
  ((List.range 8).flatMap fun k => (List.range (n / 8)).map fun i => k + 8 * i) ++ (List.range (n % 8)).map fun i => n - n % 8 + i

/-- disaggregate.py:331-352 `prec` with `prec_type = UNIFORM` -/
def precUniform (p : Nat) {ts : Nat} (order : Adding ts) (xs : List K) (utc : Bool) (lon : K) : Except PyErr (List K) := do
  let minutes := repeatEach (xs.map fun x => rnd p (x / (Cnst.MIN_PER_DAY : K))) Cnst.MIN_PER_DAY
  let minutes := if utc then roll minutes (-offset 53 Cnst.MIN_PER_DAY lon) else minutes
  let steps ← reshape minutes ts
  pure (steps.map fun s => order.sum p s)

/-- disaggregate.py:374-380 `wind`, 609-615 `tskc` -/
def means (p : Nat) {ts : Nat} (order : Adding ts) (xs : List K) (utc : Bool) (lon : K) : Except PyErr (List K) := do
  let sd := repeatEach xs Cnst.MIN_PER_DAY
  let sd := if utc then roll sd (-offset 53 Cnst.MIN_PER_DAY lon) else sd
  let steps ← reshape sd ts
  pure (steps.map fun s => rnd p (order.sum p s / (ts : K)))

/-- `np.bincount` adds the weights of a bin to zero, one after the other. -/
def binSum (p : Nat) (xs : List K) : K := xs.foldl (fun acc x => rnd p (acc + x)) 0

/-- disaggregate.py:677 `np.bincount(ts_id, weights=rad * tmp_rad[weight_slice])` -/
def shortwaveDay (p tsPerDay chunk : Nat) (rad weights : List K) : Except PyErr (List K) :=
  if rad.length ≠ weights.length then .error .valueError
  else
    let ids := repeatEach (List.range tsPerDay) chunk
    let products := List.zipWith (fun a b => rnd p (a * b)) rad weights
    if ids.length ≠ products.length then .error .valueError
    else .ok ((List.range tsPerDay).map fun b => binSum p (((ids.zip products).filter fun q => q.1 == b).map (·.2)))

/-- disaggregate.py:642-680 `shortwave` -/
def shortwave (p : Nat) (sw daylength : List K) (doy : List Nat) (table : List (List K)) (ts : Nat) (utc : Bool) (lon : K) : Except PyErr (List K) := do
  let tsHourly : K := rnd p ((ts : K) / (Cnst.MIN_PER_HOUR : K))
  let per : K := rnd p ((Cnst.SEC_PER_HOUR : K) * tsHourly)
  let tmp := List.zipWith (fun s d => rnd p (rnd p (s * d) / per)) sw daylength
  let nDays := tmp.length
  if ts = 0 then throw PyErr.zeroDivision
  let tsPerDay := Cnst.HOURS_PER_DAY * Cnst.MIN_PER_HOUR / ts
  let slots := Cnst.SEC_PER_DAY / Cnst.SW_RAD_DT
  let tmp := repeatEach tmp slots
  let off := offset 53 slots lon
  let flat := if utc then roll table.flatten (-off) else table.flatten
  let tmp := if utc then roll tmp (-off) else tmp
  let chunk := ts * (Cnst.SEC_PER_MIN / Cnst.SW_RAD_DT)
  let days ← (List.range nDays).mapM fun day =>
    let d := doy.getD day 1
    shortwaveDay p tsPerDay chunk ((flat.drop ((d - 1) * slots)).take slots) ((tmp.drop (day * slots)).take slots)
  pure days.flatten

/-- physics.py:260, 267, 270: the potential radiation of the slots of a day, added up in the order of the day, and each divided by the sum. -/
def fractions (p : Nat) (potential : List K) : List K := potential.map fun x => rnd p (x / binSum p potential)

/-- disaggregate.py:445-446 `relative_humidity`; `svp` is the saturation vapour pressure as computed. -/
def relHumid (p : Nat) (vp svp : K) : K :=
  let rh := rnd p (rnd p (Cnst.MAX_PERCENT * Cnst.MBAR_PER_BAR) * rnd p (vp / svp))
  if Cnst.MAX_PERCENT < rh then Cnst.MAX_PERCENT else rh

/-- disaggregate.py:423-424 `specific_humidity` -/
def specHumid (p : Nat) (vp air : K) : K :=
  let mix := rnd p (rnd p (rnd p Cnst.EPS * vp) / rnd p (air - vp))
  rnd p (mix / rnd p (1 + mix))

/-- units.py:6, 11 -/
def perHour (p : Nat) (x : K) (ts : Int) : K := rnd p (x / rnd p ((ts : K) / (Cnst.MIN_PER_HOUR : K)))
/-- units.py:7, 12; the product is one of whole numbers -/
def perSecond (p : Nat) (x : K) (ts : Int) : K := rnd p (x / ((ts * Cnst.SEC_PER_MIN : Int) : K))
/-- units.py:22, 26, 30 -/
def toKelvin (p : Nat) (x : K) (_ : Int) : K := rnd p (x + rnd p 273.15)
def divBy (p : Nat) (d : K) (x : K) (_ : Int) : K := rnd p (x / d)
def mulBy (p : Nat) (d : K) (x : K) (_ : Int) : K := rnd p (x * d)

/-- units.py:3-59 `converters` -/
def converters (p : Nat) : Dict String (Dict String (K → Int → K)) :=
  [("pet", [("mm timestep-1", fun x _ => x), ("mm h-1", perHour p), ("mm s-1", perSecond p)]),
   ("prec", [("mm timestep-1", fun x _ => x), ("mm h-1", perHour p), ("mm s-1", perSecond p)]),
   ("shortwave", [("W m-2", fun x _ => x)]),
   ("longwave", [("W m-2", fun x _ => x)]),
   ("t_max", [("C", fun x _ => x), ("K", toKelvin p)]),
   ("t_min", [("C", fun x _ => x), ("K", toKelvin p)]),
   ("temp", [("C", fun x _ => x), ("K", toKelvin p)]),
   ("vapor_pressure", [("Pa", fun x _ => x), ("hPa", divBy p 100), ("kPa", divBy p 1000)]),
   ("air_pressure", [("kPa", fun x _ => x), ("hPa", mulBy p 100), ("Pa", mulBy p 1000)]),
   ("tskc", [("fraction", fun x _ => x), ("%", mulBy p 100)]),
   ("rel_humid", [("%", fun x _ => x), ("fraction", divBy p 100)]),
   ("spec_humid", [("g g-1", fun x _ => x)]),
   ("wind", [("m s-1", fun x _ => x)]),
   ("daylength", [("s", fun x _ => x)])]

/-- metsim.py:489-493 -/
def convert (p : Nat) (var units : String) (x : K) (ts : Int) : Except PyErr K := do
  let table ← (converters (K := K) p).get var
  let f ← table.get units
  pure (f x ts)

/-- metsim.py:154, 382 the values of a variable of the output file, `q = 24` for `out_precision = f4`, 53 for `f8` -/
def written (q : Nat) (xs : List K) : List K := xs.map (rnd q)

end

end Verif.Rounded
