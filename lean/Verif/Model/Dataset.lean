import Verif.Model.Forcing
import Verif.Model.Run
import Verif.Model.Params
import Verif.Np.Calendar

/-!
# Labelled data sets and their readers (`metsim/io.py:167-211, 264-321`, `metsim/metsim.py:287-310`)

`xarray` as far as MetSim uses it.  An array is addressed by the positions on its dimensions, by name: the order of its
axes plays no role.  A dimension may have a coordinate, a list of labels.  Times are in days since 1970-01-01 (fractions
allowed), on pandas' calendar.  Coordinates that do not belong to a dimension of their own name are kept with the
variables.
-/

namespace Verif.Dataset

open Forcing

/-- A position on every dimension, by name. -/
abbrev Index := String → Nat

/-- `ix` with position `i` on dimension `d`. -/
def Index.set (ix : Index) (d : String) (i : Nat) : Index := fun d' => if d' = d then i else ix d'

/-- An array. -/
structure Arr (K : Type) where
  dims : List String
  val : Index → Flt K

/-- A data set: the sizes of its dimensions, their labels, its variables. -/
structure DS (K : Type) where
  sizes : Dict String Nat
  coords : Dict String (List ℚ)
  vars : Dict String (Arr K)

variable {K : Type}

/-- `ds[d]` for a dimension: its labels; a dimension without coordinate counts from zero. -/
def DS.labels (ds : DS K) (d : String) : List ℚ :=
  match ds.coords.get? d with
  | some c => c
  | none => (List.range ((ds.sizes.get? d).getD 0)).map fun (i : Nat) => (i : ℚ)

/-- An array of which only the positions `ps` of dimension `d` are kept, in that order. -/
def Arr.take (a : Arr K) (d : String) (ps : List Nat) : Arr K :=
  ⟨a.dims, fun ix => a.val (ix.set d (ps.getD (ix d) 0))⟩

/-- `ds.isel({d: ps})`. -/
def DS.isel (ds : DS K) (d : String) (ps : List Nat) : DS K where
  sizes := ds.sizes.map fun q => (q.1, if q.1 = d then ps.length else q.2)
  coords := ds.coords.map fun q => (q.1, if q.1 = d then ps.map (q.2.getD · 0) else q.2)
  vars := ds.vars.map fun q => (q.1, q.2.take d ps)

/-- `ds[names]`: the named variables and the coordinates of their dimensions.  The name of a dimension without
coordinate stands for the positions along it, which become its coordinate. -/
def DS.subset (ds : DS K) (names : List String) : Except PyErr (DS K) :=
  if names.all fun n => (ds.vars.get? n).isSome || (ds.sizes.get? n).isSome then
    let vars := names.filterMap fun n => (ds.vars.get? n).map fun a => (n, a)
    let needed := vars.flatMap (fun q => q.2.dims) ++ names.filter fun n => (ds.sizes.get? n).isSome
    let sizes := ds.sizes.filter fun q => decide (q.1 ∈ needed)
    .ok { sizes,
          coords := (sizes.map Prod.fst).filterMap fun d =>
            match ds.coords.get? d with
            | some c => some (d, c)
            | none => if d ∈ names then some (d, ds.labels d) else none,
          vars }
  else .error .keyError

/-- The new name of `n`. -/
def newName (names : Dict String String) (n : String) : String := (names.get? n).getD n

/-- `ds.rename(names)`: variables, coordinates and dimensions alike; two of them must not end up with one name. -/
def DS.rename (ds : DS K) (names : Dict String String) : Except PyErr (DS K) :=
  if names.all (fun q => (ds.vars.get? q.1).isSome || (ds.sizes.get? q.1).isSome) &&
      decide (((ds.vars.map fun q => newName names q.1) ++ ds.sizes.map fun q => newName names q.1).Nodup) then
    .ok { sizes := ds.sizes.map fun q => (newName names q.1, q.2),
          coords := ds.coords.map fun q => (newName names q.1, q.2),
          vars := ds.vars.map fun q =>
            (newName names q.1, ⟨q.2.dims.map (newName names), fun ix => q.2.val fun d => ix (newName names d)⟩) }
  else .error .valueError

/-- The positions of labels on a dimension, `.sel({d: labels})`: by the coordinate, which must not contain a label twice;
without one the labels are positions themselves. -/
def DS.find (ds : DS K) (d : String) (labels : List ℚ) : Except PyErr (List Nat) :=
  match ds.coords.get? d with
  | some c =>
    if c.Nodup then
      labels.mapM fun x => if x ∈ c then Except.ok (c.idxOf x) else Except.error PyErr.keyError
    else .error .valueError
  | none =>
    let n := (ds.sizes.get? d).getD 0
    labels.mapM fun (x : ℚ) =>
      if x.den = 1 ∧ 0 ≤ x ∧ x < (n : ℚ) then Except.ok x.num.toNat
      else if x.den = 1 ∧ -(n : ℚ) ≤ x ∧ x < 0 then Except.ok (x.num + n).toNat
      else Except.error PyErr.indexError

/-- `ds.sel({d: labels})`; a dimension without coordinate receives the labels as its coordinate. -/
def DS.selLabels (ds : DS K) (d : String) (labels : List ℚ) : Except PyErr (DS K) := do
  let ps ← ds.find d labels
  let r := ds.isel d ps
  pure { r with coords := r.coords.set d labels }

/-- io.py:279-282: selection of the domain's labels on the dimensions both have. -/
def DS.selDomain (ds dom : DS K) : Except PyErr (DS K) :=
  ((dom.sizes.map Prod.fst).filter fun d => (ds.sizes.get? d).isSome).foldlM
    (fun ds d => ds.selLabels d (dom.labels d)) ds

/-- io.py:283-290: dimensions without a coordinate are numbered. -/
def DS.number (ds : DS K) : DS K :=
  { ds with coords := ds.coords ++ (ds.sizes.filter fun q => (ds.coords.get? q.1).isNone).map fun q =>
      (q.1, ds.labels q.1) }

/-- io.py:292-296: time stamps become days. -/
def DS.wholeDays (ds : DS K) : DS K :=
  { ds with coords := ds.coords.map fun q =>
      (q.1, if q.1 = "time" then q.2.map fun t => ((normaliseDay (86400 * t) : Int) : ℚ) else q.2) }

/-- The positions selected by `slice(start, stop)` on a time axis: bounds included; on an axis in no order the bounds
must be labels themselves. -/
def between (c : List ℚ) (start stop : Option ℚ) : Except PyErr (List Nat) :=
  let inside (lo hi : Option ℚ) : List Nat := (List.range c.length).filter fun i =>
    (match lo with | some a => decide (a ≤ c.getD i 0) | none => true) &&
    (match hi with | some b => decide (c.getD i 0 ≤ b) | none => true)
  if c.Pairwise (· ≤ ·) then .ok (inside start stop)
  else if c.Pairwise (· ≥ ·) then .ok (inside stop start)
  else do
    let pos (x : Option ℚ) (dflt : Nat) : Except PyErr Nat := match x with
      | none => .ok dflt
      | some a => if c.count a = 1 then .ok (c.idxOf a) else .error .keyError
    let i ← pos start 0
    let j ← pos stop (c.length - 1)
    pure ((List.range c.length).filter fun k => decide (i ≤ k ∧ k ≤ j))

/-- The day number of 1970-01-01. -/
def epoch : Int := 719163

/-- A bound of the simulated period as the time axis understands it: a day, or text that pandas reads as a period
(first and last day), as in `'2000-01'`; other text is an error. -/
def bound (period : String → Option (Int × Int)) (last : Bool) : Params.PVal → Except PyErr (Option ℚ)
  | .none => .ok none
  | .day d => .ok (some (d - epoch : Int))
  | .date d => .ok (some (d - epoch : Int))
  | .str s => match period s with
    | some (a, b) => .ok (some ((if last then b else a) - epoch : Int))
    | none => .error .typeError
  | _ => .error .typeError

/-- io.py:298-301, 316-319: the days from `start` to `stop`, with their day of the year. -/
def DS.selPeriod [RatCast K] (ds : DS K) (start stop : Option ℚ) : Except PyErr (DS K) :=
  match ds.coords.get? "time" with
  | none => .error .keyError
  | some c => do
    let ps ← between c start stop
    let r := ds.isel "time" ps
    pure { r with vars := r.vars.set "day_of_year" ⟨["time"], fun ix =>
      .fin (((Cal.dayOfYear (⌊(r.labels "time").getD (ix "time") 0⌋ + epoch) : Int) : ℚ) : K)⟩ }

/-- io.py:264-303 `read_netcdf`, after the file has been opened. -/
def readNetcdf [RatCast K] (file : DS K) (domain : Option (DS K)) (start stop : Except PyErr (Option ℚ))
    (varDict : Option (Dict String String)) : Except PyErr (DS K) := do
  let ds ← match varDict with
    | some names => do
      let ds ← file.subset (names.map Prod.fst)
      ds.rename names
    | none => pure file
  let ds ← match domain with
    | some dom => ds.selDomain dom
    | none => pure ds.number
  let ds := ds.wholeDays
  match start, stop with
  | .ok none, .ok none => pure ds
  | _, _ => do
    let a ← start
    let b ← stop
    ds.selPeriod a b

/-- io.py:306-321 `read_data`: the domain is not looked at, time stamps stay what they are. -/
def readData [RatCast K] (data : DS K) (start stop : Except PyErr (Option ℚ)) (varDict : Option (Dict String String)) :
    Except PyErr (DS K) := do
  let ds ← match varDict with
    | some names => do
      let ds ← data.rename names
      ds.subset (names.map Prod.snd)
    | none => data.subset (data.vars.map Prod.fst)
  match start, stop with
  | .ok none, _ => pure ds
  | _, .ok none => pure ds
  | _, _ => do
    let a ← start
    let b ← stop
    ds.selPeriod a b

/-- io.py:185-189 `read_domain` and metsim.py:287-291 `MetSim.domain`: the domain file cut down to a chunk. -/
def readDomain [RatCast K] (file : DS K) (varDict : Option (Dict String String)) (chunk : Dict String Chunk.Slice) :
    Except PyErr (DS K) := do
  let dom ← readNetcdf file none (.ok none) (.ok none) varDict
  chunk.foldlM (fun dom q => match dom.sizes.get? q.1 with
    | some n => .ok (dom.isel q.1 (Run.sliceIdx q.2 n))
    | none => .error .valueError) dom

/-- `ds[name] = dom[name]` (metsim.py:297-299): the values are brought onto the labels of `ds`, missing where the domain
has no such label; the labels of `ds` themselves never change.  (A dimension `ds` does not have comes along with its
positions; that `ds` then has it too is not recorded.) -/
def DS.assignFrom (ds dom : DS K) (name : String) : Except PyErr (DS K) :=
  match dom.vars.get? name with
  | some a =>
    let shared := a.dims.filter fun d => (ds.sizes.get? d).isSome
    .ok { ds with vars := ds.vars.set name ⟨a.dims, fun ix =>
      if shared.all fun d => decide (((ds.labels d).getD (ix d) 0) ∈ dom.labels d) then
        a.val fun d => if d ∈ shared then (dom.labels d).idxOf ((ds.labels d).getD (ix d) 0) else ix d
      else .nan⟩ }
  | none => if (dom.sizes.get? name).isSome then .ok ds else .error .keyError

/-- How the forcing is given. -/
inductive Format where
  | netcdf | data
  deriving DecidableEq, Repr

/-- io.py:201-210 `process_nc` and metsim.py:293-299: the forcing of a (sub-)domain. -/
def metData [RatCast K] (fmt : Format) (forcing dom : DS K) (start stop : Except PyErr (Option ℚ))
    (varDict : Option (Dict String String)) : Except PyErr (DS K) := do
  let ds ← match fmt with
    | .netcdf => readNetcdf forcing (some dom) start stop varDict
    | .data => readData forcing start stop varDict
  let ds ← ds.assignFrom dom "elev"
  let ds ← ds.assignFrom dom "lat"
  ds.assignFrom dom "lon"

/-- metsim.py:293-310 `met_data` as it is first read: with the period as configured, which is then resolved and checked
against the days read (`_validate_force_times`).  `period` is pandas' reading of dates: the first and the last day. -/
def loadMet [RatCast K] (fmt : Format) (forcing dom : DS K) (varDict : Option (Dict String String))
    (period : String → Option (Int × Int)) (encCalendar : Option String) (params : Params.Params) :
    Except PyErr (DS K × Params.Params) := do
  let a ← params.get "start"
  let b ← params.get "stop"
  let met ← metData fmt forcing dom (bound period false a) (bound period true b) varDict
  let params ← Params.validateForceTimes
    ⟨(met.labels "time").map fun t => ⌊t⌋ + epoch, encCalendar, fun s => (period s).map Prod.fst⟩ params
  pure (met, params)

/-- The position a cell has on the dimensions of the mask, `ds.isel(**locs)`; the first on any other. -/
def cellIndex (dims : List String) (c : Run.Cell) : Index := fun d => c.getD (dims.idxOf d) 0

/-- `ds.isel(**locs)[name]` along the time axis. -/
def DS.series (ds : DS K) (dims : List String) (c : Run.Cell) (name : String) : Except PyErr (List (Flt K)) := do
  let a ← ds.vars.get name
  pure ((List.range (ds.labels "time").length).map fun t => a.val ((cellIndex dims c).set "time" t))

/-- `ds.isel(**locs)[name].values.flatten()[0]` (metsim.py:721-723). -/
def DS.scalar [RatCast K] (ds : DS K) (dims : List String) (c : Run.Cell) (name : String) : Except PyErr (Flt K) :=
  match ds.vars.get? name with
  | some a => .ok (a.val (cellIndex dims c))
  | none =>
    match (ds.labels name)[cellIndex dims c name]? with
    | some x => .ok (.fin (x : K))
    | none => .error .indexError

end Verif.Dataset
