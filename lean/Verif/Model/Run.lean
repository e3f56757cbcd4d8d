import Verif.Model.Chunk
import Verif.Np.Flt

/-!
# `MetSim.run_slice`, `MetSim.write_chunk`, `MetSim.run` (`metsim/metsim.py`)

A cell is the list of its indices, one per dimension of the mask.  An output array (per chunk) and an
output file are functions from cells to the values stored there, `none` meaning "missing in every
variable at every time".
-/

namespace Verif.Run

open Chunk

abbrev Cell := List Nat

/-- The indices of an axis of length `n` a slice selects, in order. -/
def sliceIdx (s : Slice) (n : Nat) : List Nat := (List.range n).filter (s.selects n)

/-- metsim.py:286-291 `read_domain(...).isel(**domain_slice)`: for every dimension of the mask the
global indices that make up the worker's sub-domain (dimensions not sliced stay whole). -/
def axes (dims : Dict String Nat) (s : Dict String Slice) : List (List Nat) :=
  dims.map fun (d, n) => match s.get? d with
    | some sl => sliceIdx sl n
    | none => List.range n

/-- metsim.py:450-452 `tuple(self._domain_slice[d] for d in dims)` resolved to global indices: every
dimension must have a slice. -/
def writeAxes (dims : Dict String Nat) (s : Dict String Slice) : Except PyErr (List (List Nat)) :=
  dims.mapM fun (d, n) => do
    let sl ← s.get d
    pure (sliceIdx sl n)

/-- The local indices of a sub-domain, in the order of `np.ndenumerate` (row-major). -/
def localCells (ax : List (List Nat)) : List Cell := product (ax.map fun a => List.range a.length)

/-- The global cell of a local index. -/
def globalOf (ax : List (List Nat)) (l : Cell) : Cell := List.zipWith (fun a i => a.getD i 0) ax l

/-- The parameters a worker passes along, of which the last three change from cell to cell. -/
structure Params (S K : Type) where
  shared : S
  elev : Flt K
  lat : Flt K
  lon : Flt K

/-- What belongs to one cell: position and elevation, and everything else (forcing, state). -/
structure CellIn (D K : Type) where
  elev : Flt K
  lat : Flt K
  lon : Flt K
  data : D

/-- The computation of one cell after the parameters are set: it may change the parameter dictionary
(disaggregate.py:67 does). -/
abbrev Body (S D R K : Type) := Params S K → D → Except PyErr (R × Params S K)

variable {S D R K W : Type}

/-- metsim.py:723-728 `wrap_run_cell` overwrites `elev`, `lat` and `lon` in the dictionary shared by
all cells of the worker, then computes. -/
def wrapRunCell (body : Body S D R K) (p : Params S K) (c : CellIn D K) :
    Except PyErr (R × Params S K) :=
  body { p with elev := c.elev, lat := c.lat, lon := c.lon } c.data

/-- `np.ndarray[index] = v` -/
def store (out : Cell → Option W) (c : Cell) (v : Option W) : Cell → Option W :=
  fun c' => if c' = c then v else out c'

/-- metsim.py:477-493 the loop of `run_slice` over the mask of the sub-domain. -/
def runCells [Zero K] [LT K] [DecidableLT K] (body : Body S D R K) (mask : Cell → Flt K)
    (inp : Cell → CellIn D K) (ax : List (List Nat)) :
    List Cell → Params S K → (Cell → Option R) → Except PyErr (Params S K × (Cell → Option R))
  | [], p, out => .ok (p, out)
  | l :: ls, p, out =>
    if Flt.lt (.fin 0) (mask (globalOf ax l)) then do
      let (r, p') ← wrapRunCell body p (inp (globalOf ax l))
      runCells body mask inp ax ls p' (store out l (some r))
    else runCells body mask inp ax ls p out

/-- metsim.py:456-493 `run_slice`: the worker's output array, indexed by local cells. -/
def runSlice [Zero K] [LT K] [DecidableLT K] (body : Body S D R K) (mask : Cell → Flt K)
    (inp : Cell → CellIn D K) (p : Params S K) (ax : List (List Nat)) :
    Except PyErr (Cell → Option R) := do
  let (_, out) ← runCells body mask inp ax (localCells ax) p (fun _ => none)
  pure out

/-- An output file of one group of stamps: its name and the part of a cell's series it holds. -/
structure Group (R W : Type) where
  name : String
  part : R → W

/-- Contents of all output files. -/
abbrev Files (W : Type) := String → Cell → Option W

/-- Assigning the worker's array to the region of one file. -/
def writeRegion (ax : List (List Nat)) (g : Group R W) (out : Cell → Option R) (f : Cell → Option W) :
    Cell → Option W :=
  (localCells ax).foldl (fun f l => store f (globalOf ax l) ((out l).map g.part)) f

/-- metsim.py:438-454 `write_chunk`: every group's file, one after the other. -/
def writeChunk (dims : Dict String Nat) (s : Dict String Slice) (groups : List (Group R W))
    (out : Cell → Option R) (files : Files W) : Except PyErr (Files W) :=
  groups.foldlM (fun files g => do
    let ax ← writeAxes dims s
    pure (fun n => if n = g.name then writeRegion ax g out (files n) else files n)) files

/-- metsim.py:799-805 `wrap_run_slice`: one chunk from beginning to end. -/
def runChunk [Zero K] [LT K] [DecidableLT K] (body : Body S D R K) (mask : Cell → Flt K)
    (inp : Cell → CellIn D K) (p : Params S K) (dims : Dict String Nat) (groups : List (Group R W))
    (files : Files W) (s : Dict String Slice) : Except PyErr (Files W) := do
  let out ← runSlice body mask inp p (axes dims s)
  writeChunk dims s groups out files

/-- metsim.py:330-343 `run`, chunks taken in the order `order`: the files are created empty, then the
chunks are computed and written.  `order` is any rearrangement of `self.slices`. -/
def run [Zero K] [LT K] [DecidableLT K] (body : Body S D R K) (mask : Cell → Flt K)
    (inp : Cell → CellIn D K) (p : Params S K) (dims : Dict String Nat) (groups : List (Group R W))
    (order : List (Dict String Slice)) : Except PyErr (Files W) :=
  order.foldlM (runChunk body mask inp p dims groups) (fun _ _ => none)

end Verif.Run
