import Verif.Np.Dict

/-!
# Domain decomposition: `chunk_domain`, `MetSim.slices` and output chunk sizes (`metsim/metsim.py`)
-/

namespace Verif.Chunk

/-- A python slice: `none` is `slice(None)`, `some (a, b)` is `slice(a, b)`. -/
abbrev Slice := Option (Int × Int)

/-- Python's normalisation of a slice bound for an axis of length `n`. -/
def normBound (i : Int) (n : Nat) : Int := if i < 0 then max (i + n) 0 else min i n

/-- Does the slice select index `i` of an axis of length `n`? -/
def Slice.selects (s : Slice) (n i : Nat) : Bool :=
  i < n && match s with
    | none => true
    | some (a, b) => decide (normBound a n ≤ i) && decide ((i : Int) < normBound b n)

/-- metsim.py:812-813 `left` -/
def left (chunk dim : Int) : Except PyErr (List Int) := Np.arange 0 dim chunk

/-- metsim.py:815-818 `right` (`nums[-1] = ...` on an empty array is an IndexError) -/
def right (chunk dim : Int) : Except PyErr (List Int) := do
  let nums ← Np.arange chunk (dim + chunk) chunk
  if nums = [] then .error .indexError
  else pure (nums.set (nums.length - 1) (dim + 1))

/-- metsim.py:820-821 the slices of one dimension -/
def dimSlices (chunk dim : Int) : Except PyErr (List Slice) := do
  let l ← left chunk dim
  let r ← right chunk dim
  pure ((l.zip r).map some)

/-- `itertools.product(*ls)` -/
def product {α : Type} : List (List α) → List (List α)
  | [] => [[]]
  | l :: ls => l.flatMap fun a => (product ls).map (a :: ·)

/-- metsim.py:808-824 `chunk_domain`; `chunks` holds `int(chunks[dim])`. -/
def chunkDomain (chunks : Dict String Int) (dims : Dict String Nat) :
    Except PyErr (List (Dict String Slice)) := do
  let ss ← chunks.mapM fun (d, c) => do
    let n ← dims.get d
    dimSlices c n
  pure ((product ss).map fun p => chunks.keys.zip p)

/-- metsim.py:319-324 `MetSim.slices`; `dims` are the dimensions of the mask with their lengths. -/
def slices (chunks : Dict String Int) (dims : Dict String Nat) :
    Except PyErr (List (Dict String Slice)) :=
  if chunks = [] then .ok [dims.keys.map fun d => (d, none)]
  else chunkDomain chunks dims

/-- metsim.py:369-376 the chunk sizes requested for the output variables (after the time
dimension). -/
def chunkSizes (chunks : Dict String Int) (dims : Dict String Nat) : List Int :=
  dims.map fun (d, s) =>
    let c := (chunks.get? d).getD s
    if c ≤ s then c else s

end Verif.Chunk
