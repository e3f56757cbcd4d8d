import Verif.Np.Dict
import Verif.Np.Text
import Verif.Np.Flt
import Mathlib.Data.Rat.Floor

/-!
# Forcing readers (metsim/io.py:205-369, metsim/metsim.py:293-310)
-/

namespace Verif.Forcing

open Txt

variable {L K : Type}

/-! ## Binary files -/

/-- A forcing variable of a binary file, `'scale signed|unsigned'` (io.py:335-337). -/
structure BinVar (K : Type) where
  name : String
  scale : K
  word : String

/-- io.py:330, 337: `type_lookup[...]`; the result is whether the type is signed. -/
def signedness (word : String) : Except PyErr Bool :=
  if word = "signed" then .ok true
  else if word = "unsigned" then .ok false
  else .error .keyError

/-- `struct.unpack('h' or 'H', bytes)[0]` on a little-endian machine. -/
def unpack16 (signed : Bool) (b0 b1 : UInt8) : Int :=
  let u : Int := b0.toNat + 256 * b1.toNat
  if signed && 32768 ≤ u then u - 65536 else u

/-- The reading loop io.py:338-352; `need` is `points_needed - points_read`, `i` the variable the next
number belongs to, `acc` is `data_list`. -/
def readLoop [Div K] [Zero K] [IntCast K] [DecidableEq K] (fmt : List (Bool × K)) :
    (need : Nat) → (i : Nat) → List UInt8 → List (List (Flt K)) → Except PyErr (List (List (Flt K)))
  | 0, _, _, acc => .ok acc
  | need + 1, i, bytes, acc =>
    match bytes with
    | [] => .ok acc
    | [_] => .error .structError
    | b0 :: b1 :: rest =>
      match fmt[i]? with
      | none => .error .indexError
      | some (signed, scale) =>
        if scale = 0 then .error .zeroDivision
        else readLoop fmt need ((i + 1) % fmt.length) rest
          (acc.modify i (· ++ [.fin ((unpack16 signed b0 b1 : K) / scale)]))

/-- io.py:324-369 `read_binary` for a record of `nDays` days: the columns by variable name.  A column
of another length than the time axis makes `xr.Dataset` raise `ValueError`. -/
def readBinary [Div K] [Zero K] [IntCast K] [DecidableEq K] (vars : List (BinVar K)) (nDays : Nat)
    (bytes : List UInt8) : Except PyErr (Dict String (List (Flt K))) := do
  let fmt ← vars.mapM (fun v => do
    let s ← signedness v.word
    pure (s, v.scale))
  let cols ← readLoop fmt (4 * nDays) 0 bytes (vars.map fun _ => [])
  if cols.all (fun c => c.length == nDays) then pure ((vars.map BinVar.name).zip cols)
  else .error .valueError

/-! ## Text files -/

/-- io.py:252-261 `read_ascii`, after pandas has split the file into rows of numbers: the first
`nDays` rows; too few rows make the assignment of the index raise `ValueError`. -/
def readAscii (names : List String) (nDays : Nat) (rows : List (String → Flt K)) :
    Except PyErr (Dict String (List (Flt K))) :=
  let head := rows.take nDays
  if head.length = nDays then .ok (names.map fun v => (v, head.map (· v)))
  else .error .valueError

/-! ## One file per cell -/

/-- `os.path.basename`. -/
def basename (path : Str) : Str := (splitOn '/' path).getLast?.getD []

/-- io.py:238-239: `_, lat, lon = os.path.basename(job).split("_")[-3:]` and the conversion to float;
`ValueError` if there are not three pieces or one is not a number.  `toFloat` is Python's `float`. -/
def location (toFloat : Str → Option L) (job : Str) : Except PyErr (L × L) :=
  let pieces := splitOn '_' (basename job)
  match pieces.drop (pieces.length - 3) with
  | [_, lat, lon] =>
    match toFloat lat, toFloat lon with
    | some a, some b => .ok (a, b)
    | _, _ => .error .valueError
  | _ => .error .valueError

/-- The gridded forcing: series by variable and (lat, lon). -/
abbrev Grid (L K : Type) := String → L × L → List (Flt K)

/-- io.py:236-248, the body of the `try`: what one file does to the grid.  `mask` is
`domain['mask'].sel(lat=..., lon=...)` (`none`: no such cell, `KeyError`), `read` the file reader. -/
def readJob [Zero K] [LT K] [DecidableLT K] [DecidableEq L] (toFloat : Str → Option L)
    (mask : L × L → Option (Flt K)) (read : Str → Except PyErr (Dict String (List (Flt K))))
    (vars : List String) (g : Grid L K) (job : Str) : Except PyErr (Grid L K) := do
  let c ← location toFloat job
  let m ← match mask c with
    | some m => pure m
    | none => throw PyErr.keyError
  if !(Flt.lt (.fin 0) m) then pure g
  else
    let ds ← read job
    vars.foldlM (fun g v => do
      let col ← ds.get v
      pure (fun v' c' => if v' = v ∧ c' = c then col else g v' c')) g

/-- io.py:236-248, one round of the loop: `ValueError` and `KeyError` skip the file, any other
exception ends the program.  (A file that raises has not stored anything: see `readJob_skip`.) -/
def vicStep [Zero K] [LT K] [DecidableLT K] [DecidableEq L] (toFloat : Str → Option L)
    (mask : L × L → Option (Flt K)) (read : Str → Except PyErr (Dict String (List (Flt K))))
    (vars : List String) (g : Grid L K) (job : Str) : Except PyErr (Grid L K) :=
  match readJob toFloat mask read vars g job with
  | .ok g' => .ok g'
  | .error .valueError => .ok g
  | .error .keyError => .ok g
  | .error e => .error e

/-- io.py:213-249 `process_vic`: all NaN to begin with, then file by file. -/
def processVic [Zero K] [LT K] [DecidableLT K] [DecidableEq L] (toFloat : Str → Option L)
    (mask : L × L → Option (Flt K)) (read : Str → Except PyErr (Dict String (List (Flt K))))
    (vars : List String) (nDays : Nat) (jobs : List Str) : Except PyErr (Grid L K) :=
  jobs.foldlM (vicStep toFloat mask read vars) (fun _ _ => List.replicate nDays .nan)

/-! ## Time stamps of NetCDF files -/

/-- Nearest integer, ties to the even one. -/
def roundHalfEven (x : ℚ) : Int :=
  let f := ⌊x⌋
  let r := x - f
  if r < 1 / 2 then f
  else if 1 / 2 < r then f + 1
  else if f % 2 = 0 then f else f + 1

/-- io.py:295-296: `(t - 11:59:59).round('D')`; times in seconds since 1970-01-01, the result in
days. -/
def normaliseDay (t : ℚ) : Int := roundHalfEven ((t - (11 * 3600 + 59 * 60 + 59)) / 86400)

/-! ## Constant variables -/

/-- A variable of the forcing dataset.  `isInt`: its dtype is an integer type. -/
structure DArr (K : Type) where
  dims : List String
  isInt : Bool
  val : List Nat → Flt K

/-- `xr.full_like(template, x)`: the template's dimensions and dtype. -/
def fullLike [Ring K] [LinearOrder K] [FloorRing K] (t : DArr K) (x : K) : DArr K :=
  ⟨t.dims, t.isInt, fun _ =>
    .fin (if t.isInt then (if 0 ≤ x then (⌊x⌋ : K) else -(⌊-x⌋ : K)) else x)⟩

/-- metsim.py:301-307: `constant_vars` overwrite or add variables shaped like the first one. -/
def applyConstants [Ring K] [LinearOrder K] [FloorRing K] (ds : Dict String (DArr K))
    (consts : Dict String K) : Except PyErr (Dict String (DArr K)) :=
  match consts with
  | [] => .ok ds
  | _ =>
    match ds with
    | [] => .error .indexError
    | (_, template) :: _ => .ok (consts.foldl (fun ds p => ds.set p.1 (fullLike template p.2)) ds)

end Verif.Forcing
