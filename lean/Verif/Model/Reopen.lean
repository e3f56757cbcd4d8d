import Verif.Model.NcFile
import Verif.Model.Times

/-!
# Reading the output back (metsim.py:326-328 `open_output`)

`xr.open_mfdataset` with `combine='by_coords'`, for files that differ along `time` only.
-/

namespace Verif.Reopen

open Nc

/-- The length of the unlimited dimension: how far `time` has been written. -/
noncomputable def length (v : Var) : Nat :=
  open Classical in if h : ∃ k, v.data [k] = none then Nat.find h else 0

/-- The number of a stamp: minutes since 2000-01-01 in the calendar of the file. -/
def stampOf : Option Datum → Except PyErr Int
  | some (.stamp b) => .ok b.toInt
  | _ => .error .valueError

/-- `decode_cf` of `time`, dates as stamps of the same name on the standard calendar; other units are not those of MetSim's files. -/
noncomputable def times (f : File) : Except PyErr (List Int) := do
  let v ← f.vars.get "time"
  if v.attrs.get? "units" ≠ some (.text "minutes since 2000-01-01 00:00:00.0") then .error .valueError
  else do
    let nums ← (List.range (length v)).mapM fun k => stampOf (v.data [k])
    nums.mapM (CfTime.decode (match v.attrs.get? "calendar" with
      | some (.text calendar) => calendar
      | _ => "standard"))

/-- `index.is_monotonic_increasing` -/
def ascending (l : List Int) : Bool := decide (l.Pairwise (· ≤ ·))

/-- What has been opened: the time axis, and the values of a variable at an index of it and a cell. -/
structure Opened where
  times : List Int
  value : String → Nat → List Nat → Option Datum

/-- `_infer_concat_order_from_coords`: files in the order of their first stamp; of two with the same one the last is kept. -/
def place (x : Int × List Int × File) : List (Int × List Int × File) → List (Int × List Int × File)
  | [] => [x]
  | y :: l => if x.1 < y.1 then x :: y :: l else if x.1 = y.1 then x :: l else y :: place x l

/-- `concat` along `time` -/
def chained (fs : List (List Int × File)) (name : String) (k : Nat) (c : List Nat) : Option Datum :=
  match fs with
  | [] => none
  | (ts, f) :: fs => if k < ts.length then (f.vars.get? name).bind fun v => v.data (k :: c) else chained fs name (k - ts.length) c

/-- `combine_by_coords`.  Files with descending stamps, which MetSim never writes, are refused here. -/
def combine (fs : List (List Int × File)) : Except PyErr Opened :=
  match fs with
  | [] => .error (.exception ["no files to open"])
  | [(ts, f)] => .ok ⟨ts, chained [(ts, f)]⟩
  | (ts, f) :: fs =>
    if fs.all fun x => decide (x.1 = ts) then .error .valueError
    else if ((ts, f) :: fs).all fun x => ascending x.1 then do
      let firsts ← ((ts, f) :: fs).mapM fun x => match x.1.head? with
        | some t => .ok (t, x.1, x.2)
        | none => .error .indexError
      let fs := (firsts.foldl (fun l x => place x l) []).map Prod.snd
      if ascending (fs.flatMap Prod.fst) then .ok ⟨fs.flatMap Prod.fst, chained fs⟩ else .error .valueError
    else .error .valueError

/-- metsim.py:326-328 `open_output`; `groups` are the stamps of the files (`self._times`). -/
noncomputable def openOutput (dir : Dir) (outDir pre : Txt.Str) (groups : List (List ℚ)) : Except PyErr Opened := do
  let names ← groups.mapM (Times.filename outDir pre)
  let fs ← names.mapM fun n => match dir (String.ofList n) with
    | some f => do
      let ts ← times f
      pure (ts, f)
    | none => .error (.exception ["no such file"])
  combine fs

end Verif.Reopen
