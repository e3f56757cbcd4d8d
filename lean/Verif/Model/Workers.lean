import Verif.Model.Run

/-!
# Concurrent chunk writers (`MetSim.write_chunk` under dask)

Step semantics of the workers started by `MetSim.run` (metsim.py:330-343, 799-805).  Each worker has
computed its chunk and goes through the output files one after the other (metsim.py:442-454): take the
file's lock, open the file for update, change its own region, close the file, give the lock back.  The
steps of different workers interleave arbitrarily.

The NetCDF library is not modelled: updating a file is taken to be reading the whole file, changing
the copy, and writing the whole copy back, the least atomic behaviour compatible with one
open-modify-close cycle per writer.  `combine_locks([NETCDFC_LOCK, get_write_lock(filename)])` is one
lock per file name; `Verif.Locks` takes the two locks apart.
-/

namespace Verif.Workers

open Run

/-- Where a worker is in its current file. -/
inductive Phase (W : Type) where
  /-- before `lock.acquire()` -/
  | idle
  /-- inside the `with lock` -/
  | locked
  /-- the file is open: a private copy of its content -/
  | loaded (buf : Cell → Option W)
  /-- the file is closed, the lock still held -/
  | stored

/-- A worker: the files it still has to write, and its phase in the first of them. -/
structure Worker (W : Type) where
  todo : List String
  phase : Phase W

/-- Files, locks (who holds them), workers. -/
structure St (ι W : Type) where
  files : Files W
  lock : String → Option ι
  ws : ι → Worker W

/-- What a worker has to store: its region and the values per file. -/
structure Job (W : Type) where
  region : Cell → Bool
  val : String → Cell → Option W

/-- Assigning the region of a (copy of a) file. -/
def Job.apply {W : Type} (j : Job W) (f : String) (buf : Cell → Option W) : Cell → Option W :=
  fun c => if j.region c then j.val f c else buf c

variable {ι W : Type} [DecidableEq ι]

def setW (ws : ι → Worker W) (i : ι) (w : Worker W) : ι → Worker W := fun j => if j = i then w else ws j
def setAt {α : Type} (g : String → α) (f : String) (v : α) : String → α := fun f' => if f' = f then v else g f'

/-- One step of one worker.  `real f` says whether `locks.get(filename, DummyLock())` finds a lock for
the file (metsim.py:444); a `DummyLock` (metsim.py:827-844) excludes nobody. -/
inductive Step (real : String → Bool) (jobs : ι → Job W) : St ι W → St ι W → Prop
  | acquire (s : St ι W) (i f rest) (h : s.ws i = ⟨f :: rest, .idle⟩)
      (hl : real f = true → s.lock f = none) :
      Step real jobs s { s with
        lock := if real f then setAt s.lock f (some i) else s.lock
        ws := setW s.ws i ⟨f :: rest, .locked⟩ }
  | load (s : St ι W) (i f rest) (h : s.ws i = ⟨f :: rest, .locked⟩) :
      Step real jobs s { s with ws := setW s.ws i ⟨f :: rest, .loaded (s.files f)⟩ }
  | store (s : St ι W) (i f rest buf) (h : s.ws i = ⟨f :: rest, .loaded buf⟩) :
      Step real jobs s { s with
        files := setAt s.files f ((jobs i).apply f buf)
        ws := setW s.ws i ⟨f :: rest, .stored⟩ }
  | release (s : St ι W) (i f rest) (h : s.ws i = ⟨f :: rest, .stored⟩) :
      Step real jobs s { s with
        lock := if real f then setAt s.lock f none else s.lock
        ws := setW s.ws i ⟨rest, .idle⟩ }

/-- The state when the workers start: files freshly created by `setup_netcdf_output`, all locks
free. -/
def init (names : List String) : St ι W where
  files := fun _ _ => none
  lock := fun _ => none
  ws := fun _ => ⟨names, .idle⟩

/-- States reachable from the start, by any interleaving of any length. -/
inductive Reach (real : String → Bool) (jobs : ι → Job W) (names : List String) : St ι W → Prop
  | start : Reach real jobs names (init names)
  | step {s s' : St ι W} : Reach real jobs names s → Step real jobs s s' → Reach real jobs names s'

/-- The worker has finished with (closed) file `f`. -/
def Stored (names : List String) (s : St ι W) (i : ι) (f : String) : Prop :=
  f ∈ names ∧ (f ∉ (s.ws i).todo ∨ ((s.ws i).phase matches .stored) = true ∧ (s.ws i).todo.head? = some f)

/-- All workers have finished. -/
def Done (s : St ι W) : Prop := ∀ i, (s.ws i).todo = []

/-- metsim.py:332-336, 444: `run` puts one lock per output file in the dictionary; a worker looks its
file up in it. -/
def lockTable (names : List String) : String → Bool := fun f => decide (f ∈ names)

end Verif.Workers
