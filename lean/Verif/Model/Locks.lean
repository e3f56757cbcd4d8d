import Verif.Model.Workers

/-!
# The two locks of an output file

`combine_locks([NETCDFC_LOCK, get_write_lock(filename)])` (metsim.py:336) is a pair of locks: the lock
of the NetCDF library, which every process has its own copy of, and the lock of the file, which all
processes share.  `with lock` (metsim.py:446) takes the two one after the other, in the order in which
they stand in the pair, and gives them back in the same order.  The pair is put together once, by
`MetSim.run`, and handed to the workers (metsim.py:339-340); `order i f` is the order in which worker
`i` finds the pair of file `f`.

Here the six moves of a worker at a file (two takes, open, close, two releases) are separate steps.
-/

namespace Verif.Locks

open Run Workers

/-- The library's lock in a process, and the lock of a file. -/
inductive Key (π : Type) where
  | lib (p : π)
  | file (f : String)
deriving DecidableEq

/-- Where a worker is in its current file. -/
inductive Phase (W : Type) where
  /-- before `with lock` -/
  | idle
  /-- holds the first lock of the pair, waits for the second -/
  | half
  /-- holds both -/
  | locked
  /-- the file is open -/
  | loaded (buf : Cell → Option W)
  /-- the file is closed -/
  | stored
  /-- has given back the first lock of the pair -/
  | closing

/-- A worker: the files it still has to write, and its phase in the first of them. -/
structure Worker (W : Type) where
  todo : List String
  phase : Phase W

structure St (ι π W : Type) where
  files : Files W
  lock : Key π → Option ι
  ws : ι → Worker W

variable {ι π W : Type} [DecidableEq ι] [DecidableEq π]

/-- The setting: the process of each worker, the order of the pairs (`true`: library first). -/
structure Setting (ι π : Type) where
  proc : ι → π
  order : ι → String → Bool

/-- The lock a worker takes first. -/
def Setting.first (g : Setting ι π) (i : ι) (f : String) : Key π :=
  if g.order i f then .lib (g.proc i) else .file f

/-- The lock it takes then. -/
def Setting.second (g : Setting ι π) (i : ι) (f : String) : Key π :=
  if g.order i f then .file f else .lib (g.proc i)

def setW (ws : ι → Worker W) (i : ι) (w : Worker W) : ι → Worker W := fun j => if j = i then w else ws j
def setL (l : Key π → Option ι) (k : Key π) (v : Option ι) : Key π → Option ι :=
  fun k' => if k' = k then v else l k'

/-- One step of one worker. -/
inductive Step (g : Setting ι π) (jobs : ι → Job W) : St ι π W → St ι π W → Prop
  | take (s : St ι π W) (i f rest) (h : s.ws i = ⟨f :: rest, .idle⟩) (hl : s.lock (g.first i f) = none) :
      Step g jobs s { s with
        lock := setL s.lock (g.first i f) (some i)
        ws := setW s.ws i ⟨f :: rest, .half⟩ }
  | both (s : St ι π W) (i f rest) (h : s.ws i = ⟨f :: rest, .half⟩) (hl : s.lock (g.second i f) = none) :
      Step g jobs s { s with
        lock := setL s.lock (g.second i f) (some i)
        ws := setW s.ws i ⟨f :: rest, .locked⟩ }
  | load (s : St ι π W) (i f rest) (h : s.ws i = ⟨f :: rest, .locked⟩) :
      Step g jobs s { s with ws := setW s.ws i ⟨f :: rest, .loaded (s.files f)⟩ }
  | store (s : St ι π W) (i f rest buf) (h : s.ws i = ⟨f :: rest, .loaded buf⟩) :
      Step g jobs s { s with
        files := setAt s.files f ((jobs i).apply f buf)
        ws := setW s.ws i ⟨f :: rest, .stored⟩ }
  | drop (s : St ι π W) (i f rest) (h : s.ws i = ⟨f :: rest, .stored⟩) :
      Step g jobs s { s with
        lock := setL s.lock (g.first i f) none
        ws := setW s.ws i ⟨f :: rest, .closing⟩ }
  | leave (s : St ι π W) (i f rest) (h : s.ws i = ⟨f :: rest, .closing⟩) :
      Step g jobs s { s with
        lock := setL s.lock (g.second i f) none
        ws := setW s.ws i ⟨rest, .idle⟩ }

/-- The state when the workers start. -/
def init (names : List String) : St ι π W where
  files := fun _ _ => none
  lock := fun _ => none
  ws := fun _ => ⟨names, .idle⟩

/-- States reachable in `n` steps. -/
inductive Reach (g : Setting ι π) (jobs : ι → Job W) (names : List String) : Nat → St ι π W → Prop
  | start : Reach g jobs names 0 (init names)
  | step {n : Nat} {s s' : St ι π W} : Reach g jobs names n s → Step g jobs s s' →
      Reach g jobs names (n + 1) s'

/-- All workers have finished. -/
def Done (s : St ι π W) : Prop := ∀ i, (s.ws i).todo = []

/-- The pairs are put together once: every worker finds the locks of a file in the same order. -/
def Setting.Agreed (g : Setting ι π) : Prop := ∀ i j f, g.order i f = g.order j f

end Verif.Locks
