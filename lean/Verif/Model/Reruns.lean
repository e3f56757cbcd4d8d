import Verif.Model.Rerun
import Verif.Model.Program

/-!
# The program in a directory that is not empty

As `Model/Rerun.lean`, for runs over files for single cells and for the program as a whole, and for one run after the other.
-/

namespace Verif.Vic

open Config ConfigRead

/-- `simulate` with the directory `old` to write to. -/
noncomputable def simulateIn (old : Nc.Dir) (w : Main.World) (fs : Files) (fuel : Nat) (p : Conf) (order : List (Dict String Chunk.Slice)) :
    Except PyErr Nc.Dir := do
  let su ← use w.cfg Units.importAttrs p
  let pa ← construct w fs su
  let freq ← Main.outFreq w su.outFreq
  let (_, groups) ← Main.stamps w su pa.shared freq (Worker.daysOf pa.met)
  Main.check su pa.met
  let os ← Main.outs su
  let mask ← pa.whole.vars.get "mask"
  if w.isDir (w.cfg.abspath su.outDir) = false then throw (PyErr.exception ["no such directory"])
  let (dir, _) ← Nc.createIn old w.known (Main.fileCfg w p su pa mask os) (Main.table w su) groups
  order.foldlM (worker w fs fuel su pa freq os) dir

end Verif.Vic

namespace Verif.Program

open ConfigRead

/-- `simulate` with the directory `old` to write to. -/
noncomputable def simulateIn (old : Nc.Dir) (w : Main.World) (fs : Vic.Files) (fuel : Nat) (p : Conf)
    (order : List (Dict String Chunk.Slice)) : Except PyErr Nc.Dir := do
  let su ← use w.cfg Units.importAttrs p
  if su.forcingFmt ∈ ["ascii", "binary"] then Vic.simulateIn old w fs fuel p order else Main.simulateIn old w fuel p order

/-- The parameters of a configuration file, given by its lines. -/
noncomputable def paramsOf (w : Main.World) (opts : Opts) (lines : List Txt.Str) : Except PyErr Conf :=
  match Config.checkConfigType lines with
  | .ini => do
    let f ← Ini.read lines
    let (conf, avail) ← readIni w.cfg opts Params.importNames f
    pure ((classParams avail).update conf)
  | .yaml => do
    let y ← w.yaml lines
    let conf ← readYaml w.cfg opts y
    pure ((classParams Params.importNames).update conf)

/-- `runText` with the directory `old` to write to. -/
noncomputable def runTextIn (old : Nc.Dir) (w : Main.World) (fs : Vic.Files) (fuel : Nat) (opts : Opts) (lines : List Txt.Str)
    (order : List (Dict String Chunk.Slice)) : Except PyErr Nc.Dir := do
  let p ← paramsOf w opts lines
  simulateIn old w fs fuel p order

/-- A call of the program: the world it finds, the configuration file, and the chunks its workers get through. -/
structure Call where
  world : Main.World
  single : Vic.Files
  fuel : Nat
  opts : Opts
  lines : List Txt.Str
  order : List (Dict String Chunk.Slice)

noncomputable def Call.alone (c : Call) : Except PyErr Nc.Dir := runText c.world c.single c.fuel c.opts c.lines c.order

noncomputable def Call.within (c : Call) (old : Nc.Dir) : Except PyErr Nc.Dir :=
  runTextIn old c.world c.single c.fuel c.opts c.lines c.order

/-- One call after the other, in the same directory. -/
noncomputable def calls (l : List Call) (old : Nc.Dir) : Except PyErr Nc.Dir := l.foldlM (fun d c => c.within d) old

end Verif.Program
