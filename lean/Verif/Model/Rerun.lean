import Verif.Model.Cli

/-!
# A run in a directory that is not empty

`Nc.create` and `Main.simulate` keep account of the files of the run alone.  Here the output directory has
whatever content the program finds there: `Dataset(filename, mode="w")` (metsim.py:357) replaces a file of
the same name, whoever wrote it, and `Dataset(filename, mode="r+")` (metsim.py:447) opens what is there.
-/

namespace Verif.Nc

/-- metsim.py:333-335: the files are created, one after the other, among those that are there. -/
def createIn (old : Dir) (known : String → Bool) (c : Cfg) (tab : Table) (groups : Groups) : Except PyErr (Dir × Table) :=
  groups.foldlM (fun (r : Dir × Table) g => do
    let (f, tab) ← setup known c r.2 (g.2.map fun t => ⌊t⌋)
    pure (fun n => if n = g.1 then some f else r.1 n, tab)) (old, tab)

end Verif.Nc

namespace Verif.Main

open Config ConfigRead

/-- `simulate` with the directory `old` to write to. -/
noncomputable def simulateIn (old : Nc.Dir) (w : World) (fuel : Nat) (p : Conf) (order : List (Dict String Chunk.Slice)) :
    Except PyErr Nc.Dir := do
  let su ← use w.cfg Units.importAttrs p
  let pa ← construct w su
  let freq ← outFreq w su.outFreq
  let (_, groups) ← stamps w su pa.shared freq (Worker.daysOf pa.met)
  check su pa.met
  let os ← outs su
  let mask ← pa.whole.vars.get "mask"
  if w.isDir (w.cfg.abspath su.outDir) = false then throw (PyErr.exception ["no such directory"])
  let (dir, _) ← Nc.createIn old w.known (fileCfg w p su pa mask os) (table w su) groups
  order.foldlM (worker w fuel su pa freq os) dir

/-- A run of an INI file. -/
noncomputable def runIniIn (old : Nc.Dir) (w : World) (fuel : Nat) (opts : Opts) (f : Ini.File)
    (order : List (Dict String Chunk.Slice)) : Except PyErr Nc.Dir := do
  let (conf, avail) ← readIni w.cfg opts Params.importNames f
  simulateIn old w fuel ((classParams avail).update conf) order

/-- A run of a YAML file. -/
noncomputable def runYamlIn (old : Nc.Dir) (w : World) (fuel : Nat) (opts : Opts) (y : Yaml)
    (order : List (Dict String Chunk.Slice)) : Except PyErr Nc.Dir := do
  let conf ← readYaml w.cfg opts y
  simulateIn old w fuel ((classParams Params.importNames).update conf) order

/-- A run of a configuration file, given by its lines. -/
noncomputable def runTextIn (old : Nc.Dir) (w : World) (fuel : Nat) (opts : Opts) (lines : List Txt.Str)
    (order : List (Dict String Chunk.Slice)) : Except PyErr Nc.Dir :=
  match Config.checkConfigType lines with
  | .ini => do
    let f ← Ini.read lines
    runIniIn old w fuel opts f order
  | .yaml => do
    let y ← w.yaml lines
    runYamlIn old w fuel opts y order

end Verif.Main
