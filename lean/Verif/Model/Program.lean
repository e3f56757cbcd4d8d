import Verif.Model.Main
import Verif.Model.Vic

/-!
# The program, whatever the format of the forcing

`Main` has the run over NetCDF files, `Vic` the run over files for single cells.  io.py:164-182 `read_met_data` tells them apart by
`forcing_fmt`.  `data`, for datasets that are in memory already, cannot be asked for in a configuration file: its reader takes the text it is
given for a dataset and stops (`Main.construct` has this as an error, as for formats that do not exist).
-/

namespace Verif.Program

open ConfigRead

/-- cli/ms.py:57-62 `main`, from the parameters on. -/
noncomputable def simulate (w : Main.World) (fs : Vic.Files) (fuel : Nat) (p : Conf) (order : List (Dict String Chunk.Slice)) :
    Except PyErr Nc.Dir := do
  let su ← use w.cfg Units.importAttrs p
  if su.forcingFmt ∈ ["ascii", "binary"] then Vic.simulate w fs fuel p order else Main.simulate w fuel p order

/-- A run of an INI file. -/
noncomputable def runIni (w : Main.World) (fs : Vic.Files) (fuel : Nat) (opts : Opts) (f : Ini.File) (order : List (Dict String Chunk.Slice)) :
    Except PyErr Nc.Dir := do
  let (conf, avail) ← readIni w.cfg opts Params.importNames f
  simulate w fs fuel ((classParams avail).update conf) order

/-- A run of a YAML file. -/
noncomputable def runYaml (w : Main.World) (fs : Vic.Files) (fuel : Nat) (opts : Opts) (y : Yaml) (order : List (Dict String Chunk.Slice)) :
    Except PyErr Nc.Dir := do
  let conf ← readYaml w.cfg opts y
  simulate w fs fuel ((classParams Params.importNames).update conf) order

/-- io.py:40-59 `read_config`: a run of a configuration file, given by its lines. -/
noncomputable def runText (w : Main.World) (fs : Vic.Files) (fuel : Nat) (opts : Opts) (lines : List Txt.Str)
    (order : List (Dict String Chunk.Slice)) : Except PyErr Nc.Dir :=
  match Config.checkConfigType lines with
  | .ini => do
    let f ← Ini.read lines
    runIni w fs fuel opts f order
  | .yaml => do
    let y ← w.yaml lines
    runYaml w fs fuel opts y order

end Verif.Program
