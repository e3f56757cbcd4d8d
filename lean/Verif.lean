import Verif.Lemmas.Alike
import Verif.Lemmas.Apart
import Verif.Lemmas.Bins
import Verif.Lemmas.Calendars
import Verif.Lemmas.Cell
import Verif.Lemmas.CellTotal
import Verif.Lemmas.Chunk
import Verif.Lemmas.Coppel
import Verif.Lemmas.Curve
import Verif.Lemmas.Dataset
import Verif.Lemmas.Dewpoint
import Verif.Lemmas.Disagg
import Verif.Lemmas.Except
import Verif.Lemmas.Fill
import Verif.Lemmas.FpSum
import Verif.Lemmas.Interp
import Verif.Lemmas.Linear
import Verif.Lemmas.Physics
import Verif.Lemmas.Positive
import Verif.Lemmas.Radiation
import Verif.Lemmas.Refine
import Verif.Lemmas.RiseSet
import Verif.Lemmas.Run
import Verif.Lemmas.Slots
import Verif.Lemmas.Solar
import Verif.Lemmas.Times
import Verif.Lemmas.Vic
import Verif.Lemmas.Window
import Verif.Lemmas.Worker
import Verif.Lemmas.Written
import Verif.Model.Cell
import Verif.Model.Chunk
import Verif.Model.Cli
import Verif.Model.Config
import Verif.Model.ConfigRead
import Verif.Model.Constants
import Verif.Model.Dataset
import Verif.Model.Datetime
import Verif.Model.Disagg
import Verif.Model.Disaggregate
import Verif.Model.Forcing
import Verif.Model.Humidity
import Verif.Model.Ini
import Verif.Model.Interp
import Verif.Model.Locks
import Verif.Model.LwOptions
import Verif.Model.Main
import Verif.Model.Methods
import Verif.Model.NcFile
import Verif.Model.Params
import Verif.Model.Physics
import Verif.Model.Program
import Verif.Model.Reopen
import Verif.Model.Rerun
import Verif.Model.Reruns
import Verif.Model.Rounded
import Verif.Model.RoundedStorm
import Verif.Model.Run
import Verif.Model.Solar
import Verif.Model.State
import Verif.Model.Times
import Verif.Model.Units
import Verif.Model.Validate
import Verif.Model.Version
import Verif.Model.Vic
import Verif.Model.Worker
import Verif.Model.Workers
import Verif.Model.YamlText
import Verif.Np.Basic
import Verif.Np.Calendar
import Verif.Np.CfTime
import Verif.Np.Dict
import Verif.Np.Flt
import Verif.Np.Fp
import Verif.Np.Real
import Verif.Np.Text
import Verif.Props.Admissible
import Verif.Props.Asked
import Verif.Props.Balance
import Verif.Props.Blank
import Verif.Props.CalendarAxis
import Verif.Props.Calendars
import Verif.Props.Cell
import Verif.Props.CellFiles
import Verif.Props.CellFilesExample
import Verif.Props.Chunk
import Verif.Props.Cli
import Verif.Props.CliRun
import Verif.Props.Clock
import Verif.Props.Config
import Verif.Props.ConfigAccept
import Verif.Props.ConfigOptions
import Verif.Props.ConfigRead
import Verif.Props.ConfigYaml
import Verif.Props.Consistent
import Verif.Props.DailyExample
import Verif.Props.DailyFiles
import Verif.Props.DailyLocal
import Verif.Props.DailyLocalFiles
import Verif.Props.DailyOverlap
import Verif.Props.DataForcing
import Verif.Props.Datetime
import Verif.Props.DayInSteps
import Verif.Props.DayInStepsDisk
import Verif.Props.Dependence
import Verif.Props.Dewpoint
import Verif.Props.Disaggregate
import Verif.Props.Diurnal
import Verif.Props.DocDefaults
import Verif.Props.DocUnits
import Verif.Props.Drier
import Verif.Props.EndToEnd
import Verif.Props.EndToEndExample
import Verif.Props.FilesCell
import Verif.Props.FilesLocal
import Verif.Props.FilesOverlap
import Verif.Props.FilesOverlapExample
import Verif.Props.FilesPlace
import Verif.Props.FilesRun
import Verif.Props.FilesSound
import Verif.Props.Forcing
import Verif.Props.FormatFiles
import Verif.Props.FormatFilesExample
import Verif.Props.Formulas
import Verif.Props.FullTurn
import Verif.Props.Gaps
import Verif.Props.GapsDisk
import Verif.Props.GivenGlow
import Verif.Props.Groups
import Verif.Props.History
import Verif.Props.HistoryExample
import Verif.Props.Hotter
import Verif.Props.Humid
import Verif.Props.HumidExample
import Verif.Props.Humidity
import Verif.Props.Ini
import Verif.Props.IniLayout
import Verif.Props.Insolation
import Verif.Props.Known
import Verif.Props.Locality
import Verif.Props.Locks
import Verif.Props.Main
import Verif.Props.MainAttrs
import Verif.Props.MainDocs
import Verif.Props.MainEnds
import Verif.Props.MainExample
import Verif.Props.MainFail
import Verif.Props.Methods
import Verif.Props.Missing
import Verif.Props.Moister
import Verif.Props.MoreMore
import Verif.Props.Names
import Verif.Props.NcFile
import Verif.Props.NcRun
import Verif.Props.Nearby
import Verif.Props.Nightglow
import Verif.Props.OutputsDisk
import Verif.Props.Overcast
import Verif.Props.Parameters
import Verif.Props.ParametersDisk
import Verif.Props.ParametersIni
import Verif.Props.Params
import Verif.Props.Parched
import Verif.Props.Period
import Verif.Props.Physical
import Verif.Props.Physics
import Verif.Props.Prec
import Verif.Props.Program
import Verif.Props.ProgramExample
import Verif.Props.Radiates
import Verif.Props.Reading
import Verif.Props.Reopen
import Verif.Props.Rerun
import Verif.Props.Restated
import Verif.Props.Rounded
import Verif.Props.RoundedHumid
import Verif.Props.RoundedShort
import Verif.Props.RoundedStorm
import Verif.Props.RoundedSums
import Verif.Props.RoundedWritten
import Verif.Props.Run
import Verif.Props.SameText
import Verif.Props.Settle
import Verif.Props.Shifted
import Verif.Props.Shortwave
import Verif.Props.Solar
import Verif.Props.Stages
import Verif.Props.State
import Verif.Props.Steps
import Verif.Props.StepsDisk
import Verif.Props.Stopped
import Verif.Props.StoppedExample
import Verif.Props.Storms
import Verif.Props.Sunlight
import Verif.Props.Superposition
import Verif.Props.Temp
import Verif.Props.Times
import Verif.Props.Units
import Verif.Props.UnknownOptions
import Verif.Props.Validate
import Verif.Props.Version
import Verif.Props.VersionArchive
import Verif.Props.VersionMore
import Verif.Props.VersionStyles
import Verif.Props.Vic
import Verif.Props.VicExample
import Verif.Props.VicFail
import Verif.Props.WarmMoist
import Verif.Props.Warmer
import Verif.Props.Wetter
import Verif.Props.Wider
import Verif.Props.Workers
import Verif.Props.YamlBack
import Verif.Props.YamlRun
import Verif.Props.YamlText
import Verif.Props.YamlTextExample
import Verif.Spec.Astronomy
import Verif.Spec.Curve
import Verif.Spec.Filled
import Verif.Spec.Labels
import Verif.Spec.Physics
import Verif.Spec.Storm
import Verif.Spec.UnitMeaning
