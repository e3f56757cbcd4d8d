# DESIGN — a Lean 4 model of UW-Hydro/MetSim

## 1. Layout

| directory | content |
|---|---|
| `lean/Verif/Np/` | idealised numpy/pandas primitives used by the code (`roll`, `repeat`, `reshape`, `linspace`, `bincount`, `ffill`, python slices, ...) and the number type |
| `lean/Verif/Model/` | the model, one file per source file (or per large function); every definition cites file and lines of `/repo` |
| `lean/Verif/Spec/` | independent vocabulary of the statements: `UnitMeaning` (SI meaning of unit names), `Physics` (published formulas), `Astronomy` (sunset, insolation), `Curve` (monotone cubic), `Filled` (filled series), `Labels` (what a data set says) |
| `lean/Verif/Lemmas/` | helper lemmas; nothing here is a claim |
| `lean/Verif/Props/` | the property theorems, named `Cnn_...`, each followed by an `example` showing its hypotheses are met |

## 2. Numbers

Python/numpy `float` is modelled by `Flt K`: either `nan` or `fin x` with `x` in an ordered field `K`
(`ℝ` where exp/cos/powers occur; any ordered field, so also the computable `ℚ`, otherwise).
Arithmetic on `fin` values is exact; division by zero, roots and non-integer powers of negative numbers, and any
operation on `nan` give `nan`; comparisons with `nan` are false. So: **rounding, overflow, signed zeros are not
modelled there, and +-inf is merged with NaN** ("not a finite number"). Python `int` is `Int`/`Nat`; `int(x)` on floats is
truncation towards zero. C98 to C101, C120, C121 and C133 add the rounding where it decides: `Np/Fp` has numbers of `p` binary digits (round to
nearest, ties to even, exponents unbounded), `Model/Rounded` the shift to UTC, uniform precipitation, wind and cloud cover, shortwave,
relative and specific humidity and the unit conversions with every operation rounded and sums in any order of additions (`bincount`: in the order of the
slots), and the cast to `out_precision`. 16-bit values of binary files are `BitVec 16`.

Exceptions are values: functions that can raise return `Except PyErr`.

## 3. Per property: what is modelled, how it is proved

(see `properties.jsonl` for the statements; "refuted" = the code violates the property at some inputs: the negation is
proved with a concrete witness, and the largest true part is proved with suffix `_partial`)

| id | model | proof idea |
|---|---|---|
| C01 | `Units.converters` table as data; spec gives each unit string its SI meaning | case over table entries; air_pressure->hPa refuted |
| C02 | `_update_unit_attrs` as a fold over out_vars with module state | induction over the dictionary |
| C03 | same, with the module-level `attrs` as state threaded through a history | invariant/witness; refuted for histories, proved for explicit units / fresh process |
| C04 | class-level `params` dictionary threaded through constructions | refuted by a two-step history; partial: keys given explicitly |
| C05 | `read_ini_config` out_vars part with `available_outputs` as state | refuted; partial |
| C06 | `chunk_domain` with integer `arange`, python slices, `itertools.product` | arithmetic per dimension, induction over dimensions |
| C07 | file as a map (variable, time, cell) -> value; workers write slices | permutation invariance from disjointness (C06) |
| C08 | step semantics of workers with/without lock | invariant over reachable states |
| C09 | prefix of chunk writes | corollary of the C07 lemmas |
| C10, C11 | `run_slice` loop over `ndenumerate(mask)` with the mutable params dictionary | induction over cells |
| C12-C14 | `_get_output_times`, `wrap_run_cell`, `disaggregate` index in minutes | arithmetic |
| C15 | grouping by bin of a sorted axis | induction |
| C16 | file suffix as a string of the first and last day | injectivity of zero-padded decimal; refuted for sub-daily groups |
| C17 | `date_range` both branches | arithmetic; refuted for non-dividing steps |
| C18 | Gregorian year/day-of-year | integer arithmetic |
| C19 | minute codes and 32-bit range | integer arithmetic |
| C20, C21 | `_validate_setup` as list of errors | case analysis; negative steps refute C20 |
| C22, C23 | tables of the validator, converters and parameterisations | finite tables; refuted parts: `t_day`, upper case |
| C24 | `read_binary` loop over bytes | loop invariant; refuted unless 4 variables |
| C25 | rounding to the day, half to even | integer arithmetic; refuted at 23:59:59 |
| C26 | ordered dictionaries | induction; refuted for duplicates |
| C27, C28 | text functions | induction over lines / case analysis |
| C29 | `met_data` constant variables | map update |
| C30 | `process_vic` loop | induction over jobs |
| C31 | `_validate_force_times` | arithmetic |
| C32-C34 | `_aggregate_state` | lists, window sums |
| C35 | `convert_monthly_param` | refuted (index base, December) |
| C36-C42 | mtclim / passthrough formulas over `Flt ℝ` | real analysis from Mathlib; the iteration with fuel |
| C43 | `wrap_run_cell` daily branch | refuted for passthrough |
| C44, C45 | `solar_geom` over ℝ | floor arithmetic on slots; refuted on polar days (slot collision) |
| C46-C50 | precipitation, wind, cloud | sums over reshape/roll |
| C51, C52 | shortwave | sums over bincount |
| C53 | `math.remainder` | rounding lemma |
| C54 | `set_min_max_hour` on tables produced by `solar_geom` | uses C44 slot structure |
| C55 | PCHIP as in scipy | Hermite basis inequalities |
| C56-C64 | remaining formulas of the sub-daily step | real analysis; C56 (ends of the record) and C64 (unit) refuted |
| C65 | alignment of the frame with the days of the record | list lemmas |
| C66, C73, C74 | `solar_geom` against textbook astronomy (`Spec/Astronomy`): sunset equation, daily insolation, air mass | trigonometric identities, integration by the sum over slots, monotonicity |
| C67 | triangle weights minute by minute | case analysis on the two ramps |
| C68, C80 | `utc_offset` as a cyclic shift of slots/minutes | roll lemmas; C68 refuted at the ends of the record |
| C69, C71 | totality of `disaggregate` / of a run | every branch that can raise is excluded by a stated hypothesis |
| C70 | `Cell.runAll`: all cells, all chunks, all files | C06 + C07 + C14 + C15 |
| C72, C84 | the dewpoint `while` loop | Coppel's theorem for interval maps with a contraction estimate; radiation bound over all latitudes (`Lemmas/Radiation`) |
| C75-C79, C81-C83, C85 | from forcing and configuration to the values in the files | composition of C70 with the per-formula theorems; `Reads j files c var k i value` reads a file back in SI units |
| C86-C88 | labelled data sets (`Model/Dataset`), `read_netcdf`, `read_data`, `read_domain`, period selection | specification by labels (`Spec/Labels`: `DS.Says`), independent of storage order; C87 and C88 refuted parts |
| C89, C90 | `Model/Worker`: a worker reads its own chunk, computes, writes; the parent creates the files | refinement to C70's run; independence of chunks |
| C91 | `Model/Ini`: configparser's line-by-line reader | a grammar of laid-out files (`Text`) and a simulation invariant over the lines |
| C92 | `Model/ConfigRead`: `read_ini_config`, `read_yaml_config`, the constructor's use of the parameters | lookup lemmas for the updated dictionaries; acceptance as an iff |
| C93 | the two dialects side by side | agreement entry by entry (`SameConfig`), congruence of `use`; refuted for binary forcing |
| C94 | output files as NetCDF files (dimensions, variables, attributes, places) | exact condition for creation, closed form of the created file, simulation of the run of C70 |
| C95 | `main` from the configuration text to the NetCDF files (`Model/Main`) | composition of C27, C91, C92, validation, C89, C90, C94 and C70 |
| C96 | the same, that it ends | C95 with C72; bounds on what the files say carried to the cells |
| C97 | documented forms of configurations | refuted by a run (`Props/MainExample`), C95 failures |
| C98 | `int((lon / 360) * per)` with two rounded operations | error bounds; evaluated at one longitude and at the 25 meridians of hours |
| C99 | uniform precipitation with rounded divisions and sums, any tree of additions | relative error by induction on the tree |
| C100 | means of wind and cloud cover, the same | monotone rounding and exactly representable multiples; refuted with numpy's own additions |
| C101 | the cast of C78's values to `f4`/`f8` | monotone rounding unit by unit |
| C102 | `process_vic` in the parent and in each worker, and the whole run (`Model/Vic`) | the gridded data of a chunk is the chunk of the gridded data; the run agrees with C95's over the joined data |
| C103 | `forcing_vars` and paths of such runs | refuted by a run (`Props/VicExample`) |
| C104 | the command line | `Model/Cli`; all spellings argparse accepts |
| C105 | `open_output` after a run (`Model/Reopen`) | files have strictly increasing stamps, so they combine in their own order; with C95's values |
| C106 | two runs, day by day (`Lemmas/Window`, `Props/Locality`) | the interpolant between two knots depends on four knots; precipitation and radiation of a day on that day; local time, input as in C78 |
| C107 | input files to output files (`Props/FilesSound`, `Props/EndToEnd`) | plausible files give a plausible record (C90), so C75, C77 and C78 apply; C95 and C102 carry what is recorded to the disk |
| C108 | pairs of runs, from input files to output files (`Props/FilesLocal`, `Props/FilesOverlap`) | records described in terms of the files (C89, C90); files that tell the same give alike records, so C106 applies; a file tells one value per variable, cell and day |
| C109 | pairs of runs at two time steps, one a multiple of the other (`Props/Steps`, `Lemmas/Refine`) | the knots of the interpolation move with the step, so the last short step of a long one is read off the same curve; sums over blocks of blocks; moisture only where no gap is filled |
| C110 | `_version.py` (`Model/Version`): what git answers is a parameter; the regular expression as cutting at the last hyphens | cutting is the only way to match; texts with one separator are taken apart in one way; parts of the label are alphanumeric |
| C111 | keywords, sorting of tags, `basename`/`dirname` on texts (`Props/VersionArchive`) | split of joined names gives the names back; the first of a sorted list; induction on the path |
| C112 | the daily frame and the files (`Lemmas/Apart`, `Props/Dependence`) | two runs of the same function on frames that agree in a set of columns; the set grows step by step along the code; tables of needs stated first |
| C113 | the files (`Lemmas/Linear`, `Props/Superposition`) | one run of each linear function on pairs of numbers, of which the three runs are images under linear maps |
| C114 | the files (`Props/Warmer`) | the monotone interpolant commutes with affine maps of the values: signs of products of slopes, the edge and inner slopes, the cubic |
| C115 | the files (`Props/Asked`) | the frames are functions of the settings named in `SameCalc` and of the numbers of the days; years of the same lengths by induction |
| C116 | the files (`Props/MoreMore`) | the pair of numbers behind two runs (C113), seen as their difference: all weights are nonnegative (`Lemmas/Positive`) |
| C117 | the files (`Props/Moister`) | interpolation, the cap at saturation and gap filling are monotone; the emissivity schemes one by one (Prata by a bound on the exponential) |
| C118 | the files (`Props/Calendars`) | numbers of consecutive days on each calendar follow from the lengths of months; ninety days of state need ninety dates |
| C119 | `Times.outputTimes`, `Times.cellFrame`, `Cell.cellBody` on `CfTime` | days with all dates of a calendar are numbered one after the other, so both ranges run through the steps of the same days; conversely the length of the index forces the numbers |
| C120 | `Rounded.shortwave`, `fractions` next to `Disagg.shortwave` | both programs side by side, list by list; each slot three roundings, each bin one more per slot |
| C121 | `Rounded.relHumid`, `specHumid`, `convert` | a relation "equal up to k roundings" that products, quotients and sums of non-negative numbers and roundings respect; bounds from monotonicity of rounding |
| C122 | `Interp.temp` of two records | between alternating knots the curve is a mean of the two knots with weights that depend on time alone, so differences of curves are means of differences of knots |
| C123 | `Disagg.triangleShape` in the files | the minutes of each limb are consecutive, so `linspace` over them is a linear function of the minute; the area of a whole triangle by pairing its limbs |
| C124 | Stages.lean (three Jobs) | daily estimates depend on neither step nor outputs; only the product of radiation and length of the day enters the disaggregation |
| C125 | Restated.lean (pairs of Jobs) | products of radiation and length of the day agree; evaporation is linear in the radiation given |
| C126 | `Humidity.longwave`, files of a run (`Props/Radiates.lean`) | emission is monotone in temperature scheme by scheme (powers, concavity, derivative), then monotone in moisture; files by C79 |
| C127 | pairs of runs (`Props/WarmMoist.lean`) | temperatures by C122, linear interpolation and saturation are monotone, emission by C126 |
| C128 | two complete passthrough runs at one latitude | vapour pressure is the lesser of a line and saturation, so relative humidity is the lesser of one and line over saturation; saturation rises with temperature |
| C129 | two complete passthrough runs that differ in vapour pressure | lines through close points, limiting by the same saturation and filling keep a distance; relation carried through the series |
| C130 | two locks per file, taken and released one by one, workers in processes | simulation of the one-lock protocol; invariant on holders of locks |
| C131 | runs in a directory of arbitrary content (`Model/Rerun`) | creation and chunk writes commute with laying the files over those found |
| C132 | Whole run (Cell, Methods.Mtclim), files | The exponent of the transmittance is a product of a power of the range and a coefficient in the monthly mean; both are compared with one exponential of the change |
| C133 | `Model/RoundedStorm` | every intermediate value is within (1+2u)^k of its exact counterpart; sums of close numbers in any order are close |
| C134 | `ConfigRead.classParams`, `readIni`, `readYaml`, `use` | the lookup theorems of C92 and C93 with the option absent; an empty list of outputs fails validation |
| C135 | `Units.updateUnitAttrs`, `Validate.outVarCheck` | C02 entry by entry, and the finite tables of the documentation |
| C136 | `ConfigRead`, `Main`, `NcFile` | what `use` reads agrees, so the set-up does; creating and writing files is followed step by step with files equal up to global attributes |
| C137 | `Job.run` with `utcOffset` on and off, `setMinMaxHour`, `temp`, `vaporPressure`, `prec`, `wind` | the knots of the two temperature splines differ by the shift and the evaluation points too, and both sets of knots cover the record with a common extrapolation; the vapour pressure of the shifted run is interpolated between the same daily values; minute rolls by a whole number of steps are rolls of steps | 
| C138 | `Job.run`, `cellBody`, `disaggregate`, `remainder360` | a run sees of a cell only what the cell gives alone, with errors; the cell body is compared bind by bind, and the longitude enters behind the remainder only |
| C139 | `Job.run`, `mtclimRun`, `passthroughRun`, `disaggregate` with two sets of parameters | the geometry of the sun without transmittance does not see the lapse rate; `lw_cloud` does not enter the dew point iteration; column by column, then series by series of the sub-daily frame; `C139_runs` starts at two INI files and ends at the values on disk |
| C140 | `Left`, `ToldFor`, `SameCell`, `SameOnDisk` | every column of a cell is `nan` beyond the days of the run (`frame_short`), so columns that agree on the days are equal (`column_of_alike`); the files then give equal inputs (`same_inputs`) and C112 gives equal outputs; for a shared cell, labels decide what is told (`told_move`) |
| C141 | `Left`, `SameNumbers`, `SameBut`, `SameOnDisk` | the per-cell run agrees with the gridded run over the joined data (C102), whose file tells about the cell what its own file has (`numbers_told`); C140 then compares the two gridded runs |
| C142 | the dispatch of `read_met_data` (`Model/Program`), over `Main` and `Vic` | both runs fail on formats that are not theirs; the parameters of a configuration file are C92, C93 |
| C143 | `simulate` over some of the chunks | the run over the chunks is the run of C94 and C70 over them (`run_some`, `files_some`, which need no complete schedule); values are those of the cells alone |
| C144 | `Model/YamlText`: the YAML of configuration files, lines to sections | a declarative layout relation (`Says`), inversion of the reader line by line and level by level; C95_date for dates |
| C145 | INI text and YAML text, `Program.runText` | C91, C144 and C93 for the setups; runs of equal setups differ in global attributes only (`program_alike`) |
| C146 | daily frames row by row: `Props/DailyLocal.lean`, `DailyLocalFiles.lean`; example `DailyExample.lean` | `passthrough` commutes with taking out a row; `mtclim` columns are explicit functions of the row |
| C147 | the rounds of C84 at one cell: `Props/Humid.lean` | one round is a contraction of the dew point where evaporation is small against the rain; Banach fixed point, root mean square against single days |
| C148 | the same, two runs: `Props/Wetter.lean` | the cubic falls up to a ratio of 0.09; fixed points of comparable contractions are comparable |
| C149 | `Vic.simulateIn`, `Program.simulateIn`, calls in sequence: `Model/Reruns.lean`; `Props/History.lean`, example `HistoryExample.lean` | as C131, the names of the files do not depend on the chunks done |
| C150 | `mtclimRun`; `Props/Missing.lean` | a missing day makes the sum of squares missing, so `moved` is false after the first round; the example strictly falls from round to round, so its settled dewpoint is below the first estimate by more than any small tolerance |
| C151 | `disaggregate`; `Props/Gaps.lean` | a missing day is missing on all its steps before the columns are filled; filling holds what is written until the next value |
| C152 | `temp`, `mkPchip`; `Props/Known.lean` | every minimum and maximum is a knot of the interpolant, which refuses knots that are not finite |
| C153 | `disaggregate`, `shortwave`, `tskc`; `Props/Overcast.lean` | a missing day is missing in all slots; the table of fractions is zero where the sun is down by more than the rounding of the constants |
| C154 | `vaporPressure`, `Interp.linear`, `fillBoth`; `Props/Parched.lean` | between the knots around a gap the line is missing; filling holds the last value |
| C155 | `Humidity.longwave`, `scaleDaily`, `fillBoth`; `Props/Nightglow.lean` | a missing factor or sky cover makes the steps of a day missing; filling holds the last value |
| C156 | `written_daily`, `Methods.dailyShortwave`; `Props/Blank.lean` | at daily steps no frame is filled, so a column taken over is written as it is |
| C157 | `cellBody` at 1440 and at shorter steps; `Props/DayInSteps.lean` | both runs find the same daily frame (`common_unique`); then C50, C75 and C77 |
| C158 | `Humidity.longwave`, `scaleDaily`, whole runs; `Props/GivenGlow.lean` | the steps are the estimates (C60) times the factor of C61, read in both runs |
| C159 | `Left`, `Stands`, `AtDailySteps`; `Props/DayInStepsDisk.lean` | both runs load the same (`daily_twin`), so C157, C158 and C76 apply; files are read through `Ended.stands` |
| C160 | `Left`, `Stands`, `FinerRunOf`; `Props/StepsDisk.lean` | both runs find the same daily frame and knots (`common_unique`); the interpolant is taken at the same minutes (`temp_last`) |
| C161 | `Left`, `Stands`; `Props/OutputsDisk.lean`, `Props/HumidExample.lean` | a number on disk is a value of the run (`Ended.stands`), where C79 applies; the elevation is the domain file's (`Ended.filed`) |

### Findings

Statements the code violates, each with a proved counterexample (theorem `..._refuted` or as named):

* C01 air pressure in hPa is ten times too large; C64/C79 vapour pressure is written in kPa under the unit Pa.
* C03, C04, C05 module and class level dictionaries leak units, parameters and output names between objects.
* C07 chunk sizes for only some of the dimensions make `write_chunk` fail.
* C15, C16 output frequencies finer than a step, or than a day, fail or overwrite each other's files.
* C17 `date_range` stretches the step on cftime calendars if the end is off the grid.
* C20, C21 negative steps are accepted; a missing step hides the collected problems.
* C22 `t_day` and (without wind forcing) `wind` are accepted and cannot be written. C23 capital letters are refused.
* C24 binary files with other than four variables and trailing data are refused. C25 stamps in the last second of a day
  move to the next day on every other day. C26 repeated values of a variable map are lost. C29 constants are truncated
  under an integer template.
* C35 monthly storm parameters are taken one month late (December: none).
* C37 cloud cover above one outside `cloud_deardorff`. C39 slope of saturation below zero. C42, C43, C76 passthrough
  changes `seasonal_prec` and scales a daily mean twice.
* C44, C45, C68 polar days and the ends of the record in `solar_geom` and in the shifted shortwave.
* C56, C78 vapour pressure above saturation, or missing, before the first and after the last minimum.
* C87 forcing given as a data set ignores the domain, so chunked runs compute cells from other cells' data.
* C91, C92 a comment behind an INI value is part of the value: `utc_offset = True # ...` is silently off. `theta_s` cannot be set
  from an INI file.
* C94 outputs with a common name, or named like a dimension, stop the run only when its files are created; global attributes of a run leak into the files of later runs of the process.
* C95, C97 documented forms that end a run: `Metsim:` as first line, `YYYY-MM-DD` as start or stop in YAML (C144: for every such file, netCDF or not; `YYYY-M-D` is text and passes), an output directory that is to be created; also a directory as NetCDF `forcing`, an empty line in front of `MetSim:`, a YAML switch or `null` for a parameter other than `utc_offset`, `period_ending`, `out_freq`, `start`, `stop` (it cannot be recorded as an attribute).
* C93 the YAML reader inverts `forcing_vars` of binary forcing, refuses sections without entries, and takes quoted switches as on.
* C134 files without `out_precision` are written in single precision, documented is `f8`; the documented default outputs are never used: an INI file without outputs is refused, a YAML file without `out_vars` raises.
* C135 vapour pressure in the documented `KPa` is written in `Pa`.
* C136 the documented option `time_grouper` is read nowhere; output is split by `out_freq` only.
* C148 more rain in the season can lower the estimated dewpoint of a dry day: the cubic in `tdew` rises for ratios of evaporation to rain between 0.094 and 0.157.
* C150 one missing value in a record (also a missing temperature range or rain of the season) ends the dewpoint loop of the cell after its first round: `np.sqrt(np.mean(...)) > tdew_tol` is false for NaN. All other days of the cell silently get the first estimate.
* C98 in `float64` the shift to UTC is one minute short at 20 of the whole degrees (13, 26, 49, 52, 63, 98, 104, 109, 115, 126 East and West). C100 with
  `float32` forcing a constant wind is not written constant to the last digit.
* C103 for text files for single cells an INI file has to map each variable to itself (the section is inverted, and the names of
  the columns are its keys); `prec = Prec` ends the run. A single path as `forcing` is gone through character by character and
  read as no file at all; binary files configured in YAML are never read; both give a domain of missing values. Columns beyond
  the named ones move the variables to the last columns. Files that are too short are passed over.
* C110 the version of a changed checkout can be the tag of another commit, if tags contain `+`. C111 archives unpacked into `MetSim-...`, as GitHub names them, are not recognised (`metsim-` is expected); of several version tags the first in the order of characters is taken, often the oldest.
* C88 the default period `'forcing'` always fails; text naming a month reads the month and stops on its first day.
* C151 a day whose wind or rain is missing is written with the wind, or with the rain, of the day before it: gaps in the forcing are filled without notice, and rain is added to the record.
* C153 a day whose given shortwave radiation is missing is written, at sub-daily steps in local time, with the radiation of the last step of the day before: where the sun is down at midnight, as a day of darkness (`df_disagg.fillna`). The totals of the record silently lose the day.

## 4. Trusted base

* Lean 4.33 kernel. Axioms at most `propext`, `Classical.choice`, `Quot.sound`; `AXIOMS.md` lists for each theorem in
  `MANIFEST.json` the ones it depends on (written by `tools/axioms.py` from `#print axioms`). No theorem uses `sorry`,
  `native_decide`, `bv_decide` or an axiom of this project.
* That the definitions in `Verif/Model` and `Verif/Np` are a faithful reading of `/repo` and of the library functions it
  calls. Nothing is executed. Mutation tests (`seeded/LOG.jsonl`) show which wrong readings the theorems would notice.
* The vocabulary of the statements (`Verif/Spec`): SI meaning of unit names, published formulas (Kimball,
  Priestley-Taylor, barometric, Prata, ...), sunset equation and insolation, the monotone cubic, filled series, labels.

### Modelled, and how

| part | reading |
|---|---|
| numbers | `Flt K`, section 2 |
| calendar | proleptic Gregorian day numbers (`Np/Calendar`); `cftime`'s calendars (standard, proleptic_gregorian, julian, noleap, all_leap, 360_day and their aliases) number their own dates, and a date without a counterpart on the other calendar is a ValueError (`Np/CfTime`); years are those pandas can hold, so the standard calendar is Gregorian throughout |
| pandas / xarray | `Model/Dataset`: dimensions, coordinates, `[names]`, `rename`, `isel`, `sel` by labels and by period (sorted, reversed, unsorted axis), aligned assignment, `full_like`; `resample`/grouping by bins; `ffill`/`bfill`; `rolling` means |
| scipy | `PchipInterpolator` and `interp1d` from their published algorithms (`Model/Interp`) |
| numpy | `repeat`, `roll`, `reshape`, `bincount`, `linspace`, `arange`, `interp`, element access with negative indices |
| numba (`solar_geom`, `mtclim`) | python semantics; `ZeroDivisionError` on float division by zero as numba's default error model has it |
| dask, locks | every delayed slice is run once, in some order; under the lock model of `Model/Workers` in some interleaving. `Model/Locks` takes xarray's combined lock apart: one library lock per process, one lock per file shared by all processes, taken and released in the order of the tuple that `run` built and the workers received |
| files | a file as a map (cell) -> columns (`Model/Run`), and as bytes read, changed and written back under a lock (`Model/Workers`); as NetCDF files with dimensions, variables and attributes (`Model/NcFile`); per-cell text and little-endian 16-bit binary forcing (`Model/Forcing`, `Model/Vic`) with opening files, splitting text into numbers and `float()` of text parameters |
| configuration | the INI parser, a subset of YAML (`Model/YamlText`; the rest of PyYAML is a parameter) and both readers (`Model/Ini`, `Model/ConfigRead`), dialect detection, booleans, inverted variable maps, output names; `MetSim.params` and the module-level `attrs` as state (`Model/Params`, `Model/Units`) |
| command line | `argparse` of Python 3.6 to 3.11 for the parser of `cli/ms.py` (`Model/Cli`): abbreviations, joined letters, `=`, negative numbers, `--`; whether a file exists and `int()` of a text are parameters |
| version | `metsim/_version.py` (`Model/Version`); git is a function from arguments to output and return code; `\d` is read as `[0-9]` |
| reading back | `open_mfdataset` with `combine='by_coords'` for files that differ along `time` only (`Model/Reopen`): decoding of stamps, order by first stamp, concatenation, refusals; files with descending stamps are refused in the model |
| exceptions | `Except PyErr`, also for errors raised by libraries (`KeyError` of `.sel`, `ValueError` of `rename`, ...) |

## 5. Not modelled

Floating point rounding outside C98 to C101, C120, C121 and C133, overflow, underflow and signed zeros; infinite inputs; NetCDF/HDF5
encoding and torn writes inside one library call; dask's scheduler internals, process failures, memory; logging and
progress bars; the build tool `versioneer.py` (only `metsim/_version.py` is modelled); text encodings. Elevation, latitude and longitude of computed cells are
finite in the end-to-end statements. Time axes of forcing and state files are taken after
`read_netcdf` has turned them into pandas' dates (for other calendars `to_datetimeindex`, `Np/CfTime.toStandard`).
