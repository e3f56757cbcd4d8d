{
 "C01": "Refuted for air_pressure in hPa (factor 100 instead of 10); proved for every other variable/unit pair.",
 "C02": "All out_vars over the available outputs; a unit left in out_vars always has a converter.",
 "C03": "Refuted: the module-level unit table keeps a unit chosen by an earlier object. Proved when the unit is requested explicitly or no earlier object changed it.",
 "C04": "Refuted: MetSim.params is a class attribute, so constructing a second object changes the first one's parameters. Proved: the value of every key as a function of the history (C04_effective), and that the last constructed object sees exactly its own values (partial).",
 "C05": "Refuted: available_outputs is a module-level dictionary that every INI file changes, so a variable renamed by an earlier file keeps that name in a later file that does not rename it. Partial: variables the file renames itself, or that no earlier file renamed.",
 "C06": "Chunks partition the grid, for every grid size and positive chunk size; non-positive sizes are rejected.",
 "C07": "Refuted: chunk specifications naming only some dimensions make write_chunk fail with KeyError. Partial: every specification naming all dimensions or none, every order of chunks; the files equal the cell-by-cell result.",
 "C08": "Any number of workers, files and any interleaving of acquire/open/close/release steps. Safety, mutual exclusion, absence of deadlock and termination; a DummyLock execution that loses a slice is exhibited, so the lock is what makes it true. Updating a file is modelled as read whole file, change own region, write whole file.",
 "C09": "The invariant at every reachable state, so for a crash after any prefix of any interleaving (between the modelled file-level steps; a file torn inside one library call is outside the model).",
 "C10": "For every body of the cell computation that keeps the shared parameters.",
 "C100": "Refuted with float32 forcings: a constant wind of 0.3 (float32) is written as a neighbouring number in hourly steps, with numpy's own order of additions. Holds with float64, for every step and order.",
 "C101": "The exact results of C78 rounded once, when written; the roundings on the way are not in it. Specific humidity is only bounded by 1 (a value below 1 may be written as 1: C101_humid).",
 "C102": "Run from the configuration (Vic.simulate, Vic.runIni) with the files opened and split into numbers as parameters; pandas calendars. C102_run: same outcome as C95's run over joined data; C102_forcing and C102_series identify the series; C102_text and C102_bytes the two formats; C102_ends and C102_ini termination. Non-vacuity by Props/VicExample (a run of an INI file over text files ends).",
 "C103": "Refuted: the INI reader inverts forcing_vars unless forcing_fmt is binary, so that the standard form `prec = Prec` makes the run stop (C103_ini, C103_refuted). C103_itself_partial: only with variables mapped to themselves is the section what it says. Also: a single path is gone through by characters and nothing is read (C103_single); binary forcing with the inverted section of the YAML reader reads nothing (C103_binary); further columns move the variables to the last columns (C103_columns).",
 "C104": "argparse of Python 3.6 to 3.11 (Model/Cli): classification of arguments, abbreviations, joined letters, `--`. os.path.isfile and int() of a text are parameters. C104_parse: all spellings; C104_said: whatever is understood was said; C104_unknown, C104_ambiguous, C104_no_file, C104_shown, C104_dashes, C104_dashes_behind: other lines; C104_options, C104_options_yaml: the setup of a run does not depend on the options; C104_ini: two runs of one INI file with other options and order of workers end alike with the same values; C104_main, C104_main_file: the program.",
 "C105": "xr.open_mfdataset(combine='by_coords') is modelled for files that differ along time only: decoding of the stamps on the calendar of the file, ordering of the files by their first stamp, concatenation, and its refusals. Decoding of values is that of C95 (float precision is C100/C101).",
 "C106": "Local time, over input that is complete and plausible in the sense of C78. With utc_offset the series is rolled, so the ends of the record meet; with mtclim the dewpoint iteration stops by an error summed over the whole record, so humidity and radiation are not local and are left out.",
 "C107": "C107_possible, C107_rain and C107_temperature are about runs over gridded files, C107_vic about runs over files for single cells. PlausibleFiles says what the files tell; Sufficient says which method options are covered; OnDisk says what the files left behind hold.",
 "C108": "Follows from C106 and C107's description of a run: the record of a cell is described in terms of the files (Filed), files that tell the same give records that are alike (told_alike, range_alike), and Ended.disk brings the values to disk. Left covers gridded runs and runs over files for single cells, also one of each. Shortwave, vapour pressure and what follows from them are left out under mtclim, where they depend on the whole year (yearly precipitation and potential evaporation).",
 "C109": "C109_mean, C109_temp, C109_pressure and C109_moist compare the files of two runs of the job at two steps. Before the first and after the last sunrise the gaps in the vapour pressure are filled from the nearest step, which differs between the runs, so nothing is claimed there.",
 "C11": "For every body that keeps the shared parameters (proved for the concrete body with the end-to-end theorems).",
 "C110": "Partial: a tag may itself look like the version of another commit (git allows + in tags): 1 with changes at commit ab, and a commit tagged 1+0.gab.dirty, have the same version (C110_refuted). Proved for tags without +.",
 "C111": "Of several tags the first in the order of characters is taken, so 1.10 rather than 1.9 but 1.0 rather than 1.1. The directories of GitHub's archives, MetSim-..., do not match parentdir_prefix metsim-.",
 "C112": "The tables of needs are part of the statement. No assumption on the values of the inputs beyond both runs succeeding.",
 "C113": "C113_superposition (three sub-daily runs), C113_daily (three daily runs), C113_scaling (a record and its multiple). Exact arithmetic; records without missing values.",
 "C114": "C114_scale (any affine change of scale, output in Celsius; also a = 0 and a < 0), C114_warmer (uniform warming, any unit). Exact arithmetic.",
 "C115": "C115_asked (one quantity, two units; sub-daily and daily runs), C115_same_unit, C115_year (days of the same number from the first day and the lengths of the years).",
 "C116": "Written values are one linear functional with nonnegative weights of the daily record (C113); positivity of the weights of every step (triangles, fractions of daylight, means) gives monotonicity through to the files.",
 "C117": "C117_moister.",
 "C118": "Refuted: _aggregate_state puts a ninety-day series on the dates the calendar counts between the ninetieth day before the start and the day before it. C118_load/C118_vic/C118_run/C118_run_vic: whatever is loaded or run, the calendar has these ninety days one after the other; C118_iff_partial: that is enough if the files are complete; C118_days: what it means on each calendar; C118_start: never on 360_day (every 62 days contain a 31st) or a name cftime does not know, on noleap not from 1 March to 29 May of a leap year.",
 "C119": "C119_axis, C119_frame, C119_ending: the axis and the frame of a record with all days of the calendar. C119_iff: these records are those that can be run, among records of days of the calendar. C119_numbers: the numbers in the file. C119_cell: the output of a whole cell. An example shows that a record with a day that is foreign to the calendar in the place of a missing one is accepted and its values are stamped as another day.",
 "C12": "All steps; the calendars pandas handles, and those of cftime where they have the days of the record (HasDays; other days: C118).",
 "C120": "Over the rationals, every operation rounded to 53 digits (no overflow or underflow). C120_near: the floating-point program and the exact model fail on the same inputs and give values that differ by at most 2 ts + 3 roundings; C120_value: what that means for each value; C120_mean, C120_fractions, C120_day: the daily mean; C120_total: it succeeds. The potentials themselves (cosines) are taken as given doubles.",
 "C121": "C121_rel, C121_spec: bounds and distance to the exact formulas; the saturation pressure is taken as the double the program has computed. C121_order, C121_sign, C121_units, C121_percent: unit conversions. C121_error: k roundings of a double are at most a relative 2^-48 for k up to ten.",
 "C122": "Local time (utc_offset false), 0 < tmax_daylength_fraction <= 1, |lat| <= 90. Exact arithmetic. The counterexample for records that do not alternate is an example on the interpolation itself.",
 "C123": "Proved for storms of whole minutes within the day (C123_isosceles_partial); C123_storm gives the exact shape for all storms; C123_refuted shows that a storm that begins before midnight does not have the documented shape. Local time; exact arithmetic.",
 "C124": "Files level, in exact arithmetic; the intermediate values are handed on without rounding (the daily file of a real run holds them in the precision asked for). C124_stages: the 24-hour means of the daily files; C124_daylight: means over daylight. Example: three runs that satisfy all hypotheses.",
 "C125": "Violated: passthrough estimates evaporation by calc_pet, which wants the mean over daylight, from whatever it was given; with means over the day the estimate is too small by the share of daylight in the day (C125_evaporation), and the dewpoint and vapour pressure estimated from it follow (C125_refuted: two runs, evaporation differs). Proved: sub-daily radiation, temperature, pressure, cloud cover, precipitation and wind agree always, and all variables if vapour pressure or dewpoint are given (C125_restated_partial).",
 "C126": "C126_warmer is over the files; the range needed by SATTERLUND and IDSO is a hypothesis (Rises) and C126_range gives a box inside it. Vapour pressure is read as in C79_longwave_partial, a thousand times larger than its unit says. An example shows IDSO falling outside the range.",
 "C127": "Chains C122 (temperature), the cap at saturation (vapour_rises) and C126. Alternation of the extremes is needed as in C122. Longwave radiation is compared at the steps for which a vapour pressure is written; the range of SATTERLUND and IDSO is a hypothesis on the values written.",
 "C128": "Steps before the first and after the last sunrise, whose vapour pressure is a filled-in value, are excluded.",
 "C129": "Exact arithmetic. The same number is 1000 times smaller in the file than its unit says (C64).",
 "C13": "Sub-daily and daily; the calendars pandas handles, and those of cftime where they have the days of the record (HasDays; other days: C118).",
 "C130": "Six-step semantics of a worker at a file with one library lock per process and one lock per file. Safety by simulation of the one-lock protocol of C08; deadlock freedom from an invariant on who holds what; the deadlock of workers with different orders is an explicit execution.",
 "C131": "The run with an output directory of arbitrary content (mode 'w' replaces, mode 'r+' opens what is there) against the run that starts from no files. Assumes the output directory holds none of the run's input files.",
 "C132": "The range and rain columns are taken as the run prepares them: smoothed_dtr is the trailing thirty-day mean (C90_windows). Steps in local time (utc_offset = False).",
 "C133": "Full. Reasonable storms: amount not negative, peak at minute 0 to 1439, duration at least 2 minutes (a shorter storm may have no weight, see the refutations of the exact storm claims). C133_shape supposes that half the duration and the limits of the storm are representable in the precision of the parameters.",
 "C134": "Partial: holds for eleven parameters (C134_ini_partial, C134_yaml_partial). Violated for out_precision (documented f8, actually f4: C134_precision) and for out_vars: an INI file without outputs gets an empty list and is refused, a YAML file without the section raises (C134_nothing_asked), so the documented list of defaults is never used.",
 "C135": "Partial: all outputs (C135_outputs), all default units (C135_default_units) and all documented units but one (C135_units_partial). Violated for vapour pressure in kilopascal: documented as KPa, implemented as kPa, so the documented spelling is replaced by Pa (C135_kilopascal).",
 "C136": "The keys that are read are listed in the theorem file; entries of a YAML file that netCDF cannot record (true, false, null, dates) end the run (C95) and are excluded in the statement on YAML runs.",
 "C137": "File level: both runs' output files are compared. Solar radiation (C137_shortwave): on 31 December of a common year the code takes the shape of radiation shifted from 1 January from the row of 31 December, so that case is left out; air_pressure asked for in hPa is excluded because that conversion is wrong (C01). Longitudes that are not a whole number of steps are not covered.",
 "C138": "On the date line the sign of the reduced longitude depends on the number of turns (C138_dateline), as math.remainder rounds half to even.",
 "C139": "The lists are upper bounds: that each entry of a list does matter is not claimed. Both runs are assumed to end without error. Time step, calendar, method, utc_offset, period_ending and the output variables with their units are the same in both.",
 "C14": "Sub-daily and daily; the calendars pandas handles, and those of cftime where they have the days of the record (HasDays; other days: C118); daily output with period_ending is stored positionally (frame index one day earlier).",
 "C140": "proved at the level of files: DayTold/GivenFor/MonthValue/PlaceAt say what the input files tell about a cell, Left that a run has ended and left its files, SameOnDisk that the output files have the same value. C140_elsewhere is the case of one set of forcing and state files and two domain files; the variables a cell is given must lie along time and the dimensions of the mask.",
 "C141": "proved at the level of files (C141_formats): Ready and VicReady say that the two runs read their files, SameBut that all but the forcing is the same, SameNumbers that the cell's own file has the numbers of the gridded file, SameOnDisk that the output files agree.",
 "C142": "C142_format from the parameters on, C142_ini and C142_yaml from configuration files (the YAML parser itself is a parameter of the model). forcing_fmt 'data' in a configuration file is modelled as an error.",
 "C143": "the disk-level counterpart of C09: a stop is modelled between the writes of two chunks (C09 has the stops inside a write, at the level of locks). C143_stopped and C143_final say what is in the files, C143_reached and C143_fails when a run gets there.",
 "C144": "PyYAML itself is not part of the repository: YamlText.read is a model of it for a subset of YAML, and C144_run, C144_layout and C144_date assume that the parameter World.yaml agrees with it on that subset. C144_text, C144_only, C144_end and C144_read are about the model of the subset, against a declarative layout relation. Decimal numbers are exact here.",
 "C145": "composition of C91, C144, C93 and the comparison of runs with equal setups that is behind C136 (C136_program extends C136 to all formats of forcing). Binary forcing is left out because C93 is refuted there: the YAML reader inverts forcing_vars.",
 "C146": "C106 and C108 are about sub-daily output, which needs the days before and after. Passthrough commutes with taking out a single row, so the comparison of whole frames behind C112 gives the comparison of days. Seasonal precipitation as an output of files is left out of the version on disk. DailyExample has an INI file for a run in daily steps.",
 "C147": "What C146 leaves out for mtclim. The round is a contraction in the dew point (aridity_gap, humid_gap); Banach's fixed point theorem from Mathlib; a single day moves by at most sqrt(n) times the mean square. In dry climates convergence is known (C72) but no rate. Exact arithmetic.",
 "C148": "C148_full is the statement for the estimate without a condition, refuted by C148_refuted; C148_estimate_partial has the condition. C148_wetter and C148_rain compare runs through the day's own dew point of C147.",
 "C149": "Extends C131 from single runs over NetCDF files to the program (C142) and to sequences. Calls that do not get through a chunk are calls with the chunks before it (C143); what a call leaves that stops inside the creation of its files is not described. One process at a time; see C130 for workers of one run.",
 "C15": "Refuted: a frequency finer than the time step gives empty groups and the run fails. Partial: all frequencies at least as long as the step (n minutes/hours/days, months, years); concatenation for every frequency. Calendars: as in C12.",
 "C150": "This does not hold: the mean of the squared changes is then missing, no comparison with it is true, and the loop ends before its second round. What holds: the dewpoint of every day is then the first estimate, made with the minimum temperature for the dewpoint, whatever the tolerance; a daily run writes saturation at that estimate for each day whose data are there; and where a day's evaporation is small against the rain of its season (at most q/40 of it under a clear sky), the estimate is off the day's own dewpoint by at most q/(1-q) of what it moved from the minimum temperature. Partial because the statement is refuted (two days at freezing point, the rain of the season missing on the second). Missing means NaN; with one missing day in a record the tolerance has no effect on any day of the cell. Which days of a file make the rain of the season or the mean range missing is C32.",
 "C151": "This does not hold: the frame of a cell is filled forwards and then backwards, all columns alike. What holds: the steps of a day have the wind of the last day with a value up to it, or of the first one if there is none; they have none only if no day has; through days without data it rains on as in the last step before them, whatever the storms, and if rain is spread evenly the day gets all the rain of the day that stands in for it, so that the record gains rain. Partial because the statement is refuted (two days, the second without wind). Missing means NaN in the cell's frame; with `utc_offset` the gap moves with the longitude and is not treated here. `C151_held_partial`: the rain on disk, in terms of what the files tell (`Props/GapsDisk.lean`).",
 "C152": "`C152_known` and `C152_daily` for a job, `C152_disk` and `C152_stops` for the files of a run. The interpolator refuses knots that are not finite, and every minimum and maximum is a knot; the error ends the run. Compare C151: gaps of wind and rain are filled instead. Missing means NaN; infinite values are not in the number model.",
 "C153": "This does not hold: all columns of a cell's frame are filled forwards and then backwards. What holds: through days without data the radiation stays as in the last step before them, so that they are dark from midnight to midnight if the sun is down in that step (`C153_dark_partial`); given for a day, it is zero in the steps of the night; the sky cover is that of the day standing in for the missing one. Partial because the statement is refuted (two days, the second without radiation). Missing means NaN in the cell's frame; `utc_offset` is not treated here. On disk: `C153_held_partial`, `C153_disk_partial` (`Props/GapsDisk.lean`).",
 "C154": "`C154_hold`: the line between two knots is missing if one of them is, in the open interval between the knots around the gap, and the frame is filled forwards. The value held is compared with saturation in its own step only, so that it may lie above saturation in colder steps (as at the ends of the record, C56). Sunrise as in C83 and C85 (`SunTimes`). Missing means NaN in the cell's frame; `utc_offset` is not treated here. On disk: `C154_disk` (`Props/GapsDisk.lean`).",
 "C155": "`C155_hold`: a missing factor or a missing sky cover makes each step of the day missing, and the frame is filled forwards. The sky cover itself is filled only after the radiation is made from it (disaggregate.py:113-136), so that even where the sky cover written is that of the day before (C153), the radiation is not that of the sky cover written. Missing means NaN in the cell's frame. Where no day before has a value, the frame is filled backwards; that case is left out. On disk, where the radiation is given: `C155_disk` (`Props/GapsDisk.lean`).",
 "C156": "`C156_blank` (a missing day stays missing) and `C156_own` (a given day has its own value, compared in SI units); `C156_disk` and `C156_told` state the first, `C156_given` the second, from the input files to the files written. The value of given shortwave radiation on given days is left to C43 and C76, for it is rescaled by the length of the day. Contrast C151-C155, where sub-daily steps fill gaps from the day before.",
 "C157": "`C157_even`, `C157_rain`, `C157_temperature`. Shortwave radiation is in C76. The rain is that of days whose storm covers some minutes of the day (`Falls`), which uniform rain always does; for the first day the maximum before it is that of the state.",
 "C158": "`C158_spread`, `C158_mean`, `C158_default`. The vapour pressure enters a thousand times as large as the file says (C64). Where the estimates of a day add up to nothing there is no factor; `C158_spread` and `C158_mean` assume they do not, `C158_default` shows it for the default schemes.",
 "C159": "`C159_even`, `C159_rain`, `C159_longwave`, `C159_shortwave`, `C159_temperature`. `Stands` reads a number from the files and converts it to SI by the unit asked for. `C159_shortwave` is stated for output in W m-2. The example is a pair of INI files run to the end, in steps of six hours and of a day.",
 "C16": "Refuted for sub-daily frequencies (six-hourly files of one day share a name). Partial: frequencies of whole days, months and years on every calendar that has the days of the record; C16_name_determines_days says exactly when two names agree, C16_name spells the name out, C16_sorted: names sort like dates.",
 "C160": "`C160_temp` for runs, `C160_disk` for files. Extends C109_temp, which has two runs that write the same variables with one allowance of rounds. `kelvins` is an example of a pair that writes different variables in different units.",
 "C161": "C79 for files: `C161_pressure`, `C161_relative`, `C161_specific`, `C161_one`. States what the code does, with the factor of a thousand; that the relations fail without it is C79_refuted. `HumidExample` is an INI run that leaves such files.",
 "C17": "Refuted on calendars handled by cftime (noleap, 360_day, ...) when the end is not a whole number of steps after the start: linspace stretches the step. Proved on standard/gregorian for every end, and, when the end is on the grid, on every calendar that has the days in between as the standard calendar does (C118 for days it lacks). C17_decode_freq: the frequency strings metsim builds decode to what they were built from.",
 "C18": "Day of year from the calendar ordinal, for every date.",
 "C19": "All stamps pandas can represent.",
 "C20": "Refuted: negative divisors pass validation. Partial: every non-negative number of minutes.",
 "C21": "Refuted: a missing or non-numeric time step raises before the collected problems are reported. Partial: for every numeric non-zero step the report is exactly the set of problems, without repetition; other steps never get accepted.",
 "C22": "Refuted by t_day (no units) and wind (no forcing). Partial: every other accepted variable.",
 "C23": "Refuted: documentation says capitalisation does not matter, validation is case sensitive. Partial: all accepted options dispatch to the parameterisation of that name.",
 "C24": "Refuted: points_needed is 4*n_days whatever the number of variables, so a file with another number of variables and enough data is rejected (C24_other_counts_fail). Proved for four variables with arbitrary trailing bytes, and for one to four variables when the file ends with the record.",
 "C25": "Refuted at 23:59:59 on odd days since 1970 (round half to even) and for the fraction of a second after it. Proved for every stamp before the last second of the day; the behaviour inside the last second is characterised (C25_last_second).",
 "C26": "Refuted for dictionaries with repeated values; partial: injective dictionaries invert exactly; soundness always.",
 "C27": "Comment lines are skipped; the first other line decides, for every text (C27_config_type).",
 "C28": "True exactly for the word true in any capitalisation with blanks around it, for every string (C28_ini_bool).",
 "C29": "Refuted when the first forcing variable has an integer dtype (full_like keeps the template's dtype, the constant is truncated). Proved for a floating point template; the stored value is characterised in general (C29_stored_value).",
 "C30": "For every file list, mask, float parser and reader that returns all requested columns or raises; both readers are shown to do so.",
 "C31": "Forcing period and state window for every start and stop.",
 "C32": "All record lengths and values; 'no simulated day undefined' for complete inputs. The length check of the state file is C32_state_length.",
 "C33": "All records and split points; also that the (uncalled) _unpack_state keeps the right 90 days.",
 "C34": "Equivalence, including that missing values never cause refusal.",
 "C35": "Refuted: the loop runs over 0..11 while calendar months are 1..12. A calendar-numbered table raises KeyError (C35_calendar_table_fails), an unnumbered one is read one month late and December gets the day's precipitation (C35_shifted). Proved: the exact table entry used for every month.",
 "C36": "Proved for every pair of temperatures and coefficient in [0,1].",
 "C37": "Transmittance bounds, rain scaling and monotonicity proved for all inputs; cloud fraction in [0,1] proved for cloud_deardorff only. With the other options the cloud fraction exceeds 1 exactly when the transmittance is below 0.35 (C37_default_cloud), so the statement as listed is refuted (C37_refuted).",
 "C38": "Proved on the exact-arithmetic model of svp, including across the change of formula at 0 C.",
 "C39": "Proved above 0 C. Below 0 C the true derivative differs from svp_slope by the derivative of the ice correction (C39_below_freezing), so the statement as listed is refuted (C39_refuted).",
 "C40": "Proved for calc_pet, atm_pres and mtclim.pet. A lapse rate of 0 raises ZeroDivisionError (C40_zero_lapse).",
 "C41": "Partial correctness of the while loop for any number of days and rounds (C41_self_consistent), columns left alone (C41_columns), independence of the model's round limit (C41_rounds), never returns a complete record with a negative tolerance (C41_negative_tol), and returns for a large enough tolerance (C41_returns). That the loop ends is C72.",
 "C42": "Everything except seasonal_prec: tdew() raises values below 80 in place, in the frame's own column, when the dewpoint is not supplied; statement as listed refuted by C42_refuted. Values added are characterised by C42_added.",
 "C43": "Proved for mtclim. For passthrough the reported value is the input times daylength/86400 (C43_passthrough_scaled), equal to the input only when zero or at 24 h of daylight; refuted by C43_refuted.",
 "C44": "Per day. Non-negativity, zero sum on days without sun, and sum 1 on every day with 0 < daylength < 86400 proved, with the block of lit slots (C44_lit_slots). On days with 24 h of daylight the loop makes 2881 rounds into 2880 slots and the first is overwritten, so the sum is below 1: refuted by C44_refuted (south pole, January 1st).",
 "C45": "Bounds proved for every run that returns (C45_bounds_partial); no failure between 60 S and 60 N (C45_midlatitude_partial); a day fails exactly if 0 < daylength <= 30 s (C45_fails_iff), which happens at some latitude on January 1st (C45_refuted).",
 "C46": "Proved for uniform, triangle and mix; for storms the hypothesis is that some minute of the day receives weight (C48 shows this is exact).",
 "C47": "Total and minute-exact shift, wrapping around the record, whole minutes rounded towards zero.",
 "C48": "Finite for peaks in [0,1439] min and durations >= 2 min; missing iff the storm touches no minute with weight. A two-minute storm peaking at minute 1439.5 is lost (example after C48_missing_iff).",
 "C49": "Proved; C49_other: every unknown prec_type is uniform.",
 "C50": "Proved for wind; C50_same: tskc is the same function.",
 "C51": "Proved for every table of 2880-slot rows; daily output reports shortwave*daylength/86400.",
 "C52": "Proved with and without utc_offset.",
 "C53": "math.remainder modelled as nearest multiple, ties to even.",
 "C54": "All latitudes (poles included), elevations, records, offsets and fractions in (0,1], on the exact-arithmetic model of solar_geom. C54_accepted: the times exist and PchipInterpolator accepts them for finite extremes. C54_times pins the times to sunrise and sunset within a minute, and to 240/960 on days without them.",
 "C55": "scipy's PCHIP is written from its published algorithm. C55_curve/C55_between: between neighbouring prescribed points, attained at the points, monotone. C55_points: the points are the daily extremes at their times. C55_within: for fractions >= 2/3 and a shift of less than half a day no step is extrapolated.",
 "C56": "Refuted: steps before the first and after the last minimum temperature are filled after the comparison with saturation (C56_refuted, a two-day record with a cold state). C56_inside_partial proves the bound for steps between the first and last minimum-temperature times. Missing: the ends of the record, where it is false.",
 "C57": "C57_percentage, C57_ratio (value is 100*vp/saturation, capped), C57_missing. Exact arithmetic.",
 "C58": "C58_value, C58_fraction, C58_increasing. Exact arithmetic.",
 "C59": "C59_value pins the barometric formula; C59_positive, C59_decreasing.",
 "C60": "C60_value pins all six emissivities and both cloud corrections; C60_default for Prata/Deardorff; C60_nonneg for all of them; C60_series lifts to the series; C60_unknown: other names are rejected.",
 "C61": "C61_mean for every parameterisation whenever the unscaled daily mean is not zero; C61_frame for the frame with the default parameterisations, where the unscaled mean is proved positive. The frame theorem assumes temperatures above -237.3 C and at least one defined vapour pressure.",
 "C62": "For every column of every frame disaggregate returns (C62_columns), by way of Spec.Filled: defined values kept, gaps taken from the last defined step before, leading gaps from the first defined.",
 "C63": "Chunk sizes never exceed the dimension.",
 "C64": "Refuted: attrs say Pa, values are kPa (C64_refuted on a concrete record). C64_kilopascal_partial proves that the values are the daily vapour pressure divided by 1000 at minimum temperature where below saturation. Missing: the stated unit, where it is false.",
 "C65": "All increasing lists of days; calendars as in C12.",
 "C66": "Proved on the exact-arithmetic model of solar_geom.",
 "C67": "Minute resolution (time step 1).",
 "C68": "Proved for steps whose shifted slots stay inside the record and the year (C68_interior_partial). At the ends of the record, and at the end of a non-leap year, the fractions come from another row than the energy: refuted with a one-day record.",
 "C69": "Usable lists the requirements: ts divides 1440, columns of equal length, days of year at most 366, finite temperatures, 0 < tmax_daylength_fraction <= 1, known option names, storm parameters where needed.",
 "C70": "Job.Sane: step dividing the day, consecutive days in the years 0-9999, distinct output names, positive sizes, chunk sizes for all dimensions or none. Cells are computed by the model of wrap_run_cell (both methods) with finite elevation, latitude and longitude; out_precision rounding is not modelled.",
 "C71": "Polar cells are excluded because solar_geom can fail there (C45). For mtclim the theorem assumes the dewpoint iteration ends within the model's limit of rounds; C72_run removes this for temperatures between -60 and 60 degrees.",
 "C72": "C72_ends is for the method, C72_cell and C72_run for a cell and a whole run. In exact arithmetic; temperature range at most 200 degrees, tday_coef and rain_scalar in [0, 1]. Proof: a round lowers the dewpoint by less than the previous one rose (Coppel's theorem), because a day's potential radiation is at most 61.5 MJ/m2 at any latitude (Lemmas/Radiation).",
 "C73": "C73_insolation compares with Spec/Astronomy (sunset equation, daily insolation). Latitude in radians uses the code's RAD_PER_DEG. Polar night and polar day included.",
 "C74": "C74_transmittance: bounds; C74_elevation: monotone in elevation, other columns independent of it.",
 "C75": "End to end: from the daily forcing of a cell to the values in the files. C75_daily_rain covers every step and unit without utc_offset; C75_total_rain covers sub-daily output with or without utc_offset. Days whose triangular storm covers no minute of the day (Falls) are excluded: their rain is lost (C46).",
 "C76": "Partial: proved for mtclim and for passed-through radiation with sw_averaging 'daylight' on days with some night (on days without night at most the daily value, see C44). Refuted for passed-through 24-hour means: sub-daily output has the mean of the forcing (C76_passthrough), daily output is scaled once more by the fraction of daylight (C76_refuted: 200 W/m2 become about 100 at the equator).",
 "C77": "C77_within_days (no utc_offset, 0 < tmax_daylength_fraction <= 1) and C77_within_record (with utc_offset; fraction in [2/3, 1], meridian within 180 degrees of theta_s), both from the configuration to the values in the files.",
 "C78": "Refuted (C78_refuted): in a run over a single day no step lies between two minima, so vapour pressure, humidity and longwave are written as missing. C78_mtclim_partial (records of two days or more, lw_cloud cloud_deardorff) and C78_passthrough_partial (radiation, vapour pressure and cloud cover given with possible values) prove the rest, from the configuration to the files. Missing: single days (false); lw_cloud other than Deardorff with mtclim (cloud cover can exceed one, C37); air pressure in hPa (wrong factor, C01); forcing with its own longwave column; storms without weight (C48).",
 "C79": "Pressure is proved as stated (unit hPa excluded, C01). Relative and specific humidity and longwave hold if the vapour pressure in the file is read a thousand times larger than its unit says (C64): C79_full is refuted by a concrete run. Longwave: for records without gaps, so that cloud cover is known every day, and without longwave in the forcing.",
 "C80": "Verif/Props/Clock.lean. Both runs are of the whole model (forcing to files). The record wraps: the first and last hours of a shifted run hold values from the other end of the record.",
 "C81": "Verif/Props/DailyFiles.lean. Values are read in SI units from the files (Reads); the formulas are those of Spec/Physics and Spec/Astronomy. skyOf is Spec.transmittance with the rain scalar above the threshold. Evaporation needs a length of day other than zero (otherwise the daylight average cannot be recovered from the file).",
 "C82": "C82_passthrough and C82_mtclim give the factor r and the integrals explicitly; with C76 r is fixed by the daily mean. utc_offset runs are related to local ones in C80 and C68.",
 "C83": "C83_curve: every temperature in the files, at every cell and step, is the named monotone cubic through the daily extremes at the sun's times (Spec.curve, defined from the published formulas), with the previous day's extremes taken from the state and the last day repeated at the end. C83_day: the two closed forms. Local time (utc_offset false) and 0 < tmax_daylength_fraction <= 1; with utc_offset the times wrap and C68 applies. Sunrise is sampled every 30 s by the code, hence 'within 1.01 minutes' for daylengths between 1 s and 24 h - 61 s.",
 "C84": "C84_daily. The round function DayRecord.dewpoint is written with the published formulas of Spec/Physics (Kimball, Priestley-Taylor, barometric pressure, saturation, transmittance) and the solar geometry of the day (C73, C74 say what that is). N is determined by the two statements about rms. SaneParams, 0 < lapse_rate, lapse_rate * elev < 288.15, |lat| <= 90.",
 "C85": "C85_passthrough and C85_mtclim. The factor 1/1000 is the unit error of C64/C79: the code computes kPa and declares Pa. Local time; with utc_offset the sunrise times wrap (C68). tmax_daylength_fraction between 2/3 and 1 comes from Sound.",
 "C86": "Labelled data sets as xarray uses them (selection by label, by position and by period, renaming, assignment that aligns labels). C86_series is the value, C86_days the days, C86_place elevation and position, C86_chunks independence of the chunk, C86_reads that complete files are readable. Labels are rational numbers; the time axis is on pandas' calendar. C86_domain: the domain itself says what the domain file says; C86_day_of_year: the day_of_year column.",
 "C87": "read_data receives the domain and ignores it, so in a run with more than one chunk, or with data on a larger area or in another order, cells are computed from other cells' data (C87_refuted is a two-chunk run). C87_series_partial is the remaining case: the data have exactly the chunk's labels.",
 "C88": "start/stop default to 'forcing', which the release notes describe as a feature; the text reaches the time selection before it is resolved, so the run always fails (C88_default_fails, C88_refuted). Text naming a month or a year reads the whole period but records its first day as stop, so that the rolling averages end there (C88_months_refuted). C88_days_partial covers dates that name single days.",
 "C89": "C89_worker: load for a chunk followed by the loop over its cells is runChunk over the whole domain's mask and inputs. C89_run / C89_job: the fold over any order of chunks is the run of C70-C85. Assumed: sound files (DS.Wf), variable maps are dictionaries, the domain has no label twice and no time axis, the mask no dimension twice and none called month, the inputs of the whole domain can be read. C89_forcing: what a cell gets for a variable on a day is what the forcing file says at its labels and a stamp of that day.",
 "C90": "C90_days, C90_windows: the simulated days and the trailing means in terms of what the files say at the cell's labels; C90_place: elevation, latitude and longitude of a cell are the domain file's at its labels; C90_storms: storm duration and time to peak of a day are the domain file's for its month, in months 1-11, and the day's precipitation in December (the finding of C35 at file level); C90_period: a run that gets through has stamps on the first and last day of the forcing; C90_loads: complete files are loaded; C90_run: the run from complete files is the run of C70-C85; C90_chunks: chunk sizes and write order do not matter. NetCDF forcing and state of floating point variables, period resolved to days; file contents are exact reals. FilesExample exhibits such files.",
 "C91": "C91_ini: the result of the parser is the document, for every layout.  C91_defaults: the same with a [DEFAULT] section, and with the exact condition (no section but DEFAULT twice, no key twice in a section) under which a laid-out file is accepted; C91_junk, C91_headless: a line that is neither section nor option, or stands before the first section, makes the reader refuse the file.  C91_comment_behind_switch: a '#' behind a value is not a comment but part of the value, so `utc_offset = True  # local` silently switches the option off (for numbers int()/float() raise).  The model is of the standard library's parser with the options the code sets (configparser is not in the repository); `%` interpolation happens when the values are fetched and is a parameter.  A second closing bracket behind a section header is modelled but excluded from the theorems (the standard library changed its reading between versions).",
 "C92": "C92_text: a file laid out as the documented syntax is read to the sections it shows (through C91). C92_parameters: each parameter is the converted text or the class default. C92_sections: variable names, directories of forcing files, chunks, constants. C92_outputs: the output variables. C92_list: the list literal. C92_accepted: accepted if and only if the conditions Acceptable hold. Outside: start/stop are left as text, path functions, directory listing and float() are parameters; % interpolation is a parameter that is the identity on the values (C92_text). JSON escapes in the list of outputs are not read by the model (rejected).",
 "C93": "Proved for every format but binary (C93_same_run_partial). C93_refuted: the YAML reader turns the variable names round for binary forcing too, so scale and type of each variable are lost. C93_yaml_forcing_vars states this for every YAML file. C93_bare_section: a YAML section that is missing or has no entries is refused (an empty INI section is fine, C92_accepted). C93_quoted_switch: a quoted switch is on whatever it says. theta_s is left out (an INI file cannot set it, C92).",
 "C94": "`C94_created`: when `setup_netcdf_output` succeeds (an equivalence) and what the file then contains; `C94_leftover`: the table of global attributes belongs to the module, so later files also carry what only an earlier run recorded; `C94_written`: one worker's assignment to one file; `C94_run`: the run over NetCDF files and the run of C70 end alike and hold the same; `C94_recorded`: values by out_name at the stamps of the time variable, which are numbered on the calendar of the run (date2num; a calendar cftime does not know is refused); `C94_attributes`: units and time labels. Assumed of netCDF4: names in use, unknown types, unknown dimensions and impossible chunk sizes are rejected, attributes cannot be booleans or None, the `fill_value` attribute is an ordinary one. Which type names exist is a parameter.",
 "C95": "C95_run composes configuration, reading, validation, workers and files for any parameter dictionary; C95_ini the same from the text of an INI file; C95_values says what the files hold. Opening files, pandas' reading of dates and frequencies, PyYAML and the texts Python makes of values are parameters of the model; forcing is NetCDF. Also for YAML: a switch or null outside the parameters that are turned into text cannot be recorded as attribute and ends the run (C95_unrecorded). The calendar must be one cftime knows: 'propoleptic_gregorian', which date_range sends to pandas, fails when the files are made.",
 "C96": "Props/MainEnds; Props/MainExample has a configuration text, files and a world for which all hypotheses hold, and proves that run. Arithmetic is exact (no overflow), fuel stands for the unbounded loop of the dew point iteration and is shown to suffice.",
 "C97": "C97_full is refuted in each of its three parts by the run of Props/MainExample. The partial theorem says which forms are understood: an existing directory, `MetSim:` after comments, dates written y/m/d as text.",
 "C98": "Refuted: at 126 degrees West the time is 504 minutes and 1008 slots; float64 gives 503 and 1007 (so do 20 of the whole degrees: 13, 26, 49, 52, 63, 98, 104, 109, 115, 126 East and West). Partial: never more than one unit off, for every longitude; right unless the time is within 2^-41 of a whole number other than zero; towards zero where it is whole; right at all meridians of whole hours; monotone and odd. math.remainder and the input are float64; exponents are not bounded.",
 "C99": "Numbers are rounded to nearest, ties to even; exponents unbounded (no underflow). numpy's order of additions is a parameter (any tree, any arrangement). Missing values and the triangular distribution are not in this part."
}