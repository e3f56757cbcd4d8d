#!/usr/bin/env python3
"""Writes ../properties.jsonl (one JSON object per line)."""
import json, os
P = []
def p(title, statement, quantifier, why, anchors):
    P.append(dict(id="C%02d" % (len(P) + 1), title=title, statement=statement,
                  quantifier=quantifier, why_tests_cant=why, anchors=anchors))

# ---------------------------------------------------------------- units / metadata
p("Unit conversion preserves the physical quantity",
  "For every output variable and every unit string the converters table offers for it, the converted value denotes, in that unit, the same physical quantity as the unconverted value denotes in the variable's default unit.",
  "all variables, all offered units, all real values, all positive time steps",
  "The suite checks two variables by comparing means; it never compares every (variable, unit) pair with the definition of the unit.",
  ["metsim/units.py:converters", "metsim/metsim.py:attrs"])
p("A requested unit is honoured or replaced by the default, never a failure at conversion time",
  "Constructing MetSim with out_vars drawn from the available outputs leaves every out_var with a unit string for which a converter exists: the requested one if it is supported, otherwise the variable's default unit.",
  "all out_vars dictionaries over the available outputs, with any or no unit string",
  "Unit strings are arbitrary user text.",
  ["metsim/metsim.py:MetSim._update_unit_attrs", "metsim/units.py:converters", "metsim/metsim.py:available_outputs"])
p("The units attribute written to the file is the unit the data were converted to",
  "Whatever MetSim objects were constructed before in the same process, the units attribute used for an output variable equals the unit its values are converted to.",
  "all histories of MetSim constructions in one process, all out_vars",
  "Depends on process history through module-level state; every test looks at one history.",
  ["metsim/metsim.py:MetSim._update_unit_attrs", "metsim/metsim.py:attrs", "metsim/metsim.py:MetSim.setup_netcdf_output"])
# ---------------------------------------------------------------- isolation
p("MetSim objects do not share configuration",
  "The effective parameters of a MetSim object are the documented defaults overridden by the dictionary it was constructed with, independently of MetSim objects constructed before or after it.",
  "all finite histories of constructions in one process",
  "A test would have to enumerate histories of constructions.",
  ["metsim/metsim.py:MetSim.params", "metsim/metsim.py:MetSim.__init__"])
p("Renaming outputs in one INI configuration does not affect another",
  "Reading an INI configuration gives output names determined by that file alone, whatever configurations were read before in the same process.",
  "all histories of configuration reads, all out_vars sections",
  "History dependent through a shared module-level dictionary.",
  ["metsim/io.py:read_ini_config", "metsim/metsim.py:available_outputs"])
# ---------------------------------------------------------------- chunking / parallel
p("Chunks partition the domain",
  "For every domain shape with positive extents and every positive chunk size per dimension, the slices returned by chunk_domain cover every grid cell exactly once, and each slice selects at least one cell.",
  "all numbers of dimensions, all extents, all chunk sizes (also larger than the extent)",
  "Unbounded family of shapes and chunk sizes; ragged last chunks are the usual bug.",
  ["metsim/metsim.py:chunk_domain", "metsim/metsim.py:MetSim.slices"])
p("Output does not depend on chunking or on the order in which chunks finish",
  "After run(), the content of the output files is the same for every chunk specification and for every order in which the chunks are completed, and equals the cell-by-cell result.",
  "all chunk specifications, all completion orders, all masks, all per-cell functions",
  "Schedules are chosen by dask at run time; tests see one.",
  ["metsim/metsim.py:MetSim.run", "metsim/metsim.py:wrap_run_slice", "metsim/metsim.py:MetSim.write_chunk", "metsim/metsim.py:chunk_domain"])
p("Concurrent chunk writers lose no update",
  "In every interleaving of workers that each acquire the file lock, read the file, change their slice, write it back and release the lock, the finished file contains every worker's slice. Without the lock (DummyLock) an interleaving that loses a slice exists.",
  "all numbers of workers, all interleavings of their atomic steps",
  "Interleavings are not controllable from a test.",
  ["metsim/metsim.py:MetSim.write_chunk", "metsim/metsim.py:DummyLock", "metsim/metsim.py:MetSim.run"])
p("A crash leaves finished chunks intact and unfinished ones missing",
  "If the run dies after any number of completed chunk writes, in any order, every cell of a completed chunk holds its final value and every other cell is still missing.",
  "all crash points, all completion orders, all chunkings",
  "Crash points cannot be enumerated by tests.",
  ["metsim/metsim.py:MetSim.write_chunk", "metsim/metsim.py:MetSim.setup_netcdf_output"])
p("Masked-out cells stay missing, active cells are filled",
  "In the result of run_slice a cell whose mask is not a positive number (zero, negative, NaN) is missing in every output variable at every time, and a cell whose mask is positive carries the values computed for it.",
  "all masks over all grids, all output variables",
  "All masks.",
  ["metsim/metsim.py:MetSim.run_slice", "metsim/metsim.py:MetSim.setup_output"])
p("The value at a cell depends only on that cell",
  "The values computed for a grid cell are a function of the shared parameters and of that cell's own latitude, longitude, elevation, forcing and state; processing other cells before it in the same worker does not change them, although the worker mutates a shared parameter dictionary.",
  "all sequences of cells processed by one worker, all per-cell functions that write cell keys of the dictionary",
  "Requires all orders and neighbours; the dictionary is mutated in place (elev, lat, lon, lon normalisation).",
  ["metsim/metsim.py:MetSim.run_slice", "metsim/metsim.py:wrap_run_cell", "metsim/disaggregate.py:disaggregate"])
# ---------------------------------------------------------------- time axis
p("The output time axis has the right length, spacing and ends",
  "For a record of n >= 1 consecutive days and an accepted time step ts, the output time axis has exactly n*1440/ts stamps, starts at the first day 00:00, is spaced by ts minutes and ends at the last day 24:00 minus ts.",
  "all record lengths, all start days, all accepted time steps (daily included)",
  "Tests use two time steps and two records.",
  ["metsim/metsim.py:MetSim._get_output_times", "metsim/datetime.py:date_range"])
p("period_ending shifts every stamp by exactly one step and nothing else",
  "Switching period_ending on moves every output time stamp later by exactly one time step, keeps their number, and leaves the value stored at each position unchanged.",
  "all records, all accepted time steps",
  "All records and steps; test checks one.",
  ["metsim/metsim.py:MetSim._get_output_times", "metsim/metsim.py:wrap_run_cell", "metsim/disaggregate.py:disaggregate"])
p("Computed series and output axis agree stamp by stamp",
  "The time index attached to the disaggregated (or daily) frame of a cell, after trimming, has the same length as the output axis, so that the positional copy into the output stores each value under its own stamp (for sub-daily steps the indices are identical).",
  "all records, all accepted time steps, both period conventions",
  "Three separately coded time axes must agree for every configuration.",
  ["metsim/metsim.py:MetSim._get_output_times", "metsim/metsim.py:wrap_run_cell", "metsim/metsim.py:MetSim.setup_output", "metsim/disaggregate.py:disaggregate"])
p("Splitting output by out_freq partitions the time axis",
  "With any output frequency the groups of stamps are non-empty, contiguous, disjoint and in order, and their concatenation is the whole output axis; each output file receives exactly its group's stamps.",
  "all time axes, all bin boundaries",
  "Any pandas frequency string is allowed.",
  ["metsim/metsim.py:MetSim._get_output_times", "metsim/metsim.py:MetSim.write_chunk"])
p("Different output groups are written to different files",
  "Two different output groups of one run never get the same file name.",
  "all output frequencies, all records",
  "File names only encode the days; a clash overwrites data silently.",
  ["metsim/metsim.py:MetSim._get_output_filename", "metsim/metsim.py:MetSim.get_nc_output_suffix"])
p("date_range behaves like a fixed-step range on every calendar",
  "date_range(start, end, step) returns start, start+step, ... up to the last value not after end, on the standard calendar and on the other calendars alike.",
  "all starts, ends and steps, all calendars",
  "The non-standard branch uses linspace between the end points; tests never take it.",
  ["metsim/datetime.py:date_range", "metsim/datetime.py:decode_freq", "metsim/datetime.py:units_from_freq"])
p("Every date has a row in the solar geometry tables",
  "For every date of the proleptic Gregorian calendar the zero-based day of year used as an index lies inside the 366-row solar geometry tables, and day 366 has the same row as day 365.",
  "all dates",
  "All dates, leap years included.",
  ["metsim/metsim.py:wrap_run_cell", "metsim/physics.py:solar_geom", "metsim/disaggregate.py:shortwave"])
p("Time stamps survive encoding in the output file",
  "Every minute stamp pandas can represent is encoded as minutes since 2000-01-01 without overflowing the 32-bit time variable, different stamps get different codes, and decoding returns the stamp.",
  "all representable stamps",
  "Range of stamps.",
  ["metsim/metsim.py:MetSim.setup_netcdf_output", "metsim/metsim.py:DEFAULT_TIME_UNITS"])
# ---------------------------------------------------------------- validation
p("Exactly the usable time steps are accepted",
  "Validation accepts a time step if and only if it is a positive divisor of 1440 that is at most 360 minutes, or 1440 itself.",
  "all integers",
  "All integers, including zero and negatives.",
  ["metsim/metsim.py:MetSim._validate_setup"])
p("Validation raises exactly when something is wrong and reports every problem",
  "run() refuses a configuration if and only if at least one documented check fails, and the message contains one entry for each failed check.",
  "all configurations",
  "All combinations of failures.",
  ["metsim/metsim.py:MetSim._validate_setup"])
p("Every output variable accepted for a time step can be produced",
  "Every variable that validation accepts for the configured time step has units, a converter and a column in the computed frame.",
  "all variables, daily and sub-daily steps, with and without wind forcing",
  "Cross-table consistency, not sampled by tests.",
  ["metsim/metsim.py:MetSim._validate_setup", "metsim/metsim.py:available_outputs", "metsim/units.py:converters", "metsim/metsim.py:wrap_run_cell"])
p("Longwave options: capitalisation does not matter and accepted options are implemented",
  "Every lw_type/lw_cloud accepted by validation has an implementation, and any capitalisation of a documented option is accepted.",
  "all strings",
  "All strings.",
  ["metsim/metsim.py:MetSim._validate_setup", "metsim/disaggregate.py:longwave", "docs/configuration.rst"])
# ---------------------------------------------------------------- inputs
p("Binary forcing files decode to what was encoded",
  "A VIC binary file holding, for each day, one 16-bit value per forcing variable in the configured order and scale is read back as exactly those values, for every number of days and every list of variables.",
  "all record lengths, all variable lists, all 16-bit values signed or unsigned, files longer than the record included",
  "All byte sequences and variable lists.",
  ["metsim/io.py:read_binary"])
p("Input time stamps are assigned to their own day",
  "Reading a NetCDF forcing file maps every time stamp of a day, whatever its time of day, to that day.",
  "all time stamps",
  "Rounding boundary cases.",
  ["metsim/io.py:read_netcdf"])
p("Variable maps are inverted faithfully",
  "After reading the configuration, looking up the input name of any mapped MetSim variable gives back that MetSim variable; no mapping is lost.",
  "all variable maps",
  "All maps, also those using one input variable twice.",
  ["metsim/io.py:_invert_dict", "metsim/io.py:read_ini_config", "metsim/io.py:read_yaml_config"])
p("The configuration dialect is recognised from the first non-comment line",
  "check_config_type terminates on every file, ignores any number of leading comment lines, and classifies the file by its first non-comment line, ignoring an inline comment and surrounding blanks.",
  "all files",
  "All text files.",
  ["metsim/io.py:check_config_type"])
p("INI booleans",
  "utc_offset and period_ending read from an INI file are True exactly if the text is 'true' up to case and surrounding blanks, and False in every other case, absence included.",
  "all strings and absence",
  "All strings.",
  ["metsim/io.py:read_ini_config"])
p("Constant variables override forcing everywhere",
  "A variable listed in constant_vars has its constant value at every time and cell of the forcing used by the run, whether or not it was also read from the forcing files, and other variables are unchanged.",
  "all forcing datasets, all constant_vars",
  "All datasets.",
  ["metsim/metsim.py:MetSim.met_data"])
p("Per-cell forcing files fill exactly their own cell",
  "With ascii/binary forcing, each readable file fills exactly the active cell its name designates; files for inactive or unknown cells, unreadable files and files with malformed names change nothing; for files designating distinct cells the order of files is irrelevant.",
  "all file lists, all masks, all orders",
  "All file lists; the directory listing order is arbitrary.",
  ["metsim/io.py:process_vic"])
p("The simulated period lies within the forcing and the state window is the 90 days before it",
  "If a MetSim object is constructed, its start is not before the first forcing day and its stop not after the last one; the state window it reads consists of exactly the 90 days preceding start.",
  "all periods and forcing records",
  "All periods.",
  ["metsim/metsim.py:MetSim._validate_force_times", "metsim/metsim.py:MetSim._aggregate_state"])
# ---------------------------------------------------------------- state aggregation
p("Rolling precipitation and temperature-range averages use exactly the right days",
  "For every simulated day the seasonal precipitation is 365.25 times the mean of the 90 days ending that day and the smoothed temperature range is the mean of the 30 days ending that day, with the days before start taken from the state file; no simulated day is left undefined.",
  "all records of any length, all 90-day states",
  "Off-by-one windows; all records.",
  ["metsim/metsim.py:MetSim._aggregate_state"])
p("A run can be split and restarted without changing the rolling averages",
  "Running days 1..n in one go, or running days 1..k and then k+1..n with a state made of the 90 days before day k+1, gives the same seasonal precipitation, temperature range and smoothed temperature range for every day.",
  "all records, all split points",
  "All splits.",
  ["metsim/metsim.py:MetSim._aggregate_state", "metsim/metsim.py:MetSim._unpack_state"])
p("Inverted daily temperatures are rejected",
  "The run is refused if and only if some day of some cell of the chunk has a maximum temperature below its minimum; missing values are not grounds for refusal.",
  "all forcing datasets",
  "All datasets.",
  ["metsim/metsim.py:MetSim._aggregate_state"])
p("Monthly storm parameters are taken from the month of the day",
  "With prec_type triangle or mix, the storm duration and time to peak used on a day are those the domain file gives for that day's calendar month.",
  "all days, all monthly tables",
  "All days; index base differs between the calendar month and the table.",
  ["metsim/metsim.py:MetSim.convert_monthly_param"])
# ---------------------------------------------------------------- mtclim
p("Daylight temperature lies between the daily mean and the maximum",
  "For t_min <= t_max and a coefficient in [0,1], the daylight temperature is at least the mean of t_min and t_max and at most t_max.",
  "all temperatures, all coefficients in [0,1]",
  "Continuous domain.",
  ["metsim/methods/mtclim.py:t_day"])
p("Cloudiness and transmittance are fractions",
  "For every accepted day (non-negative temperature range) and rain scalar in [0,1] the cloudy-sky transmittance lies in [0,1) and the cloud fraction derived from it lies in [0,1].",
  "all temperature ranges, precipitation, thresholds, rain scalars, both cloud parameterisations",
  "Continuous domain; extreme corner is dtr = 0 on a wet day.",
  ["metsim/methods/mtclim.py:tfmax", "metsim/methods/mtclim.py:tskc"])
p("Saturation vapour pressure is positive and increases with temperature",
  "svp is positive for every temperature above -237.3 C and strictly increasing above -115 C, across the change of formula at 0 C.",
  "all temperatures",
  "Continuous domain, piecewise formula.",
  ["metsim/physics.py:svp"])
p("svp_slope is the derivative of svp",
  "svp_slope(T) is the derivative of svp at T.",
  "all temperatures",
  "A derivative is a limit.",
  ["metsim/physics.py:svp_slope", "metsim/physics.py:svp"])
p("Potential evapotranspiration is finite and non-negative",
  "For non-negative radiation and daylength, positive air pressure and daylight temperatures between -115 C and 1000 C, calc_pet is finite and non-negative, and zero when there is no radiation or no daylight.",
  "all such inputs",
  "Continuous domain; quotient of differences of svp.",
  ["metsim/physics.py:calc_pet", "metsim/methods/mtclim.py:pet"])
p("Dewpoint iteration returns a self-consistent day",
  "Whenever mtclim.run returns, the dewpoint it returns is the one obtained from the radiation and evaporation of an iterate that differs from it by at most tdew_tol in root mean square (or is undefined because data are missing), vapour pressure is the saturation pressure at that dewpoint, and shortwave and evaporation are those computed from that vapour pressure.",
  "all records, all tolerances, all numbers of iterations",
  "Number of iterations is unbounded.",
  ["metsim/methods/mtclim.py:run"])
p("Passing variables through leaves them untouched",
  "With method passthrough, a frame without shortwave is refused; every column already present keeps its values; only missing ones among t_day, tfmax, tskc, pet, tdew and vapor_pressure are added.",
  "all frames (sets of columns) and values",
  "All subsets of provided columns.",
  ["metsim/methods/passthrough.py:run"])
p("Daily shortwave output is the 24-hour mean",
  "Daily shortwave output is the radiation averaged over 24 hours, for mtclim (whose estimate is a daylight average) and for passthrough (whose input is a 24-hour average).",
  "all days, both methods",
  "Both methods share one conversion; tests never run passthrough at 1440.",
  ["metsim/metsim.py:wrap_run_cell", "docs/whats-new.rst"])
# ---------------------------------------------------------------- solar geometry
p("Radiation fractions of a day",
  "For every latitude, elevation and day of year, the sub-daily radiation fractions are non-negative and sum to one on days with sun and to zero on days without.",
  "all latitudes, all days of the year",
  "Depends on which grid slots successive hour angles fall into, for all latitudes.",
  ["metsim/physics.py:solar_geom"])
p("Solar geometry is finite and within physical bounds",
  "For every latitude in [-90, 90], elevation below the top of the standard atmosphere and positive lapse rate, daylength is between 0 and 86400 s, potential radiation is non-negative, maximum transmittance is in [0,1), and the computation does not fail.",
  "all latitudes, elevations, days",
  "All latitudes, polar day/night transitions included.",
  ["metsim/physics.py:solar_geom"])
# ---------------------------------------------------------------- disaggregation
p("Sub-daily precipitation adds up to the daily amount",
  "Without utc_offset, the sub-daily amounts of each day add up to the day's precipitation and none is negative, for uniform, triangle and mix.",
  "all records, all accepted time steps, all storm parameters for which the triangle is not empty",
  "Continuous storm parameters; the discretised triangle must be normalised for each.",
  ["metsim/disaggregate.py:prec"])
p("UTC shifting conserves the precipitation total",
  "With utc_offset, the total over the record equals the total daily precipitation, and each minute's amount is moved by exactly the whole number of minutes of the longitude, wrapping around the record.",
  "all records, longitudes, methods and time steps",
  "All longitudes.",
  ["metsim/disaggregate.py:prec"])
p("Triangular precipitation is defined for every reasonable storm",
  "For a time to peak within the day's minutes and any duration of at least two minutes the triangular disaggregation produces finite amounts; it produces missing values exactly when no minute of the day receives weight.",
  "all real storm parameters",
  "Degenerate storms divide by zero.",
  ["metsim/disaggregate.py:prec"])
p("Uniform precipitation is constant through the day",
  "Under uniform disaggregation (and mix on days with t_min < 0) every step of a day receives the same share ts/1440 of the daily amount.",
  "all records and accepted time steps",
  "All records.",
  ["metsim/disaggregate.py:prec"])
p("Wind and cloud fraction are held constant within the day",
  "Without utc_offset each sub-daily wind and cloud value equals the daily value of its day; with utc_offset every value lies between the smallest and largest daily values and the record mean is preserved.",
  "all records, accepted time steps and longitudes",
  "All longitudes and records.",
  ["metsim/disaggregate.py:wind", "metsim/disaggregate.py:tskc"])
p("Sub-daily shortwave preserves the daily mean",
  "Without utc_offset the mean of the sub-daily shortwave of a day equals the day's shortwave times daylength over 24 h times the sum of the day's radiation fractions; where the fractions sum to one it therefore equals the value that daily output reports.",
  "all records, accepted time steps, fraction tables",
  "All tables and records.",
  ["metsim/disaggregate.py:shortwave", "metsim/metsim.py:wrap_run_cell"])
p("Sub-daily shortwave is non-negative and dark at night",
  "Sub-daily shortwave is never negative, and is zero in every step all of whose radiation slots have zero fraction, with or without utc_offset.",
  "all records, tables, longitudes",
  "All tables.",
  ["metsim/disaggregate.py:shortwave"])
p("Longitudes are normalised to [-180, 180]",
  "The longitude used for time shifts is congruent to the given one modulo 360 and lies in [-180, 180]; longitudes already in the range are unchanged.",
  "all real longitudes",
  "Continuous domain with tie cases at odd multiples of 180.",
  ["metsim/disaggregate.py:disaggregate"])
p("Times of daily temperature extremes are in order",
  "For every latitude, day and tmax_daylength_fraction in (0,1], the interpolation times (previous day's padding, t_min time, t_max time of each day, following padding) are strictly increasing, so that the interpolator never rejects them.",
  "all latitudes, elevations, records, offsets, fractions in (0,1]",
  "All latitudes, polar days and nights included.",
  ["metsim/disaggregate.py:set_min_max_hour", "metsim/disaggregate.py:temp", "metsim/physics.py:solar_geom"])
p("Sub-daily temperature stays within the daily extremes and attains them",
  "Each interpolated temperature lies between the two neighbouring prescribed extremes, the interpolant equals the prescribed minimum and maximum at their times, and it is monotone in between.",
  "all records, all strictly increasing knot times, all sample times inside the knot range",
  "Continuous family of cubic interpolants.",
  ["metsim/disaggregate.py:temp"])
p("Vapour pressure never exceeds saturation",
  "Every sub-daily vapour pressure is at most the saturation vapour pressure at the sub-daily temperature of the same step.",
  "all records, all steps including the ends of the record",
  "Ends of the record are filled after the comparison with saturation.",
  ["metsim/disaggregate.py:vapor_pressure", "metsim/disaggregate.py:disaggregate", "docs/data.rst"])
p("Relative humidity is a percentage",
  "For non-negative vapour pressure and temperature above -237.3 C relative humidity lies in [0, 100], and equals 100 exactly when vapour pressure is at or above saturation.",
  "all inputs",
  "Continuous domain.",
  ["metsim/disaggregate.py:relative_humidity"])
p("Specific humidity is a mass fraction",
  "For 0 <= vapour pressure < air pressure specific humidity is finite, lies in [0,1) and increases with vapour pressure.",
  "all inputs",
  "Continuous domain.",
  ["metsim/disaggregate.py:specific_humidity"])
p("Air pressure is positive, at most standard at or above sea level, and decreases with height",
  "For physically possible temperatures air pressure is finite and positive, equals standard pressure at elevation 0, and is strictly decreasing in elevation.",
  "all temperatures, elevations and lapse rates keeping the corrected temperature positive",
  "Continuous domain.",
  ["metsim/disaggregate.py:pressure"])
p("Longwave radiation is physical",
  "With the default parameterisations (Prata, Deardorff), vapour pressure >= 0, cloud fraction in [0,1] and temperature above absolute zero, longwave radiation is finite, positive and at most black-body radiation at air temperature; every parameterisation gives finite non-negative values.",
  "all inputs, all parameterisations",
  "Continuous domain, seven formulas.",
  ["metsim/disaggregate.py:longwave"])
p("Provided daily longwave is preserved in the mean",
  "If daily longwave is provided, the mean of the sub-daily longwave of each day equals the provided value.",
  "all records and accepted time steps with non-zero unscaled daily mean",
  "All records.",
  ["metsim/disaggregate.py:longwave"])
p("No gaps in sub-daily output",
  "A column of the disaggregated frame that is defined at some step is defined at every step, and steps that were defined keep their values.",
  "all columns with any pattern of missing values",
  "All patterns.",
  ["metsim/disaggregate.py:disaggregate"])
p("Output chunk sizes fit the domain",
  "The NetCDF chunk sizes requested for output variables never exceed the dimension lengths, and equal the configured chunk size wherever that fits.",
  "all chunk specifications and domain shapes",
  "All shapes.",
  ["metsim/metsim.py:MetSim.setup_netcdf_output"])
p("Vapour pressure is reported in its stated unit",
  "The sub-daily vapour pressure is in the unit stated in its metadata, i.e. the same physical pressure as the daily vapour pressure at the times of minimum temperature where it is below saturation.",
  "all records",
  "Needs unit semantics.",
  ["metsim/disaggregate.py:vapor_pressure", "metsim/metsim.py:attrs"])
p("Gaps in the forcing are refused, never silently shifted",
  "For an increasing list of forcing days a cell's frame is produced exactly if the days are consecutive; with any day missing the run stops with an error instead of storing values under the wrong day.",
  "all increasing lists of days, all accepted time steps, both period_ending settings, all calendars that have the days",
  "Any pattern of missing days, at any position, of any length.",
  ["metsim/metsim.py:wrap_run_cell", "metsim/disaggregate.py:disaggregate"])
p("Daylight follows the seasons and mirrors between hemispheres",
  "North of the equator daylight is shorter than half a day in rows 0-80 and 263-364 of the solar tables and longer in rows 81-262; on any day the half-day angles at opposite latitudes add up to pi; in summer daylight grows with latitude and in winter it shrinks.",
  "all latitudes between the poles, all days of the year",
  "All real latitudes.",
  ["metsim/physics.py:solar_geom"])
p("Storms rise to their peak and fall after it",
  "Minute by minute, triangular precipitation falls only within half a duration of the time to peak, strictly increases up to the peak and strictly decreases after it.",
  "all real storm parameters that touch the day, all positive amounts",
  "Continuous storm parameters against whole minutes.",
  ["metsim/disaggregate.py:prec"])
p("UTC shifting moves shortwave by whole slots",
  "With utc_offset the radiation of a step is that of its 30 s slots in local time, each the longitude's whole slots later, wrapping around the record.",
  "all records, fraction tables whose rows add up to one, longitudes and accepted time steps",
  "The table wraps with the year while the record wraps at its ends.",
  ["metsim/disaggregate.py:shortwave"])
p("Every usable record can be disaggregated, to complete frames",
  "For every record of finite temperatures with consistent column lengths, known method names and a time step dividing the day, disaggregation succeeds, and every column has one entry per step with the time stamps ts*i (shifted by ts if period_ending).",
  "all latitudes, records, time steps, options",
  "Success for all inputs cannot be sampled; polar days and nights and records starting or ending a year go through different code.",
  ["metsim/disaggregate.py:disaggregate"])
p("The files of a run hold each cell's own values at their own time stamps",
  "For any grid, chunking, order of chunks, division into files and time step, the run ends exactly if each unmasked cell can be computed by itself; then each file holds, for each unmasked cell and requested variable, the converted values that cell gives when computed by itself, each at its own time stamp; the stamps of the files are together the output's, each once; masked cells are missing everywhere.",
  "all grids, masks, chunk sizes, orders of chunks, accepted time steps, output frequencies of whole days, months or years, forcing",
  "End-to-end over all schedules and all divisions of time.",
  ["metsim/metsim.py:MetSim.run", "metsim/metsim.py:MetSim.run_slice", "metsim/metsim.py:MetSim.write_chunk", "metsim/metsim.py:wrap_run_cell"])
p("A run over complete input ends, unless an unavailable variable is requested",
  "If the unmasked cells lie between 60 S and 60 N and have their daily columns with finite temperatures, the option names are known and, with mtclim, the dewpoint iterations end, the run ends without an error exactly if every requested output variable is one the run produces, in a unit it can be converted to.",
  "all grids, complete forcing, options, accepted time steps, sets of output variables",
  "No test can sample all forcing and all combinations of variables, units and options.",
  ["metsim/metsim.py:MetSim.run", "metsim/metsim.py:wrap_run_cell", "metsim/disaggregate.py:disaggregate", "metsim/units.py:converters"])
p("The dewpoint iteration always ends",
  "With the mtclim method, at every latitude for which the solar geometry exists and for every record whose minimum and maximum temperatures lie between -60 and 60 degrees or are missing, whatever the precipitation, the dewpoint iteration ends after finitely many rounds for every positive tolerance; so a run over complete input of this kind ends.",
  "all places, records of any length, positive tolerances, parameters in range",
  "A while loop without a bound on its rounds: only a proof excludes that some record keeps it going for ever.",
  ["metsim/methods/mtclim.py:run", "metsim/methods/mtclim.py:tdew", "metsim/physics.py:calc_pet", "metsim/physics.py:solar_geom"])
p("Potential radiation and length of day are the textbook's",
  "At every latitude and on every day the length of day is that of the sunset equation to a thousandth of a second, and the potential radiation times the length of day is the astronomical integral over the daylight hours to within 42.5 kJ/m2 (half a minute of overhead sun).",
  "all latitudes, elevations and days for which the table exists",
  "The code sums over half-minute steps of the hour angle from minus sunset on; that the sum is near the integral for every latitude is an error analysis, not a test.",
  ["metsim/physics.py:solar_geom"])
p("Clear-sky transmittance lies between one and thirty atmospheres and rises with elevation",
  "On every day with daylight the maximum daily transmittance lies between that of thirty optical air masses and that of one, and it is strictly higher at a higher elevation, while length of day, potential radiation and its distribution over the day do not depend on elevation.",
  "all latitudes, elevations below the top of the standard atmosphere, positive lapse rates, days",
  "Continuous elevation and latitude, and a table look-up for low suns.",
  ["metsim/physics.py:solar_geom"])
p("Written precipitation conserves the forcing's water",
  "In the output files of a run, the precipitation fluxes of the steps of a day, each over the length of a step and whatever unit was requested, add up to the precipitation of that day in the forcing, and are not negative unless the forcing is; with output in universal time this holds for the record as a whole.",
  "all grids, chunkings, orders of chunks, masks, records, units, steps dividing the day, file frequencies, storm shapes with some weight",
  "Tests compare single cells of two or three fixed runs with stored output; none adds up what is written.",
  ["metsim/metsim.py:MetSim.run", "metsim/disaggregate.py:prec", "metsim/units.py:converters", "metsim/metsim.py:MetSim.write_chunk"])
p("Daily and sub-daily runs write the same radiation",
  "A run whose output is sub-daily writes, on each day, shortwave radiation whose mean is the value the same run writes when its output is daily.",
  "all grids, chunkings, records, latitudes, days, steps dividing the day, both methods, all averaging options",
  "Tests never run the same forcing at two output steps.",
  ["metsim/metsim.py:wrap_run_cell", "metsim/disaggregate.py:disaggregate", "metsim/disaggregate.py:shortwave"])
p("Temperatures in the files stay within the extremes of the forcing",
  "In a sub-daily run, the temperature written for a step of day k, read in its unit, lies between the smallest and the largest of four forcing values: maximum of day k-1 (for the first day: of the last day of the state), minimum and maximum of day k, minimum of day k+1. With utc_offset and a meridian less than half a turn from theta_s, every temperature written lies within the extremes of the forcing and the state.",
  "all runs that end, all chunkings and schedules, all cells, days, steps, time steps dividing the day, units, latitudes within 90 degrees, forcings",
  "Overshoot of the interpolating curve depends on slopes, sunrise times and the join with the state; a test sees one cell and one season, and no upper bound at all is asserted in the suite.",
  ["metsim/disaggregate.py:set_min_max_hour", "metsim/disaggregate.py:temp", "metsim/metsim.py:wrap_run_cell"])
p("Everything a sub-daily run writes is finite and physically possible",
  "Over complete, plausible daily records (temperatures between -60 and 60 degrees, no negative rain, wind or temperature range; sites not above 8000 m), every value a sub-daily run writes is a number, and read in its unit is possible: radiation, rain, wind and vapour pressure are not negative, absolute temperature and air pressure are positive, cloud cover and relative humidity are fractions of one, specific humidity is at least zero and less than one.",
  "all grids, chunkings, orders, records of any length, steps dividing the day, variables and units, cells, latitudes, both methods, all longwave options",
  "Needs every estimation, interpolation and filling step to be bounded on a continuum of inputs at once; tests check a few cells for absence of NaN.",
  ["metsim/metsim.py:wrap_run_cell", "metsim/methods/mtclim.py:run", "metsim/methods/passthrough.py:run", "metsim/disaggregate.py:disaggregate"])
p("The variables written for a step agree with each other",
  "In the output files of a sub-daily run, at every step: air pressure is the hypsometric pressure of the written temperature at the elevation of the cell; relative humidity is the written vapour pressure over saturation vapour pressure at the written temperature (at most 1); specific humidity follows from the written vapour pressure and air pressure; longwave radiation follows from the written temperature, vapour pressure and cloud cover by the configured schemes; each value read in the unit asked for.",
  "all jobs, schedules, cells, days, steps, units, elevations, longwave schemes",
  "It relates several output variables, each under any unit, at every step of any run; a test compares a few values of one variable to stored numbers.",
  ["metsim/disaggregate.py:disaggregate", "metsim/disaggregate.py:relative_humidity", "metsim/disaggregate.py:specific_humidity", "metsim/disaggregate.py:pressure", "metsim/disaggregate.py:longwave", "metsim/metsim.py:wrap_run_cell"])
p("Universal time shifts local time by the longitude",
  "With utc_offset the value written for a step is the mean, over the minutes of the step, of what the same job writes minute by minute in local time at the minutes shifted by the longitude (4 minutes a degree, 360 degrees taken away, truncated), the record taken as a cycle; shown for wind speed, cloud cover and precipitation.",
  "for all jobs, cells inside the mask, longitudes, time steps dividing a day, records with these variables given",
  "Needs two whole runs (one in steps of a minute in local time) compared at every step for all longitudes; tests use fixed locations and offsets.",
  ["metsim/disaggregate.py:wind", "metsim/disaggregate.py:tskc", "metsim/disaggregate.py:prec", "metsim/disaggregate.py:disaggregate", "metsim/metsim.py:wrap_run_cell"])
p("A daily run writes the published estimates",
  "For a daily run of the estimating method: cloud cover follows from the temperature range and the rain of the day (threshold and scalar of the configuration); length of day is that of the solar geometry; shortwave radiation is the potential radiation through a clear sky holding the vapour pressure written for the day, times the transmittance of the day, averaged over 24 hours; evaporation is that of the written radiation and length of day at the daylight temperature and the pressure of the elevation.",
  "for all jobs with daily steps and method mtclim, cells inside the mask, days and records with the required columns",
  "The files hold only the final values; that the four agree with each other and with the forcing on every day for all configurations cannot be sampled.",
  ["metsim/methods/mtclim.py:run", "metsim/methods/mtclim.py:tskc", "metsim/methods/mtclim.py:tfmax", "metsim/methods/mtclim.py:pet", "metsim/methods/mtclim.py:shortwave", "metsim/metsim.py:wrap_run_cell"])
p("A day's shortwave radiation is spread over its steps as the sun's elevation",
  "For every sub-daily run in local time and every computed cell and day for which a daily radiation exists, there is one factor r for the day such that the shortwave radiation in the files for step i is r times the time integral over that step of the positive part of the sine of the sun's elevation (textbook formula with the declination of that day of the year and the cell's latitude, noon at 12:00), up to an error of 0.134 seconds of overhead sun per minute of time step.",
  "all jobs, all schedules, all cells with |latitude| <= 90, both methods, all days and steps, including days without night and days without light",
  "the shape within the day comes from a table of 2880 slots filled while an hour angle is stepped by a rounded constant; a wrong noon, a wrong declination or a slot off by a few minutes still looks like a bell-shaped day",
  ["metsim/disaggregate.py:shortwave", "metsim/physics.py:solar_geom", "metsim/methods/mtclim.py:run", "metsim/metsim.py:wrap_run_cell"])
p("Temperature follows the sun within the day",
  "For every sub-daily run in local time, every cell and step: the temperature written is the value of the monotone cubic curve (Fritsch-Butland slopes) whose turning points are the daily minimum at sunrise and the daily maximum tmax_daylength_fraction of the daylight later, evaluated at the end of the step; the previous day's extremes come from the state file. Between a minimum and the following maximum (and between a maximum and the following minimum) that are extremes of the series, the value is start + (end - start) s^2 (3 - 2 s). Sunrise and sunset lie within about a minute of the astronomical ones, and at 4:00 and 16:00 on days of polar night or polar day.",
  "all runs, cells, days, steps, latitudes up to 90 degrees, forcing values and state values",
  "Tests compare with stored output for a few cells; they cannot distinguish, for every latitude, day and time step, the intended curve from a nearby one, nor detect swapped state values or clamped ends.",
  ["metsim/disaggregate.py:temp", "metsim/disaggregate.py:set_min_max_hour", "metsim/disaggregate.py:disaggregate"])
p("The humidity estimated for a day is the first settled dewpoint",
  "For every daily run with the MT-CLIM method over a complete, likely record: the vapour pressure written for a day is the published saturation pressure at the dewpoint obtained by applying N+1 times, from the minimum temperature, Kimball's dewpoint formula (with the evaporation of the radiation through a sky holding the vapour of the previous estimate), where N is the first count at which the root mean square change over the record is at most tdew_tol.",
  "all runs, cells, records with temperatures of -60 to 60 degrees, tolerances and rounds",
  "The result depends on how often a loop ran and on all days of the record together; tests see one record and one tolerance, and a loop stopped one round early or late changes values by less than any tolerance used for comparison.",
  ["metsim/methods/mtclim.py:run", "metsim/methods/mtclim.py:tdew", "metsim/methods/mtclim.py:vapor_pressure"])
p("Vapour pressure within the day runs straight between sunrises, below saturation",
  "For every sub-daily run in local time over at least two days: the vapour pressure written for a step is (a thousandth of) the straight line between the daily values placed at the sunrises of their days, taken at the end of the step, but no more than saturation at the temperature written for the step. Steps before the first sunrise repeat the first step after it, steps after the last sunrise the last step before it. The daily values are those of the forcing, or with the MT-CLIM method those of C84.",
  "all runs, cells, days and steps, both methods",
  "Tests compare a few cells with stored output; they cannot show for every step that it is the line between the right two sunrises, nor that the ends are constant.",
  ["metsim/disaggregate.py:vapor_pressure", "metsim/disaggregate.py:disaggregate", "metsim/disaggregate.py:set_min_max_hour"])
p("Forcing is taken from the cell's own place in the file",
  "For every domain file, NetCDF forcing file, variable map, period and chunk: the value a cell of the chunk has for a variable on a day is the value the forcing file has at the cell's labels (those the domain file gives the cell) and a time stamp of that day; elevation, latitude and longitude are the domain's for that cell; the days are those of the file from start to stop. The order and extent in which the file stores places, and the chunk in which the cell is computed, make no difference. Complete files can be read for every chunk.",
  "all files with distinct names and well-formed coordinates, all chunks, cells, variables and days",
  "Tests use one domain and one forcing file with the same coordinates in the same order and one chunking; a lookup by position instead of by label passes them.",
  ["metsim/io.py:read_netcdf", "metsim/io.py:read_domain", "metsim/io.py:process_nc", "metsim/metsim.py:domain", "metsim/metsim.py:met_data"])
p("Forcing given as a data set is taken from the cell's own place",
  "The same for forcing_fmt 'data' (an xarray data set handed over instead of a file).",
  "all data sets, domains, chunks, cells, variables and days",
  "Tests hand over data on exactly the domain and run without chunks, where positions and labels coincide.",
  ["metsim/io.py:read_data", "metsim/metsim.py:met_data"])
p("A run covers the days from start to stop, however they are written",
  "For every complete set of files: whether start and stop are given as days, as text naming a day, as text naming a period, or left to the forcing, the run reads the days from the first to the last day meant and records these as its first and last day.",
  "all files, all ways of giving the two dates",
  "Every test and example configuration gives both dates in full.",
  ["metsim/metsim.py:_validate_force_times", "metsim/io.py:read_netcdf", "metsim/metsim.py:met_data"])
p("From input files to output files, worker by worker",
  "In a run on gridded files every worker reads the domain file, the forcing file and the state file for its own chunk of the domain, derives from them what the cells need (seasonal precipitation, smoothed diurnal range, monthly parameters, the last day of the state), computes its cells and writes its own part of the output files. Whatever the chunks and whatever the order in which the workers write, the output files are those of one pass over the whole domain in which every cell gets the forcing, state and position that belong to its own labels.",
  "all domain, forcing and state files, all variable maps, all masks, all chunkings and all orders of the chunks, all configurations",
  "The number of chunkings and of file layouts is unbounded, and an index that is local in one place and global in another gives plausible values at the wrong place; a test on a small square grid with one chunk cannot tell.",
  ["metsim/metsim.py:wrap_run_slice", "metsim/metsim.py:run_slice", "metsim/metsim.py:load_inputs", "metsim/metsim.py:_aggregate_state", "metsim/metsim.py:convert_monthly_param", "metsim/metsim.py:write_chunk", "metsim/metsim.py:met_data", "metsim/metsim.py:state", "metsim/metsim.py:domain", "metsim/io.py:read_netcdf"])
p("What a cell is computed from, in terms of the files",
  "Given NetCDF domain, forcing and state files in which every variable asked for exists, covers the domain's labels and has exactly one stamp for each of the 90 days before the start and each simulated day, loading succeeds for the whole domain and every cell of the mask can be put together. The seasonal precipitation, the smoothed temperature range and the previous day's extremes a cell is computed with are the trailing means over, and the last of, the values the state and forcing files state at that cell's labels. With a sensible configuration the run from these files is the run of C70-C85, and two runs that differ only in the chunk sizes and the order in which chunks are written either both fail or leave the same values in every output file.",
  "all files, variable maps, constants, domains, masks, periods, chunk sizes, write orders",
  "the statement ranges over all file contents and all chunkings; a test reads one set of files with one or two chunkings",
  ["metsim/metsim.py:load_inputs", "metsim/metsim.py:_aggregate_state", "metsim/metsim.py:state", "metsim/metsim.py:met_data", "metsim/metsim.py:convert_monthly_param", "metsim/metsim.py:run", "metsim/io.py:read_state", "metsim/io.py:read_netcdf"])
p("INI files say what they seem to say",
  "A configuration file laid out in sections of `key = value` (or `key: value`) entries, values continued on indented lines, is read as exactly those sections, keys and values, in that order: comment lines, empty lines and white space around keys, separators and values do not matter.  Section names and the keys of a section are all different.",
  "all files of that layout: any number of sections and entries, any keys and values, any comments, blank lines and white space",
  "tests read two example files; comments between continuation lines, blank lines, colons, values with separators in them are not tried",
  ["metsim/io.py:read_ini_config"])
p("The parameters of a run are those written in its INI file",
  "Read through read_ini_config and the MetSim constructor, an INI file gives: every parameter written in [MetSim] the value written there, converted (whole numbers, decimal numbers, switches that are on exactly when the text is 'true' in any case), every other parameter its class default; the variable names of each section under the names the file gives them (inverted, except forcing_vars of binary forcing); every listed output variable exactly once, under the name the file gives or its own, with its own unit; the files of a forcing directory; and the file is accepted exactly when the required keys are there, the numbers are numbers, the method is known and the outputs exist.",
  "all INI texts in the documented layout (sections, entries, values over several lines, comments, blank lines), all environments (directories, path functions, float)",
  "The reader is only tested through three example files; a key that is dropped, a default that overrides a written value, a list literal read wrongly, or a switch that reads any text as true would pass whenever the examples do not use it.",
  ["metsim/io.py:read_ini_config", "metsim/io.py:_to_list", "metsim/io.py:_invert_dict", "metsim/metsim.py:__init__"])
p("An INI file and a YAML file that say the same configure the same run",
  "A YAML file whose sections and entries say what those of an INI file say (the same texts, numbers, switches, variable names, outputs, chunk sizes, constants) leads to exactly the same parameters of the run, or to the same failure.",
  "all pairs of files that agree entry by entry, all environments",
  "Tests have one configuration per dialect and never compare them; a key that one of the two readers treats specially shows up only when the same run is written in both.",
  ["metsim/io.py:read_ini_config", "metsim/io.py:read_yaml_config", "metsim/io.py:read_config", "metsim/metsim.py:__init__"])
p("Output files describe what they hold",
  "An output file is created exactly if the outputs have names that differ from each other, from the dimensions of the domain and from `time`, netCDF knows the types, sizes are positive and the parameters can be recorded. It then has the domain's dimensions and coordinates, the stamps of the file with calendar, units and a label UTC or local as configured, one variable per output under its out_name with the attributes of that variable (units being those the values are converted to), and the parameters as global attributes. Writing a worker's values changes the worker's region of the output variables and nothing else, and when the run ends the variable of an output holds, at each step, the value the run computed for the cell at the stamp which the time variable has at that step.",
  "all configurations of outputs, names, precision, chunks, domains and time axes; all schedules of the chunks; all values",
  "tests look at one or two files with the default names",
  ["metsim/metsim.py:setup_netcdf_output", "metsim/metsim.py:write_chunk", "metsim/metsim.py:run"])
p("From the configuration file to the NetCDF files",
  "A run of `ms config` over complete NetCDF inputs and with a sensible plan ends without an error exactly if `_validate_setup` accepts the configuration, the output directory exists, the calendar is one cftime knows, no output is named like another output, like `time` or like a dimension of the domain, and every cell of the mask can be computed alone. Its files then hold, under the name of each output and at the step of each stamp, the series each computed cell gives alone, and nothing for the other cells, whatever the chunks and the order of the workers. A missing output directory, several NetCDF forcing files, an output without a name, a YAML date as start or stop, and a first line that is not just `MetSim:` each end the run.",
  "all INI files, YAML documents and parameter dictionaries, all domain, forcing and state files, all chunkings and worker orders, all periods and output frequencies",
  "a test runs one configuration over one set of files in one order of workers; the equivalence speaks of every configuration, every set of files and every order, and of every way a run can fail",
  ["metsim/cli/ms.py:main", "metsim/metsim.py:__init__", "metsim/metsim.py:run", "metsim/metsim.py:_validate_setup", "metsim/metsim.py:setup_netcdf_output", "metsim/metsim.py:write_chunk", "metsim/io.py:read_ini_config", "metsim/io.py:check_config_type"])
p("A run over complete and plausible files comes to its end",
  "If the domain, forcing and state files are complete, the configuration is valid and its plan sensible, the output directory exists, the calendar is one cftime knows, outputs have names of their own, every cell of the mask lies within the troposphere at latitudes up to 60 degrees, all temperatures of the forcing lie between -60 and 60 degrees (those of the state are numbers), shortwave is provided under passthrough, the method parameters are in their ranges and wind is provided if asked for, then the run from the configuration file ends without an error, for any chunks and any order of workers.",
  "all INI files that leave the method parameters at their defaults, all parameter dictionaries with parameters in range, all complete files with such values, all chunkings and worker orders, all periods, steps and output frequencies",
  "a run of a test ends for its files; that no series of temperatures, no latitude, day, chunk or order makes an iteration run forever or an index fall outside an array cannot be tried out",
  ["metsim/cli/ms.py:main", "metsim/metsim.py:run", "metsim/metsim.py:run_slice", "metsim/metsim.py:wrap_run_cell", "metsim/io.py:read_ini_config"])
p("Configuration files written as documented are understood",
  "What the configuration page of the documentation says about configuration files holds: an output directory that does not exist is created, `Metsim:` may be the first line, and `start: YYYY-MM-DD` names a day. (As stated this fails: three runs that end once the directory is there, with `MetSim:`, and with the date as text, end with an error in the documented form.)",
  "all worlds (file systems, YAML readers), configuration texts and documents, worker orders",
  "tests use configurations that work; the documented ones are not among them",
  ["metsim/io.py:check_config_type", "metsim/io.py:read_yaml_config", "metsim/metsim.py:_validate_force_times", "metsim/metsim.py:setup_netcdf_output"])
p("The shift to UTC is the time of the longitude, in floating point",
  "With utc_offset the record is shifted by int((lon / 360) * 1440) minutes and the sunshine by int((lon / 360) * 2880) slots of 30 seconds; computed in float64 these are the whole parts of 4*lon minutes and 8*lon slots.",
  "for every longitude with 53 binary digits from -180 to 180 (the partial result: every real longitude)",
  "A shift that is a minute short moves every value of the record by one minute; no output looks wrong, and most longitudes are right.",
  ["metsim/disaggregate.py:prec", "metsim/disaggregate.py:wind", "metsim/disaggregate.py:tskc", "metsim/disaggregate.py:shortwave", "metsim/disaggregate.py:set_min_max_hour"])
p("Precipitation is conserved in floating point",
  "Spread uniformly over the minutes of the day, shifted, summed per step in float32 or float64 and written in the file's precision, precipitation is not negative, is zero where no wet minute is, and each step and the record hold the exact amount up to a stated relative error, whatever the order of numpy's additions: 2^-23 with float64, 1/5000 with float32.",
  "for all non-negative daily totals, record lengths, time steps, shifts, precisions and orders of addition",
  "Rounding errors depend on the amounts, the time step, the precision of the forcing file and numpy's order of additions, which differs between versions and lengths.",
  ["metsim/disaggregate.py:prec"])
p("Wind and cloud cover survive rounding",
  "The written step values of wind and cloud cover are the means over their minutes up to a stated relative error, whatever the order of numpy's additions; bounds of few digits (0 and 1 for cloud cover) hold exactly; and a value with the digits of the file, the same all through a step, is written as it is.",
  "for all daily values, record lengths, time steps, shifts, precisions and orders of addition",
  "Whether the mean of equal numbers is that number depends on the number, the step and the precision of the forcing.",
  ["metsim/disaggregate.py:wind", "metsim/disaggregate.py:tskc"])
p("Rounding to the precision of the file keeps values possible and in order",
  "Rounded to 24 or 53 binary digits (out_precision f4 or f8) everything a sub-daily run computes over plausible records is still a possible value of its quantity in its unit, in error by at most 2^-24 or 2^-53 of it; order and bounds of the file's precision are kept.",
  "for all runs, cells, steps, variables and units for which the exact value is possible; all real numbers",
  "The values at the edge (100 % humidity, 1 of cloud cover, absolute zero in Celsius) are met by few inputs.",
  ["metsim/metsim.py:MetSim.write_chunk", "metsim/metsim.py:MetSim.setup_netcdf_output"])
p("A run over files for single cells does what one gridded file would",
  "A run whose forcing is a list of text or binary files named after latitude and longitude ends like the run over one gridded data set that holds, at each active cell, the series of the last readable file of that cell, one value for each day; its files hold the values computed for each cell alone from that series. Over plausible files the run ends.",
  "for all configurations, lists of files, domains, masks, chunkings, orders of workers and values",
  "Which of the files reaches which cell depends on names, masks, lengths and order of the files and on the chunk a worker reads; a swapped or shifted series is still a plausible series.",
  ["metsim/io.py:process_vic", "metsim/io.py:read_met_data", "metsim/io.py:read_ascii", "metsim/io.py:read_binary", "metsim/metsim.py:MetSim.load_inputs"])
p("What forcing_vars has to say for files for single cells",
  "Text files for single cells have no names of variables in them, so that what forcing_vars maps the variables to does not matter for whether such a run ends.",
  "for all INI files that differ in the right-hand side of forcing_vars, all files, domains and orders",
  "The examples map each variable to itself; whether other maps are read depends on the inversion of the section and of errors that are passed over.",
  ["metsim/io.py:process_vic", "metsim/io.py:read_ascii", "metsim/io.py:read_binary", "metsim/io.py:read_ini_config"])
p("The command line names one file and decides nothing about what is computed",
  "A command line whose parts are the configuration file and the options in any of the spellings argparse allows (short, joined, abbreviated, with = or apart) and any order stands for that file, the last number of workers and scheduler given (1 and distributed by default) and verbosity if asked for; no file or several, unknown or ambiguous options and missing files are refused. The run is that of the file named, and number of workers, scheduler, verbosity and the order in which workers finish change no value in the files.",
  "for all sequences of arguments of any length and spelling, all file systems, configuration files and orders of workers",
  "Spellings combine without bound, and abbreviations collide (--ver); whether an option leaks into the parameters a run uses shows only by comparing runs over all configurations.",
  ["metsim/cli/ms.py:parse", "metsim/cli/ms.py:_is_valid_file", "metsim/cli/ms.py:main", "metsim/io.py:read_ini_config", "metsim/io.py:read_yaml_config"])
p("What open_output reads back is what was computed",
  "After a run that has come to its end and whose days lie within 1400000 days of 2000-01-01, open_output finds every file of the run, and the files put together along time give: as time axis the output axis of the run, each stamp once and in order; for each computed cell and each output variable, under the name it has in the files, the series computed for that cell alone, value by value along that axis; and missing values for every other cell. This holds for every split of the run into files, every order in which chunks are written, and for gridded forcings as well as for files for single cells.",
  "for all worlds, configurations, input files, periods within the bound, output frequencies, chunkings, write orders and fuel for which a run ends",
  "Tests open the output of a handful of runs and compare against stored values for one chunking and one split; that no stamp is lost, doubled or read as another one, and that no value moves between files, cells or times, is a statement about every number of files, every group of stamps and every order.",
  ["metsim/metsim.py:MetSim.open_output", "metsim/metsim.py:MetSim.setup_netcdf_output", "metsim/metsim.py:MetSim.write_chunk", "metsim/metsim.py:MetSim._get_output_filename"])
p("The data of a day reach no further than the next day and the day before",
  "In a sub-daily run in local time, what is written for a day depends only on the data of that day, of the day before and of the day after (on the first day: on the stored state in place of the day before), besides the place and the parameters. Two runs over different periods or with records that differ elsewhere write the same values for a date at which these agree; a longer run repeats a shorter one except on the shorter one's last day. When radiation and humidity are estimated this holds of temperature, pressure, precipitation, wind and cloud cover.",
  "every pair of successful runs, every pair of cells at the same place, every pair of days of the two records that are the same date and have the same data around them, every variable and step",
  "Compares all pairs of runs over arbitrary records and periods; a test can compare a few.",
  ["metsim/disaggregate.py:disaggregate", "metsim/disaggregate.py:temp", "metsim/disaggregate.py:vapor_pressure", "metsim/disaggregate.py:prec", "metsim/disaggregate.py:shortwave", "metsim/disaggregate.py:longwave", "metsim/metsim.py:wrap_run_cell"])
p("From the files a run reads to the files it leaves",
  "After a run over gridded files or over files for single cells that ends without an error, the NetCDF files it leaves hold, for every computed cell about which the forcing, state and domain files tell only plausible things (temperatures between -60 and 60 C, non-negative rain and wind, at most 8000 m, storms that touch the day): at every stamp and for every output, under the output's name, a physically possible value in the output's unit; for every day rain that adds up to what the forcing file tells for that day at the cell's labels; and temperatures between the maximum told for the day before, the minimum and maximum told for the day and the minimum told for the day after, where the state file tells about the day before the first. The values at a stamp are unique.",
  "every configuration, every set of files, every order of the workers, every output directory, every cell of the mask, day and step; sub-daily steps, local time for rain and temperatures; estimated radiation with the Deardorff cloud option or given plausible radiation; air pressure not in hPa",
  "Speaks of all possible input files and all values in all files left on disk by the whole program; tests run it on a handful of files.",
  ["metsim/metsim.py:MetSim.run", "metsim/metsim.py:MetSim.setup_output", "metsim/metsim.py:MetSim.write_chunk", "metsim/metsim.py:wrap_run_cell", "metsim/io.py:read_met_data", "metsim/io.py:read_domain", "metsim/io.py:read_state", "metsim/disaggregate.py:disaggregate"])
p("Runs over the same files agree where their periods overlap",
  "Take two sub-daily runs in local time with the same parameters that have come to their end, over gridded files or over files for single cells. If what their files tell about a day, and about the temperatures (and with radiation passed through, the vapour pressure) of the days before and after, is the same, then the files the two runs leave hold the same value for every step of that day: for every output variable with radiation and humidity passed through; for temperature, pressure, rain and wind with everything estimated, and for cloud cover if the thirty days up to it have the same temperatures. In particular two runs over the same domain and forcing files agree on every day they have in common except the first and the last, and on the first as well if it is the first of both and they start from the same state.",
  "for all pairs of worlds, configurations, input files, periods, chunkings, write orders, output splits and days for which both runs end and the files are plausible",
  "A test compares one run with a stored result; that a value depends on the data of three days only, whatever the length of the two periods, where they start, how they are chunked and into which files they are split, is a relation between arbitrary pairs of runs.",
  ["metsim/metsim.py:MetSim.run", "metsim/metsim.py:wrap_run_cell", "metsim/disaggregate.py:disaggregate", "metsim/disaggregate.py:temp", "metsim/disaggregate.py:vapor_pressure", "metsim/io.py:read_netcdf"])
p("The time step only decides how finely the same day is written",
  "Let two runs differ only in their time steps, the longer being a whole multiple of the shorter (both less than a day). Precipitation, wind, cloud cover and shortwave radiation written for a long step are the means of what the other run writes for the short steps that make it up; temperature and air pressure are those of the last of those short steps; in local time, between the sunrise of the first day and that of the last, vapour pressure, relative and specific humidity and longwave radiation are too.",
  "for all sub-daily jobs that run, all pairs of steps q*ts and ts dividing a day, both clocks (moisture and longwave: local time), all computed cells with a sound record, all days and steps",
  "Compares every pair of time steps over every record; tests run each step against its own stored numbers and never relate two of them.",
  ["metsim/disaggregate.py:disaggregate", "metsim/disaggregate.py:set_min_max_hour", "metsim/disaggregate.py:temp", "metsim/disaggregate.py:prec", "metsim/disaggregate.py:wind", "metsim/disaggregate.py:shortwave", "metsim/disaggregate.py:vapor_pressure"])
p("The version of a checkout names its commit",
  "In a git checkout metsim.__version__ is TAG for an unchanged tagged commit and TAG+DISTANCE.gHEX[.dirty] (0+untagged.DISTANCE.gHEX[.dirty] without a tag) otherwise, whatever the branch and the place of the checkout, also for tags with hyphens; it is a PEP 440 version if the tag is one, and two checkouts have the same version only if they are the same commit of the same tag, equally changed.",
  "all tags, distances, hashes, dates and answers of git, all pairs of checkouts, all styles of versioneer",
  "The repository a test runs in has one tag, one distance and one hash; ambiguity is a statement about all pairs of checkouts.",
  ["metsim/_version.py:git_pieces_from_vcs", "metsim/_version.py:render_pep440", "metsim/_version.py:plus_or_dot", "metsim/_version.py:render", "metsim/_version.py:pep440_split_post", "metsim/_version.py:run_command", "metsim/_version.py:get_versions"])
p("Without a repository the version comes from the archive or the directory, and importing never fails",
  "An archive written by git has the first of its tags that begin with a digit as its version, an unpacked source tree what follows metsim- in the name of one of the three directories above the package; otherwise the version is unknown. Finding the version raises no exception unless git works and then fails to list commits or the date.",
  "all decorations of a commit, all directory names, all answers of git",
  "It depends on how the source was obtained, not on anything a test can vary.",
  ["metsim/_version.py:git_versions_from_keywords", "metsim/_version.py:versions_from_parentdir", "metsim/_version.py:get_versions", "metsim/_version.py:get_keywords", "metsim/_version.py:get_config"])
p("Each output depends only on the inputs it is computed from",
  "Take two runs with the same settings and period, and a computed cell of each. If the two cells agree in the inputs from which a variable is to be computed, both runs write the same values of that variable, however their other inputs differ: temperature depends on the daily extremes, the latitude and the last day of the state; wind on the wind; precipitation on the precipitation (and, for storms, their shape and, for the mixed method, the frost); cloud cover on the temperature ranges and the precipitation, or on the cover given; shortwave under passthrough on the daily shortwave and the latitude; humidity, pressure and longwave on the tables `needs` and `needsGiven`; daily columns on the table `needsDaily`. The longitude counts only where sub-daily output is in UTC, and the elevation does not count for temperature, wind, precipitation, cloud cover, or humidity where it is given.",
  "all settings of both methods, all periods, time steps, grids, schedules and pairs of inputs for which the runs succeed",
  "Independence of an input quantifies over all pairs of inputs that differ in it; a test varies one input a few times.",
  ["metsim/metsim.py:wrap_run_cell", "metsim/methods/mtclim.py:run", "metsim/methods/passthrough.py:run", "metsim/disaggregate.py:disaggregate"])
p("Precipitation, wind and given radiation and cloud cover enter linearly",
  "Take three runs with the same settings and period, where the record of a variable in a cell of the third is a times its record in the first plus b times its record in the second, and the three cells agree in what shapes the day of that variable (storm durations and times for precipitation, latitude for radiation, longitude if output is in UTC). Then every value of that variable written by the third run is a times that of the first plus b times that of the second, in whatever unit it is written. This holds for precipitation and wind under both methods, and for shortwave and cloud cover under passthrough, for sub-daily and for daily runs. In particular a record scaled by a factor gives output scaled by it.",
  "all settings, units, periods, time steps, grids, schedules, factors and triples of complete records for which the runs succeed",
  "Linearity relates three runs for all records and factors; a test adds two records once.",
  ["metsim/disaggregate.py:prec", "metsim/disaggregate.py:wind", "metsim/disaggregate.py:shortwave", "metsim/disaggregate.py:disaggregate", "metsim/methods/passthrough.py:run"])
p("Sub-daily temperature follows the scale of the daily temperatures",
  "Take two runs with the same settings and period, and a computed cell of each at the same latitude (and longitude if output is in UTC). If the daily extremes and the last day of the state of the second are a times those of the first plus b, then every sub-daily temperature of the second is a times that of the first plus b, for any a and b, where temperature is written in Celsius. If every extreme is warmer by b, every sub-daily temperature is warmer by exactly b, in Celsius and in Kelvin. So the temperature curve commutes with a change of scale of its input, and a uniform warming is not reshaped by the interpolation.",
  "all settings of both methods, all periods, time steps, grids, schedules, scales and pairs of inputs for which the runs succeed",
  "The limiter of the interpolation branches on signs of slopes, so equivariance has to be shown for all branches and all data; a test shifts one record.",
  ["metsim/disaggregate.py:temp", "metsim/disaggregate.py:disaggregate", "metsim/metsim.py:wrap_run_cell", "metsim/units.py:converters"])
p("What is asked for, and the year, decide how values are written, not what they are",
  "Take two runs whose settings agree in everything that is to enter the computation, and two cells with the same place, record and last day of the state. The runs may differ in the variables asked for, their units, names, files and grouping, in the calendar of the files, in the end of the step the stamps stand for, in grid, chunks and schedule, and in the dates, as long as the days have the same numbers in their years. Then for every variable asked for by both, day and step by step, both write one and the same quantity, each in its own unit; in the same unit they write the same value. In particular the same record gives the same values in another year, if the first days have the same number and the years are of the same lengths as far as the run goes.",
  "all settings of both methods, all periods, time steps, units, grids and schedules for which the runs succeed",
  "A test compares two output selections or two years for a few variables; the claim is about all combinations of them.",
  ["metsim/metsim.py:wrap_run_cell", "metsim/metsim.py:run_slice", "metsim/metsim.py:_get_output_times", "metsim/disaggregate.py:disaggregate", "metsim/units.py:converters"])
p("More in, more out: a larger record never gives a smaller value",
  "If the daily precipitation, wind, given shortwave or given cloud cover of one run is nowhere below that of another run with the same settings (and the same things that shape a day: storm columns, minimum temperature for mixed rain, longitude under utc_offset, latitude for shortwave), then every written value of that variable in the first run is at least that in the second, in every output unit, or both are missing; within a day and for daily output.",
  "all pairs of successful runs with the same settings, days, all records with one nowhere below the other, all cells, days, steps, output units, both methods for precipitation and wind, latitudes within the globe for shortwave",
  "relates pairs of runs over all records; a test compares a few records at a few stamps",
  ["metsim/disaggregate.py:prec", "metsim/disaggregate.py:wind", "metsim/disaggregate.py:shortwave", "metsim/disaggregate.py:tskc", "metsim/methods/passthrough.py:run"])
p("Moister or cloudier days are never drier or darker at night",
  "In two runs with given daily humidity, same settings, temperatures, latitude and carried temperatures, if the daily vapour pressure of the first (nowhere negative) is nowhere above that of the second, then no written step of vapour pressure, relative humidity, specific humidity or longwave radiation of the first is above that of the second; for longwave the cloud cover may also grow, if it is the same in both or the parameterisation only gains from clouds (Prata emissivity, or TVA clouds), for all six emissivity schemes.",
  "all pairs of runs, grids, chunkings, calendars, time steps below a day, stations below 8000 m with temperatures between -60 and 60 degrees, records of humidity and cloud, units on offer",
  "Tests compare single runs with stored numbers; monotonicity through interpolation, the cap at saturation, gap filling and six nonlinear emissivity formulas is a statement about all pairs of inputs.",
  ["metsim/disaggregate.py:vapor_pressure", "metsim/disaggregate.py:relative_humidity", "metsim/disaggregate.py:specific_humidity", "metsim/disaggregate.py:longwave", "metsim/disaggregate.py:disaggregate"])
p("A run can start on every day its calendar has",
  "For every calendar cftime knows and every day the calendar has, a run on that calendar can start with that day (given suitable files).",
  "all calendars, all start days, all domain, forcing and state files, all chunks and orders of workers, gridded forcing and files for single cells",
  "The tests run on the standard calendar only; whether the dates record_dates counts are ninety depends on the calendar and the season of the start.",
  ["metsim/metsim.py:load_inputs", "metsim/datetime.py:date_range", "metsim/metsim.py:_aggregate_state"])
p("On every calendar a cell's output is stamped with the steps of the calendar's days",
  "For a run on any of the calendars MetSim knows and a forcing record that has all the days of this calendar from its first to its last one, the time axis of the output (`_get_output_times`) and the index of the cell's frame are the steps of these days in order, also where the calendar passes from the 28th of February to the 1st of March while the standard calendar does not, or goes from the 30th of a month to the 1st; in the file these stamps are numbers that go up by the time step. Values are neither lost nor moved: the i-th value of a sub-daily output variable is that of the i-th step of `disaggregate`. Of the records whose days belong to the calendar, exactly these can be run; with `period_ending`, the day behind the record has moreover to follow on both calendars.",
  "all calendars, all records of any length with days of the calendar, all time steps that divide a day, both stamping conventions, all values",
  "Tests run over a few days of the standard calendar and never over a 29th of February on noleap; whether a record is rejected depends on both calendars at the days around its end.",
  ["metsim/datetime.py:date_range", "metsim/metsim.py:_get_output_times", "metsim/metsim.py:wrap_run_cell", "metsim/disaggregate.py:disaggregate"])
p("Shortwave radiation is conserved in floating point",
  "With all operations of `shortwave` in double precision, as numpy does them, and with `bincount` adding slot after slot, every sub-daily shortwave value is within a relative 2^-40 of the value of exact arithmetic; it is never negative, and zero exactly where the exact value is zero, so night stays exactly dark. In local time the mean of a day is the daily value averaged over 24 hours up to a relative 2^-38, if the fractions of the day were made by dividing potentials by their sum, as `solar_geom` does; such fractions lie between 0 and 1 and add up to 1 up to 2^-40.",
  "all records of non-negative daily values and daylengths, all tables of non-negative fractions, all time steps that divide a day, all longitudes whose shift is exact",
  "Tests compare a few runs with a tolerance; that no input and no time step makes rounding errors pile up, or leaves a glimmer at night, is a statement about all doubles.",
  ["metsim/disaggregate.py:shortwave", "metsim/physics.py:solar_geom"])
p("Humidity and unit conversions survive rounding",
  "In double precision, relative humidity lies between 0 and 100 and differs from the exact value by at most two roundings; specific humidity lies between 0 and 1, differs by at most ten roundings, whatever the vapour pressure below the air pressure. Converting to another unit never changes the order of two values nor makes a value negative, turns percentages into fractions between 0 and 1 and cloud fractions into percentages between 0 and 100, and differs from exact arithmetic by at most two roundings, for the same variables and units.",
  "all non-negative vapour pressures, all positive saturation pressures, all air pressures above the vapour pressure, all variables, units and time steps, every precision",
  "Bounds such as at most 100 % or at most 1 can be missed by one unit in the last place for particular doubles only; tests do not hit them.",
  ["metsim/disaggregate.py:relative_humidity", "metsim/disaggregate.py:specific_humidity", "metsim/units.py:converters"])
p("A warmer record is nowhere colder, and errors in the daily extremes do not grow",
  "Take two sub-daily runs in local time with the same settings, days and latitude, over records in which no daily minimum is above the maximum of its own day or of the day before (the last day before the run included). Every temperature written by the second differs from that written by the first by a weighted mean of two differences of the daily extremes. So if no extreme of the second record is below that of the first, no written temperature is, nor (for the same elevation, at or above sea level) any written air pressure; and if the extremes differ by at most b, so do all written temperatures. Without the condition on the minima this fails: a warmer afternoon can make the night before it colder.",
  "all pairs of such runs, cells, days, steps and bounds, all schedules and chunkings",
  "Piecewise cubic interpolation is not order preserving in general; tests compare with one stored output and never two perturbed records at every step.",
  ["metsim/disaggregate.py:temp", "metsim/disaggregate.py:set_min_max_hour", "metsim/disaggregate.py:pressure"])
p("Storms have the documented shape",
  "In a sub-daily run in local time with prec_type triangle, and with mix on days whose minimum is not below freezing, the rain written for each step of a day is that of the minutes of the step under an isosceles triangle with its peak at t_pk, dur minutes wide, and the rain of the day for its area; on mix days below freezing, and with uniform, it is the same for every step. Holds for storms whose beginning, peak and end are minutes of the day. For others the written rain follows another shape, given exactly: the limbs of the storm are squeezed into the minutes of the day, so that a storm beginning before midnight starts with no rain in the first minute instead of part of the peak.",
  "all runs, cells, days, steps, peaks and durations for which some minute of the day gets weight, all schedules and chunkings",
  "The tests run the triangle method on one stored domain and compare totals; they never look at the shape within the day or at storms near midnight.",
  ["metsim/disaggregate.py:prec"])
p("Estimating first and disaggregating later gives the files of one run",
  "Let a run of the mtclim method with a step shorter than a day be given, a second run of mtclim over the same record with a step of one day that writes shortwave, vapor_pressure (Pa) and tskc, and a third run of the passthrough method with the step of the first, whose forcing has these three variables as the daily files hold them and otherwise the forcing of the first run, sw_averaging being anything but 'daylight'. If all three runs end, then for each cell, each variable written by the first and third run in the same unit, and each step, both write the same value (missing values included). The same holds with sw_averaging = 'daylight' if the radiation given is a mean over daylight of the same daily energy.",
  "all records, grids, settings, schedules, numbers of rounds, output variables and units, days and steps",
  "tests run the methods separately on fixed forcings and never feed the output of one run to another",
  ["metsim/methods/passthrough.py:run", "metsim/methods/mtclim.py:run", "metsim/metsim.py:wrap_run_cell", "metsim/disaggregate.py:disaggregate", "metsim/disaggregate.py:shortwave"])
p("The way daily radiation is stated does not matter",
  "Two runs of the passthrough method that agree in everything, except that one is given daily shortwave radiation as a mean over daylight (sw_averaging = 'daylight') and the other the same energy as a mean over the day, write the same values of all other variables and, with a step shorter than a day, of shortwave radiation too.",
  "all records, grids, settings, schedules, variables, units, days and steps",
  "tests only use passthrough with one statement of the radiation",
  ["metsim/methods/passthrough.py:run", "metsim/methods/mtclim.py:pet", "metsim/physics.py:calc_pet", "metsim/disaggregate.py:disaggregate", "metsim/disaggregate.py:shortwave"])
p("Warmer and moister steps radiate no less",
  "Take two time steps, of the same run or of two runs with the same longwave and cloud schemes. If the files give both the same cloud cover, and the second a temperature and a vapour pressure that are not lower, then the longwave radiation written for the second is not lower. This holds for all temperatures and vapour pressures for the schemes DEFAULT, TVA, ANDERSON, BRUTSAERT and PRATA, and for SATTERLUND and IDSO within an explicit range, which contains temperatures from -40 to 60 degrees Celsius with vapour pressures of the drier step that are zero or between 1e-9 and 25 hPa.",
  "all runs without given longwave radiation, cells, pairs of steps, schemes, temperatures and vapour pressures in range",
  "emissivity falls with temperature in four of the six schemes while the fourth power rises; which wins for every pair of values is a statement over a continuum, and IDSO has values where it fails",
  ["metsim/disaggregate.py:longwave"])
p("A warmer record that is not drier writes no less vapour and longwave radiation",
  "Take two runs that pass the daily radiation, vapour pressure and cloud cover through, with the same settings, days and latitude. If the daily temperature extremes and the vapour pressures of the second are nowhere below those of the first, extremes alternating between low and high in both, then no sub-daily vapour pressure written by the second run is below that of the first. If the cloud cover is the same, no longwave radiation written is lower either, for SATTERLUND and IDSO within the range of C126.",
  "all pairs of such runs without utc_offset, all cells, steps, records and schemes",
  "two whole runs are compared at every step over a continuum of records; temperature enters by the interpolated extremes, the cap at saturation and the emission at once",
  ["metsim/disaggregate.py:longwave", "metsim/disaggregate.py:vapor_pressure", "metsim/disaggregate.py:temp"])
p("A warmer record that is not moister is nowhere more humid",
  "Two complete passthrough runs with the same settings, days and latitude and without a UTC offset: if no daily minimum or maximum temperature of the second record (nor of the state before it) is below the first's, and no daily vapour pressure is above the first's, then at every step between the first and the last sunrise the relative humidity written by the second run is at most the one written by the first.",
  "all pairs of complete sub-daily passthrough runs, cells, schedules, steps between the first and last sunrise",
  "relational property of two runs over all records, steps and latitudes; a test compares a few records",
  ["metsim/disaggregate.py:relative_humidity", "metsim/disaggregate.py:vapor_pressure", "metsim/disaggregate.py:temp"])
p("Errors in the daily vapour pressure do not grow",
  "Two complete passthrough runs with the same settings, days, temperatures and latitude (and longitude, if times are UTC): if every daily vapour pressure of the second record is within b of the first's, then wherever the first run writes a vapour pressure the second does, and the two differ by at most b (a thousandth of it in the number written, see C64), also where saturation limits one of them and where values are filled in; the relative humidities differ by at most b over the saturation vapour pressure of the step.",
  "all pairs of complete sub-daily passthrough runs, error bounds, cells, schedules, steps",
  "bound on the difference of two runs for all records and errors; a test compares a few records",
  ["metsim/disaggregate.py:vapor_pressure", "metsim/disaggregate.py:relative_humidity", "metsim/disaggregate.py:disaggregate"])
p("The two locks of an output file, taken one at a time, neither deadlock nor lose a chunk",
  "combine_locks([NETCDFC_LOCK, get_write_lock(filename)]) is a pair of locks, one belonging to the library in each process and one to the file, that a worker takes and gives back one after the other. For any number of workers in any number of processes, and for every interleaving of the single takes and releases, the finished files hold every worker's region and nothing else, no file is open in two workers at once, and a run that dies leaves closed regions final and the others missing. If all workers find the two locks of a file in the same order - it may be another order for another file - some worker can always move, no execution has more than six steps per worker and file, and one that cannot be continued has finished. Workers that each put the pair together in their own order can block each other for good.",
  "all numbers of workers and processes, all assignments of workers to processes, all orders of the pairs, all interleavings",
  "Deadlocks and lost updates depend on interleavings a test cannot choose, and on the iteration order of a set of locks.",
  ["metsim/metsim.py:MetSim.run", "metsim/metsim.py:MetSim.write_chunk", "metsim/metsim.py:wrap_run_slice"])
p("What is in the output directory before does not matter",
  "A run that ends without an error in an empty output directory does so whatever files it finds there - those of an earlier run, of a run that died half way, or anyone's. It leaves exactly the same files as in an empty directory, replaces files of the same names entirely, leaves all other files as they were, and open_output reads back the same. With complete inputs and a sensible configuration the converse holds too: it ends exactly if it would in an empty directory, fails with the same error otherwise, and doing a run again over its own files changes nothing.",
  "all contents of the output directory, all configurations (INI or YAML text), all inputs, all orders of the workers",
  "Tests start from an empty temporary directory; leftovers of every possible crash cannot be enumerated.",
  ["metsim/metsim.py:MetSim.run", "metsim/metsim.py:MetSim.setup_netcdf_output", "metsim/metsim.py:MetSim.write_chunk", "metsim/metsim.py:MetSim.open_output", "metsim/cli/ms.py:main"])
p("The sky of a day and the temperature ranges of the month",
  "With method mtclim the cloud cover written for every step of a day (daily and sub-daily runs) is a function of three numbers only: the temperature range of that day, the mean range of the thirty days that end with it, and the rain of that day. If two records differ in the temperature range of one day, the record with the wider range (up to 240 K) has no more clouds on that day, although its monthly mean is wider too, no fewer clouds on each of the twenty-nine days after it, and exactly the same clouds on all other days. With the same ranges, a record with no more rain on any day has no more clouds in any step.",
  "All runs with method mtclim, all records with non-negative ranges, all days, time steps, chunkings and schedules",
  "The claim weighs two opposing effects of the same change for all ranges and all sums over the month; a test can only sample ranges, and the effect on the days after reaches exactly twenty-nine days",
  ["metsim/methods/mtclim.py:tfmax", "metsim/methods/mtclim.py:tskc", "metsim/metsim.py:wrap_run_cell", "metsim/disaggregate.py:disaggregate"])
p("Storms and given longwave radiation are conserved in floating point",
  "With every sum, quotient and product rounded to a floating point number, and whatever the order in which numpy adds: for storms of at least two minutes that peak within the day, the precipitation of TRIANGLE and MIX has in each step the rain of its minutes, and in each day (without UTC offset) and over the whole record (with one) the rain of the input, up to a relative error of one factor (1 + 2^(1-p)) for each rounding; in double precision written to a single precision file that is 2^-23. The shape of the storm is the triangle of the exact computation to four units of the last place. Longwave radiation scaled to given daily means has these means to the same accuracy, and its steps keep their shares.",
  "all precisions from 11 digits, all orders of addition, all storms, records, time steps, longitudes; all positive longwave radiation and non-negative daily means",
  "A test compares one storm with a tolerance; it does not bound the error for every storm, every order of summation and every length of record, and a tolerance wide enough to pass may hide a lost minute.",
  ["metsim/disaggregate.py:prec", "metsim/disaggregate.py:longwave"])
p("Options left out have their documented values",
  "A configuration file, INI or YAML, that leaves out an optional parameter runs with the value docs/configuration.rst gives for it: method, out_prefix, sw_prec_thresh, rain_scalar, lw_cloud, lw_type, tdew_tol, tmax_daylength_fraction, tday_coef, lapse_rate, prec_type, out_precision and out_vars.",
  "all configuration files that are accepted, all environments and command line options",
  "The defaults are spread over the class, the two readers and the documentation; the tests always give the parameters they use, so that none notices a default that differs from the documented one or is overwritten by a reader.",
  ["metsim/metsim.py:MetSim", "metsim/io.py:read_ini_config", "metsim/io.py:read_yaml_config"])
p("Outputs and units are available as documented",
  "Every output variable docs/data.rst lists for daily or for sub-daily steps passes validation at these steps, and in a fresh process every variable asked for in a unit that docs/configuration.rst lists for it is written in that unit, every variable asked for without a unit in the unit documented as default, whatever else is asked for.",
  "all sets of outputs with any units, all time steps",
  "The documentation, the table of converters, the attributes and the lists of the validation are four copies of the same facts; no test compares them.",
  ["metsim/units.py:converters", "metsim/metsim.py:MetSim._update_unit_attrs", "metsim/metsim.py:MetSim._validate_setup"])
p("Options nothing reads leave the output as it is",
  "A configuration file may have entries under names the program never reads. Adding, changing or dropping such an entry changes neither whether the run ends nor the names, dimensions, variables, attributes of variables and values of its files; only their global attributes may show it. In particular the documented option `time_grouper` (docs/configuration.rst:51-55, said to write the output in pieces) does nothing.",
  "Every pair of INI files (of YAML files) that agree on the keys that are read, every world of input files, every order of the workers, every pair of command lines options",
  "The set of entries is infinite and a test can only try single names; that a name is read nowhere on any path is a statement about all paths of the program.",
  ["metsim/io.py:read_ini_config", "metsim/io.py:read_yaml_config", "metsim/metsim.py:MetSim", "metsim/metsim.py:setup_netcdf_output"])
p("A run in universal time is the local run shifted by whole steps",
  "Let utc_offset be on, the output be sub-daily, and let the longitude of a cell be worth a whole number q of time steps. Then the temperature written for a step in universal time is exactly the temperature that the same run without utc_offset writes q steps later (earlier for negative q), for every pair of steps of the record related this way. For records of two days or more with sound inputs and theta_s worth nothing, the same holds for air pressure, vapour pressure, relative and specific humidity, cloud cover, longwave, precipitation and wind. It holds for solar radiation too, except that eastward shifts from the last day of a common year into the next year are left out.",
  "every job, cell, schedule, longitude that is a multiple of the step, step length, record length, every pair of steps",
  "The shift is applied in three unrelated ways: by moving the hours of the extreme temperatures, by moving the knots of the vapour pressure interpolation, and by rolling minute series; only a proof over all steps, including those next to the ends of the record, shows that the three agree.",
  ["metsim/disaggregate.py:set_min_max_hour", "metsim/disaggregate.py:temp", "metsim/disaggregate.py:vapor_pressure", "metsim/disaggregate.py:prec", "metsim/disaggregate.py:wind", "metsim/disaggregate.py:disaggregate"])
p("Longitudes of either convention give the same run",
  "Take a run and the same run with whole turns of 360 degrees added to the longitudes of any of its cells. If no computed cell lies on the date line (180 degrees, or whole turns from it), both do the same: they leave the same files, value by value, or end with the same error. Where output is in local time, the longitudes can be replaced by any others without changing anything.",
  "every job, mask, chunking, order of chunks, method, time step, longitude off the date line, number of turns for each cell",
  "The longitude enters five functions by different formulas, all of which are equal for the two conventions only because of one reduction made before; a domain with longitudes from 0 to 360 has to be tried against its twin at every cell.",
  ["metsim/disaggregate.py:disaggregate", "metsim/metsim.py:wrap_run_cell"])
p("Each output depends only on the parameters it is computed from",
  "For every output variable there is a short list of the numerical and method options that enter it: temperature uses tmax_daylength_fraction (and theta_s when times are universal), precipitation only prec_type, wind none, cloud cover sw_prec_thresh, rain_scalar and lw_cloud, pressure in addition the lapse rate, humidity the parameters of the daily dew point, longwave those of temperature, humidity and cloud cover with lw_type, and solar radiation those of the daily dew point (mtclim) or only sw_averaging (passthrough). Two runs over the same cell whose other parameters differ in any way write the same values of the variable at every step. The same holds for daily output with the lists of the daily columns, where nothing of the disaggregation options counts. This holds for the values found in the files on disk, and for runs started from two configuration files that differ only in entries outside the list.",
  "every pair of jobs, schedules, values of the eleven parameters, both methods, every output variable, step and day",
  "A test varies one option from one default; that eleven real-valued or text options in all combinations leave a variable untouched needs an argument that follows each value through the code.",
  ["metsim/disaggregate.py:disaggregate", "metsim/disaggregate.py:set_min_max_hour", "metsim/disaggregate.py:shortwave", "metsim/disaggregate.py:longwave", "metsim/disaggregate.py:prec", "metsim/methods/mtclim.py:run", "metsim/methods/passthrough.py:run"])
p("A cell gets the same values whichever domain it is computed in",
  "Let two runs of the same length, with the same parameters, have ended and left their files. For any cell of the one and any cell of the other, each variable has the same value on disk at every step of every day (the first and the last included; any time step, daily output, local time or UTC, estimated or passed-through radiation) provided the input files tell the same about the two cells of what that variable is computed from: the columns of the table of C112 on the days of the run; the temperatures of the thirty days, and the precipitation of the ninety days, up to each day where the variable needs averages; the temperatures of the day before; and latitude, elevation or longitude where they matter. In particular a cell that two domain files have in common (a cropped domain, another mask, flipped or transposed axes, another resolution elsewhere) gets the same values from the same forcing and state files. Nothing is assumed about the values being plausible.",
  "for all runs that have ended, all domain, forcing and state files that satisfy the reading conditions, all pairs of cells, variables, days and steps",
  "The comparison is between runs over different domains and holds for all files at once; a test runs one domain and compares with a stored answer, and would have to enumerate domains, masks, chunkings and data sets.",
  ["metsim/metsim.py:wrap_run_cell", "metsim/metsim.py:MetSim._aggregate_state", "metsim/io.py:read_domain"])
p("The format of the forcing does not matter",
  "Take a run over a gridded NetCDF forcing file and a run over per-cell text or binary files, with the same domain file, state file, constants, parameters, start and length, and the same supplied variables. If for a cell the files hold the same numbers (the last readable file named after the cell's latitude and longitude has, on every day, the value the gridded file has at the cell), then the two runs leave the same value on disk for that cell, for every output variable and every step of every day. Nothing is asked of the other cells.",
  "for all pairs of ended runs, forcing files of both kinds, cells, output variables, days and steps",
  "Compares two readers over all possible file contents; a test compares stored outputs of one reader over one data set.",
  ["metsim/io.py:read_met_data", "metsim/io.py:process_vic", "metsim/metsim.py:wrap_run_cell"])
p("The program runs what forcing_fmt asks for",
  "A run ends only if forcing_fmt is netcdf, ascii or binary, and then it is the run over that kind of files: for an INI file the entry of the section MetSim (a file without the entry makes no run, although the class has a default), for a YAML file the entry or NetCDF if there is none. Any other format stops the run.",
  "for all configuration files, worlds, schedules and formats",
  "The set of formats is all texts; tests run three configurations.",
  ["metsim/io.py:read_met_data", "metsim/io.py:read_ini_config", "metsim/io.py:read_yaml_config"])
p("A run that stops on the way leaves right values or none",
  "From configuration and input files to the NetCDF files on disk: after any of the chunks of a run, in whatever order they finish, the files exist with their dimensions, stamps and variables; every computed cell of the finished chunks has for every output and step the value the complete run leaves (and the one the cell gives when computed alone), and all other cells hold no value. A run gets that far exactly if the configuration is accepted, the files can be created and the cells of these chunks can be computed; what other chunks would have done does not matter. A run that fails after creating its files does so at a chunk with a cell that cannot be computed, and the chunks finished before it are in the files.",
  "for all configurations and input files that satisfy the reading conditions, all subsets of the chunks in any order, all cells, outputs and steps",
  "Every subset and order of the chunks is a stopping point, and cells may fail for any input; tests run to the end.",
  ["metsim/metsim.py:MetSim.run", "metsim/metsim.py:MetSim.write_chunk", "metsim/metsim.py:wrap_run_slice"])
p("YAML configuration files say what they seem to say",
  "For YAML files made of sections, keys and values as the documentation and the shipped example write them (block mappings of up to three levels, values quoted or plain, comments, blank lines, any indentation and spacing): what is read is what the lines say, with numbers, switches, null, dates and text told apart as YAML 1.1 does, and the sections MetSim looks at are these dictionaries. A run of such a file is the run of what it says; two files that say the same with different layout make the same run. A first or last day written YYYY-MM-DD without quotes is a date and not text, and no file with one makes a run, whatever else it says; without leading zeros, as in the shipped example, or in quotes it is text.",
  "for all files of that shape (any number of lines, any keys, values, indentation, comments), all worlds in which PyYAML reads files of that shape as specified, all input files, orders of chunks and options",
  "Layouts, keys and values are unbounded; tests have a few files, all with the same layout.",
  ["metsim/io.py:read_yaml_config", "metsim/io.py:read_config", "metsim/io.py:check_config_type"])
p("The same configuration written as INI and as YAML leaves the same files",
  "From the text of two configuration files to the NetCDF files: an INI file and a YAML file, each in any layout, that say the same (numbers, switches, names, sections) both lead to a run that ends or both do not, and the runs leave the same files with the same dimensions, variables, stamps and values; only global attributes may differ. This holds for NetCDF forcing and for text files for single cells. The YAML file must not hold null, switches or dates under keys that cannot be recorded as attributes; without that condition a run of the YAML file still implies the same run of the INI file.",
  "for all INI and YAML texts of the layouts of C91 and C144 that say the same and do not ask for binary forcing, all worlds (input files) in which PyYAML reads YAML of that shape as specified, all orders of chunks and options",
  "Pairs of texts in two languages times all layouts; tests compare no pair.",
  ["metsim/io.py:read_config", "metsim/io.py:read_ini_config", "metsim/io.py:read_yaml_config", "metsim/metsim.py:MetSim.run"])
p("In daily steps, a day's output is made from that day alone",
  "A run with a time step of 1440 minutes writes for a day what follows from the record of that day: two runs (over other periods, of other lengths, with other data on all other days, from other state) that have the same parameters and the same of that date, as far as it counts for the variable, write the same value for it; also on the first and the last day. With passthrough this holds for every variable, and a variable that is given needs nothing but itself. With mtclim it holds for all but vapour pressure, radiation, dew point and evaporation, which are found by an iteration that stops for all days at once. In the files on disk: the values for the day are the same if the input files tell the same about that day and, for what comes from the diurnal range, the same temperatures for the thirty days up to it.",
  "for all pairs of sane runs with equal parameters and time step 1440, all cells, variables, days; all worlds, files and configurations for the version on disk",
  "Two runs of any length over any data that agree on one day; tests run single configurations.",
  ["metsim/metsim.py:wrap_run_cell", "metsim/methods/passthrough.py:run", "metsim/methods/mtclim.py:run"])
p("In a wet climate the estimated humidity of a day is the day's own, up to the tolerance",
  "With mtclim the dew points of all days are found in one iteration, which stops when the root mean square change over all days is at most tdew_tol; so the value of a day can depend on the other days. Where the potential evaporation of a day (under a perfectly transparent sky) is less than a fortieth of the seasonal precipitation, that dependence is bounded by the tolerance: the day has exactly one dew point (from -115 degrees up) that is its own estimate, and the vapour pressure written is saturation at a temperature within q/(1-q) * sqrt(n) * tdew_tol of it, where n is the number of days and q is 40 times the ratio. Two runs over different periods that have the same record of a day hence differ by at most the sum of the two bounds. If the seasonal precipitation is at least 1900 mm, q is at most 1/2 on every day anywhere on earth, and with the default tolerance the loop ends after at most 28 further rounds.",
  "for all sane daily runs with mtclim, all cells, days and records with temperatures between -60 and 60 degrees and ranges up to 200, all pairs of such runs, all tolerances",
  "A bound on the effect of arbitrary other days on one day, and on the number of rounds; a test sees single iterations.",
  ["metsim/methods/mtclim.py:run", "metsim/methods/mtclim.py:tdew"])
p("A rainier season never makes a day drier",
  "The dew point mtclim estimates for a given evaporation is no lower when more rain falls in the season. This holds while the evaporation of the day is at most nine hundredths of the seasonal precipitation (of at least 80 mm), and fails beyond: with 10 mm of evaporation, 125 mm of rain give a lower dew point than 80 mm, since the cubic of the regression rises between ratios of 0.094 and 0.157. In wet climates it holds for what the runs write: of two days with the same minimum temperature and range, in any two runs with whatever other days, the one with less evaporation for the rain of its season is written with a vapour pressure no lower, up to the tolerance of the iteration; in particular the same day in a rainier season.",
  "for all temperatures, evaporations and rains; all pairs of daily runs with mtclim, cells, days",
  "Monotonicity over a continuum of inputs and over pairs of runs with arbitrary other days; tests check single values.",
  ["metsim/methods/mtclim.py:tdew", "metsim/methods/mtclim.py:run"])
p("Calls of the program one after the other",
  "Calls of the program may share an output directory, with forcing and configuration of any format, complete or stopped after some of their chunks. After any number of them, each file holds what the last call that writes a file of that name leaves in an empty directory, and files that none of them writes are as they were. A run that stopped half way and is done again from the start leaves the directory as if it had not been stopped. Calls that write different files can be made in either order.",
  "for all lists of calls (worlds, files, options, configuration texts, orders of chunks) and all contents of the directory",
  "All histories of calls; tests run in fresh directories.",
  ["metsim/metsim.py:setup_netcdf_output", "metsim/metsim.py:write_chunk", "metsim/cli/ms.py:main"])
p("A missing value leaves the humidity of other days as it is",
  "With the mtclim method, a value that is missing on one day (a temperature, a temperature range or its mean, or the rain of the season) leaves the dewpoint estimated for the other days what it is, up to the tolerance.",
  "for all records, all patterns of missing values, all days, tolerances and numbers of rounds, all runs",
  "The wrong values are plausible and only a comparison with the same record without the gap shows them; all patterns of gaps.",
  ["metsim/methods/mtclim.py:run", "metsim/methods/mtclim.py:tdew"])
p("A day without wind or rain in the forcing has none in sub-daily output",
  "In a sub-daily run, the steps of a day whose wind or precipitation is missing in the forcing are missing in the output.",
  "for all runs in local time at steps below a day, all cells, all patterns of missing days, all days and steps",
  "The values written are plausible wind and rain; only a comparison with the gaps of the forcing shows that they were never observed; all patterns of gaps.",
  ["metsim/disaggregate.py:disaggregate", "metsim/disaggregate.py:wind", "metsim/disaggregate.py:prec"])
p("Sub-daily temperatures are never made up",
  "A sub-daily run comes to its end only if the minimum and maximum temperature of every day, and of the day before the first, are there for every cell it computes; a daily run writes a minimum or maximum temperature as missing exactly on the days it is missing.",
  "for all runs, all cells, all patterns of missing values, forcing in one file or in one file per cell",
  "A gap in one cell out of a million decides whether the whole run ends; all patterns of gaps, all cells and all orders of the jobs.",
  ["metsim/disaggregate.py:temp", "metsim/disaggregate.py:disaggregate"])
p("A day without radiation or sky cover in the forcing has none in sub-daily output",
  "In a sub-daily run over given radiation, the steps of a day whose shortwave radiation or sky cover is missing in the forcing are missing in the output.",
  "for all runs of `passthrough` in local time at steps below a day, all cells, all patterns of missing days, all days and steps",
  "A dark day looks like a heavily clouded one; only a comparison with the gaps of the forcing shows that nothing was observed; all patterns of gaps.",
  ["metsim/disaggregate.py:disaggregate", "metsim/disaggregate.py:shortwave", "metsim/disaggregate.py:tskc"])
p("Through a gap in the given vapour pressure the humidity stays as it was",
  "In a sub-daily run over given vapour pressure, if the days between two days have none, the vapour pressure written from the sunrise of the first of the two to that of the second is the one written for the last step before.",
  "for all runs of `passthrough` in local time at steps below a day, all cells, all patterns of missing days, all steps",
  "The gap reaches into the days on both sides of the missing ones, up to the sunrise, which depends on latitude and season; all patterns of gaps and all steps.",
  ["metsim/disaggregate.py:vapor_pressure", "metsim/disaggregate.py:disaggregate", "metsim/disaggregate.py:set_min_max_hour"])
p("Through days without given longwave radiation or sky cover it glows as in the last step before",
  "In a sub-daily run, through days for which the longwave radiation given by the forcing is missing, or (with passthrough, in local time) the sky cover it would be estimated from, the longwave radiation written stays as in the last step of the day before them, whatever the temperatures and the humidity of these days.",
  "for all sub-daily runs, both methods, all cells, all patterns of missing days, all steps",
  "That the missing radiation is not estimated from the temperatures at hand only shows with gaps in one forcing variable; all patterns of gaps.",
  ["metsim/disaggregate.py:longwave", "metsim/disaggregate.py:tskc", "metsim/disaggregate.py:disaggregate"])
p("At daily steps a day without data has none, and every other day has its own",
  "In a run with a time step of 1440 minutes, a variable that is taken over from the forcing (rain, temperatures, wind, longwave radiation; with passthrough also shortwave radiation, sky cover, vapour pressure and evaporation) is not filled: a day missing in the forcing is missing in the output, nothing is carried over from the day before; and a day that is given has its own value, in the unit asked for, whatever is missing on other days.",
  "for all sane runs with time step 1440, both methods, all cells, variables taken over, units, all patterns of missing days; all worlds, files and configurations for the version on disk",
  "All patterns of gaps; that gaps are filled at sub-daily steps and kept at daily ones shows only in comparing both with gappy data.",
  ["metsim/metsim.py:wrap_run_cell", "metsim/methods/passthrough.py:run", "metsim/methods/mtclim.py:run"])
p("The same day written at once and in steps",
  "Let one run write daily values and another, of the same forcing and parameters, steps shorter than a day in local time. Wind and cloud cover of every step of a day are those the daily run writes for it; the rain of its steps is in the mean that of the day (as a flux, in whatever units the two runs write), and nowhere negative if the day's is not; and the temperature of a step lies between the minimum and the maximum the daily run writes for the day, the maximum of the day before and the minimum of the day after.",
  "for all pairs of sane runs that differ in the time step, output variables, units, calendar and stamping at most, both methods, all cells, days and steps",
  "Two runs of the program over all data; tests compare a single configuration with stored output.",
  ["metsim/metsim.py:wrap_run_cell", "metsim/disaggregate.py:prec", "metsim/disaggregate.py:wind", "metsim/disaggregate.py:tskc", "metsim/disaggregate.py:temp"])
p("Given longwave radiation is spread over the day as the estimate",
  "If longwave radiation is given and a daily run writes m for a day, then a run in steps (local time, same forcing and parameters) writes for each step of the day what the schemes of the configuration estimate from the temperature and vapour pressure written for the step and the cloud cover of the day, times one and the same factor; the factor makes the mean of the steps m. With the default schemes (Prata, Deardorff) the estimate is never nothing, and no step is negative unless m is.",
  "for all pairs of sane runs that differ in the time step and in what they write at most, all twelve combinations of schemes, all cells, days, steps, given values, temperatures above absolute zero",
  "The shape and the mean at once, for every combination of schemes and all data.",
  ["metsim/disaggregate.py:longwave", "metsim/disaggregate.py:disaggregate", "metsim/metsim.py:wrap_run_cell"])
p("A day left at once and in steps, from files to files",
  "Two runs over the same domain, forcing and state files and constants, one in daily steps and one in shorter steps of local time, whose configurations differ only in the time step, the stamps and what they write, leave on disk: the same wind and cloud cover in each step as for the day; rain whose mean over the steps is that of the day, if it is spread evenly, or freezes (mix), or its storm has room in the day; given longwave radiation (default schemes, values in range) whose mean is that of the day; shortwave radiation (estimated, or given as a mean over daylight) whose mean is that of the day, on days with night, and at most that otherwise; and temperatures between the extremes left for the day, the maximum of the day before (for the first day, that of the state file) and the minimum of the day after. Values are compared in SI units, whatever units the two configurations ask for.",
  "for all pairs of runs that end, gridded or per-cell forcing, all files and configurations that differ in this way, all computed cells, all days, all steps",
  "Both runs are read back from their output files; the relation holds for all forcing, units and chunkings of either run at once.",
  ["metsim/metsim.py:run", "metsim/metsim.py:wrap_run_cell", "metsim/disaggregate.py:disaggregate", "metsim/metsim.py:write_chunk"])
p("Temperatures in steps of different length, from files to files",
  "Two sub-daily runs over the same domain, forcing and state files and constants, whose configurations differ only in the time step and in the variables and units they write, the longer step being q times the shorter one: the temperature the first leaves on disk for a step is the temperature the second leaves for the last of the q steps it is made of, and the other way round. Values are compared in SI units. This holds in local and in universal time.",
  "for all pairs of runs that end, gridded or per-cell forcing, all time steps that divide each other, all computed cells, days and steps, all units and sets of variables asked for",
  "Both runs are read back from their files; holds for every forcing and for all pairs of time steps.",
  ["metsim/disaggregate.py:temp", "metsim/disaggregate.py:disaggregate", "metsim/metsim.py:run", "metsim/metsim.py:wrap_run_cell"])
p("What the files of one run say about each other",
  "In the files a sub-daily run leaves, for every computed cell and step, in SI units: the air pressure is the hypsometric pressure at the temperature on disk and the elevation the domain file has for the cell; the relative humidity is a thousand times the vapour pressure on disk over saturation at the temperature on disk, and at most one; the specific humidity follows from a thousand times the vapour pressure and the air pressure on disk. The factor of a thousand is there because the vapour pressure is written in kPa under a unit that says Pa. Air pressure asked for in hPa is left out. A step has one value on disk.",
  "for all runs that end, gridded or per-cell forcing, all computed cells, days and steps, all units but hPa for air pressure, temperatures above 35.85 K (relative humidity) or with a warm enough column (air pressure, specific humidity)",
  "Relates numbers read back from the files to each other, for every forcing and configuration.",
  ["metsim/disaggregate.py:disaggregate", "metsim/metsim.py:run", "metsim/metsim.py:write_chunk", "metsim/metsim.py:wrap_run_cell"])
with open(os.path.join(os.path.dirname(os.path.abspath(__file__)), "..", "properties.jsonl"), "w") as f:
    for q in P:
        f.write(json.dumps(q) + "\n")
print(len(P))
