# Axioms each theorem of MANIFEST.json depends on

From `#print axioms`, by `tools/axioms.py`.

## propext

`C05_refuted`, `C08_dummy_lock_loses`, `C21_refuted`, `C21_no_silent_accept`, `C22_refuted`, `C22_wind_refuted`, `C30_file_name`, `C102_days`, `C110_command`, `C130_own_order_deadlocks`

## Quot.sound, propext

`C07_missing_dimension`, `C08_no_lost_update`, `C08_mutual_exclusion`, `C09_crash`, `C10_mask`, `C11_cell_independent`, `C20_refuted`, `C24_ascii`, `C26_invert_partial`, `C29_constants_partial`, `C30_succeeds`, `C30_readers_complete`, `C35_calendar_table_fails`, `C92_list`, `C103_itself_partial`, `C130_no_lost_update`, `C130_one_at_a_time`, `C130_crash`, `C135_outputs`

## Classical.choice, Quot.sound, propext

`C01_units_partial`, `C01_refuted`, `C01_missing`, `C01_full_false`, `C01_table_complete`, `C02_units_honoured`, `C02_supported_converts`, `C03_refuted`, `C03_units_attr_partial`, `C04_class_defaults`, `C04_refuted`, `C04_backwards_refuted`, `C04_effective`, `C04_last_object_partial`, `C05_ini_names_partial`, `C06_partition`, `C06_nonpositive_rejected`, `C07_loop`, `C07_chunk_independence_partial`, `C07_refuted`, `C08_no_deadlock`, `C08_terminates`, `C08_chunks`, `C12_time_axis`, `C12_empty`, `C13_period_ending`, `C14_axes_agree`, `C15_refuted`, `C15_empty_group_fails`, `C15_concatenation`, `C15_partition_partial`, `C16_refuted`, `C16_name_determines_days`, `C16_filenames_partial`, `C16_name`, `C16_sorted`, `C17_standard_calendar`, `C17_date_range_partial`, `C17_refuted`, `C17_decode_freq`, `C18_day_of_year`, `C18_civil_fields`, `C19_time_roundtrip`, `C19_time_injective`, `C19_stored_number`, `C20_time_step_partial`, `C21_validation_partial`, `C22_producible_partial`, `C23_refuted`, `C23_accepted_implemented_partial`, `C24_binary_partial`, `C24_exact_file_partial`, `C24_other_counts_fail`, `C24_refuted`, `C25_day_partial`, `C25_last_second`, `C25_refuted`, `C26_refuted`, `C26_invert_sound`, `C27_config_type`, `C28_ini_bool`, `C29_stored_value`, `C29_refuted`, `C30_cells`, `C30_last`, `C30_order_irrelevant`, `C30_location`, `C31_text_date`, `C31_negative_refused`, `C31_period_and_state`, `C31_accepts`, `C31_netcdf_period`, `C32_windows`, `C32_defined`, `C32_state_length`, `C33_restart`, `C33_unpack`, `C34_inverted`, `C35_monthly_partial`, `C35_shifted`, `C35_refuted`, `C36_value`, `C36_t_day`, `C36_endpoints`, `C37_value`, `C37_fractions_partial`, `C37_transmittance`, `C37_rain`, `C37_monotone`, `C37_default_cloud`, `C37_refuted`, `C38_value`, `C38_ice`, `C38_svp_pos`, `C38_svp_increasing`, `C38_svp_zero`, `C38_svp_nan`, `C39_slope_partial`, `C39_below_freezing`, `C39_refuted`, `C40_atm_pres_value`, `C40_calc_pet_value`, `C40_pet_value`, `C40_energy`, `C40_calc_pet`, `C40_atm_pres`, `C40_pet`, `C40_zero_lapse`, `C41_dewpoint_value`, `C41_dewpoint_wet`, `C41_self_consistent`, `C41_columns`, `C41_rounds`, `C41_negative_tol`, `C41_returns`, `C42_passthrough_partial`, `C42_added`, `C42_refuted`, `C43_value`, `C43_mtclim_partial`, `C43_passthrough_scaled`, `C43_refuted`, `C44_inside`, `C44_fractions_partial`, `C44_lit_slots`, `C44_refuted`, `C45_beyond_pole`, `C45_bounds_partial`, `C45_fails_iff`, `C45_midlatitude_partial`, `C45_refuted`, `C46_daily_total`, `C47_total`, `C47_shift`, `C48_finite`, `C48_missing_iff`, `C49_mix_warm`, `C49_uniform`, `C49_other`, `C50_same`, `C50_constant`, `C50_bounds`, `C50_mean`, `C50_shift`, `C51_daily_mean`, `C51_matches_daily`, `C52_nonneg`, `C52_dark`, `C53_remainder`, `C54_increasing`, `C54_accepted`, `C54_times`, `C55_points`, `C55_curve`, `C55_between`, `C55_within`, `C56_inside_partial`, `C56_refuted`, `C57_percentage`, `C57_ratio`, `C57_missing`, `C58_value`, `C58_fraction`, `C58_increasing`, `C59_value`, `C59_positive`, `C59_decreasing`, `C60_value`, `C60_default`, `C60_nonneg`, `C60_series`, `C60_unknown`, `C61_mean`, `C61_frame`, `C62_columns`, `C63_chunk_sizes`, `C64_kilopascal_partial`, `C64_refuted`, `C65_gaps_refused`, `C66_hemispheres`, `C66_seasons`, `C66_latitude`, `C67_triangle`, `C68_interior_partial`, `C68_refuted`, `C69_total`, `C70_files`, `C71_completes`, `C71_run`, `C72_ends`, `C72_cell`, `C72_run`, `C73_insolation`, `C74_airmass`, `C74_airmass_antitone`, `C74_transmittance`, `C74_elevation`, `C74_vertical`, `C75_daily_rain`, `C75_total_rain`, `C76_shortwave_partial`, `C76_passthrough`, `C76_refuted`, `C77_within_days`, `C77_within_record`, `C78_mtclim_partial`, `C78_passthrough_partial`, `C78_refuted`, `C79_pressure`, `C79_relative_partial`, `C79_specific_partial`, `C79_longwave_partial`, `C79_refuted`, `C80_wind`, `C80_cloud`, `C80_rain`, `C81_cloud`, `C81_daylength`, `C81_shortwave`, `C81_evaporation`, `C82_passthrough`, `C82_mtclim`, `C83_curve`, `C83_day`, `C84_daily`, `C85_passthrough`, `C85_mtclim`, `C86_series`, `C86_days`, `C86_domain`, `C86_day_of_year`, `C86_place`, `C86_reads`, `C86_chunks`, `C87_series_partial`, `C87_refuted`, `C88_days_partial`, `C88_default_fails`, `C88_refuted`, `C88_months_refuted`, `C89_worker`, `C89_run`, `C89_job`, `C89_forcing`, `C90_days`, `C90_windows`, `C90_loads`, `C90_run`, `C90_chunks`, `C90_place`, `C90_storms`, `C90_period`, `C91_ini`, `C91_comment_behind_switch`, `C91_defaults`, `C91_junk`, `C91_headless`, `C92_accepted`, `C92_text`, `C92_options`, `C92_parameters`, `C92_default_outputs`, `C92_needed`, `C92_no_names`, `C92_sections`, `C92_outputs`, `C93_options`, `C93_numbers`, `C93_same_run_partial`, `C93_bare_section`, `C93_yaml_forcing_vars`, `C93_quoted_switch`, `C93_texts`, `C93_refuted`, `C94_created`, `C94_leftover`, `C94_written`, `C94_run`, `C94_recorded`, `C94_attributes`, `C94_standard`, `C94_settings`, `C95_run`, `C95_values`, `C95_ini`, `C95_described`, `C95_frequency`, `C95_unsplit`, `C95_unrecorded`, `C95_no_directory`, `C95_forcing_files`, `C95_unnamed`, `C95_unnamed_error`, `C95_date`, `C95_worker_checked`, `C95_first_line`, `C96_ends`, `C96_ini`, `C97_forms_partial`, `C97_refuted`, `C98_shift_partial`, `C98_order`, `C98_sunrise`, `C98_hours`, `C98_refuted`, `C99_steps`, `C99_mass`, `C99_double`, `C99_single`, `C99_dry`, `C100_steps`, `C100_bounds`, `C100_constant`, `C100_constant_partial`, `C100_refuted`, `C101_mtclim`, `C101_passthrough`, `C101_order`, `C101_humid`, `C102_run`, `C102_values`, `C102_described`, `C102_worker_checked`, `C102_forcing`, `C102_series`, `C102_listing`, `C102_text`, `C102_bytes`, `C102_scale`, `C102_ends`, `C102_ini`, `C103_names`, `C103_ini`, `C103_single`, `C103_binary`, `C103_columns`, `C103_refuted`, `C104_parse`, `C104_ambiguous`, `C104_no_file`, `C104_shown`, `C104_dashes`, `C104_dashes_behind`, `C104_unknown`, `C104_no_value`, `C104_said`, `C104_options`, `C104_options_yaml`, `C104_main`, `C104_main_exit`, `C104_main_file`, `C104_same`, `C104_ini`, `C105_calendar`, `C105_reads`, `C105_vic`, `C106_passthrough`, `C106_mtclim`, `C106_longer`, `C107_possible`, `C107_rain`, `C107_temperature`, `C107_vic`, `C108_passthrough`, `C108_mtclim`, `C108_overlap`, `C108_overlap_estimated`, `C109_temp`, `C109_mean`, `C109_pressure`, `C109_moist`, `C110_groups`, `C110_checkout`, `C110_release`, `C110_describe`, `C110_same_partial`, `C110_refuted`, `C110_pep440`, `C110_programs`, `C110_branch`, `C110_detached`, `C110_prefix`, `C110_unreadable`, `C110_post`, `C110_untagged`, `C110_pre_bare`, `C110_shown`, `C110_default_style`, `C110_release_styles`, `C110_master`, `C110_aside`, `C110_unnamed`, `C110_pre`, `C110_pre_first`, `C111_archive`, `C111_single`, `C111_other_tags`, `C111_no_tags`, `C111_shorter`, `C111_directory`, `C111_undecorated`, `C111_ends`, `C111_without_git`, `C111_prefix`, `C111_no_date`, `C112_depends`, `C112_given`, `C112_daily`, `C112_longitude`, `C113_superposition`, `C113_daily`, `C113_scaling`, `C114_scale`, `C114_warmer`, `C115_asked`, `C115_same_unit`, `C115_year`, `C116_more`, `C116_daily`, `C117_moister`, `C118_days`, `C118_load`, `C118_vic`, `C118_iff_partial`, `C118_start`, `C118_run`, `C118_run_vic`, `C118_names`, `C118_refuted`, `C119_axis`, `C119_frame`, `C119_ending`, `C119_iff`, `C119_numbers`, `C119_cell`, `C120_near`, `C120_value`, `C120_mean`, `C120_fractions`, `C120_day`, `C120_total`, `C121_rel`, `C121_spec`, `C121_order`, `C121_sign`, `C121_units`, `C121_percent`, `C121_error`, `C122_mean`, `C122_warmer`, `C122_error`, `C122_pressure`, `C123_storm`, `C123_isosceles_partial`, `C123_even`, `C123_refuted`, `C124_stages`, `C124_daylight`, `C125_restated_partial`, `C125_evaporation`, `C125_refuted`, `C126_warmer`, `C126_range`, `C127_vapour`, `C127_longwave`, `C128_drier`, `C129_vapour`, `C129_relative`, `C130_no_deadlock`, `C130_bounded`, `C130_completes`, `C131_ends`, `C131_same`, `C131_again`, `C131_text`, `C131_open`, `C132_cloud`, `C132_wider`, `C132_rain`, `C133_shape`, `C133_steps`, `C133_record`, `C133_day`, `C133_longwave`, `C133_written`, `C133_day_written`, `C133_longwave_written`, `C134_ini_partial`, `C134_yaml_partial`, `C134_precision`, `C134_nothing_asked`, `C134_refuted`, `C135_units_partial`, `C135_kilopascal`, `C135_refuted`, `C135_default_units`, `C136_program`, `C136_setup`, `C136_files`, `C136_ini`, `C136_run`, `C136_time_grouper`, `C136_yaml`, `C136_run_yaml`, `C137_temp`, `C137_shift`, `C137_shortwave`, `C138_turn`, `C138_local`, `C138_dateline`, `C139_parameters`, `C139_daily`, `C139_disk`, `C139_ini`, `C139_runs`, `C140_disk`, `C140_elsewhere`, `C141_formats`, `C142_format`, `C142_other`, `C142_ini`, `C142_yaml`, `C142_unsaid`, `C143_stopped`, `C143_final`, `C143_cells`, `C143_reached`, `C143_passes`, `C143_fails`, `C144_only`, `C144_end`, `C144_run`, `C144_layout`, `C144_date`, `C144_text`, `C144_read`, `C145_files`, `C145_text`, `C146_day`, `C146_given`, `C146_files`, `C146_overlap`, `C147_own`, `C147_rounds`, `C147_two`, `C147_wet`, `C147_default`, `C148_estimate_partial`, `C148_refuted`, `C148_wetter`, `C148_rain`, `C149_call`, `C149_history`, `C149_resume`, `C149_apart`, `C150_first_partial`, `C150_daily_partial`, `C150_humid_partial`, `C150_refuted`, `C151_wind_partial`, `C151_calm_partial`, `C151_rain_partial`, `C151_uniform_partial`, `C151_refuted`, `C151_held_partial`, `C151_disk_partial`, `C152_known`, `C152_daily`, `C152_disk`, `C152_stops`, `C153_held_partial`, `C153_disk_partial`, `C153_night_partial`, `C153_hold_partial`, `C153_dark_partial`, `C153_sky_partial`, `C153_refuted`, `C154_disk`, `C154_hold`, `C155_disk`, `C155_hold`, `C156_blank`, `C156_own`, `C156_disk`, `C156_given`, `C156_told`, `C157_even`, `C157_rain`, `C157_temperature`, `C158_spread`, `C158_mean`, `C158_default`, `C159_even`, `C159_longwave`, `C159_rain`, `C159_temperature`, `C159_shortwave`, `C160_temp`, `C160_disk`, `C161_pressure`, `C161_relative`, `C161_specific`, `C161_one`
