'MarineQC.C01_yesterday_predecessor' depends on axioms: [propext, Classical.choice, Quot.sound]
'MarineQC.C01_yesterday_none' depends on axioms: [propext, Classical.choice, Quot.sound]
'MarineQC.C02_pentad_of_day' depends on axioms: [propext, Classical.choice, Quot.sound]
'MarineQC.C02_leap_day' depends on axioms: [propext]
'MarineQC.C02_which_pentad_domain' depends on axioms: [propext, Classical.choice, Quot.sound]
'MarineQC.C02_pentad_first_day' depends on axioms: [propext, Classical.choice, Quot.sound]
'MarineQC.C02_pentad_round_trip' depends on axioms: [propext, Classical.choice, Quot.sound]
'MarineQC.C02_pentad_has_five_days' depends on axioms: [propext, Classical.choice, Quot.sound]
'MarineQC.C03_day_in_year_counts' depends on axioms: [propext, Quot.sound]
'MarineQC.C03_leap_day' depends on axioms: [propext]
'MarineQC.C03_day_in_year_domain' depends on axioms: [propext, Classical.choice, Quot.sound]
'MarineQC.C03_day_in_year_injective' depends on axioms: [propext, Classical.choice, Quot.sound]
'MarineQC.C04_dayinyear_domain' depends on axioms: [propext, Classical.choice, Quot.sound]
'MarineQC.C04_dayinyear_first' depends on axioms: [propext, Classical.choice, Quot.sound]
'MarineQC.C04_dayinyear_step' depends on axioms: [propext, Classical.choice, Quot.sound]
'MarineQC.C04_dayinyear_last' depends on axioms: [propext, Classical.choice, Quot.sound]
'MarineQC.C04_dayinyear_range' depends on axioms: [propext, Classical.choice, Quot.sound]
'MarineQC.C04_dayinyear_pos' depends on axioms: [propext, Classical.choice, Quot.sound]
'MarineQC.C04_dayinyear_le' depends on axioms: [propext, Classical.choice, Quot.sound]
'MarineQC.C05_jul_day_next' depends on axioms: [propext, Classical.choice, Quot.sound]
'MarineQC.C05_jul_day_strictMono' depends on axioms: [propext, Classical.choice, Quot.sound]
'MarineQC.C05_jul_day_injective' depends on axioms: [propext, Classical.choice, Quot.sound]
'MarineQC.C06_time_difference_missing' depends on axioms: [propext, Classical.choice, Quot.sound]
'MarineQC.C06_time_difference_exact' depends on axioms: [propext, Classical.choice, Quot.sound]
'MarineQC.C06_dates_comparable' depends on axioms: [propext, Classical.choice, Quot.sound]
'MarineQC.C06_time_difference_antisymm' depends on axioms: [propext, Classical.choice, Quot.sound]
'MarineQC.C06_time_difference_additive' depends on axioms: [propext, Classical.choice, Quot.sound]
'MarineQC.C06_time_difference_sign' depends on axioms: [propext, Classical.choice, Quot.sound]
'MarineQC.C06_time_difference_bad_hour' depends on axioms: [propext, Classical.choice, Quot.sound]
'MarineQC.C07_year_month_gen_enumerates' depends on axioms: [propext, Classical.choice, Quot.sound]
'MarineQC.C07_year_month_list' depends on axioms: [propext, Classical.choice, Quot.sound]
'MarineQC.C07_year_month_gen_rejects' depends on axioms: [propext, Quot.sound]
'MarineQC.C07_year_month_gen_diverges' depends on axioms: [propext, Classical.choice, Quot.sound]
'MarineQC.C08_month_step_inverse' depends on axioms: [propext, Quot.sound]
'MarineQC.C08_next_month' depends on axioms: [propext, Quot.sound]
'MarineQC.C08_three_months' depends on axioms: [propext, Classical.choice, Quot.sound]
'MarineQC.C08_month_match' depends on axioms: [propext, Classical.choice, Quot.sound]
'MarineQC.C09_season_partial' depends on axioms: [propext, Quot.sound]
'MarineQC.C09_season_zero_violation' depends on axioms: [propext]
'MarineQC.C10_get_chunks_correct' depends on axioms: [propext, Classical.choice, Quot.sound]
'MarineQC.C10_exactly_one_chunk' depends on axioms: [propext, Quot.sound]
'MarineQC.C10_chunks_characterised' depends on axioms: [propext, Classical.choice, Quot.sound]
'MarineQC.C10_gap_eleven_violation' does not depend on any axioms
'MarineQC.C100_ship_flags' depends on axioms: [propext, Classical.choice, Quot.sound]
'MarineQC.C101_completes_partial' depends on axioms: [propext, Classical.choice, Quot.sound]
'MarineQC.C101_unordered_violation' depends on axioms: [propext, Classical.choice, Quot.sound]
'MarineQC.C102_buddies' depends on axioms: [propext, Classical.choice, Quot.sound]
'MarineQC.C103_completes' depends on axioms: [propext, Classical.choice, Quot.sound]
'MarineQC.C104_columns' depends on axioms: [propext, Classical.choice, Quot.sound]
'MarineQC.C104_used' depends on axioms: [propext, Classical.choice, Quot.sound]
'MarineQC.C104_reports' depends on axioms: [propext, Classical.choice, Quot.sound]
'MarineQC.C104_contents' depends on axioms: [propext, Classical.choice, Quot.sound]
'MarineQC.C105_stale_violation' depends on axioms: [propext, Classical.choice, Quot.sound]
'MarineQC.C105_background_partial' depends on axioms: [propext, Classical.choice, Quot.sound]
'MarineQC.C106_completes_partial' depends on axioms: [propext, Classical.choice, Quot.sound]
'MarineQC.C106_needed' depends on axioms: [propext, Classical.choice, Quot.sound]
'MarineQC.C106_violation' depends on axioms: [propext, Classical.choice, Quot.sound]
'MarineQC.C107_deck' depends on axioms: [propext, Classical.choice, Quot.sound]
'MarineQC.C107_output_partial' depends on axioms: [propext, Classical.choice, Quot.sound]
'MarineQC.C107_violation' depends on axioms: [propext, Classical.choice, Quot.sound]
'MarineQC.C108_months' depends on axioms: [propext, Classical.choice, Quot.sound]
'MarineQC.C108_reports' depends on axioms: [propext, Classical.choice, Quot.sound]
'MarineQC.C109_rows' depends on axioms: [propext, Classical.choice, Quot.sound]
'MarineQC.C109_records' depends on axioms: [propext, Classical.choice, Quot.sound]
'MarineQC.C109_run_partial' depends on axioms: [propext, Classical.choice, Quot.sound]
'MarineQC.C109_stops_partial' depends on axioms: [propext, Classical.choice, Quot.sound]
'MarineQC.C11_counter_history' depends on axioms: [propext, Classical.choice, Quot.sound]
'MarineQC.C11_yield_dates' depends on axioms: [propext, Classical.choice, Quot.sound]
'MarineQC.C11_label_meaning' depends on axioms: [propext, Classical.choice, Quot.sound]
'MarineQC.C110_flags' depends on axioms: [propext, Classical.choice, Quot.sound]
'MarineQC.C110_completes_partial' depends on axioms: [propext, Classical.choice, Quot.sound]
'MarineQC.C111_run_partial' depends on axioms: [propext, Classical.choice, Quot.sound]
'MarineQC.C112_get_sst_partial' depends on axioms: [propext, Classical.choice, Quot.sound]
'MarineQC.C112_get_hires_sst' depends on axioms: [propext, Classical.choice, Quot.sound]
'MarineQC.C112_get_sst_daily_partial' depends on axioms: [propext, Classical.choice, Quot.sound]
'MarineQC.C112_rejects' depends on axioms: [propext, Classical.choice, Quot.sound]
'MarineQC.C112_daily_violation' depends on axioms: [propext, Classical.choice, Quot.sound]
'MarineQC.C112_single_violation' depends on axioms: [propext, Classical.choice, Quot.sound]
'MarineQC.C113_get_clim' depends on axioms: [propext, Classical.choice, Quot.sound]
'MarineQC.C113_get_hires_clim' depends on axioms: [propext, Classical.choice, Quot.sound]
'MarineQC.C113_missing' depends on axioms: [propext, Classical.choice, Quot.sound]
'MarineQC.C114_interpolated_partial' depends on axioms: [propext, Classical.choice, Quot.sound]
'MarineQC.C114_at_cell_centre' depends on axioms: [propext, Classical.choice, Quot.sound]
'MarineQC.C114_missing' depends on axioms: [propext, Classical.choice, Quot.sound]
'MarineQC.C114_south_violation' depends on axioms: [propext, Classical.choice, Quot.sound]
'MarineQC.C114_dateline_violation' depends on axioms: [propext, Classical.choice, Quot.sound]
'MarineQC.C115_readback_partial' depends on axioms: [propext, Classical.choice, Quot.sound]
'MarineQC.C116_tracked_partial' depends on axioms: [propext, Classical.choice, Quot.sound]
'MarineQC.C117_flags' depends on axioms: [propext, Classical.choice, Quot.sound]
'MarineQC.C118_archive_to_tracks_partial' depends on axioms: [propext, Classical.choice, Quot.sound]
'MarineQC.C119_lists_partial' depends on axioms: [propext, Classical.choice, Quot.sound]
'MarineQC.C119_comma_violation' depends on axioms: [propext, Classical.choice, Quot.sound]
'MarineQC.C12_regular_chunks_stable' depends on axioms: [propext, Classical.choice, Quot.sound]
'MarineQC.C12_regular_dates_stable' depends on axioms: [propext, Classical.choice, Quot.sound]
'MarineQC.C12_edge_chunks_unstable' depends on axioms: [propext, Classical.choice, Quot.sound]
'MarineQC.C12_new_exactly_once' depends on axioms: [propext, Classical.choice, Quot.sound]
'MarineQC.C120_arguments_partial' depends on axioms: [propext, Classical.choice, Quot.sound]
'MarineQC.C120_blank_violation' depends on axioms: [propext, Classical.choice, Quot.sound]
'MarineQC.C121_jobs_partial' depends on axioms: [propext, Classical.choice, Quot.sound]
'MarineQC.C121_runs' depends on axioms: [propext, Classical.choice, Quot.sound]
'MarineQC.C121_name_violation' depends on axioms: [propext, Classical.choice, Quot.sound]
'MarineQC.C122_one_job' depends on axioms: [propext, Classical.choice, Quot.sound]
'MarineQC.C122_system_partial' depends on axioms: [propext, Classical.choice, Quot.sound]
'MarineQC.C123_steps' depends on axioms: [propext, Classical.choice, Quot.sound]
'MarineQC.C124_together_partial' depends on axioms: [propext, Classical.choice, Quot.sound]
'MarineQC.C125_operations' depends on axioms: [propext, Classical.choice, Quot.sound]
'MarineQC.C126_restart' depends on axioms: [propext, Classical.choice, Quot.sound]
'MarineQC.C127_again_violation' depends on axioms: [propext, Classical.choice, Quot.sound]
'MarineQC.C127_archive_partial' depends on axioms: [propext, Classical.choice, Quot.sound]
'MarineQC.C127_interrupted_partial' depends on axioms: [propext, Classical.choice, Quot.sound]
'MarineQC.C128_reports' depends on axioms: [propext, Classical.choice, Quot.sound]
'MarineQC.C129_files' depends on axioms: [propext, Classical.choice, Quot.sound]
'MarineQC.C13_lat_row' depends on axioms: [propext, Classical.choice, Quot.sound]
'MarineQC.C13_row_centre' depends on axioms: [propext, Classical.choice, Quot.sound]
'MarineQC.C13_row_round_trip' depends on axioms: [propext, Classical.choice, Quot.sound]
'MarineQC.C13_beyond_poles' depends on axioms: [propext, Classical.choice, Quot.sound]
'MarineQC.C130_tracking' depends on axioms: [propext, Classical.choice, Quot.sound]
'MarineQC.C131_frame' depends on axioms: [propext, Classical.choice, Quot.sound]
'MarineQC.C131_main_files_partial' depends on axioms: [propext, Classical.choice, Quot.sound]
'MarineQC.C131_names_violation' depends on axioms: [propext, Classical.choice, Quot.sound]
'MarineQC.C132_reports' depends on axioms: [propext, Classical.choice, Quot.sound]
'MarineQC.C132_lists' depends on axioms: [propext, Classical.choice, Quot.sound]
'MarineQC.C132_after_partial' depends on axioms: [propext, Classical.choice, Quot.sound]
'MarineQC.C133_run_partial' depends on axioms: [propext, Classical.choice, Quot.sound]
'MarineQC.C133_after_partial' depends on axioms: [propext, Classical.choice, Quot.sound]
'MarineQC.C134_alone' depends on axioms: [propext, Classical.choice, Quot.sound]
'MarineQC.C134_at_once' depends on axioms: [propext, Classical.choice, Quot.sound]
'MarineQC.C134_others' depends on axioms: [propext, Classical.choice, Quot.sound]
'MarineQC.C134_restart' depends on axioms: [propext, Classical.choice, Quot.sound]
'MarineQC.C135_other_platforms_partial' depends on axioms: [propext, Classical.choice, Quot.sound]
'MarineQC.C135_drifter_tables_partial' depends on axioms: [propext, Classical.choice, Quot.sound]
'MarineQC.C135_background_violation' depends on axioms: [propext, Classical.choice, Quot.sound]
'MarineQC.C136_neighbours' depends on axioms: [propext, Classical.choice, Quot.sound]
'MarineQC.C137_short_line' depends on axioms: [propext, Classical.choice, Quot.sound]
'MarineQC.C137_long_line' depends on axioms: [propext, Classical.choice, Quot.sound]
'MarineQC.C137_printable' depends on axioms: [propext, Classical.choice, Quot.sound]
'MarineQC.C138_linked' depends on axioms: [propext, Classical.choice, Quot.sound]
'MarineQC.C138_history' depends on axioms: [propext, Classical.choice, Quot.sound]
'MarineQC.C138_now' depends on axioms: [propext, Classical.choice, Quot.sound]
'MarineQC.C138_edge' depends on axioms: [propext, Classical.choice, Quot.sound]
'MarineQC.C139_round_trip' depends on axioms: [propext, Classical.choice, Quot.sound]
'MarineQC.C139_local' depends on axioms: [propext, Classical.choice, Quot.sound]
'MarineQC.C14_lon_column' depends on axioms: [propext, Classical.choice, Quot.sound]
'MarineQC.C14_lon_periodic' depends on axioms: [propext, Classical.choice, Quot.sound]
'MarineQC.C14_column_centre' depends on axioms: [propext, Classical.choice, Quot.sound]
'MarineQC.C14_column_round_trip' depends on axioms: [propext, Classical.choice, Quot.sound]
'MarineQC.C14_west_of_range_violation' depends on axioms: [propext, Classical.choice, Quot.sound]
'MarineQC.C140_longitude_violation' depends on axioms: [propext, Classical.choice, Quot.sound]
'MarineQC.C140_hour_violation' depends on axioms: [propext, Classical.choice, Quot.sound]
'MarineQC.C140_missing_hour_violation' depends on axioms: [propext, Classical.choice, Quot.sound]
'MarineQC.C140_flags' depends on axioms: [propext, Classical.choice, Quot.sound]
'MarineQC.C140_same_flags_partial' depends on axioms: [propext, Classical.choice, Quot.sound]
'MarineQC.C141_record' depends on axioms: [propext, Classical.choice, Quot.sound]
'MarineQC.C141_uid' depends on axioms: [propext, Classical.choice, Quot.sound]
'MarineQC.C141_flags' depends on axioms: [propext, Classical.choice, Quot.sound]
'MarineQC.C142_record' depends on axioms: [propext, Classical.choice, Quot.sound]
'MarineQC.C143_get' depends on axioms: [propext, Classical.choice, Quot.sound]
'MarineQC.C143_last' depends on axioms: [propext, Quot.sound]
'MarineQC.C143_setvar' depends on axioms: [propext, Classical.choice, Quot.sound]
'MarineQC.C143_setqc' depends on axioms: [propext, Quot.sound]
'MarineQC.C143_readback' depends on axioms: [propext, Classical.choice, Quot.sound]
'MarineQC.C143_stale' depends on axioms: [propext, Classical.choice, Quot.sound]
'MarineQC.C143_stale_violation' depends on axioms: [propext, Classical.choice, Quot.sound]
'MarineQC.C144_both_partial' depends on axioms: [propext, Classical.choice, Quot.sound]
'MarineQC.C145_accepted' depends on axioms: [propext, Classical.choice, Quot.sound]
'MarineQC.C145_refused' depends on axioms: [propext, Classical.choice, Quot.sound]
'MarineQC.C145_emptied' depends on axioms: [propext, Classical.choice, Quot.sound]
'MarineQC.C145_blank_line' depends on axioms: [propext, Classical.choice, Quot.sound]
'MarineQC.C146_blind' depends on axioms: [propext, Classical.choice, Quot.sound]
'MarineQC.C146_again' depends on axioms: [propext, Classical.choice, Quot.sound]
'MarineQC.C146_twice' depends on axioms: [propext, Classical.choice, Quot.sound]
'MarineQC.C147_blind' depends on axioms: [propext, Classical.choice, Quot.sound]
'MarineQC.C147_twice' depends on axioms: [propext, Classical.choice, Quot.sound]
'MarineQC.C147_order' depends on axioms: [propext, Classical.choice, Quot.sound]
'MarineQC.C148_blind' depends on axioms: [propext, Classical.choice, Quot.sound]
'MarineQC.C148_twice' depends on axioms: [propext, Classical.choice, Quot.sound]
'MarineQC.C148_order' depends on axioms: [propext, Classical.choice, Quot.sound]
'MarineQC.C149_twice' depends on axioms: [propext, Classical.choice, Quot.sound]
'MarineQC.C149_blind' depends on axioms: [propext, Classical.choice, Quot.sound]
'MarineQC.C149_order_before' depends on axioms: [propext, Classical.choice, Quot.sound]
'MarineQC.C149_order_after' depends on axioms: [propext, Classical.choice, Quot.sound]
'MarineQC.C15_mds_lat_row' depends on axioms: [propext, Classical.choice, Quot.sound]
'MarineQC.C15_mds_lon_column' depends on axioms: [propext, Classical.choice, Quot.sound]
'MarineQC.C15_mds_lon_beyond_dateline' depends on axioms: [propext, Classical.choice, Quot.sound]
'MarineQC.C150_twice_partial' depends on axioms: [propext, Classical.choice, Quot.sound]
'MarineQC.C150_violation' depends on axioms: [propext, Classical.choice, Quot.sound]
'MarineQC.C150_blind' depends on axioms: [propext, Classical.choice, Quot.sound]
'MarineQC.C151_blind' depends on axioms: [propext, Classical.choice, Quot.sound]
'MarineQC.C151_twice' depends on axioms: [propext, Classical.choice, Quot.sound]
'MarineQC.C151_order' depends on axioms: [propext, Classical.choice, Quot.sound]
'MarineQC.C151_voyage_order' depends on axioms: [propext, Classical.choice, Quot.sound]
'MarineQC.C151_drifter_order' depends on axioms: [propext, Classical.choice, Quot.sound]
'MarineQC.C151_method_twice' depends on axioms: [propext, Classical.choice, Quot.sound]
'MarineQC.C152_twice' depends on axioms: [propext, Classical.choice, Quot.sound]
'MarineQC.C153_order' depends on axioms: [propext, Classical.choice, Quot.sound]
'MarineQC.C153_completes' depends on axioms: [propext, Classical.choice, Quot.sound]
'MarineQC.C154_only_flags' depends on axioms: [propext, Classical.choice, Quot.sound]
'MarineQC.C154_eligible' depends on axioms: [propext, Classical.choice, Quot.sound]
'MarineQC.C154_passes' depends on axioms: [propext, Classical.choice, Quot.sound]
'MarineQC.C154_completes' depends on axioms: [propext, Classical.choice, Quot.sound]
'MarineQC.C154_main' depends on axioms: [propext, Classical.choice, Quot.sound]
'MarineQC.C154_unscreened' depends on axioms: [propext, Classical.choice, Quot.sound]
'MarineQC.C155_twice' depends on axioms: [propext, Classical.choice, Quot.sound]
'MarineQC.C155_order' depends on axioms: [propext, Classical.choice, Quot.sound]
'MarineQC.C156_only_tracking' depends on axioms: [propext, Classical.choice, Quot.sound]
'MarineQC.C156_inputs' depends on axioms: [propext, Classical.choice, Quot.sound]
'MarineQC.C156_rerun' depends on axioms: [propext, Classical.choice, Quot.sound]
'MarineQC.C156_after_base' depends on axioms: [propext, Classical.choice, Quot.sound]
'MarineQC.C157_only_tracking' depends on axioms: [propext, Classical.choice, Quot.sound]
'MarineQC.C157_inputs' depends on axioms: [propext, Classical.choice, Quot.sound]
'MarineQC.C157_rerun' depends on axioms: [propext, Classical.choice, Quot.sound]
'MarineQC.C157_beside' depends on axioms: [propext, Classical.choice, Quot.sound]
'MarineQC.C157_after_base' depends on axioms: [propext, Classical.choice, Quot.sound]
'MarineQC.C158_count' depends on axioms: [propext, Classical.choice, Quot.sound]
'MarineQC.C158_lines' depends on axioms: [propext, Classical.choice, Quot.sound]
'MarineQC.C158_sees_own' depends on axioms: [propext, Classical.choice, Quot.sound]
'MarineQC.C158_exact' depends on axioms: [propext, Classical.choice, Quot.sound]
'MarineQC.C158_bound_partial' depends on axioms: [propext, Classical.choice, Quot.sound]
'MarineQC.C158_start' depends on axioms: [propext, Classical.choice, Quot.sound]
'MarineQC.C158_over_violation' depends on axioms: [propext, Classical.choice, Quot.sound]
'MarineQC.C158_ends' depends on axioms: [propext, Classical.choice, Quot.sound]
'MarineQC.C158_looked' depends on axioms: [propext, Classical.choice, Quot.sound]
'MarineQC.C158_starves' depends on axioms: [propext, Classical.choice, Quot.sound]
'MarineQC.C158_others_violation' depends on axioms: [propext, Classical.choice, Quot.sound]
'MarineQC.C159_base_partial' depends on axioms: [propext, Classical.choice, Quot.sound]
'MarineQC.C159_buddy_partial' depends on axioms: [propext, Classical.choice, Quot.sound]
'MarineQC.C159_never_violation' depends on axioms: [propext, Classical.choice, Quot.sound]
'MarineQC.C159_file_violation' depends on axioms: [propext, Classical.choice, Quot.sound]
'MarineQC.C16_surrounding_points_partial' depends on axioms: [propext, Classical.choice, Quot.sound]
'MarineQC.C16_clamped_points_partial' depends on axioms: [propext, Classical.choice, Quot.sound]
'MarineQC.C16_surrounding_points_violation' depends on axioms: [propext, Classical.choice, Quot.sound]
'MarineQC.C16_rejects' depends on axioms: [propext, Classical.choice, Quot.sound]
'MarineQC.C160_results_partial' depends on axioms: [propext, Classical.choice, Quot.sound]
'MarineQC.C160_never_violation' depends on axioms: [propext, Classical.choice, Quot.sound]
'MarineQC.C17_bilinear_bounds' depends on axioms: [propext, Classical.choice, Quot.sound]
'MarineQC.C17_bilinear_reproduces' depends on axioms: [propext, Classical.choice, Quot.sound]
'MarineQC.C17_bilinear_corners' depends on axioms: [propext, Classical.choice, Quot.sound]
'MarineQC.C17_bilinear_rejects' depends on axioms: [propext, Classical.choice, Quot.sound]
'MarineQC.C17_fill_missing' depends on axioms: [propext, Classical.choice, Quot.sound]
'MarineQC.C18_time_index' depends on axioms: [propext, Classical.choice, Quot.sound]
'MarineQC.C18_bad_dates' depends on axioms: [propext, Classical.choice, Quot.sound]
'MarineQC.C18_get_value' depends on axioms: [propext, Classical.choice, Quot.sound]
'MarineQC.C18_get_value_mds' depends on axioms: [propext, Classical.choice, Quot.sound]
'MarineQC.C18_get_value_ostia' depends on axioms: [propext, Classical.choice, Quot.sound]
'MarineQC.C19_load_partial' depends on axioms: [propext, Classical.choice, Quot.sound]
'MarineQC.C19_load_transposed' depends on axioms: [propext, Classical.choice, Quot.sound]
'MarineQC.C19_rejects' depends on axioms: [propext, Quot.sound]
'MarineQC.C19_coarse_violation' depends on axioms: [propext, Classical.choice, Quot.sound]
'MarineQC.C19_four_dim_violation' depends on axioms: [propext, Classical.choice, Quot.sound]
'MarineQC.C20_climatology_check' depends on axioms: [propext, Classical.choice, Quot.sound]
'MarineQC.C20_stdev_check' depends on axioms: [propext, Classical.choice, Quot.sound]
'MarineQC.C20_lowbar_check' depends on axioms: [propext, Classical.choice, Quot.sound]
'MarineQC.C20_monotone' depends on axioms: [propext, Classical.choice, Quot.sound]
'MarineQC.C20_lowbar_zero_deviation_raises' depends on axioms: [propext, Classical.choice, Quot.sound]
'MarineQC.C21_hard_limit' depends on axioms: [propext, Quot.sound]
'MarineQC.C21_hard_limit_order' depends on axioms: [propext, Classical.choice, Quot.sound]
'MarineQC.C21_freeze' depends on axioms: [propext, Classical.choice, Quot.sound]
'MarineQC.C21_supersat' depends on axioms: [propext, Classical.choice, Quot.sound]
'MarineQC.C21_missing' depends on axioms: [propext]
'MarineQC.C21_wind' depends on axioms: [propext, Classical.choice, Quot.sound]
'MarineQC.C22_position' depends on axioms: [propext, Classical.choice, Quot.sound]
'MarineQC.C22_position_missing' depends on axioms: [propext, Quot.sound]
'MarineQC.C22_time' depends on axioms: [propext, Classical.choice, Quot.sound]
'MarineQC.C22_date' depends on axioms: [propext, Classical.choice, Quot.sound]
'MarineQC.C22_date_pass' depends on axioms: [propext, Classical.choice, Quot.sound]
'MarineQC.C22_date_month_raises' depends on axioms: [propext, Quot.sound]
'MarineQC.C23_blacklist' depends on axioms: [propext, Classical.choice, Quot.sound]
'MarineQC.C23_full_turn' depends on axioms: [propext, Classical.choice, Quot.sound]
'MarineQC.C24_generic' depends on axioms: [propext, Classical.choice, Quot.sound]
'MarineQC.C24_missing' depends on axioms: [propext, Quot.sound]
'MarineQC.C24_year_irrelevant' depends on axioms: [propext, Classical.choice, Quot.sound]
'MarineQC.C25_day_test' depends on axioms: [propext, Classical.choice, Quot.sound]
'MarineQC.C25_new_year' depends on axioms: [propext, Classical.choice, Quot.sound]
'MarineQC.C25_no_year' depends on axioms: [propext, Classical.choice, Quot.sound]
'MarineQC.C25_track_day_test' depends on axioms: [propext, Classical.choice, Quot.sound]
'MarineQC.C25_track_day_test_hour_24' depends on axioms: [propext, Classical.choice, Quot.sound]
'MarineQC.C26_symm' depends on axioms: [propext, Classical.choice, Quot.sound]
'MarineQC.C26_circle_distance' depends on axioms: [propext, Classical.choice, Quot.sound]
'MarineQC.C26_beyond_a_turn_violation' depends on axioms: [propext, Classical.choice, Quot.sound]
'MarineQC.C27_winsorised_formula' depends on axioms: [propext, Classical.choice, Quot.sound]
'MarineQC.C27_winsorised_small' depends on axioms: [propext, Classical.choice, Quot.sound]
'MarineQC.C27_order_independent' depends on axioms: [propext, Classical.choice, Quot.sound]
'MarineQC.C27_winsorised_bounded' depends on axioms: [propext, Classical.choice, Quot.sound]
'MarineQC.C27_shift' depends on axioms: [propext, Classical.choice, Quot.sound]
'MarineQC.C27_trimmed_formula' depends on axioms: [propext, Classical.choice, Quot.sound]
'MarineQC.C27_trimmed_bounded' depends on axioms: [propext, Classical.choice, Quot.sound]
'MarineQC.C27_trimmed_undefined' depends on axioms: [propext, Classical.choice, Quot.sound]
'MarineQC.C28_good' depends on axioms: [propext, Classical.choice, Quot.sound]
'MarineQC.C28_gross' depends on axioms: [propext, Classical.choice, Quot.sound]
'MarineQC.C28_p_gross' depends on axioms: [propext, Classical.choice, Quot.sound]
'MarineQC.C28_p_gross_erf' depends on axioms: [propext, Classical.choice, Quot.sound]
'MarineQC.C30_accepted' depends on axioms: [propext, Quot.sound]
'MarineQC.C30_flags_map_partial' depends on axioms: [propext, Classical.choice, Quot.sound]
'MarineQC.C30_collision_violation' depends on axioms: [propext, Quot.sound]
'MarineQC.C31_last_value' depends on axioms: [propext, Classical.choice, Quot.sound]
'MarineQC.C31_unknown' depends on axioms: [propext, Classical.choice, Quot.sound]
'MarineQC.C31_timestamp_value' depends on axioms: [propext, Classical.choice, Quot.sound]
'MarineQC.C31_timestamp_defined' depends on axioms: [propext, Classical.choice, Quot.sound]
'MarineQC.C31_timestamp_partial' depends on axioms: [propext, Classical.choice, Quot.sound]
'MarineQC.C31_month_violation' depends on axioms: [propext, Classical.choice, Quot.sound]
'MarineQC.C31_raise_violation' depends on axioms: [propext, Classical.choice, Quot.sound]
'MarineQC.C31_init_order_independent' depends on axioms: [propext, Classical.choice, Quot.sound]
'MarineQC.C31_init' depends on axioms: [propext, Classical.choice, Quot.sound]
'MarineQC.C32_time_order' depends on axioms: [propext, Classical.choice, Quot.sound]
'MarineQC.C32_gt_ids' depends on axioms: [propext, Classical.choice, Quot.sound]
'MarineQC.C32_gt_same_id' depends on axioms: [propext, Classical.choice, Quot.sound]
'MarineQC.C32_trichotomy' depends on axioms: [propext, Classical.choice, Quot.sound]
'MarineQC.C32_transitive' depends on axioms: [propext, Classical.choice, Quot.sound]
'MarineQC.C32_ge_le' depends on axioms: [propext, Classical.choice, Quot.sound]
'MarineQC.C32_missing_raises' depends on axioms: [propext, Classical.choice, Quot.sound]
'MarineQC.C32_sort' depends on axioms: [propext, Classical.choice, Quot.sound]
'MarineQC.C32_sort_chronological' depends on axioms: [propext, Classical.choice, Quot.sound]
'MarineQC.C32_missing_time_intransitive' depends on axioms: [propext, Classical.choice, Quot.sound]
'MarineQC.C33_lon' depends on axioms: [propext, Classical.choice, Quot.sound]
'MarineQC.C33_lon_missing' depends on axioms: [propext, Classical.choice, Quot.sound]
'MarineQC.C34_missing_hour' depends on axioms: [propext, Classical.choice, Quot.sound]
'MarineQC.C34_base_flags_partial' depends on axioms: [propext, Classical.choice, Quot.sound]
'MarineQC.C34_hardlimit_violation' depends on axioms: [propext, Classical.choice, Quot.sound]
'MarineQC.C34_dat_violation' depends on axioms: [propext, Classical.choice, Quot.sound]
'MarineQC.C34_completes' depends on axioms: [propext, Classical.choice, Quot.sound]
'MarineQC.C35_humidity' depends on axioms: [propext, Classical.choice, Quot.sound]
'MarineQC.C35_humidity_defined' depends on axioms: [propext, Classical.choice, Quot.sound]
'MarineQC.C36_speed_course' depends on axioms: [propext, Classical.choice, Quot.sound]
'MarineQC.C36_bad_course' depends on axioms: [propext, Classical.choice, Quot.sound]
'MarineQC.C37_test_report' depends on axioms: [propext, Classical.choice, Quot.sound]
'MarineQC.C37_add' depends on axioms: [propext, Classical.choice, Quot.sound]
'MarineQC.C37_split' depends on axioms: [propext, Classical.choice, Quot.sound]
'MarineQC.C37_pop' depends on axioms: [propext, Classical.choice, Quot.sound]
'MarineQC.C37_split_platforms' depends on axioms: [propext, Classical.choice, Quot.sound]
'MarineQC.C38_platforms' depends on axioms: [propext, Classical.choice, Quot.sound]
'MarineQC.C38_reports' depends on axioms: [propext, Classical.choice, Quot.sound]
'MarineQC.C38_once' depends on axioms: [propext, Classical.choice, Quot.sound]
'MarineQC.C38_sort_violation' depends on axioms: [propext, Classical.choice, Quot.sound]
'MarineQC.C38_pop_violation' depends on axioms: [propext]
'MarineQC.C39_get_field' depends on axioms: [propext, Quot.sound]
'MarineQC.C39_add_other' depends on axioms: [propext, Quot.sound]
'MarineQC.C40_difference' depends on axioms: [propext, Classical.choice, Quot.sound]
'MarineQC.C40_difference_no_hour' depends on axioms: [propext, Classical.choice, Quot.sound]
'MarineQC.C40_difference_no_position' depends on axioms: [propext, Classical.choice, Quot.sound]
'MarineQC.C40_add_report' depends on axioms: [propext, Classical.choice, Quot.sound]
'MarineQC.C40_sort' depends on axioms: [propext, Classical.choice, Quot.sound]
'MarineQC.C40_add_report_completes' depends on axioms: [propext, Classical.choice, Quot.sound]
'MarineQC.C40_sort_completes' depends on axioms: [propext, Classical.choice, Quot.sound]
'MarineQC.C40_sort_first_stale' depends on axioms: [propext, Classical.choice, Quot.sound]
'MarineQC.C41_saturated_runs' depends on axioms: [propext, Classical.choice, Quot.sound]
'MarineQC.C41_completes' depends on axioms: [propext, Classical.choice, Quot.sound]
'MarineQC.C42_repeated' depends on axioms: [propext, Classical.choice, Quot.sound]
'MarineQC.C42_rounded' depends on axioms: [propext, Classical.choice, Quot.sound]
'MarineQC.C42_completes' depends on axioms: [propext, Classical.choice, Quot.sound]
'MarineQC.C43_iquam' depends on axioms: [propext, Classical.choice, Quot.sound]
'MarineQC.C43_survivors' depends on axioms: [propext, Classical.choice, Quot.sound]
'MarineQC.C43_generic' depends on axioms: [propext, Classical.choice, Quot.sound]
'MarineQC.C44_spike' depends on axioms: [propext, Classical.choice, Quot.sound]
'MarineQC.C44_survivors' depends on axioms: [propext, Classical.choice, Quot.sound]
'MarineQC.C45_completes' depends on axioms: [propext, Classical.choice, Quot.sound]
'MarineQC.C45_unordered_violation' depends on axioms: [propext, Classical.choice, Quot.sound]
'MarineQC.C45_flags' depends on axioms: [propext, Classical.choice, Quot.sound]
'MarineQC.C45_decision' depends on axioms: [propext, Classical.choice, Quot.sound]
'MarineQC.C46_pass_partial' depends on axioms: [propext, Classical.choice, Quot.sound]
'MarineQC.C46_pass_decision' depends on axioms: [propext, Classical.choice, Quot.sound]
'MarineQC.C46_full' depends on axioms: [propext, Classical.choice, Quot.sound]
'MarineQC.C46_completes' depends on axioms: [propext, Classical.choice, Quot.sound]
'MarineQC.C46_one_flag_violation' depends on axioms: [propext, Classical.choice, Quot.sound]
'MarineQC.C47_modesp' depends on axioms: [propext, Classical.choice, Quot.sound]
'MarineQC.C47_modesp_few' depends on axioms: [propext, Classical.choice, Quot.sound]
'MarineQC.C47_limits' depends on axioms: [propext, Classical.choice, Quot.sound]
'MarineQC.C47_limits_monotone_partial' depends on axioms: [propext, Classical.choice, Quot.sound]
'MarineQC.C47_limits_violation' depends on axioms: [propext, Classical.choice, Quot.sound]
'MarineQC.C49_aground' depends on axioms: [propext, Classical.choice, Quot.sound]
'MarineQC.C49_new_aground' depends on axioms: [propext, Classical.choice, Quot.sound]
'MarineQC.C49_suffix' depends on axioms: [propext, Classical.choice, Quot.sound]
'MarineQC.C49_completes' depends on axioms: [propext, Classical.choice, Quot.sound]
'MarineQC.C49_rejects' depends on axioms: [propext, Classical.choice, Quot.sound]
'MarineQC.C50_speed' depends on axioms: [propext, Classical.choice, Quot.sound]
'MarineQC.C50_completes' depends on axioms: [propext, Classical.choice, Quot.sound]
'MarineQC.C50_zero_period_violation' depends on axioms: [propext, Classical.choice, Quot.sound]
'MarineQC.C51_completes' depends on axioms: [propext, Classical.choice, Quot.sound]
'MarineQC.C51_params' depends on axioms: [propext, Classical.choice, Quot.sound]
'MarineQC.C51_zero_period_violation' depends on axioms: [propext, Classical.choice, Quot.sound]
'MarineQC.C51_new_speed' depends on axioms: [propext, Classical.choice, Quot.sound]
'MarineQC.C52_tails' depends on axioms: [propext, Classical.choice, Quot.sound]
'MarineQC.C52_shape' depends on axioms: [propext, Classical.choice, Quot.sound]
'MarineQC.C52_completes' depends on axioms: [propext, Classical.choice, Quot.sound]
'MarineQC.C53_bias' depends on axioms: [propext, Classical.choice, Quot.sound]
'MarineQC.C53_exclusive' depends on axioms: [propext, Classical.choice, Quot.sound]
'MarineQC.C53_completes' depends on axioms: [propext, Classical.choice, Quot.sound]
'MarineQC.C54_super_observations' depends on axioms: [propext, Classical.choice, Quot.sound]
'MarineQC.C54_completes' depends on axioms: [propext, Classical.choice, Quot.sound]
'MarineQC.C54_cell' depends on axioms: [propext, Classical.choice, Quot.sound]
'MarineQC.C54_order_independent' depends on axioms: [propext, Classical.choice, Quot.sound]
'MarineQC.C55_multiplier' depends on axioms: [propext, Classical.choice, Quot.sound]
'MarineQC.C55_limits' depends on axioms: [propext, Classical.choice, Quot.sound]
'MarineQC.C55_completes' depends on axioms: [propext, Classical.choice, Quot.sound]
'MarineQC.C56_mds_flags' depends on axioms: [propext, Classical.choice, Quot.sound]
'MarineQC.C56_mds_completes' depends on axioms: [propext, Classical.choice, Quot.sound]
'MarineQC.C56_bayes_flags' depends on axioms: [propext, Classical.choice, Quot.sound]
'MarineQC.C56_bayes_completes' depends on axioms: [propext, Classical.choice, Quot.sound]
'MarineQC.C60_number' depends on axioms: [propext, Classical.choice, Quot.sound]
'MarineQC.C60_character' depends on axioms: [propext, Classical.choice, Quot.sound]
'MarineQC.C60_digits' depends on axioms: [propext, Classical.choice, Quot.sound]
'MarineQC.C60_other' depends on axioms: [propext, Classical.choice, Quot.sound]
'MarineQC.C61_attachment_partial' depends on axioms: [propext, Classical.choice, Quot.sound]
'MarineQC.C61_layouts' depends on axioms: [propext, Classical.choice, Quot.sound]
'MarineQC.C61_nearest' depends on axioms: [propext, Classical.choice, Quot.sound]
'MarineQC.C61_negative_violation' depends on axioms: [propext, Classical.choice, Quot.sound]
'MarineQC.C61_text_units_violation' depends on axioms: [propext, Classical.choice, Quot.sound]
'MarineQC.C61_digit_violation' depends on axioms: [propext, Classical.choice, Quot.sound]
'MarineQC.C62_record_partial' depends on axioms: [propext, Classical.choice, Quot.sound]
'MarineQC.C62_trailing_violation' depends on axioms: [propext, Classical.choice, Quot.sound]
'MarineQC.C62_attachment8_violation' depends on axioms: [propext, Classical.choice, Quot.sound]
'MarineQC.C62_attachment99_violation' depends on axioms: [propext, Classical.choice, Quot.sound]
'MarineQC.C63_icoads' depends on axioms: [propext, Classical.choice, Quot.sound]
'MarineQC.C63_icoads_refused' depends on axioms: [propext, Classical.choice, Quot.sound]
'MarineQC.C63_background_partial' depends on axioms: [propext, Classical.choice, Quot.sound]
'MarineQC.C63_bunzip_violation' depends on axioms: [propext, Classical.choice, Quot.sound]
'MarineQC.C63_background_refused' depends on axioms: [propext, Classical.choice, Quot.sound]
'MarineQC.C64_placeholders' depends on axioms: [propext, Classical.choice, Quot.sound]
'MarineQC.C64_make_filename' depends on axioms: [propext, Classical.choice, Quot.sound]
'MarineQC.C64_numbers' depends on axioms: [propext, Classical.choice, Quot.sound]
'MarineQC.C64_bad_ids' depends on axioms: [propext, Quot.sound]
'MarineQC.C64_excluded' depends on axioms: [propext, Classical.choice, Quot.sound]
'MarineQC.C65_characters' depends on axioms: [propext, Classical.choice, Quot.sound]
'MarineQC.C65_legal' depends on axioms: [propext, Classical.choice, Quot.sound]
'MarineQC.C65_collision' depends on axioms: [propext, Classical.choice, Quot.sound]
'MarineQC.C66_humidity_partial' depends on axioms: [propext, Classical.choice, Quot.sound]
'MarineQC.C66_buck' depends on axioms: [propext, Classical.choice, Quot.sound]
'MarineQC.C66_vap_inverse' depends on axioms: [propext, Classical.choice, Quot.sound]
'MarineQC.C66_sh_inverse' depends on axioms: [propext, Classical.choice, Quot.sound]
'MarineQC.C66_sh_of_vap' depends on axioms: [propext, Classical.choice, Quot.sound]
'MarineQC.C66_missing' depends on axioms: [propext, Classical.choice, Quot.sound]
'MarineQC.C66_missing_violation' depends on axioms: [propext, Classical.choice, Quot.sound]
'MarineQC.C66_saturated' depends on axioms: [propext, Classical.choice, Quot.sound]
'MarineQC.C66_unsaturated_partial' depends on axioms: [propext, Classical.choice, Quot.sound]
'MarineQC.C66_supersaturation_violation' depends on axioms: [propext, Classical.choice, Quot.sound]
'MarineQC.C66_wet_bulb' depends on axioms: [propext, Classical.choice, Quot.sound]
'MarineQC.C66_depression' depends on axioms: [propext, Classical.choice, Quot.sound]
'MarineQC.C66_rounding' depends on axioms: [propext, Classical.choice, Quot.sound]
'MarineQC.C67_great_circle' depends on axioms: [propext, Classical.choice, Quot.sound]
'MarineQC.C67_symmetric' depends on axioms: [propext, Classical.choice, Quot.sound]
'MarineQC.C67_range' depends on axioms: [propext, Classical.choice, Quot.sound]
'MarineQC.C67_zero' depends on axioms: [propext, Classical.choice, Quot.sound]
'MarineQC.C67_triangle' depends on axioms: [propext, Classical.choice, Quot.sound]
'MarineQC.C67_turns' depends on axioms: [propext, Classical.choice, Quot.sound]
'MarineQC.C67_meridian' depends on axioms: [propext, Classical.choice, Quot.sound]
'MarineQC.C67_missing' depends on axioms: [propext, Classical.choice, Quot.sound]
'MarineQC.C68_pole' depends on axioms: [propext, Classical.choice, Quot.sound]
'MarineQC.C68_between' depends on axioms: [propext, Classical.choice, Quot.sound]
'MarineQC.C68_between_refused' depends on axioms: [propext, Classical.choice, Quot.sound]
'MarineQC.C68_course' depends on axioms: [propext, Classical.choice, Quot.sound]
'MarineQC.C68_distance' depends on axioms: [propext, Classical.choice, Quot.sound]
'MarineQC.C68_latitude' depends on axioms: [propext, Classical.choice, Quot.sound]
'MarineQC.C70_modes_all_standard_new' depends on axioms: [propext, Classical.choice, Quot.sound]
'MarineQC.C70_mode_noend_partial' depends on axioms: [propext, Classical.choice, Quot.sound]
'MarineQC.C70_noend_violation' depends on axioms: [propext]
'MarineQC.C70_other_modes_rejected' depends on axioms: [propext]
'MarineQC.C70_id_dictionary' depends on axioms: [propext, Classical.choice, Quot.sound]
'MarineQC.C71_interpolated_partial' depends on axioms: [propext, Classical.choice, Quot.sound]
'MarineQC.C71_at_cell_centre' depends on axioms: [propext, Classical.choice, Quot.sound]
'MarineQC.C71_interpolated_violation' depends on axioms: [propext, Classical.choice, Quot.sound]
'MarineQC.C72_sunangle_ranges' depends on axioms: [propext, Classical.choice, Quot.sound]
'MarineQC.C72_culmination' depends on axioms: [propext, Classical.choice, Quot.sound]
'MarineQC.C72_polar_night' depends on axioms: [propext, Classical.choice, Quot.sound]
'MarineQC.C72_pole' depends on axioms: [propext, Classical.choice, Quot.sound]
'MarineQC.C72_equator_raises' depends on axioms: [propext, Classical.choice, Quot.sound]
'MarineQC.C72_elevation_range' depends on axioms: [propext, Classical.choice, Quot.sound]
'MarineQC.C73_sun_clock_partial' depends on axioms: [propext, Classical.choice, Quot.sound]
'MarineQC.C73_sun_clock_within_year' depends on axioms: [propext, Classical.choice, Quot.sound]
'MarineQC.C73_sun_clock_violation' depends on axioms: [propext, Classical.choice, Quot.sound]
'MarineQC.C74_formula' depends on axioms: [propext, Classical.choice, Quot.sound]
'MarineQC.C74_order_independent' depends on axioms: [propext, Classical.choice, Quot.sound]
'MarineQC.C74_spread' depends on axioms: [propext, Classical.choice, Quot.sound]
'MarineQC.C75_longitude' depends on axioms: [propext, Classical.choice, Quot.sound]
'MarineQC.C76_columns' depends on axioms: [propext, Classical.choice, Quot.sound]
'MarineQC.C76_columns_symmetric' depends on axioms: [propext, Classical.choice, Quot.sound]
'MarineQC.C76_columns_bound' depends on axioms: [propext, Classical.choice, Quot.sound]
'MarineQC.C76_neighbours_partial' depends on axioms: [propext, Classical.choice, Quot.sound]
'MarineQC.C76_fixed_searches_partial' depends on axioms: [propext, Classical.choice, Quot.sound]
'MarineQC.C76_pole_violation' depends on axioms: [propext, Classical.choice, Quot.sound]
'MarineQC.C76_double_count_violation' depends on axioms: [propext, Classical.choice, Quot.sound]
'MarineQC.C77_fixed_limits' depends on axioms: [propext, Classical.choice, Quot.sound]
'MarineQC.C77_completes' depends on axioms: [propext, Classical.choice, Quot.sound]
'MarineQC.C78_reading_ends' depends on axioms: [propext, Classical.choice, Quot.sound]
'MarineQC.C78_reading_complete' depends on axioms: [propext, Classical.choice, Quot.sound]
'MarineQC.C78_blank_line' depends on axioms: [propext, Classical.choice, Quot.sound]
'MarineQC.C78_attachment97' depends on axioms: [propext, Classical.choice, Quot.sound]
'MarineQC.C79_ranges_fit' depends on axioms: [propext, Classical.choice, Quot.sound]
'MarineQC.C80_icoads_distinct' depends on axioms: [propext, Classical.choice, Quot.sound]
'MarineQC.C80_icoads_versions' depends on axioms: [propext, Classical.choice, Quot.sound]
'MarineQC.C80_icoads_release' depends on axioms: [propext, Classical.choice, Quot.sound]
'MarineQC.C80_directories_distinct' depends on axioms: [propext, Classical.choice, Quot.sound]
'MarineQC.C81_completions' depends on axioms: [propext, Quot.sound]
'MarineQC.C81_directories' depends on axioms: [propext, Classical.choice, Quot.sound]
'MarineQC.C81_repeat' depends on axioms: [propext, Classical.choice, Quot.sound]
'MarineQC.C81_missing_base' depends on axioms: [propext]
'MarineQC.C82_iso' depends on axioms: [propext, Classical.choice, Quot.sound]
'MarineQC.C82_distinct' depends on axioms: [propext, Classical.choice, Quot.sound]
'MarineQC.C83_eastward_partial' depends on axioms: [propext, Classical.choice, Quot.sound]
'MarineQC.C83_range' depends on axioms: [propext, Classical.choice, Quot.sound]
'MarineQC.C83_westward_violation' depends on axioms: [propext, Classical.choice, Quot.sound]
'MarineQC.C84_course' depends on axioms: [propext, Classical.choice, Quot.sound]
'MarineQC.C84_round_trip' depends on axioms: [propext, Classical.choice, Quot.sound]
'MarineQC.C84_range' depends on axioms: [propext, Classical.choice, Quot.sound]
'MarineQC.C84_pole' depends on axioms: [propext, Classical.choice, Quot.sound]
'MarineQC.C85_mixed_partial' depends on axioms: [propext, Classical.choice, Quot.sound]
'MarineQC.C85_dry_violation' depends on axioms: [propext, Classical.choice, Quot.sound]
'MarineQC.C85_water_partial' depends on axioms: [propext, Classical.choice, Quot.sound]
'MarineQC.C85_ice_partial' depends on axioms: [propext, Classical.choice, Quot.sound]
'MarineQC.C85_freezing_violation' depends on axioms: [propext, Classical.choice, Quot.sound]
'MarineQC.C86_variables' depends on axioms: [propext, Classical.choice, Quot.sound]
'MarineQC.C86_empty_violation' depends on axioms: [propext, Classical.choice, Quot.sound]
'MarineQC.C86_no_uid' depends on axioms: [propext, Classical.choice, Quot.sound]
'MarineQC.C86_flags' depends on axioms: [propext, Classical.choice, Quot.sound]
'MarineQC.C87_deck' depends on axioms: [propext, Classical.choice, Quot.sound]
'MarineQC.C87_min' depends on axioms: [propext, Classical.choice, Quot.sound]
'MarineQC.C87_empty' depends on axioms: [propext, Classical.choice, Quot.sound]
'MarineQC.C88_deck_names' depends on axioms: [propext, Classical.choice, Quot.sound]
'MarineQC.C88_voyage_names' depends on axioms: [propext, Classical.choice, Quot.sound]
'MarineQC.C88_voyage_violation' depends on axioms: [propext, Classical.choice, Quot.sound]
'MarineQC.C88_run_violation' depends on axioms: [propext, Classical.choice, Quot.sound]
'MarineQC.C89_voyage_partial' depends on axioms: [propext, Classical.choice, Quot.sound]
'MarineQC.C89_slash_violation' depends on axioms: [propext, Classical.choice, Quot.sound]
'MarineQC.C90_tracking' depends on axioms: [propext, Classical.choice, Quot.sound]
'MarineQC.C91_month_partial' depends on axioms: [propext, Classical.choice, Quot.sound]
'MarineQC.C91_asterisk_violation' depends on axioms: [propext, Classical.choice, Quot.sound]
'MarineQC.C91_short_violation' depends on axioms: [propext, Quot.sound]
'MarineQC.C92_chunk_partial' depends on axioms: [propext, Classical.choice, Quot.sound]
'MarineQC.C93_only_flags' depends on axioms: [propext, Classical.choice, Quot.sound]
'MarineQC.C94_eligible' depends on axioms: [propext, Classical.choice, Quot.sound]
'MarineQC.C95_passes' depends on axioms: [propext, Classical.choice, Quot.sound]
'MarineQC.C96_completes_partial' depends on axioms: [propext, Classical.choice, Quot.sound]
'MarineQC.C96_unplaced_violation' depends on axioms: [propext, Classical.choice, Quot.sound]
'MarineQC.C96_same_minute_violation' depends on axioms: [propext, Classical.choice, Quot.sound]
'MarineQC.C97_whole' depends on axioms: [propext, Classical.choice, Quot.sound]
'MarineQC.C97_main' depends on axioms: [propext, Classical.choice, Quot.sound]
'MarineQC.C97_output' depends on axioms: [propext, Classical.choice, Quot.sound]
'MarineQC.C98_handover_partial' depends on axioms: [propext, Classical.choice, Quot.sound]
'MarineQC.C99_platform_alone' depends on axioms: [propext, Classical.choice, Quot.sound]
