{
 "claims": [
  {
   "property": "C01",
   "status": "proved",
   "theorems": [
    "MarineQC.C01_yesterday_predecessor",
    "MarineQC.C01_yesterday_none"
   ],
   "note": "Years 1..9999 as accepted by datetime."
  },
  {
   "property": "C02",
   "status": "proved",
   "theorems": [
    "MarineQC.C02_pentad_of_day",
    "MarineQC.C02_leap_day",
    "MarineQC.C02_which_pentad_domain",
    "MarineQC.C02_pentad_first_day",
    "MarineQC.C02_pentad_round_trip",
    "MarineQC.C02_pentad_has_five_days"
   ],
   "note": "The finite day and pentad tables are checked by the kernel and lifted to all inputs."
  },
  {
   "property": "C03",
   "status": "proved",
   "theorems": [
    "MarineQC.C03_day_in_year_counts",
    "MarineQC.C03_leap_day",
    "MarineQC.C03_day_in_year_domain",
    "MarineQC.C03_day_in_year_injective"
   ],
   "note": ""
  },
  {
   "property": "C04",
   "status": "proved",
   "theorems": [
    "MarineQC.C04_dayinyear_domain",
    "MarineQC.C04_dayinyear_first",
    "MarineQC.C04_dayinyear_step",
    "MarineQC.C04_dayinyear_last",
    "MarineQC.C04_dayinyear_range",
    "MarineQC.C04_dayinyear_pos",
    "MarineQC.C04_dayinyear_le"
   ],
   "note": ""
  },
  {
   "property": "C05",
   "status": "proved",
   "theorems": [
    "MarineQC.C05_jul_day_next",
    "MarineQC.C05_jul_day_strictMono",
    "MarineQC.C05_jul_day_injective"
   ],
   "note": "All integer years."
  },
  {
   "property": "C06",
   "status": "proved",
   "theorems": [
    "MarineQC.C06_time_difference_missing",
    "MarineQC.C06_time_difference_exact",
    "MarineQC.C06_dates_comparable",
    "MarineQC.C06_time_difference_antisymm",
    "MarineQC.C06_time_difference_additive",
    "MarineQC.C06_time_difference_sign",
    "MarineQC.C06_time_difference_bad_hour"
   ],
   "note": "Hours are exact rationals, float rounding is not modelled."
  },
  {
   "property": "C07",
   "status": "proved",
   "theorems": [
    "MarineQC.C07_year_month_gen_enumerates",
    "MarineQC.C07_year_month_list",
    "MarineQC.C07_year_month_gen_rejects",
    "MarineQC.C07_year_month_gen_diverges"
   ],
   "note": "Non-termination is stated as: no number of loop rounds suffices."
  },
  {
   "property": "C08",
   "status": "proved",
   "theorems": [
    "MarineQC.C08_month_step_inverse",
    "MarineQC.C08_next_month",
    "MarineQC.C08_three_months",
    "MarineQC.C08_month_match"
   ],
   "note": ""
  },
  {
   "property": "C09",
   "status": "partial",
   "theorems": [
    "MarineQC.C09_season_partial",
    "MarineQC.C09_season_zero_violation"
   ],
   "note": "Proved for every integer except 0, where the code returns DJF (C09_season_zero_violation)."
  },
  {
   "property": "C10",
   "status": "proved",
   "theorems": [
    "MarineQC.C10_get_chunks_correct",
    "MarineQC.C10_exactly_one_chunk",
    "MarineQC.C10_chunks_characterised",
    "MarineQC.C10_gap_eleven_violation"
   ],
   "note": "Gaps 1..10; C10_gap_eleven_violation shows the code breaks for larger gaps."
  },
  {
   "property": "C100",
   "status": "proved",
   "theorems": [
    "MarineQC.C100_ship_flags"
   ],
   "note": "The distance must be symmetric and zero between equal points, which is proved of sphere_distance in C67."
  },
  {
   "property": "C101",
   "status": "partial",
   "theorems": [
    "MarineQC.C101_completes_partial",
    "MarineQC.C101_unordered_violation"
   ],
   "note": "Proved when the reports of each identifier come in time order in the deck. One ship with three reports out of order can stop the program for all ships (C101_unordered_violation)."
  },
  {
   "property": "C102",
   "status": "proved",
   "theorems": [
    "MarineQC.C102_buddies"
   ],
   "note": ""
  },
  {
   "property": "C103",
   "status": "proved",
   "theorems": [
    "MarineQC.C103_completes"
   ],
   "note": "The base checks limit the anomalies to the maximum the Bayesian check allows, because both read the same parameter."
  },
  {
   "property": "C104",
   "status": "proved",
   "theorems": [
    "MarineQC.C104_columns",
    "MarineQC.C104_used",
    "MarineQC.C104_reports",
    "MarineQC.C104_contents"
   ],
   "note": "C104_columns leaves out lines with a second core among their attachments."
  },
  {
   "property": "C105",
   "status": "partial",
   "theorems": [
    "MarineQC.C105_stale_violation",
    "MarineQC.C105_background_partial"
   ],
   "note": "Fails when neighbouring dated records of different months have the same day of the month (C105_stale_violation)."
  },
  {
   "property": "C106",
   "status": "partial",
   "theorems": [
    "MarineQC.C106_completes_partial",
    "MarineQC.C106_needed",
    "MarineQC.C106_violation"
   ],
   "note": "The conditions are sufficient and mostly necessary (C106_needed); the program gives up where it means to skip (C106_violation)."
  },
  {
   "property": "C107",
   "status": "partial",
   "theorems": [
    "MarineQC.C107_deck",
    "MarineQC.C107_output_partial",
    "MarineQC.C107_violation"
   ],
   "note": "C107_deck: without tracking, in full. C107_output_partial: with tracking, for drifters whose reports have a place and, if an hour is given, a date, and whose identifiers have no slash and make different file names. C107_violation: a drifter report with an hour but no day stops the program after the deck's files, leaving an empty list and no drifter files."
  },
  {
   "property": "C108",
   "status": "proved",
   "theorems": [
    "MarineQC.C108_months",
    "MarineQC.C108_reports"
   ],
   "note": "C108_months: the run over months as a whole. C108_reports: the reports of one month, whatever background is left in the library."
  },
  {
   "property": "C109",
   "status": "partial",
   "theorems": [
    "MarineQC.C109_rows",
    "MarineQC.C109_records",
    "MarineQC.C109_run_partial",
    "MarineQC.C109_stops_partial"
   ],
   "note": "C109_rows: the reports written are the records of the month's file, in order. C109_records: the unique identifiers in each file of the deck. C109_run_partial and C109_stops_partial: all months and the stopping of the run, under the conditions of C107 on drifters and with an output directory in which nothing is in the way."
  },
  {
   "property": "C11",
   "status": "proved",
   "theorems": [
    "MarineQC.C11_counter_history",
    "MarineQC.C11_yield_dates",
    "MarineQC.C11_label_meaning"
   ],
   "note": "Gaps 1..10, for every counter over a range of consecutive months."
  },
  {
   "property": "C110",
   "status": "partial",
   "theorems": [
    "MarineQC.C110_flags",
    "MarineQC.C110_completes_partial"
   ],
   "note": "C110_flags: in full, for checks that complete. C110_completes_partial: completion under conditions on the files and lines; C101 and C106 show by example that such conditions are needed."
  },
  {
   "property": "C111",
   "status": "partial",
   "theorems": [
    "MarineQC.C111_run_partial"
   ],
   "note": "C111_run_partial: from conditions on the archive alone to the files of all months. The conditions are sufficient; C101, C106 and C107 show for some of them by example that they are needed."
  },
  {
   "property": "C112",
   "status": "partial",
   "theorems": [
    "MarineQC.C112_get_sst_partial",
    "MarineQC.C112_get_hires_sst",
    "MarineQC.C112_get_sst_daily_partial",
    "MarineQC.C112_rejects",
    "MarineQC.C112_daily_violation",
    "MarineQC.C112_single_violation"
   ],
   "note": "Fields of 73 pentads, single fields, daily fields of one degree and daily fields of a quarter of a degree. get_sst_daily accepts longitudes up to 365 but raises IndexError beyond 180 (C112_daily_violation); get_sst accepts longitudes from -185 to 365 but raises AssertionError beyond -180 and 360 for a single field (C112_single_violation)."
  },
  {
   "property": "C113",
   "status": "proved",
   "theorems": [
    "MarineQC.C113_get_clim",
    "MarineQC.C113_get_hires_clim",
    "MarineQC.C113_missing"
   ],
   "note": ""
  },
  {
   "property": "C114",
   "status": "partial",
   "theorems": [
    "MarineQC.C114_interpolated_partial",
    "MarineQC.C114_at_cell_centre",
    "MarineQC.C114_missing",
    "MarineQC.C114_south_violation",
    "MarineQC.C114_dateline_violation"
   ],
   "note": "Proved for fields of pentads except at latitude -89.5, where the program raises AssertionError (C114_south_violation). Single fields next to the date line lose the neighbours on the other side (C114_dateline_violation)."
  },
  {
   "property": "C115",
   "status": "partial",
   "theorems": [
    "MarineQC.C115_readback_partial"
   ],
   "note": "Missing: identifiers with a slash or an asterisk or of fewer than nine characters (C91), an identifier whose file name is that of another drifter, and the conditions of C107 on drifters."
  },
  {
   "property": "C116",
   "status": "partial",
   "theorems": [
    "MarineQC.C116_tracked_partial"
   ],
   "note": "Missing: as for C115 and C96."
  },
  {
   "property": "C117",
   "status": "proved",
   "theorems": [
    "MarineQC.C117_flags"
   ],
   "note": "For completed checks; completion is C106 and C111."
  },
  {
   "property": "C118",
   "status": "partial",
   "theorems": [
    "MarineQC.C118_archive_to_tracks_partial"
   ],
   "note": "Missing: as for C111 and C116."
  },
  {
   "property": "C119",
   "status": "partial",
   "theorems": [
    "MarineQC.C119_lists_partial",
    "MarineQC.C119_comma_violation"
   ],
   "note": "Missing: identifiers with a comma or a line break, which are cut (C119_comma_violation), and the conditions of C107 and C109."
  },
  {
   "property": "C12",
   "status": "proved",
   "theorems": [
    "MarineQC.C12_regular_chunks_stable",
    "MarineQC.C12_regular_dates_stable",
    "MarineQC.C12_edge_chunks_unstable",
    "MarineQC.C12_new_exactly_once"
   ],
   "note": "Including the converse: edge-case chunks are not stable."
  },
  {
   "property": "C120",
   "status": "partial",
   "theorems": [
    "MarineQC.C120_arguments_partial",
    "MarineQC.C120_blank_violation"
   ],
   "note": "Missing: identifiers with a blank inside, which argparse rejects (C120_blank_violation), or with characters special to the shell or beginning with a hyphen."
  },
  {
   "property": "C121",
   "status": "partial",
   "theorems": [
    "MarineQC.C121_jobs_partial",
    "MarineQC.C121_runs",
    "MarineQC.C121_name_violation"
   ],
   "note": "Missing: identifiers with a slash; and that each script file holds its own script when two identifiers differ in blanks only, in which case one overwrites the other (C121_name_violation)."
  },
  {
   "property": "C122",
   "status": "partial",
   "theorems": [
    "MarineQC.C122_one_job",
    "MarineQC.C122_system_partial"
   ],
   "note": "Missing: as for C118 and C119-C121 (identifiers that are not plain words of at most nine characters padded with blanks). Jobs at the same time are C124."
  },
  {
   "property": "C123",
   "status": "proved",
   "theorems": [
    "MarineQC.C123_steps"
   ],
   "note": "For every script, settings and file system. A file is read in one step, a text is written one character at a time."
  },
  {
   "property": "C124",
   "status": "partial",
   "theorems": [
    "MarineQC.C124_together_partial"
   ],
   "note": "Missing: what is missing in C122. A file is read in one step (no job changes the files that are read), a text is written one character at a time."
  },
  {
   "property": "C125",
   "status": "proved",
   "theorems": [
    "MarineQC.C125_operations"
   ],
   "note": "For every environment, list of months and file system, whether the run completes or stops with an exception."
  },
  {
   "property": "C126",
   "status": "proved",
   "theorems": [
    "MarineQC.C126_restart"
   ],
   "note": "Spec.Killed: any number of operations done, and of each file the run has opened any beginning. That a restarted run takes the same data from its inputs is part of the model: the inputs are not on the file system that is written."
  },
  {
   "property": "C127",
   "status": "partial",
   "theorems": [
    "MarineQC.C127_again_violation",
    "MarineQC.C127_archive_partial",
    "MarineQC.C127_interrupted_partial"
   ],
   "note": "Proved where the files of the drifter did not exist before the run, under the conditions of C115 (C127_interrupted_partial) and from the archive (C127_archive_partial). C127_again_violation: where a run overwrites the files of an earlier run and is killed, a temperature cut off after its first digit is read without error. Files that were closed are taken to be complete."
  },
  {
   "property": "C128",
   "status": "proved",
   "theorems": [
    "MarineQC.C128_reports"
   ],
   "note": "Shadow.lean: all that the programs compute for these flags they compute from what the two reports have in common."
  },
  {
   "property": "C129",
   "status": "proved",
   "theorems": [
    "MarineQC.C129_files"
   ],
   "note": "For the two programs as modelled (see DESIGN.md on the run): completion, the directories, the untouched deck files and the equality of all other files are proved from any file system; the only difference allowed is spelled out in LacksAnomalies."
  },
  {
   "property": "C13",
   "status": "proved",
   "theorems": [
    "MarineQC.C13_lat_row",
    "MarineQC.C13_row_centre",
    "MarineQC.C13_row_round_trip",
    "MarineQC.C13_beyond_poles"
   ],
   "note": "Positions are exact rationals."
  },
  {
   "property": "C130",
   "status": "proved",
   "theorems": [
    "MarineQC.C130_tracking"
   ],
   "note": "The reports of drifters are assumed to be Storable (C91), as C118 derives from the archive, and the tracking program's directories not to be files of the deck."
  },
  {
   "property": "C131",
   "status": "partial",
   "theorems": [
    "MarineQC.C131_frame",
    "MarineQC.C131_main_files_partial",
    "MarineQC.C131_names_violation"
   ],
   "note": "Proved for every run. Missing: main-program files of a drifter whose identifier is hires or ends in _hires can have the name of a file of this program (C131_names_violation)."
  },
  {
   "property": "C132",
   "status": "partial",
   "theorems": [
    "MarineQC.C132_reports",
    "MarineQC.C132_lists",
    "MarineQC.C132_after_partial"
   ],
   "note": "Proved for reports and lists; the files of the main program under the exclusion of C131."
  },
  {
   "property": "C133",
   "status": "partial",
   "theorems": [
    "MarineQC.C133_run_partial",
    "MarineQC.C133_after_partial"
   ],
   "note": "Under the conditions of C111 (which C101, C106 and C107 show to be needed) and a climatology on a regular grid."
  },
  {
   "property": "C134",
   "status": "proved",
   "theorems": [
    "MarineQC.C134_alone",
    "MarineQC.C134_at_once",
    "MarineQC.C134_others",
    "MarineQC.C134_restart"
   ],
   "note": "C134_alone: the program of the pool is the run. C134_at_once: any interleaving. C134_restart: after killed programs. C134_others: files of others, without any condition. Programs that share a month, and the copies of compressed background files in the scratch directory, are not covered."
  },
  {
   "property": "C135",
   "status": "partial",
   "theorems": [
    "MarineQC.C135_other_platforms_partial",
    "MarineQC.C135_drifter_tables_partial",
    "MarineQC.C135_background_violation"
   ],
   "note": "Proved for everything in a report but the background values. Missing: those, which a record of another platform can change (C135_background_violation), because the program reads a new background only when the day of the month changes."
  },
  {
   "property": "C136",
   "status": "proved",
   "theorems": [
    "MarineQC.C136_neighbours"
   ],
   "note": "For completed checks; completion is C106 and C111. Background values are excepted in the statement (C135_background_violation)."
  },
  {
   "property": "C137",
   "status": "proved",
   "theorems": [
    "MarineQC.C137_short_line",
    "MarineQC.C137_long_line",
    "MarineQC.C137_printable"
   ],
   "note": "The numbers must have room in their columns (a hypothesis of the theorems): Python's format does not cut them."
  },
  {
   "property": "C138",
   "status": "proved",
   "theorems": [
    "MarineQC.C138_linked",
    "MarineQC.C138_history",
    "MarineQC.C138_now",
    "MarineQC.C138_edge"
   ],
   "note": "The geometry is a parameter; that course, distance and dead reckoning fit together is C84."
  },
  {
   "property": "C139",
   "status": "proved",
   "theorems": [
    "MarineQC.C139_round_trip",
    "MarineQC.C139_local"
   ],
   "note": "Python's float of a text is a parameter, with the hypothesis that it reads right-aligned integers and refuses blanks."
  },
  {
   "property": "C14",
   "status": "proved",
   "theorems": [
    "MarineQC.C14_lon_column",
    "MarineQC.C14_lon_periodic",
    "MarineQC.C14_column_centre",
    "MarineQC.C14_column_round_trip",
    "MarineQC.C14_west_of_range_violation"
   ],
   "note": "Every longitude from -540 eastwards; C14_west_of_range_violation shows what happens further west."
  },
  {
   "property": "C140",
   "status": "partial",
   "theorems": [
    "MarineQC.C140_longitude_violation",
    "MarineQC.C140_hour_violation",
    "MarineQC.C140_missing_hour_violation",
    "MarineQC.C140_flags",
    "MarineQC.C140_same_flags_partial"
   ],
   "note": "The two differ for longitudes from 360 to 720 (C140_longitude_violation), hour 24 (C140_hour_violation) and missing hours, where base_qc_report raises (C140_missing_hour_violation). The flag for air temperatures to leave out is under another name and goes to 1893 instead of 1892 (C140_flags)."
  },
  {
   "property": "C141",
   "status": "proved",
   "theorems": [
    "MarineQC.C141_record",
    "MarineQC.C141_uid",
    "MarineQC.C141_flags"
   ],
   "note": "float and dateutil are arbitrary functions; the text nan as latitude or longitude counts as not readable. Near-real-time reports of 2025 and later are all flagged for their date."
  },
  {
   "property": "C142",
   "status": "proved",
   "theorems": [
    "MarineQC.C142_record"
   ],
   "note": "float is an arbitrary function."
  },
  {
   "property": "C143",
   "status": "proved",
   "theorems": [
    "MarineQC.C143_get",
    "MarineQC.C143_last",
    "MarineQC.C143_setvar",
    "MarineQC.C143_setqc",
    "MarineQC.C143_readback",
    "MarineQC.C143_stale",
    "MarineQC.C143_stale_violation"
   ],
   "note": "C143_stale and C143_stale_violation: the stored speed, course, distance and time difference become stale."
  },
  {
   "property": "C144",
   "status": "partial",
   "theorems": [
    "MarineQC.C144_both_partial"
   ],
   "note": "Missing: what is missing in C122. Months that are being tracked are not checked again at the same time: a job that then finds a file emptied stops with an error and writes nothing (C145_emptied)."
  },
  {
   "property": "C145",
   "status": "proved",
   "theorems": [
    "MarineQC.C145_accepted",
    "MarineQC.C145_refused",
    "MarineQC.C145_emptied",
    "MarineQC.C145_blank_line"
   ],
   "note": "C145_accepted and C145_refused for any files. Rows are counted without empty lines: C145_blank_line shows a month in which the last report has no flags because a file of flags ends with an empty line."
  },
  {
   "property": "C146",
   "status": "proved",
   "theorems": [
    "MarineQC.C146_blind",
    "MarineQC.C146_again",
    "MarineQC.C146_twice"
   ],
   "note": "All four base checks that can complete (perform_base_dat_qc never does, C34_dat_violation). A check that raises in mid-course is not covered."
  },
  {
   "property": "C147",
   "status": "proved",
   "theorems": [
    "MarineQC.C147_blind",
    "MarineQC.C147_twice",
    "MarineQC.C147_order"
   ],
   "note": "For checks that complete; a filter that asks for the check's own flag is excluded (a report flagged the first time would be left out the second time)."
  },
  {
   "property": "C148",
   "status": "proved",
   "theorems": [
    "MarineQC.C148_blind",
    "MarineQC.C148_twice",
    "MarineQC.C148_order"
   ],
   "note": "The five checks that set one flag per report, for voyages of any length; for checks that complete."
  },
  {
   "property": "C149",
   "status": "proved",
   "theorems": [
    "MarineQC.C149_twice",
    "MarineQC.C149_blind",
    "MarineQC.C149_order_before",
    "MarineQC.C149_order_after"
   ],
   "note": "Independence of flags and of earlier differences, repetition, and both directions of exchanging the order with the five other checks of a voyage."
  },
  {
   "property": "C15",
   "status": "proved",
   "theorems": [
    "MarineQC.C15_mds_lat_row",
    "MarineQC.C15_mds_lon_column",
    "MarineQC.C15_mds_lon_beyond_dateline"
   ],
   "note": "For every resolution with a whole number of cells per hemisphere, not finer than 0.001 degrees."
  },
  {
   "property": "C150",
   "status": "partial",
   "theorems": [
    "MarineQC.C150_twice_partial",
    "MarineQC.C150_violation",
    "MarineQC.C150_blind"
   ],
   "note": "The code violates the full claim: the passes over the unflagged reports overwrite the speeds stored in the shared reports, so a second call can take a flag away (C150_violation, witness of five reports). Proved: a check that flags nothing may be repeated (C150_twice_partial), and the flags found do not depend on flags already set or on alternate differences left before (C150_blind)."
  },
  {
   "property": "C151",
   "status": "proved",
   "theorems": [
    "MarineQC.C151_blind",
    "MarineQC.C151_twice",
    "MarineQC.C151_order",
    "MarineQC.C151_voyage_order",
    "MarineQC.C151_drifter_order",
    "MarineQC.C151_method_twice"
   ],
   "note": "Flags are shown to be calculated from reports stripped of all flags, including the iQuam screening that new_speed_check makes on copies. The Voyage methods are covered with sort=False, as tracking_qc.py calls them. As in C52 and C53 the elevation of the sun is an arbitrary function."
  },
  {
   "property": "C152",
   "status": "proved",
   "theorems": [
    "MarineQC.C152_twice"
   ],
   "note": "With oldqc false, the default, as in C93-C98. The result is equal in full: data, flags and stored differences."
  },
  {
   "property": "C153",
   "status": "proved",
   "theorems": [
    "MarineQC.C153_order",
    "MarineQC.C153_completes"
   ],
   "note": "With oldqc false, the default. The stored differences are left out because Voyage.sort does not renew those of the first report; the checks are shown not to read them."
  },
  {
   "property": "C154",
   "status": "proved",
   "theorems": [
    "MarineQC.C154_only_flags",
    "MarineQC.C154_eligible",
    "MarineQC.C154_passes",
    "MarineQC.C154_completes",
    "MarineQC.C154_main",
    "MarineQC.C154_unscreened"
   ],
   "note": "With oldqc true. Completion is for the records of C96; the parameters must be valid."
  },
  {
   "property": "C155",
   "status": "proved",
   "theorems": [
    "MarineQC.C155_twice",
    "MarineQC.C155_order"
   ],
   "note": "With oldqc true. As C152 and C153: the order theorem leaves the stored differences out."
  },
  {
   "property": "C156",
   "status": "proved",
   "theorems": [
    "MarineQC.C156_only_tracking",
    "MarineQC.C156_inputs",
    "MarineQC.C156_rerun",
    "MarineQC.C156_after_base",
    "MarineQC.C156_stops"
   ],
   "note": "With new tracking checks. C156_only_tracking and C156_inputs hold for every run; C156_rerun under the conditions of C97_main, and C156_after_base gives them for what the base program wrote. Names of runs and identifiers contain no slash."
  },
  {
   "property": "C157",
   "status": "proved",
   "theorems": [
    "MarineQC.C157_only_tracking",
    "MarineQC.C157_inputs",
    "MarineQC.C157_rerun",
    "MarineQC.C157_beside",
    "MarineQC.C157_after_base",
    "MarineQC.C157_stops"
   ],
   "note": "C157_only_tracking and C157_inputs hold for every run; C157_rerun and C157_beside under the conditions of C97_main and C154_main, and C157_after_base gives them for what the base program wrote."
  },
  {
   "property": "C158",
   "status": "partial",
   "theorems": [
    "MarineQC.C158_count",
    "MarineQC.C158_lines",
    "MarineQC.C158_sees_own",
    "MarineQC.C158_exact",
    "MarineQC.C158_bound_partial",
    "MarineQC.C158_start",
    "MarineQC.C158_over_violation",
    "MarineQC.C158_ends",
    "MarineQC.C158_looked",
    "MarineQC.C158_starves",
    "MarineQC.C158_others_violation"
   ],
   "note": "The bound holds with 251 and 251 is reached (C158_over_violation), because the look at the queue comes after the submission; with more than 250 jobs at the start one more is submitted (C158_start). The count is never too small (C158_sees_own) and exact if the name is nowhere else in the listing (C158_exact); jobs of users whose names contain the name are counted and can stop the wrapper for ever (C158_others_violation). Nobody else submits jobs as the same user."
  },
  {
   "property": "C159",
   "status": "partial",
   "theorems": [
    "MarineQC.C159_base_partial",
    "MarineQC.C159_buddy_partial",
    "MarineQC.C159_never_violation",
    "MarineQC.C159_file_violation"
   ],
   "note": "Proved for clim, nonorm, freez, noval, hardlimit and bud. For spike and nbud the claim is false of every report the program checks (C159_never_violation) and of every row it writes (C159_file_violation). rep and bbud as in the main program."
  },
  {
   "property": "C16",
   "status": "partial",
   "theorems": [
    "MarineQC.C16_surrounding_points_partial",
    "MarineQC.C16_clamped_points_partial",
    "MarineQC.C16_surrounding_points_violation",
    "MarineQC.C16_rejects"
   ],
   "note": "Every latitude except -89.5, where the code returns the same latitude twice (C16_surrounding_points_violation)."
  },
  {
   "property": "C160",
   "status": "partial",
   "theorems": [
    "MarineQC.C160_results_partial",
    "MarineQC.C160_never_violation"
   ],
   "note": "Proved for every column but four: SST nbud, AT freez, DPT freez and DPT bbud have no check and hold 9 for every report (C160_never_violation). The Bayesian columns hold a probability and are C102 and C117."
  },
  {
   "property": "C17",
   "status": "proved",
   "theorems": [
    "MarineQC.C17_bilinear_bounds",
    "MarineQC.C17_bilinear_reproduces",
    "MarineQC.C17_bilinear_corners",
    "MarineQC.C17_bilinear_rejects",
    "MarineQC.C17_fill_missing"
   ],
   "note": ""
  },
  {
   "property": "C18",
   "status": "proved",
   "theorems": [
    "MarineQC.C18_time_index",
    "MarineQC.C18_bad_dates",
    "MarineQC.C18_get_value",
    "MarineQC.C18_get_value_mds",
    "MarineQC.C18_get_value_ostia"
   ],
   "note": "Also get_value_ostia. Fields of ny rows and 2 ny columns."
  },
  {
   "property": "C19",
   "status": "partial",
   "theorems": [
    "MarineQC.C19_load_partial",
    "MarineQC.C19_load_transposed",
    "MarineQC.C19_rejects",
    "MarineQC.C19_coarse_violation",
    "MarineQC.C19_four_dim_violation"
   ],
   "note": "Three-dimensional variables on grids finer than two degrees. Coarser grids starting at 0 and four-dimensional variables are mishandled by the code (C19_coarse_violation, C19_four_dim_violation)."
  },
  {
   "property": "C20",
   "status": "proved",
   "theorems": [
    "MarineQC.C20_climatology_check",
    "MarineQC.C20_stdev_check",
    "MarineQC.C20_lowbar_check",
    "MarineQC.C20_monotone",
    "MarineQC.C20_lowbar_zero_deviation_raises"
   ],
   "note": "All values and limits; the low-bar variant is stated for positive deviations and C20_lowbar_zero_deviation_raises shows what happens at 0."
  },
  {
   "property": "C21",
   "status": "proved",
   "theorems": [
    "MarineQC.C21_hard_limit",
    "MarineQC.C21_hard_limit_order",
    "MarineQC.C21_freeze",
    "MarineQC.C21_supersat",
    "MarineQC.C21_missing",
    "MarineQC.C21_wind"
   ],
   "note": ""
  },
  {
   "property": "C22",
   "status": "proved",
   "theorems": [
    "MarineQC.C22_position",
    "MarineQC.C22_position_missing",
    "MarineQC.C22_time",
    "MarineQC.C22_date",
    "MarineQC.C22_date_pass",
    "MarineQC.C22_date_month_raises"
   ],
   "note": "C22_date_month_raises records that months outside -11..12 raise IndexError instead of failing."
  },
  {
   "property": "C23",
   "status": "proved",
   "theorems": [
    "MarineQC.C23_blacklist",
    "MarineQC.C23_full_turn"
   ],
   "note": "The deck 732 table is specified region by region, the program has it year by year."
  },
  {
   "property": "C24",
   "status": "proved",
   "theorems": [
    "MarineQC.C24_generic",
    "MarineQC.C24_missing",
    "MarineQC.C24_year_irrelevant"
   ],
   "note": ""
  },
  {
   "property": "C25",
   "status": "proved",
   "theorems": [
    "MarineQC.C25_day_test",
    "MarineQC.C25_new_year",
    "MarineQC.C25_no_year",
    "MarineQC.C25_track_day_test",
    "MarineQC.C25_track_day_test_hour_24"
   ],
   "note": "For an arbitrary elevation function. C25_track_day_test_hour_24: hour 24 passes track_day_test's own assertion but raises in sunangle."
  },
  {
   "property": "C26",
   "status": "proved",
   "theorems": [
    "MarineQC.C26_symm",
    "MarineQC.C26_circle_distance",
    "MarineQC.C26_beyond_a_turn_violation"
   ],
   "note": "C26_beyond_a_turn_violation shows the restriction to one turn is needed."
  },
  {
   "property": "C27",
   "status": "proved",
   "theorems": [
    "MarineQC.C27_winsorised_formula",
    "MarineQC.C27_winsorised_small",
    "MarineQC.C27_order_independent",
    "MarineQC.C27_winsorised_bounded",
    "MarineQC.C27_shift",
    "MarineQC.C27_trimmed_formula",
    "MarineQC.C27_trimmed_bounded",
    "MarineQC.C27_trimmed_undefined"
   ],
   "note": "Exact arithmetic. Lists of Python 2 integers, where the division truncates, are not modelled. The mean of the values kept by trimmed_mean is defined for trim 0 and for trim 3 or more; C27_trimmed_undefined gives the other cases, where numpy returns NaN."
  },
  {
   "property": "C28",
   "status": "proved",
   "theorems": [
    "MarineQC.C28_good",
    "MarineQC.C28_gross",
    "MarineQC.C28_p_gross",
    "MarineQC.C28_p_gross_erf"
   ],
   "note": "Over the reals: rounding of floats and of scipy's erf is not modelled."
  },
  {
   "property": "C30",
   "status": "partial",
   "theorems": [
    "MarineQC.C30_accepted",
    "MarineQC.C30_flags_map_partial",
    "MarineQC.C30_collision_violation"
   ],
   "note": "Acceptance and the flags-as-a-map reading are proved for keys that do not collide; C30_collision_violation shows two distinct (type, name) pairs that share one stored flag."
  },
  {
   "property": "C31",
   "status": "partial",
   "theorems": [
    "MarineQC.C31_last_value",
    "MarineQC.C31_unknown",
    "MarineQC.C31_timestamp_value",
    "MarineQC.C31_timestamp_defined",
    "MarineQC.C31_timestamp_partial",
    "MarineQC.C31_month_violation",
    "MarineQC.C31_raise_violation",
    "MarineQC.C31_init_order_independent",
    "MarineQC.C31_init"
   ],
   "note": "Proved for every sequence of non-raising writes ending in a day, hour or year write; C31_month_violation and C31_raise_violation show the stale timestamp after a month write and after a raising write."
  },
  {
   "property": "C32",
   "status": "proved",
   "theorems": [
    "MarineQC.C32_time_order",
    "MarineQC.C32_gt_ids",
    "MarineQC.C32_gt_same_id",
    "MarineQC.C32_trichotomy",
    "MarineQC.C32_transitive",
    "MarineQC.C32_ge_le",
    "MarineQC.C32_missing_raises",
    "MarineQC.C32_sort",
    "MarineQC.C32_sort_chronological",
    "MarineQC.C32_missing_time_intransitive"
   ],
   "note": "All reports with timestamps; C32_missing_raises and C32_missing_time_intransitive describe reports without a timestamp."
  },
  {
   "property": "C33",
   "status": "proved",
   "theorems": [
    "MarineQC.C33_lon",
    "MarineQC.C33_lon_missing"
   ],
   "note": ""
  },
  {
   "property": "C34",
   "status": "partial",
   "theorems": [
    "MarineQC.C34_missing_hour",
    "MarineQC.C34_base_flags_partial",
    "MarineQC.C34_hardlimit_violation",
    "MarineQC.C34_dat_violation",
    "MarineQC.C34_completes"
   ],
   "note": "Every flag equals its check, nothing else changes, completion for all reports with a position, year and month. The clause on the dew-point hard limit is false of the code (C34_hardlimit_violation: always 1) and perform_base_dat_qc never completes (C34_dat_violation)."
  },
  {
   "property": "C35",
   "status": "proved",
   "theorems": [
    "MarineQC.C35_humidity",
    "MarineQC.C35_humidity_defined"
   ],
   "note": ""
  },
  {
   "property": "C36",
   "status": "proved",
   "theorems": [
    "MarineQC.C36_speed_course",
    "MarineQC.C36_bad_course"
   ],
   "note": "Codes above 9 raise in the code; the theorem says so."
  },
  {
   "property": "C37",
   "status": "proved",
   "theorems": [
    "MarineQC.C37_test_report",
    "MarineQC.C37_add",
    "MarineQC.C37_split",
    "MarineQC.C37_pop",
    "MarineQC.C37_split_platforms"
   ],
   "note": ""
  },
  {
   "property": "C38",
   "status": "proved",
   "theorems": [
    "MarineQC.C38_platforms",
    "MarineQC.C38_reports",
    "MarineQC.C38_once",
    "MarineQC.C38_sort_violation",
    "MarineQC.C38_pop_violation"
   ],
   "note": "deck index; sort and pop disagreements are proved as violations of the stronger reading (see DESIGN)"
  },
  {
   "property": "C39",
   "status": "proved",
   "theorems": [
    "MarineQC.C39_get_field",
    "MarineQC.C39_add_other"
   ],
   "note": ""
  },
  {
   "property": "C40",
   "status": "proved",
   "theorems": [
    "MarineQC.C40_difference",
    "MarineQC.C40_difference_no_hour",
    "MarineQC.C40_difference_no_position",
    "MarineQC.C40_add_report",
    "MarineQC.C40_sort",
    "MarineQC.C40_add_report_completes",
    "MarineQC.C40_sort_completes",
    "MarineQC.C40_sort_first_stale"
   ],
   "note": ""
  },
  {
   "property": "C41",
   "status": "proved",
   "theorems": [
    "MarineQC.C41_saturated_runs",
    "MarineQC.C41_completes"
   ],
   "note": ""
  },
  {
   "property": "C42",
   "status": "proved",
   "theorems": [
    "MarineQC.C42_repeated",
    "MarineQC.C42_rounded",
    "MarineQC.C42_completes"
   ],
   "note": ""
  },
  {
   "property": "C43",
   "status": "proved",
   "theorems": [
    "MarineQC.C43_iquam",
    "MarineQC.C43_survivors",
    "MarineQC.C43_generic"
   ],
   "note": ""
  },
  {
   "property": "C44",
   "status": "proved",
   "theorems": [
    "MarineQC.C44_spike",
    "MarineQC.C44_survivors"
   ],
   "note": ""
  },
  {
   "property": "C45",
   "status": "partial",
   "theorems": [
    "MarineQC.C45_completes",
    "MarineQC.C45_unordered_violation",
    "MarineQC.C45_flags",
    "MarineQC.C45_decision"
   ],
   "note": "Decision, flags, unchanged data and completion proved for voyages in time order; out of time order the check can raise (C45_unordered_violation)."
  },
  {
   "property": "C46",
   "status": "partial",
   "theorems": [
    "MarineQC.C46_pass_partial",
    "MarineQC.C46_pass_decision",
    "MarineQC.C46_full",
    "MarineQC.C46_completes",
    "MarineQC.C46_one_flag_violation"
   ],
   "note": "Everything proved except that a single report from deck 720 before 1891 gets two flags (C46_one_flag_violation)."
  },
  {
   "property": "C47",
   "status": "partial",
   "theorems": [
    "MarineQC.C47_modesp",
    "MarineQC.C47_modesp_few",
    "MarineQC.C47_limits",
    "MarineQC.C47_limits_monotone_partial",
    "MarineQC.C47_limits_violation"
   ],
   "note": "Modal speed and limits characterised exactly; the limit is not monotone in the modal speed across 8.51 knots (C47_limits_violation)."
  },
  {
   "property": "C49",
   "status": "proved",
   "theorems": [
    "MarineQC.C49_aground",
    "MarineQC.C49_new_aground",
    "MarineQC.C49_suffix",
    "MarineQC.C49_completes",
    "MarineQC.C49_rejects"
   ],
   "note": "Both aground checks: exact flags on the smoothed track, flagged reports form the end of the record, completion and rejected parameters."
  },
  {
   "property": "C50",
   "status": "proved",
   "theorems": [
    "MarineQC.C50_speed",
    "MarineQC.C50_completes",
    "MarineQC.C50_zero_period_violation"
   ],
   "note": "Exact flags for a positive minimum period, completion and rejected parameters. A minimum period of zero is accepted by the code but makes every longer record raise (C50_zero_period_violation)."
  },
  {
   "property": "C51",
   "status": "proved",
   "theorems": [
    "MarineQC.C51_completes",
    "MarineQC.C51_params",
    "MarineQC.C51_zero_period_violation",
    "MarineQC.C51_new_speed"
   ],
   "note": "Exact flags with the screen given by the iQuam check on ship copies; for placed reports the screen is characterised by the removal sequence; completion; iQuam flags untouched. A period of zero never completes (C51_zero_period_violation)."
  },
  {
   "property": "C52",
   "status": "proved",
   "theorems": [
    "MarineQC.C52_tails",
    "MarineQC.C52_shape",
    "MarineQC.C52_completes"
   ],
   "note": "Exact arithmetic; the npass assertion is unreachable because the window tests do not depend on direction (floating point summation order could differ between the two directions)."
  },
  {
   "property": "C53",
   "status": "proved",
   "theorems": [
    "MarineQC.C53_bias",
    "MarineQC.C53_exclusive",
    "MarineQC.C53_completes"
   ],
   "note": "Exact arithmetic."
  },
  {
   "property": "C54",
   "status": "proved",
   "theorems": [
    "MarineQC.C54_super_observations",
    "MarineQC.C54_completes",
    "MarineQC.C54_cell",
    "MarineQC.C54_order_independent"
   ],
   "note": "Sums and means over any list of observations; adding succeeds exactly for places on the globe and dates of a leap year; order does not matter. Exact arithmetic."
  },
  {
   "property": "C55",
   "status": "proved",
   "theorems": [
    "MarineQC.C55_multiplier",
    "MarineQC.C55_limits",
    "MarineQC.C55_completes"
   ],
   "note": "Limits of a cell with any tables, and completion with usable tables; the multiplier characterised for all tables."
  },
  {
   "property": "C56",
   "status": "proved",
   "theorems": [
    "MarineQC.C56_mds_flags",
    "MarineQC.C56_mds_completes",
    "MarineQC.C56_bayes_flags",
    "MarineQC.C56_bayes_completes"
   ],
   "note": "Flags of both checks tied to the specifications of C54 and C55, and completion. The error function is the integral; square roots are real."
  },
  {
   "property": "C60",
   "status": "proved",
   "theorems": [
    "MarineQC.C60_number",
    "MarineQC.C60_character",
    "MarineQC.C60_digits",
    "MarineQC.C60_other"
   ],
   "note": ""
  },
  {
   "property": "C61",
   "status": "partial",
   "theorems": [
    "MarineQC.C61_attachment_partial",
    "MarineQC.C61_layouts",
    "MarineQC.C61_nearest",
    "MarineQC.C61_negative_violation",
    "MarineQC.C61_text_units_violation",
    "MarineQC.C61_digit_violation"
   ],
   "note": "Proved for every fixed-width layout and every value the fields can hold, except negative numbers: every negative value is written one unit too high (C61_negative_violation). Text in NU and base-36 values outside 0-35 are not restored either (violations)."
  },
  {
   "property": "C62",
   "status": "partial",
   "theorems": [
    "MarineQC.C62_record_partial",
    "MarineQC.C62_trailing_violation",
    "MarineQC.C62_attachment8_violation",
    "MarineQC.C62_attachment99_violation"
   ],
   "note": "Proved for the core followed by any list of attachments 1-7, 9, 95, 96, 98 whose last attachment has a value. A last attachment without values is lost; attachments 8 and 99 are misread (violations); 97 cannot be read (C78)."
  },
  {
   "property": "C63",
   "status": "partial",
   "theorems": [
    "MarineQC.C63_icoads",
    "MarineQC.C63_icoads_refused",
    "MarineQC.C63_background_partial",
    "MarineQC.C63_bunzip_violation",
    "MarineQC.C63_background_refused"
   ],
   "note": "Choice of the file proved for all stub lists and file systems. Violated: for a compressed file without a scratch copy the returned file is empty, because the command line appends '.bz2' a second time (C63_bunzip_violation)."
  },
  {
   "property": "C64",
   "status": "proved",
   "theorems": [
    "MarineQC.C64_placeholders",
    "MarineQC.C64_make_filename",
    "MarineQC.C64_numbers",
    "MarineQC.C64_bad_ids",
    "MarineQC.C64_excluded"
   ],
   "note": "Stubs are taken apart into fixed text and placeholders; bad-ID files as lists of lines."
  },
  {
   "property": "C65",
   "status": "proved",
   "theorems": [
    "MarineQC.C65_characters",
    "MarineQC.C65_legal",
    "MarineQC.C65_collision"
   ],
   "note": "C65_collision shows that different names can become equal."
  },
  {
   "property": "C66",
   "status": "partial",
   "theorems": [
    "MarineQC.C66_humidity_partial",
    "MarineQC.C66_buck",
    "MarineQC.C66_vap_inverse",
    "MarineQC.C66_sh_inverse",
    "MarineQC.C66_sh_of_vap",
    "MarineQC.C66_missing",
    "MarineQC.C66_missing_violation",
    "MarineQC.C66_saturated",
    "MarineQC.C66_unsaturated_partial",
    "MarineQC.C66_supersaturation_violation",
    "MarineQC.C66_wet_bulb",
    "MarineQC.C66_depression",
    "MarineQC.C66_rounding"
   ],
   "note": "Inverses, Buck's formulas, wet bulb, saturation and rounding proved. rh below 100 exactly if the dew point is below the temperature: proved for the same phase (C66_unsaturated_partial) and for every dew point at least 0.1 degrees from 0 (C66_humidity_partial); false nearer to freezing (C66_supersaturation_violation). Three routines raise TypeError for missing inputs (C66_missing_violation)"
  },
  {
   "property": "C67",
   "status": "proved",
   "theorems": [
    "MarineQC.C67_great_circle",
    "MarineQC.C67_symmetric",
    "MarineQC.C67_range",
    "MarineQC.C67_zero",
    "MarineQC.C67_triangle",
    "MarineQC.C67_turns",
    "MarineQC.C67_meridian",
    "MarineQC.C67_missing"
   ],
   "note": "great-circle distance over real arithmetic: symmetric, zero only for the same place, triangle inequality, range, turns"
  },
  {
   "property": "C68",
   "status": "proved",
   "theorems": [
    "MarineQC.C68_pole",
    "MarineQC.C68_between",
    "MarineQC.C68_between_refused",
    "MarineQC.C68_course",
    "MarineQC.C68_distance",
    "MarineQC.C68_latitude"
   ],
   "note": "the point reached is the one reached by travelling along the great circle; started exactly at a pole the course is ignored (C68_pole)"
  },
  {
   "property": "C70",
   "status": "partial",
   "theorems": [
    "MarineQC.C70_modes_all_standard_new",
    "MarineQC.C70_mode_noend_partial",
    "MarineQC.C70_noend_violation",
    "MarineQC.C70_other_modes_rejected",
    "MarineQC.C70_id_dictionary"
   ],
   "note": "all, standard, new and the identifier dictionary are exact. noend also submits chunks that are near both ends (C70_noend_violation); its exact behaviour is C70_mode_noend_partial."
  },
  {
   "property": "C71",
   "status": "partial",
   "theorems": [
    "MarineQC.C71_interpolated_partial",
    "MarineQC.C71_at_cell_centre",
    "MarineQC.C71_interpolated_violation"
   ],
   "note": "Every latitude except -89.5, where the call raises (C71_interpolated_violation)."
  },
  {
   "property": "C72",
   "status": "proved",
   "theorems": [
    "MarineQC.C72_sunangle_ranges",
    "MarineQC.C72_culmination",
    "MarineQC.C72_polar_night",
    "MarineQC.C72_pole",
    "MarineQC.C72_equator_raises",
    "MarineQC.C72_elevation_range"
   ],
   "note": "Exact real arithmetic. At the nadir and on the equator a division by zero occurs (C72_equator_raises)."
  },
  {
   "property": "C73",
   "status": "partial",
   "theorems": [
    "MarineQC.C73_sun_clock_partial",
    "MarineQC.C73_sun_clock_within_year",
    "MarineQC.C73_sun_clock_violation"
   ],
   "note": "Holds for 1980-2099. Before 1980 the clock stands still or jumps at year ends (C73_sun_clock_violation)."
  },
  {
   "property": "C74",
   "status": "proved",
   "theorems": [
    "MarineQC.C74_formula",
    "MarineQC.C74_order_independent",
    "MarineQC.C74_spread"
   ],
   "note": ""
  },
  {
   "property": "C75",
   "status": "proved",
   "theorems": [
    "MarineQC.C75_longitude"
   ],
   "note": ""
  },
  {
   "property": "C76",
   "status": "partial",
   "theorems": [
    "MarineQC.C76_columns",
    "MarineQC.C76_columns_symmetric",
    "MarineQC.C76_columns_bound",
    "MarineQC.C76_neighbours_partial",
    "MarineQC.C76_fixed_searches_partial",
    "MarineQC.C76_pole_violation",
    "MarineQC.C76_double_count_violation"
   ],
   "note": "Proved for rows further from the poles than the radius and radii that do not reach round the globe; proved to fail at the poles (C76_pole_violation, C76_double_count_violation)."
  },
  {
   "property": "C77",
   "status": "proved",
   "theorems": [
    "MarineQC.C77_fixed_limits",
    "MarineQC.C77_completes"
   ],
   "note": "Equality of both computations for every cell."
  },
  {
   "property": "C78",
   "status": "proved",
   "theorems": [
    "MarineQC.C78_reading_ends",
    "MarineQC.C78_reading_complete",
    "MarineQC.C78_blank_line",
    "MarineQC.C78_attachment97"
   ],
   "note": ""
  },
  {
   "property": "C79",
   "status": "proved",
   "theorems": [
    "MarineQC.C79_ranges_fit"
   ],
   "note": ""
  },
  {
   "property": "C80",
   "status": "proved",
   "theorems": [
    "MarineQC.C80_icoads_distinct",
    "MarineQC.C80_icoads_versions",
    "MarineQC.C80_icoads_release",
    "MarineQC.C80_directories_distinct"
   ],
   "note": ""
  },
  {
   "property": "C81",
   "status": "proved",
   "theorems": [
    "MarineQC.C81_completions",
    "MarineQC.C81_directories",
    "MarineQC.C81_repeat",
    "MarineQC.C81_missing_base"
   ],
   "note": "C81_missing_base: without the base directory nothing is made although a name is returned."
  },
  {
   "property": "C82",
   "status": "proved",
   "theorems": [
    "MarineQC.C82_iso",
    "MarineQC.C82_distinct"
   ],
   "note": ""
  },
  {
   "property": "C83",
   "status": "partial",
   "theorems": [
    "MarineQC.C83_eastward_partial",
    "MarineQC.C83_range",
    "MarineQC.C83_westward_violation"
   ],
   "note": "proved for eastward courses; westward across the date line the longitude falls below -180 (C83_westward_violation)"
  },
  {
   "property": "C84",
   "status": "proved",
   "theorems": [
    "MarineQC.C84_course",
    "MarineQC.C84_round_trip",
    "MarineQC.C84_range",
    "MarineQC.C84_pole"
   ],
   "note": "away from the poles; at a pole the code fixes the course (C84_pole)"
  },
  {
   "property": "C85",
   "status": "partial",
   "theorems": [
    "MarineQC.C85_mixed_partial",
    "MarineQC.C85_dry_violation",
    "MarineQC.C85_water_partial",
    "MarineQC.C85_ice_partial",
    "MarineQC.C85_freezing_violation"
   ],
   "note": "Proved when the wet bulb is above 0 (C85_water_partial), for air not above 0 with dew point at most -0.1 (C85_ice_partial), and for dew points from -10 to -0.1 in air above 0 whose wet bulb is not (C85_mixed_partial). False at 0 degrees (C85_freezing_violation) and for very dry air above 0 with low dew points (C85_dry_violation: -40 becomes less than -43)"
  },
  {
   "property": "C86",
   "status": "partial",
   "theorems": [
    "MarineQC.C86_variables",
    "MarineQC.C86_empty_violation",
    "MarineQC.C86_no_uid",
    "MarineQC.C86_flags"
   ],
   "note": "Proved for every non-empty list of names; for an empty list of variables the header is an empty line while rows have three fields (C86_empty_violation)."
  },
  {
   "property": "C87",
   "status": "proved",
   "theorems": [
    "MarineQC.C87_deck",
    "MarineQC.C87_min",
    "MarineQC.C87_empty"
   ],
   "note": "Reports must have a UID without special characters and no quotation mark in the identifier; the output directory exists. The order in which the blocks are written is arbitrary. For an empty deck an empty variables file is left and IndexError raised (C87_empty)."
  },
  {
   "property": "C88",
   "status": "partial",
   "theorems": [
    "MarineQC.C88_deck_names",
    "MarineQC.C88_voyage_names",
    "MarineQC.C88_voyage_violation",
    "MarineQC.C88_run_violation"
   ],
   "note": "Proved for decks, and for voyages with equal run names and safe identifiers; voyage files collide when safe_filename maps identifiers to the same text (C88_voyage_violation) or run names contain underscores (C88_run_violation)."
  },
  {
   "property": "C89",
   "status": "partial",
   "theorems": [
    "MarineQC.C89_voyage_partial",
    "MarineQC.C89_slash_violation"
   ],
   "note": "Proved for identifiers without a slash; with a slash writing stops after the variables file (C89_slash_violation) because write_qc uses the raw identifier."
  },
  {
   "property": "C90",
   "status": "proved",
   "theorems": [
    "MarineQC.C90_tracking"
   ],
   "note": "Reports must have a UID without special characters; numbers are written by an arbitrary function giving text that is not empty, has no separators and does not end in white space."
  },
  {
   "property": "C91",
   "status": "partial",
   "theorems": [
    "MarineQC.C91_month_partial",
    "MarineQC.C91_asterisk_violation",
    "MarineQC.C91_short_violation"
   ],
   "note": "str and float are any pair of functions that agree up to rounding (Spec.Numerals). Proved for identifiers without slash and asterisk. With an asterisk the reader does not find the variables file (C91_asterisk_violation); identifiers shorter than nine characters are never found (C91_short_violation)."
  },
  {
   "property": "C92",
   "status": "partial",
   "theorems": [
    "MarineQC.C92_chunk_partial"
   ],
   "note": "As for C91; the exception for a chunk without reports is part of the theorem."
  },
  {
   "property": "C93",
   "status": "proved",
   "theorems": [
    "MarineQC.C93_only_flags"
   ],
   "note": ""
  },
  {
   "property": "C94",
   "status": "proved",
   "theorems": [
    "MarineQC.C94_eligible"
   ],
   "note": "The platform type of all reports is 7, which the program itself sets when it reads them (C91)."
  },
  {
   "property": "C95",
   "status": "proved",
   "theorems": [
    "MarineQC.C95_passes"
   ],
   "note": "Reports have timestamps and one identifier, as when they have been read (C91)."
  },
  {
   "property": "C96",
   "status": "partial",
   "theorems": [
    "MarineQC.C96_completes_partial",
    "MarineQC.C96_unplaced_violation",
    "MarineQC.C96_same_minute_violation"
   ],
   "note": "Proved when all reports, also those excluded from the checks, have a position and time, and no two good reports of the same minute have different times. Otherwise the program can stop: one report without a position prevents all output (C96_unplaced_violation), and two reports of the same minute in the wrong order stop the speed check (C96_same_minute_violation)."
  },
  {
   "property": "C97",
   "status": "proved",
   "theorems": [
    "MarineQC.C97_whole",
    "MarineQC.C97_main",
    "MarineQC.C97_output"
   ],
   "note": "The hypotheses on the reports are those of C96; the directories and the file name must not be taken by something of the other kind."
  },
  {
   "property": "C98",
   "status": "partial",
   "theorems": [
    "MarineQC.C98_handover_partial"
   ],
   "note": "Composition of C92, C96 and C97, with their restrictions on identifiers (C91) and on reports of the same minute (C96)."
  },
  {
   "property": "C99",
   "status": "proved",
   "theorems": [
    "MarineQC.C99_platform_alone"
   ],
   "note": ""
  }
 ]
}