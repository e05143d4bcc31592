{
"C01": [
"proved",
"Years 1..9999 as accepted by datetime."
],
"C02": [
"proved",
"The finite day and pentad tables are checked by the kernel and lifted to all inputs."
],
"C03": [
"proved",
""
],
"C04": [
"proved",
""
],
"C05": [
"proved",
"All integer years."
],
"C06": [
"proved",
"Hours are exact rationals, float rounding is not modelled."
],
"C07": [
"proved",
"Non-termination is stated as: no number of loop rounds suffices."
],
"C08": [
"proved",
""
],
"C09": [
"partial",
"Proved for every integer except 0, where the code returns DJF (C09_season_zero_violation)."
],
"C10": [
"proved",
"Gaps 1..10; C10_gap_eleven_violation shows the code breaks for larger gaps."
],
"C100": [
"proved",
"The distance must be symmetric and zero between equal points, which is proved of sphere_distance in C67."
],
"C101": [
"partial",
"Proved when the reports of each identifier come in time order in the deck. One ship with three reports out of order can stop the program for all ships (C101_unordered_violation)."
],
"C102": [
"proved",
""
],
"C103": [
"proved",
"The base checks limit the anomalies to the maximum the Bayesian check allows, because both read the same parameter."
],
"C104": [
"proved",
"C104_columns leaves out lines with a second core among their attachments."
],
"C105": [
"partial",
"Fails when neighbouring dated records of different months have the same day of the month (C105_stale_violation)."
],
"C106": [
"partial",
"The conditions are sufficient and mostly necessary (C106_needed); the program gives up where it means to skip (C106_violation)."
],
"C107": [
"partial",
"C107_deck: without tracking, in full. C107_output_partial: with tracking, for drifters whose reports have a place and, if an hour is given, a date, and whose identifiers have no slash and make different file names. C107_violation: a drifter report with an hour but no day stops the program after the deck's files, leaving an empty list and no drifter files."
],
"C108": [
"proved",
"C108_months: the run over months as a whole. C108_reports: the reports of one month, whatever background is left in the library."
],
"C109": [
"partial",
"C109_rows: the reports written are the records of the month's file, in order. C109_records: the unique identifiers in each file of the deck. C109_run_partial and C109_stops_partial: all months and the stopping of the run, under the conditions of C107 on drifters and with an output directory in which nothing is in the way."
],
"C11": [
"proved",
"Gaps 1..10, for every counter over a range of consecutive months."
],
"C110": [
"partial",
"C110_flags: in full, for checks that complete. C110_completes_partial: completion under conditions on the files and lines; C101 and C106 show by example that such conditions are needed."
],
"C111": [
"partial",
"C111_run_partial: from conditions on the archive alone to the files of all months. The conditions are sufficient; C101, C106 and C107 show for some of them by example that they are needed."
],
"C112": [
"partial",
"Fields of 73 pentads, single fields, daily fields of one degree and daily fields of a quarter of a degree. get_sst_daily accepts longitudes up to 365 but raises IndexError beyond 180 (C112_daily_violation); get_sst accepts longitudes from -185 to 365 but raises AssertionError beyond -180 and 360 for a single field (C112_single_violation)."
],
"C113": [
"proved",
""
],
"C114": [
"partial",
"Proved for fields of pentads except at latitude -89.5, where the program raises AssertionError (C114_south_violation). Single fields next to the date line lose the neighbours on the other side (C114_dateline_violation)."
],
"C115": [
"partial",
"Missing: identifiers with a slash or an asterisk or of fewer than nine characters (C91), an identifier whose file name is that of another drifter, and the conditions of C107 on drifters."
],
"C116": [
"partial",
"Missing: as for C115 and C96."
],
"C117": [
"proved",
"For completed checks; completion is C106 and C111."
],
"C118": [
"partial",
"Missing: as for C111 and C116."
],
"C119": [
"partial",
"Missing: identifiers with a comma or a line break, which are cut (C119_comma_violation), and the conditions of C107 and C109."
],
"C12": [
"proved",
"Including the converse: edge-case chunks are not stable."
],
"C120": [
"partial",
"Missing: identifiers with a blank inside, which argparse rejects (C120_blank_violation), or with characters special to the shell or beginning with a hyphen."
],
"C121": [
"partial",
"Missing: identifiers with a slash; and that each script file holds its own script when two identifiers differ in blanks only, in which case one overwrites the other (C121_name_violation)."
],
"C122": [
"partial",
"Missing: as for C118 and C119-C121 (identifiers that are not plain words of at most nine characters padded with blanks). Jobs at the same time are C124."
],
"C123": [
"proved",
"For every script, settings and file system. A file is read in one step, a text is written one character at a time."
],
"C124": [
"partial",
"Missing: what is missing in C122. A file is read in one step (no job changes the files that are read), a text is written one character at a time."
],
"C125": [
"proved",
"For every environment, list of months and file system, whether the run completes or stops with an exception."
],
"C126": [
"proved",
"Spec.Killed: any number of operations done, and of each file the run has opened any beginning. That a restarted run takes the same data from its inputs is part of the model: the inputs are not on the file system that is written."
],
"C127": [
"partial",
"Proved where the files of the drifter did not exist before the run, under the conditions of C115 (C127_interrupted_partial) and from the archive (C127_archive_partial). C127_again_violation: where a run overwrites the files of an earlier run and is killed, a temperature cut off after its first digit is read without error. Files that were closed are taken to be complete."
],
"C128": [
"proved",
"Shadow.lean: all that the programs compute for these flags they compute from what the two reports have in common."
],
"C129": [
"proved",
"For the two programs as modelled (see DESIGN.md on the run): completion, the directories, the untouched deck files and the equality of all other files are proved from any file system; the only difference allowed is spelled out in LacksAnomalies."
],
"C13": [
"proved",
"Positions are exact rationals."
],
"C130": [
"proved",
"The reports of drifters are assumed to be Storable (C91), as C118 derives from the archive, and the tracking program's directories not to be files of the deck."
],
"C131": [
"partial",
"Proved for every run. Missing: main-program files of a drifter whose identifier is hires or ends in _hires can have the name of a file of this program (C131_names_violation)."
],
"C132": [
"partial",
"Proved for reports and lists; the files of the main program under the exclusion of C131."
],
"C133": [
"partial",
"Under the conditions of C111 (which C101, C106 and C107 show to be needed) and a climatology on a regular grid."
],
"C134": [
"proved",
"C134_alone: the program of the pool is the run. C134_at_once: any interleaving. C134_restart: after killed programs. C134_others: files of others, without any condition. Programs that share a month, and the copies of compressed background files in the scratch directory, are not covered."
],
"C135": [
"partial",
"Proved for everything in a report but the background values. Missing: those, which a record of another platform can change (C135_background_violation), because the program reads a new background only when the day of the month changes."
],
"C136": [
"proved",
"For completed checks; completion is C106 and C111. Background values are excepted in the statement (C135_background_violation)."
],
"C137": [
"proved",
"The numbers must have room in their columns (a hypothesis of the theorems): Python's format does not cut them."
],
"C138": [
"proved",
"The geometry is a parameter; that course, distance and dead reckoning fit together is C84."
],
"C139": [
"proved",
"Python's float of a text is a parameter, with the hypothesis that it reads right-aligned integers and refuses blanks."
],
"C14": [
"proved",
"Every longitude from -540 eastwards; C14_west_of_range_violation shows what happens further west."
],
"C140": [
"partial",
"The two differ for longitudes from 360 to 720 (C140_longitude_violation), hour 24 (C140_hour_violation) and missing hours, where base_qc_report raises (C140_missing_hour_violation). The flag for air temperatures to leave out is under another name and goes to 1893 instead of 1892 (C140_flags)."
],
"C141": [
"proved",
"float and dateutil are arbitrary functions; the text nan as latitude or longitude counts as not readable. Near-real-time reports of 2025 and later are all flagged for their date."
],
"C142": [
"proved",
"float is an arbitrary function."
],
"C143": [
"proved",
"C143_stale and C143_stale_violation: the stored speed, course, distance and time difference become stale."
],
"C144": [
"partial",
"Missing: what is missing in C122. Months that are being tracked are not checked again at the same time: a job that then finds a file emptied stops with an error and writes nothing (C145_emptied)."
],
"C145": [
"proved",
"C145_accepted and C145_refused for any files. Rows are counted without empty lines: C145_blank_line shows a month in which the last report has no flags because a file of flags ends with an empty line."
],
"C146": [
"proved",
"All four base checks that can complete (perform_base_dat_qc never does, C34_dat_violation). A check that raises in mid-course is not covered."
],
"C147": [
"proved",
"For checks that complete; a filter that asks for the check's own flag is excluded (a report flagged the first time would be left out the second time)."
],
"C148": [
"proved",
"The five checks that set one flag per report, for voyages of any length; for checks that complete."
],
"C149": [
"proved",
"Independence of flags and of earlier differences, repetition, and both directions of exchanging the order with the five other checks of a voyage."
],
"C15": [
"proved",
"For every resolution with a whole number of cells per hemisphere, not finer than 0.001 degrees."
],
"C150": [
"partial",
"The code violates the full claim: the passes over the unflagged reports overwrite the speeds stored in the shared reports, so a second call can take a flag away (C150_violation, witness of five reports). Proved: a check that flags nothing may be repeated (C150_twice_partial), and the flags found do not depend on flags already set or on alternate differences left before (C150_blind)."
],
"C151": [
"proved",
"Flags are shown to be calculated from reports stripped of all flags, including the iQuam screening that new_speed_check makes on copies. The Voyage methods are covered with sort=False, as tracking_qc.py calls them. As in C52 and C53 the elevation of the sun is an arbitrary function."
],
"C152": [
"proved",
"With oldqc false, the default, as in C93-C98. The result is equal in full: data, flags and stored differences."
],
"C153": [
"proved",
"With oldqc false, the default. The stored differences are left out because Voyage.sort does not renew those of the first report; the checks are shown not to read them."
],
"C154": [
"proved",
"With oldqc true. Completion is for the records of C96; the parameters must be valid."
],
"C155": [
"proved",
"With oldqc true. As C152 and C153: the order theorem leaves the stored differences out."
],
"C156": [
"proved",
"With new tracking checks. C156_only_tracking and C156_inputs hold for every run; C156_rerun under the conditions of C97_main, and C156_after_base gives them for what the base program wrote. Names of runs and identifiers contain no slash."
],
"C157": [
"proved",
"C157_only_tracking and C157_inputs hold for every run; C157_rerun and C157_beside under the conditions of C97_main and C154_main, and C157_after_base gives them for what the base program wrote."
],
"C158": [
"partial",
"The bound holds with 251 and 251 is reached (C158_over_violation), because the look at the queue comes after the submission; with more than 250 jobs at the start one more is submitted (C158_start). The count is never too small (C158_sees_own) and exact if the name is nowhere else in the listing (C158_exact); jobs of users whose names contain the name are counted and can stop the wrapper for ever (C158_others_violation). Nobody else submits jobs as the same user."
],
"C159": [
"partial",
"Proved for clim, nonorm, freez, noval, hardlimit and bud. For spike and nbud the claim is false of every report the program checks (C159_never_violation) and of every row it writes (C159_file_violation). rep and bbud as in the main program."
],
"C16": [
"partial",
"Every latitude except -89.5, where the code returns the same latitude twice (C16_surrounding_points_violation)."
],
"C160": [
"partial",
"Proved for every column but four: SST nbud, AT freez, DPT freez and DPT bbud have no check and hold 9 for every report (C160_never_violation). The Bayesian columns hold a probability and are C102 and C117."
],
"C17": [
"proved",
""
],
"C18": [
"proved",
"Also get_value_ostia. Fields of ny rows and 2 ny columns."
],
"C19": [
"partial",
"Three-dimensional variables on grids finer than two degrees. Coarser grids starting at 0 and four-dimensional variables are mishandled by the code (C19_coarse_violation, C19_four_dim_violation)."
],
"C20": [
"proved",
"All values and limits; the low-bar variant is stated for positive deviations and C20_lowbar_zero_deviation_raises shows what happens at 0."
],
"C21": [
"proved",
""
],
"C22": [
"proved",
"C22_date_month_raises records that months outside -11..12 raise IndexError instead of failing."
],
"C23": [
"proved",
"The deck 732 table is specified region by region, the program has it year by year."
],
"C24": [
"proved",
""
],
"C25": [
"proved",
"For an arbitrary elevation function. C25_track_day_test_hour_24: hour 24 passes track_day_test's own assertion but raises in sunangle."
],
"C26": [
"proved",
"C26_beyond_a_turn_violation shows the restriction to one turn is needed."
],
"C27": [
"proved",
"Exact arithmetic. Lists of Python 2 integers, where the division truncates, are not modelled. The mean of the values kept by trimmed_mean is defined for trim 0 and for trim 3 or more; C27_trimmed_undefined gives the other cases, where numpy returns NaN."
],
"C28": [
"proved",
"Over the reals: rounding of floats and of scipy's erf is not modelled."
],
"C30": [
"partial",
"Acceptance and the flags-as-a-map reading are proved for keys that do not collide; C30_collision_violation shows two distinct (type, name) pairs that share one stored flag."
],
"C31": [
"partial",
"Proved for every sequence of non-raising writes ending in a day, hour or year write; C31_month_violation and C31_raise_violation show the stale timestamp after a month write and after a raising write."
],
"C32": [
"proved",
"All reports with timestamps; C32_missing_raises and C32_missing_time_intransitive describe reports without a timestamp."
],
"C33": [
"proved",
""
],
"C34": [
"partial",
"Every flag equals its check, nothing else changes, completion for all reports with a position, year and month. The clause on the dew-point hard limit is false of the code (C34_hardlimit_violation: always 1) and perform_base_dat_qc never completes (C34_dat_violation)."
],
"C35": [
"proved",
""
],
"C36": [
"proved",
"Codes above 9 raise in the code; the theorem says so."
],
"C37": [
"proved",
""
],
"C38": [
"proved",
"deck index; sort and pop disagreements are proved as violations of the stronger reading (see DESIGN)"
],
"C39": [
"proved",
""
],
"C40": [
"proved",
""
],
"C41": [
"proved",
""
],
"C42": [
"proved",
""
],
"C43": [
"proved",
""
],
"C44": [
"proved",
""
],
"C45": [
"partial",
"Decision, flags, unchanged data and completion proved for voyages in time order; out of time order the check can raise (C45_unordered_violation)."
],
"C46": [
"partial",
"Everything proved except that a single report from deck 720 before 1891 gets two flags (C46_one_flag_violation)."
],
"C47": [
"partial",
"Modal speed and limits characterised exactly; the limit is not monotone in the modal speed across 8.51 knots (C47_limits_violation)."
],
"C49": [
"proved",
"Both aground checks: exact flags on the smoothed track, flagged reports form the end of the record, completion and rejected parameters."
],
"C50": [
"proved",
"Exact flags for a positive minimum period, completion and rejected parameters. A minimum period of zero is accepted by the code but makes every longer record raise (C50_zero_period_violation)."
],
"C51": [
"proved",
"Exact flags with the screen given by the iQuam check on ship copies; for placed reports the screen is characterised by the removal sequence; completion; iQuam flags untouched. A period of zero never completes (C51_zero_period_violation)."
],
"C52": [
"proved",
"Exact arithmetic; the npass assertion is unreachable because the window tests do not depend on direction (floating point summation order could differ between the two directions)."
],
"C53": [
"proved",
"Exact arithmetic."
],
"C54": [
"proved",
"Sums and means over any list of observations; adding succeeds exactly for places on the globe and dates of a leap year; order does not matter. Exact arithmetic."
],
"C55": [
"proved",
"Limits of a cell with any tables, and completion with usable tables; the multiplier characterised for all tables."
],
"C56": [
"proved",
"Flags of both checks tied to the specifications of C54 and C55, and completion. The error function is the integral; square roots are real."
],
"C60": [
"proved",
""
],
"C61": [
"partial",
"Proved for every fixed-width layout and every value the fields can hold, except negative numbers: every negative value is written one unit too high (C61_negative_violation). Text in NU and base-36 values outside 0-35 are not restored either (violations)."
],
"C62": [
"partial",
"Proved for the core followed by any list of attachments 1-7, 9, 95, 96, 98 whose last attachment has a value. A last attachment without values is lost; attachments 8 and 99 are misread (violations); 97 cannot be read (C78)."
],
"C63": [
"partial",
"Choice of the file proved for all stub lists and file systems. Violated: for a compressed file without a scratch copy the returned file is empty, because the command line appends '.bz2' a second time (C63_bunzip_violation)."
],
"C64": [
"proved",
"Stubs are taken apart into fixed text and placeholders; bad-ID files as lists of lines."
],
"C65": [
"proved",
"C65_collision shows that different names can become equal."
],
"C66": [
"partial",
"Inverses, Buck's formulas, wet bulb, saturation and rounding proved. rh below 100 exactly if the dew point is below the temperature: proved for the same phase (C66_unsaturated_partial) and for every dew point at least 0.1 degrees from 0 (C66_humidity_partial); false nearer to freezing (C66_supersaturation_violation). Three routines raise TypeError for missing inputs (C66_missing_violation)"
],
"C67": [
"proved",
"great-circle distance over real arithmetic: symmetric, zero only for the same place, triangle inequality, range, turns"
],
"C68": [
"proved",
"the point reached is the one reached by travelling along the great circle; started exactly at a pole the course is ignored (C68_pole)"
],
"C70": [
"partial",
"all, standard, new and the identifier dictionary are exact. noend also submits chunks that are near both ends (C70_noend_violation); its exact behaviour is C70_mode_noend_partial."
],
"C71": [
"partial",
"Every latitude except -89.5, where the call raises (C71_interpolated_violation)."
],
"C72": [
"proved",
"Exact real arithmetic. At the nadir and on the equator a division by zero occurs (C72_equator_raises)."
],
"C73": [
"partial",
"Holds for 1980-2099. Before 1980 the clock stands still or jumps at year ends (C73_sun_clock_violation)."
],
"C74": [
"proved",
""
],
"C75": [
"proved",
""
],
"C76": [
"partial",
"Proved for rows further from the poles than the radius and radii that do not reach round the globe; proved to fail at the poles (C76_pole_violation, C76_double_count_violation)."
],
"C77": [
"proved",
"Equality of both computations for every cell."
],
"C78": [
"proved",
""
],
"C79": [
"proved",
""
],
"C80": [
"proved",
""
],
"C81": [
"proved",
"C81_missing_base: without the base directory nothing is made although a name is returned."
],
"C82": [
"proved",
""
],
"C83": [
"partial",
"proved for eastward courses; westward across the date line the longitude falls below -180 (C83_westward_violation)"
],
"C84": [
"proved",
"away from the poles; at a pole the code fixes the course (C84_pole)"
],
"C85": [
"partial",
"Proved when the wet bulb is above 0 (C85_water_partial), for air not above 0 with dew point at most -0.1 (C85_ice_partial), and for dew points from -10 to -0.1 in air above 0 whose wet bulb is not (C85_mixed_partial). False at 0 degrees (C85_freezing_violation) and for very dry air above 0 with low dew points (C85_dry_violation: -40 becomes less than -43)"
],
"C86": [
"partial",
"Proved for every non-empty list of names; for an empty list of variables the header is an empty line while rows have three fields (C86_empty_violation)."
],
"C87": [
"proved",
"Reports must have a UID without special characters and no quotation mark in the identifier; the output directory exists. The order in which the blocks are written is arbitrary. For an empty deck an empty variables file is left and IndexError raised (C87_empty)."
],
"C88": [
"partial",
"Proved for decks, and for voyages with equal run names and safe identifiers; voyage files collide when safe_filename maps identifiers to the same text (C88_voyage_violation) or run names contain underscores (C88_run_violation)."
],
"C89": [
"partial",
"Proved for identifiers without a slash; with a slash writing stops after the variables file (C89_slash_violation) because write_qc uses the raw identifier."
],
"C90": [
"proved",
"Reports must have a UID without special characters; numbers are written by an arbitrary function giving text that is not empty, has no separators and does not end in white space."
],
"C91": [
"partial",
"str and float are any pair of functions that agree up to rounding (Spec.Numerals). Proved for identifiers without slash and asterisk. With an asterisk the reader does not find the variables file (C91_asterisk_violation); identifiers shorter than nine characters are never found (C91_short_violation)."
],
"C92": [
"partial",
"As for C91; the exception for a chunk without reports is part of the theorem."
],
"C93": [
"proved",
""
],
"C94": [
"proved",
"The platform type of all reports is 7, which the program itself sets when it reads them (C91)."
],
"C95": [
"proved",
"Reports have timestamps and one identifier, as when they have been read (C91)."
],
"C96": [
"partial",
"Proved when all reports, also those excluded from the checks, have a position and time, and no two good reports of the same minute have different times. Otherwise the program can stop: one report without a position prevents all output (C96_unplaced_violation), and two reports of the same minute in the wrong order stop the speed check (C96_same_minute_violation)."
],
"C97": [
"proved",
"The hypotheses on the reports are those of C96; the directories and the file name must not be taken by something of the other kind."
],
"C98": [
"partial",
"Composition of C92, C96 and C97, with their restrictions on identifiers (C91) and on reports of the same minute (C96)."
],
"C99": [
"proved",
""
]
}