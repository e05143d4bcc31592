{"id": "C01", "title": "yesterday() is the exact calendar predecessor", "statement": "qc.yesterday(y,m,d) returns the date of the day before: for every existing date other than 1 Jan of year 1 the returned triple is an existing date whose next day is the input, and for every triple that is not an existing date of years 1..9999 it returns (None, None, None).", "quantifier": "all integer triples (year, month, day)", "why_tests_cant": "tests sample a few month ends; the leap-year rule has a 400-year cycle and the rejection half ranges over all integers", "anchors": ["qc.py:yesterday"]}
{"id": "C02", "title": "Pentads tile the year", "statement": "qc.which_pentad returns a number in 1..73 for every existing month/day; the pentad of a day is the five-day block its 365-day day number falls in; pentad_to_month_day returns the first day of that block and which_pentad(pentad_to_month_day(p)) = p; every pentad holds exactly five days of a non-leap year and 29 Feb shares the pentad of 1 March.", "quantifier": "all months, days and pentad numbers, including the rejected ones", "why_tests_cant": "three hand typed 73-entry tables must agree with an arithmetic rule on every entry and every day between entries", "anchors": ["qc.py:which_pentad", "qc.py:pentad_to_month_day", "qc.py:day_in_year"]}
{"id": "C03", "title": "day_in_year numbers the 365-day year", "statement": "qc.day_in_year(m,d) is defined exactly for the days of a leap year; on the non-leap calendar it counts 1,2,...,365 in order without gaps or repeats, and 29 Feb gets the number of 1 March.", "quantifier": "all integer (month, day)", "why_tests_cant": "bijectivity is a statement about all pairs of days", "anchors": ["qc.py:day_in_year"]}
{"id": "C04", "title": "dayinyear counts the days of a given year", "statement": "qc.dayinyear(y,m,d) is defined exactly on existing dates, equals 1 on 1 January, increases by one from each day to the next inside a year, and reaches 365 or 366 according to the Gregorian leap rule.", "quantifier": "all integer years, months and days", "why_tests_cant": "ranges over every year of a 400-year cycle and beyond, negative years included", "anchors": ["qc.py:dayinyear", "qc.py:get_month_lengths"]}
{"id": "C05", "title": "Julian day numbers advance by exactly one per day", "statement": "For every existing date, qc.jul_day of the following calendar day is jul_day of the date plus one; hence jul_day is strictly increasing in chronological order and two dates have equal numbers only if they are the same date.", "quantifier": "all dates of all integer years", "why_tests_cant": "the formula mixes floor divisions by 4, 100, 400, 5 and 12; month, year and century boundaries interact over a 400-year cycle", "anchors": ["qc.py:jul_day"]}
{"id": "C06", "title": "Time differences are exact, signed and additive", "statement": "qc.time_difference returns None when an hour is missing; otherwise for existing dates with hours in [0,24) it equals 24 times the number of days between the dates plus the hour difference, so it is antisymmetric, additive along any chain of times, and is positive, zero or negative exactly when the second time is after, equal to or before the first.", "quantifier": "all pairs (and triples) of dates and times", "why_tests_cant": "the recursive swap for reversed arguments and the calendar arithmetic must agree for every ordering of year, month, day and hour", "anchors": ["qc.py:time_difference", "qc.py:jul_day"]}
{"id": "C07", "title": "year_month_gen enumerates every month once", "statement": "qc.year_month_gen(y1,m1,y2,m2) with months in 1..12 and start not after end yields the months from start to end in order, each exactly once, 12(y2-y1)+m2-m1+1 of them. It rejects y2<y1 or m1 outside 1..12. When the end month precedes the start month of the same year, or the end month is not in 1..12, it never stops.", "quantifier": "all integer year/month pairs", "why_tests_cant": "length is unbounded and the failure mode is non-termination, which no finite test observes", "anchors": ["qc.py:year_month_gen"]}
{"id": "C08", "title": "Month stepping is invertible and gives the three month window", "statement": "For months 1..12 last_month_was and next_month_is are mutually inverse, and the months read by the main program for a target month, year_month_gen(last month, next month), are exactly the previous, the target and the next month. month_match is 1 exactly for the same month of the same year.", "quantifier": "all years and months", "why_tests_cant": "year wrap in both directions, composed with the generator", "anchors": ["qc.py:last_month_was", "qc.py:next_month_is", "qc.py:month_match", "marine_qc.py:main"]}
{"id": "C09", "title": "season() maps months to seasons and rejects other numbers", "statement": "qc.season(m) is DJF for 12,1,2, MAM for 3-5, JJA for 6-8, SON for 9-11 and None for every integer that is not a month.", "quantifier": "all integers", "why_tests_cant": "rejection ranges over all integers; the unchanged code gets month 0 wrong", "anchors": ["qc.py:season"]}
{"id": "C10", "title": "Chunks of months are exactly the gap-separated groups of data", "statement": "YMCounter.get_chunks(gap), 1<=gap<=10, returns equally many starts and ends; each chunk starts and ends in a month with data, every month with data lies in exactly one chunk, consecutive chunks are separated by at least gap empty months, and inside a chunk there is never a run of gap empty months.", "quantifier": "all month series (any length, any 0/1 content) and all gaps 1..10", "why_tests_cant": "the property quantifies over all binary sequences; the loop carries three interacting counters", "anchors": ["YMCounter.py:YMCounter.get_chunks"]}
{"id": "C100", "title": "What the flags of the checks of ships mean", "statement": "After the checks of ships, a report that did not pass the filter (date, time, position, blacklist) is unchanged; all reports of one identifier that passed it have 0 or 1 in each of the flags trk, few, iquam_track, SST spike, DPT repsat and round, and rep of SST, AT, AT2, DPT and SLP, each saying what it documents about the reports of that identifier that passed, in the order of the deck, unaffected by the checks run before it; nothing else of the reports has changed except the differences to neighbouring reports.", "quantifier": "all decks of reports, any filter, positive tolerances and symmetric distances", "why_tests_cant": "six checks in sequence over shared objects, any mixture of platforms and flags; a later check could overwrite or depend on an earlier one", "anchors": ["marine_qc.py:main", "Extended_IMMA.py:Voyage.track_check", "Extended_IMMA.py:Voyage.iquam_track_check", "Extended_IMMA.py:Voyage.spike_check", "Extended_IMMA.py:Voyage.find_saturated_runs", "Extended_IMMA.py:Voyage.find_multiple_rounded_values", "Extended_IMMA.py:Voyage.find_repeated_values"]}
{"id": "C101", "title": "The checks of ships complete", "statement": "The checks of ships complete for every deck whose reports that passed the filter have a position and a time.", "quantifier": "all decks, filters, valid parameters and geometries", "why_tests_cant": "an exception for one platform loses the month for all; it can depend on the order and times of any reports", "anchors": ["marine_qc.py:main", "Extended_IMMA.py:Voyage.track_check", "Extended_IMMA.py:Voyage.midpt"]}
{"id": "C102", "title": "Which reports are compared with their buddies, and what the buddy flags mean", "statement": "After the buddy checks of a month every report is as before but for six flags: SST bbud and bud, AT bbud and bud, DPT bud and SLP bud. A report that did not qualify for a variable before the buddy checks began has flag 0. Otherwise the flag compares its anomaly with the means of the qualifying reports in the cells around. A report qualifies for all variables only with good date, time, position, platform and track; for sea temperature if it is not from deck 780 and has a good value above freezing near its climatology; for air temperature if it is a ship's report at night that is not blacklisted; for dew point if it is not blacklisted; for pressure if it has a good value. No buddy flag influences a later buddy check.", "quantifier": "all decks, fields, parameters and widths of the search", "why_tests_cant": "six checks run one after the other on shared reports, with filters replaced in between; whether one influences another, or a wrong filter is in force, shows only for particular combinations of flags", "anchors": ["marine_qc.py:main", "Extended_IMMA.py:Deck.bayesian_buddy_check", "Extended_IMMA.py:Deck.mds_buddy_check", "Extended_IMMA.py:QC_filter"]}
{"id": "C103", "title": "The buddy checks complete", "statement": "The buddy checks of a month complete for every list of reports that have been through the base checks, if the parameters are valid and the fields can be read.", "quantifier": "all decks of base-checked reports, fields and valid parameters", "why_tests_cant": "each check stops the whole program on a report without a cell or an anomaly, or with an anomaly beyond the limit of the climatology check; that no such report is left depends on all base checks together", "anchors": ["marine_qc.py:main", "Extended_IMMA.py:Deck.bayesian_buddy_check", "Extended_IMMA.py:Deck.mds_buddy_check", "Extended_IMMA.py:MarineReportQC.perform_base_qc"]}
{"id": "C104", "title": "Reading a month: every usable record becomes one report", "statement": "Reading for a month takes the files of the month before, of the month and of the month after, in this order. The deck then holds one report for each line that can be read, is of its file's year and month and has no excluded identifier, in the order of the lines, and no others. Each report holds the identifier and the numbers in the columns of its line (the hour may be set to 0 for deck 701 before 1860), the flags of its own base checks, and a flag that is 1 exactly if it is of the month in hand.", "quantifier": "all file contents, exclusion lists, climatologies and months", "why_tests_cant": "one bad line must not shift, drop or duplicate the others; this is a statement about all files and about three files together", "anchors": ["marine_qc.py:main", "IMMA1.py:IMMA.readstr", "Extended_IMMA.py:MarineReport.__init__", "Extended_IMMA.py:MarineReportQC.perform_base_qc"]}
{"id": "C105", "title": "Background and climatology of a report are those of its own date and place", "statement": "Each report gets the normals of its own place and day from the climatology. With tracking, each report from 1985 on that has a day gets sea-surface temperature, ice and background variance of the day before its own date at its own place, and none if there is no such day; other reports get none.", "quantifier": "all sequences of records over the three files, all fields", "why_tests_cant": "the fields are kept between records as long as the day does not change, so a value depends on the history of records", "anchors": ["marine_qc.py:main", "qc.py:yesterday", "Climatology.py:Climatology.get_value_ostia"]}
{"id": "C106", "title": "When reading a month completes", "statement": "Reading for a month completes if a file is found for each of the three months, the fields and parameters are usable, the identifier can be found in every line, and every record used has a position on the earth and an hour from 0 to below 24 if it has one; lines that are unreadable behind the identifier do no harm. The conditions on files, identifiers, positions and hours are also needed.", "quantifier": "all file contents, fields and parameters", "why_tests_cant": "one record out of millions stops the run; which ones can is a question about all lines", "anchors": ["marine_qc.py:main", "BackgroundField.py:icoads_filename_from_stub", "Extended_IMMA.py:MarineReport.calculate_dt"]}
{"id": "C107", "title": "The files a month leaves behind", "statement": "After a month has been checked, the program makes the directory of the month and writes the deck's files, which hold exactly the reports of that month in order. When drifters are to be tracked, it also writes a list with one line for every drifter that reported in the month (its identifier, a comma and the name used in files), and for every drifter its own files with exactly its own reports of the month. No other file changes, and writing completes.", "quantifier": "every list of reports of a month, every order in which the dictionaries are iterated, every state of the file system with an output directory", "why_tests_cant": "The files depend on which platforms are mixed in the deck, on the order of dictionaries, and on characters in identifiers; a test sees one deck and one directory.", "anchors": ["marine_qc.py:main", "Extended_IMMA.py:Deck.write_output", "Extended_IMMA.py:Deck.get_one_platform_at_a_time", "Extended_IMMA.py:Voyage.write_output", "BackgroundField.py:safe_make_dir"]}
{"id": "C108", "title": "A run over months is the same as separate runs", "statement": "Checking several months in one run leaves the same files as checking them in separate runs, one after the other: no report, background value or flag of a month depends on which months were checked before in the same run, although the program keeps the last background field in its library of climatologies.", "quantifier": "every list of months, split anywhere, every archive, every library of climatologies and every state of the file system", "why_tests_cant": "Whether state left by one month leaks into the next depends on every sequence of months and of days in their files; a test runs one or two sequences.", "anchors": ["marine_qc.py:main", "Extended_IMMA.py:ClimatologyLibrary.add_field", "Extended_IMMA.py:ClimatologyLibrary"]}
{"id": "C109", "title": "What a run leaves behind", "statement": "After a run over different months every month has its files, and these list exactly the records of that month's file, each once and in the order of the file; no month's files are touched by another month and no other file changes. If a month cannot be read or checked the run stops with that exception, the months before it keep their files, and neither that month nor a later one has written anything.", "quantifier": "every list of different months, every archive, every point at which the run stops", "why_tests_cant": "File names of different months and drifters could coincide, and records could be lost or listed twice anywhere between reading and writing; a test sees one archive.", "anchors": ["marine_qc.py:main", "Extended_IMMA.py:Deck.write_output", "Extended_IMMA.py:Voyage.write_output", "BackgroundField.py:get_background_filename"]}
{"id": "C11", "title": "Chunk classification and dates", "statement": "yield_start_and_end_dates reports for each chunk the year and month of its first and last data month; it is a start_edge_case iff fewer than gap months precede it, an end_edge_case iff fewer than gap months follow it, new iff exactly gap months follow it, and regular iff it is neither kind of edge case.", "quantifier": "all counters, all gaps", "why_tests_cant": "boundaries are off-by-one prone and must hold for every series length", "anchors": ["YMCounter.py:YMCounter.yield_start_and_end_dates", "YMCounter.py:YMCounter.index"]}
{"id": "C110", "title": "The flags of a month, from its files to its output", "statement": "In the reports of a month the checks of ships touch only reports whose date, hour and position passed and that are not on the blacklist; each of these is checked with the reports of the same identifier alone, and the flags are those of the track, repeated-value and saturation checks. The buddy checks then compare with the deviations of dew point and pressure of the library. Reading and checking complete for every archive whose files can be found and whose records have identifiers, places and times in order.", "quantifier": "every archive of reports, every library of climatologies, every month", "why_tests_cant": "The flags depend on all reports of three months at once; a test sees one month.", "anchors": ["marine_qc.py:main", "Extended_IMMA.py:Deck.get_one_platform_at_a_time", "Extended_IMMA.py:Deck.mds_buddy_check"]}
{"id": "C111", "title": "A run over an archive in good order completes", "statement": "A run over different months completes, with the files of every month, for every archive in which a file is found for each month and its neighbours, every line has an identifier in place, every record used has a position on the earth and no impossible hour, the records of a platform are in the order of time, the records of the months have unique identifiers, and drifters have dates and identifiers that make different file names, whatever the values of the observations.", "quantifier": "every archive of reports meeting these conditions, every list of different months, every library of climatologies with fields on the grids", "why_tests_cant": "An exception in any of the checks for one record of one month loses the output of that month and of all later ones; no test can try every record.", "anchors": ["marine_qc.py:main"]}
{"id": "C112", "title": "Fields are read in the cell and time step of the place and day", "statement": "get_sst, get_hires_sst and get_sst_daily return the value of the cell that holds the place, at the time step (pentad, day, or the only one) of the day, None where the field is masked or holds the missing value, for every place and day they accept; a missing or impossible latitude, month or day, or a longitude outside the accepted range, raises AssertionError.", "quantifier": "all fields of the shapes the program uses; all latitudes, longitudes, months and days, also missing ones", "why_tests_cant": "A test can try some places and days; that the row, column and time step agree with the place for every real coordinate, including cell boundaries, both longitude conventions and the ends of the year, is a statement over a continuum.", "anchors": ["qc.py:get_sst", "qc.py:get_sst_single_field", "qc.py:get_sst_daily", "qc.py:get_hires_sst"]}
{"id": "C113", "title": "The normal of a report is the value of its cell and day, and looking it up never fails", "statement": "get_clim and get_hires_clim give every report with a place and a day the value of the climatology in the cell and at the time step of the report, None when that value is missing, and None for a report without a latitude, longitude or existing day; they never raise.", "quantifier": "all reports; all climatologies of the shapes the program uses", "why_tests_cant": "Reports come with any combination of missing and odd values, at any place and day; a bare except hides failures, so that a wrong None is not noticed by a test of other cases.", "anchors": ["qc.py:get_clim", "qc.py:get_hires_clim"]}
{"id": "C114", "title": "The interpolated normal lies between values nearby", "statement": "get_clim_interpolated gives a report with a place and a day a value that lies between two values of the climatology not more than a degree away, None exactly when the climatology has no value right next to the place, the value of the cell at the centre of a cell, and None for a report without a place or an existing day; it never raises.", "quantifier": "all reports; all climatologies of the shapes the program uses, with any pattern of missing cells", "why_tests_cant": "The result depends on four neighbours, each of which may be missing or across the date line or a pole; the combinations are too many for tests and the places form a continuum.", "anchors": ["qc.py:get_clim_interpolated", "qc.py:get_four_surrounding_points", "qc.py:bilinear_interp"]}
{"id": "C115", "title": "The tracking program reads back what the main program found", "statement": "After a run of the main program over some months, the tracking program, given a drifter and a list of months, reads exactly the reports of the drifter that the run read and checked in those months, in order, each with its identity, date and flags and with the numbers as written; months without the drifter are passed over, and if there is no report at all it stops with an error.", "quantifier": "all lists of different months, all lists of months asked for, all drifters whose identifier can be in a file name, all decks of checked reports, all file systems in which the directories are free", "why_tests_cant": "two programs that communicate through files, over any number of months and reports, with the content of other drifters and months in the same directories", "anchors": ["marine_qc.py:main", "Extended_IMMA.py:Voyage.write_output", "tracking_qc.py:main"]}
{"id": "C116", "title": "A run of the main program and then the tracking program", "statement": "After a run of the main program over some months the tracking program completes for a drifter that reported in these months at existing places and times and not twice in one minute; each directory asked for holds one table with all its reports in the order of time and with the flags of the drifter checks.", "quantifier": "all lists of different months, drifters, parameters, geometries, elevations of the sun, edge words and file systems in which the paths are free", "why_tests_cant": "a property of two programs in sequence; unbounded months and reports", "anchors": ["marine_qc.py:main", "tracking_qc.py:main", "Extended_IMMA.py:Deck.write_output"]}
{"id": "C117", "title": "Every flag is one digit", "statement": "After all the checks of a month every flag that was set on a report is 0 or 1, or, for the Bayesian buddy checks, a digit from 0 to 9. Hence each flag can be written as one character and read back.", "quantifier": "all months, archives, backgrounds, climatologies, parameters in the range of the ship checks and distances for which the checks complete", "why_tests_cant": "every check on every report of any deck; a flag can be set several times by different checks", "anchors": ["marine_qc.py:main", "Extended_IMMA.py:MarineReport.set_qc", "Extended_IMMA.py:Deck.bayesian_buddy_check"]}
{"id": "C118", "title": "From the archive to the tracks", "statement": "Over months of an archive in good order the main program completes and the tracking program then completes for each drifter with records in these months; it has exactly one report for each record of the drifter, with the identity, date, position and temperature of the record as written, and each directory asked for holds the table of these reports in the order of time.", "quantifier": "all archives, months, drifters and backgrounds in good order; all parameters in range; all file systems in which the paths are free", "why_tests_cant": "end to end, over every archive: reading, checks, output, reading back, drifter checks and the second output", "anchors": ["marine_qc.py:main", "tracking_qc.py:main", "IMMA1.py:IMMA.read"]}
{"id": "C119", "title": "The wrapper sees the drifters the main program saw", "statement": "After a run of the main program over a range of months, the tracking wrapper started on the same range reads the lists of identifiers without error, takes up exactly the identifiers of drifting buoys reported in some month of the range, each once, and knows for each in which months it was reported.", "quantifier": "all runs of the main program over any range of months, all decks and identifiers", "why_tests_cant": "every archive, range of months and identifier; two programs that communicate through text files", "anchors": ["Tracking_QC_wrapper.py:main", "marine_qc.py:main", "YMCounter.py:YMCounter"]}
{"id": "C12", "title": "Regular chunks are stable and each chunk is new exactly once", "statement": "If a chunk is classed regular, then appending any months to the end and prepending any months to the start of the series leaves that chunk present with the same months; and as the series grows month by month a chunk that is followed by empty months is classed new at exactly one series length.", "quantifier": "all series and all extensions of them", "why_tests_cant": "a statement about pairs of runs over arbitrary histories; this is what lets monthly updates be run without repeating work", "anchors": ["YMCounter.py:YMCounter", "Tracking_QC_wrapper.py:main"]}
{"id": "C120", "title": "A job script passes on what the wrapper decided", "statement": "When the shell runs a job script written by the wrapper, exactly one program is started, tracking_qc.py, and the arguments it parses from the command line are the configuration file, identifier, first and last year and month, edge case labels and run-month identifier of the job, in whatever order the wrapper writes the options.", "quantifier": "all jobs, configurations and orders of the options", "why_tests_cant": "text is generated, split by a shell and parsed again: every identifier and every order of a dictionary", "anchors": ["Tracking_QC_wrapper.py:write_submission", "Tracking_QC_wrapper.py:main", "tracking_qc.py:main"]}
{"id": "C121", "title": "The wrapper submits one job per wanted chunk", "statement": "The wrapper submits exactly one job for every chunk (longest run of months in which a drifter is active with gaps shorter than the class gap) that its mode asks for, and no other; it writes only the job scripts and creates only its own directories; and each job script file holds the script of its own job.", "quantifier": "all drifters, activity histories, modes, class gaps and orders of the dictionary of identifiers", "why_tests_cant": "every history of activity of any number of drifters, every order of a dictionary", "anchors": ["Tracking_QC_wrapper.py:main", "Tracking_QC_wrapper.py:write_submission", "YMCounter.py:YMCounter"]}
{"id": "C122", "title": "The whole system tracks every drifter's record once", "statement": "After the main program, the wrapper in mode all, and its job scripts run one after the other in any order, all have completed, every record of a drifting buoy in the archive is in exactly one chunk, and for every chunk the result files hold one line per record of the drifter in its months with the flags of the tracking checks; the files of the months are unchanged.", "quantifier": "all archives of valid records, ranges of months, class gaps and orders in which the jobs run", "why_tests_cant": "three programs in sequence over any number of drifters and months, and any schedule of the jobs", "anchors": ["marine_qc.py:main", "Tracking_QC_wrapper.py:main", "tracking_qc.py:main", "Tracking_QC_wrapper.py:write_submission"]}
{"id": "C123", "title": "The tracking job, operation by operation", "statement": "A submitted tracking job, taken as the sequence of its single operations on the file system (test for a file, read a file, make a directory, open for writing, write a line), ends in the same file system and with the same exception, if any, as the job taken as a whole.", "quantifier": "all job scripts, settings and file systems", "why_tests_cant": "the number of operations depends on the number of months, files, reports and edge cases", "anchors": ["tracking_qc.py:main", "tracking_qc.py:safe_make_tracking_dir", "tracking_qc.py:safe_make_edge_dir", "Extended_IMMA.py:Voyage.write_tracking_output", "Tracking_QC_wrapper.py:main"]}
{"id": "C124", "title": "Tracking jobs may run at the same time, be killed and be started again", "statement": "When the submitted jobs run at the same time in any number of rounds, with any interleaving of their operations on the file system, and jobs are killed at any point and submitted again, then every job that comes to its end does so without error and, unless it is started again, its result files are exactly those of C122 at the end of all rounds; every job given enough turns comes to its end; the files of the months are never changed.", "quantifier": "all archives of valid records, ranges of months, gaps, sets of jobs in each round, interleavings and points at which jobs are killed", "why_tests_cant": "the interleavings and crash points are unbounded in number and depend on timing", "anchors": ["tracking_qc.py:main", "Tracking_QC_wrapper.py:main", "Tracking_QC_wrapper.py:write_submission", "Extended_IMMA.py:Voyage.write_tracking_output", "tracking_qc.py:safe_make_tracking_dir"]}
{"id": "C125", "title": "The main program, operation by operation", "statement": "Doing a run of the main program one operation on the file system at a time (making a directory, opening a file, writing one character) leaves the same file system and raises the same exception, if any, as the run as a whole.", "quantifier": "all environments, lists of months, libraries of climatologies and file systems, whether the run completes or not", "why_tests_cant": "The points at which a run can be interrupted are as many as the characters it writes; that their sequence adds up to the program is needed for every input.", "anchors": ["marine_qc.py:main", "Extended_IMMA.py:Deck.write_output", "Extended_IMMA.py:Deck.write_qc", "Extended_IMMA.py:Voyage.write_output", "Extended_IMMA.py:Voyage.write_qc"]}
{"id": "C126", "title": "An interrupted run can be repeated", "statement": "If a run of the main program completes when it is not interrupted, then after it has been killed at any points, any number of times, even with text it has written not having come to the files, a run that is not interrupted completes, and every file on the disk is as if the program had never been killed.", "quantifier": "all runs, all points between two operations or within the text of a file, any number of interruptions", "why_tests_cant": "Crash points and their combinations are unbounded; tests interrupt at a few of them.", "anchors": ["marine_qc.py:main", "Extended_IMMA.py:Deck.write_output", "Extended_IMMA.py:Voyage.write_output", "BackgroundField.py:safe_make_dir"]}
{"id": "C127", "title": "A month that was being written is never read in part", "statement": "After the main program was killed at any point, the tracking program either reads of a drifter exactly the records that the archive holds of it in the months of the run up to some month, each with the values and flags that a complete run hands on, in order and each month entirely or not at all, or it stops with an error; and it does the latter only if there is no such record or one of the months asked for was being written.", "quantifier": "all archives of valid records, lists of months, drifters, chunks of months and points at which the run is killed, within the text of any file", "why_tests_cant": "A run can be killed after any character it writes; tests cannot try each for every archive.", "anchors": ["marine_qc.py:main", "Extended_IMMA.py:Voyage.write_output", "Extended_IMMA.py:Voyage.write_qc", "tracking_qc.py:main"]}
{"id": "C128", "title": "Preparing the tracking alone gives the same reports as the main program", "statement": "When the main program reads and checks the reports of a month without an exception, so does the program that only prepares tracking. The two then hold the same reports in the same order under the same identifiers, and each report has the same identifier, time, data, background values, climatology of sea-surface temperature and flags of position and of sea-surface temperature.", "quantifier": "all parameter files, input archives, climatologies, background fields, libraries and months", "why_tests_cant": "two programs of several hundred lines, one an edited copy of the other, have to agree on every archive of every size", "anchors": ["marine_qc_track_only.py:main", "marine_qc.py:main"]}
{"id": "C129", "title": "The program that only prepares tracking leaves the same files for the tracking program", "statement": "Whenever a run of the main program over a list of months completes, a run of the program that only prepares tracking, with the same options, archive, climatologies and directory, also completes. It does not touch the files of the whole deck, it makes the same directories, and it leaves every other file (the list of drifters and each drifter's files of flags and variables included) as the main program does, except that the anomalies of air temperature, dew point and pressure are marked as missing in the drifters' files of variables.", "quantifier": "every archive, configuration, climatology library, list of months and initial file system from which the main program's run completes", "why_tests_cant": "The two programs are separate scripts that repeat each other's code; a test compares them on one archive, while the agreement has to hold for every archive and every directory they may find.", "anchors": ["marine_qc_track_only.py:main", "marine_qc.py:main", "Extended_IMMA.py:Voyage.write_output", "Extended_IMMA.py:Voyage.write_qc", "Extended_IMMA.py:safe_make_dir"]}
{"id": "C13", "title": "Latitude indices address the cell containing the point", "statement": "For every latitude in [-90,90], lat_to_yindex returns an index in 0..n-1 whose cell, centred at yindex_to_lat of the index, contains the latitude; borders belong to the southern cell (except -90); yindex_to_lat followed by lat_to_yindex is the identity on indices.", "quantifier": "all real latitudes, resolutions that divide 180", "why_tests_cant": "border cases are dense in the inputs that occur (positions are rounded to grid borders)", "anchors": ["qc.py:lat_to_yindex", "qc.py:yindex_to_lat"]}
{"id": "C130", "title": "The tracking program gives the same after either program", "statement": "Whenever a run of the main program completes and its drifters' reports can be stored (identifiers and dates that survive being written and read), the tracking program can be started from the files of the main program or from those of the program that only prepares tracking: for every sequence of calls of it, each call ends in the same way (completed or with the same exception), the same directories are made, and every file it leaves is the same in both cases.", "quantifier": "every archive, configuration, list of months and initial file system from which the main program completes, every sequence of calls of the tracking program with any identifiers, chunks of months, target months and edge words", "why_tests_cant": "The intermediate files differ between the two programs; that no difference ever reaches the tracks depends on all files, parsing and flags at once, for every sequence of calls.", "anchors": ["marine_qc_track_only.py:main", "marine_qc.py:main", "tracking_qc.py:main", "Extended_IMMA.py:Voyage.write_output"]}
{"id": "C131", "title": "The program for high resolution changes only its own files", "statement": "Whatever the input, and also when it stops with an exception, the program for the climatology of high resolution changes no file but its own files of flags for the months of the run and, with tracking, the lists of drifters of these months; so the files the main program left for the same months and run identifier stay as they are, except for the lists of drifters.", "quantifier": "all inputs, months, run identifiers, climatologies and file systems; completed and failed runs", "why_tests_cant": "all combinations of identifiers, run labels and months that could make two file names the same; every point at which the program can fail", "anchors": ["marine_qc_hires.py:main", "Extended_IMMA.py:Deck.write_qc", "Extended_IMMA.py:Voyage.write_qc"]}
{"id": "C132", "title": "The program for high resolution agrees with the main program where the climatology does not matter", "statement": "After both programs have checked a month they have the same reports in the same order, with the same identity, time, data and those flags that do not depend on the climatology; they leave the same list of drifters, character by character; and a completed run after a completed run of the main program leaves every file of the main program as it was.", "quantifier": "all archives, months, parameters, climatologies and file systems for which the two programs complete", "why_tests_cant": "two programs with different checks over unbounded archives; agreement must hold for every report whatever the other checks and the other climatology say", "anchors": ["marine_qc_hires.py:main", "marine_qc.py:main", "Extended_IMMA.py:MarineReportQC.perform_base_sst_qc"]}
{"id": "C133", "title": "The program for high resolution completes where the main program does", "statement": "On an archive in good order, with sensible parameters and a climatology on a regular grid, a run of the program for high resolution over different months completes, also after a run of the main program; it leaves for each month a table of the flags of sea-surface temperature with one row for each record used, in the order of the archive, and with tracking the list of drifters and a table for each of them.", "quantifier": "all archives in good order, all months, parameters, climatologies on regular grids and output directories in which nothing is in the way", "why_tests_cant": "an exception in any check of any report stops the run; archives are unbounded", "anchors": ["marine_qc_hires.py:main"]}
{"id": "C134", "title": "The months of a run may be checked by programs that run at the same time", "statement": "Divide the months to be checked among several runs of the main program, so that no month is given to two of them, and let them run at the same time: if each of them completes when it runs alone, then in whatever order their operations on the file system come, each of them that comes to its end does so without error and with the output of its months as from one run over all months; when all have come to their end, every file on the disk is as after that one run.  This is also so if, before, programs over any division of these months ran at the same time and were killed at any point, any number of times.  At every moment all files outside the directories of the months are as they were, so that other programs that read other months are not disturbed.", "quantifier": "all archives, climatologies, lists of months divided in any way, all interleavings of the operations, all numbers of rounds and points at which programs are killed", "why_tests_cant": "Tests run one program; a race needs a particular interleaving, and there are exponentially many.", "anchors": ["marine_qc.py: main (loop over months)", "BackgroundField.py: safe_make_dir, safe_make_dir_generic", "Extended_IMMA.py: Deck.write_output, Voyage.write_output"]}
{"id": "C135", "title": "Apart from the buddy checks, a platform's results do not depend on other platforms", "statement": "Take two archives that hold the same records of one platform for the month processed, the month before and the month after, and are otherwise arbitrary: other platforms may be added, removed or changed, and lines interleaved differently. If the base QC of the month completes for both, then the platform gets the same reports in the same order, with the same values, normals and flags; only the flags of the buddy checks, which compare a platform with its neighbours, may differ. For a drifter the table of position flags written to its own file is the same row for row.", "quantifier": "every two archives that agree on one platform, every platform identifier, month and parameter setting, every climatology library", "why_tests_cant": "the claim compares two whole runs over arbitrary archives; a stale loop variable, a cached field, a deck-wide filter or an index slip would leak one platform's data into another only for particular interleavings that a unit test of one record or one voyage never sets up", "anchors": ["marine_qc.py:main", "Extended_IMMA.py:Deck.get_one_platform_at_a_time", "Extended_IMMA.py:Voyage", "Extended_IMMA.py:MarineReport"]}
{"id": "C136", "title": "Only platforms nearby can change a platform's flags", "statement": "Take two archives that hold the same records of one platform, and of every platform that in either archive has a report in a cell of one degree and five days that a buddy search from one of the platform's reports looks at. Everything else may differ. If the base QC of the month completes for both, the platform gets the same reports in the same order with the same values and normals and exactly the same flags, the flags of the buddy checks included. (Background values are excepted, see C135.)", "quantifier": "every two archives, every platform identifier, month, climatology library, parameter setting with any number of search radii, and any interleaving of the lines of different platforms", "why_tests_cant": "the claim compares two whole runs over arbitrary archives; an accumulator that is not reset, a wrong wrap-around of an index or a dependence on the order of the lines shows only for particular pairs of archives", "anchors": ["marine_qc.py:main", "Extended_IMMA.py:Np_Super_Ob", "Extended_IMMA.py:Deck.mds_buddy_check", "Extended_IMMA.py:Deck.bayesian_buddy_check"]}
{"id": "C137", "title": "A fixed-width line can be read by column", "statement": "print_report and print_longform_report give a line of a fixed length (168 and 273 characters) in which every value is found at fixed columns: names cut or filled to their width, each number read from its columns is the value to the nearest unit (-32768, for course and speed 9999, when it is missing), each flag is at its own place. A report is printed exactly when it has a place, a year, a month and a deck.", "quantifier": "every report whose numbers have at most seven digits in their units and whose flags are single digits", "why_tests_cant": "Columns depend on the widths of all the values before them, for every combination of present, missing and negative values.", "anchors": ["Extended_IMMA.py:MarineReport.print_report", "Extended_IMMA.py:MarineReport.print_longform_report", "Extended_IMMA.py:pvar"]}
{"id": "C138", "title": "The predicted next place continues the last leg", "statement": "predict_next_point(t) gives the place reached from the last but one report on the course to the last one at the speed between them, t hours after the last report; the last place when no time went by between the two or it is not known how much, or there is one report only. For t = 0 it is the place of the last report wherever course, distance and dead reckoning fit together. Without reports, or for a negative time, it raises AssertionError.", "quantifier": "every history of reports added to a voyage, every time t, every geometry", "why_tests_cant": "A voyage keeps differences in its reports; the prediction must use the ones of the right pair after any history.", "anchors": ["Extended_IMMA.py:Voyage.predict_next_point", "Extended_IMMA.py:Voyage.add_report"]}
{"id": "C139", "title": "A record of fixed columns is read back exactly", "statement": "A line written with each number at the right of its columns and blanks for what is missing is read back exactly by the simple record reader, in the right units, with or without line ends after it. A field depends on its own columns only, so that a malformed field spoils no other.", "quantifier": "every record whose values fit their columns; every pair of lines", "why_tests_cant": "Slices of one line are independent only if all 16 column ranges are right, for every content.", "anchors": ["SimpleIMMA.py:IMMA.readstr", "SimpleIMMA.py:trint", "SimpleIMMA.py:trfloat"]}
{"id": "C14", "title": "Longitude indices are periodic and address the right cell", "statement": "For every longitude in [-540,540), lon_to_xindex returns an index in 0..359 whose cell contains the longitude modulo 360; borders go east; longitudes differing by 360 inside the range give the same index; xindex_to_lon then lon_to_xindex is the identity.", "quantifier": "all real longitudes in range", "why_tests_cant": "two wrap adjustments and a while loop interact at the date line", "anchors": ["qc.py:lon_to_xindex", "qc.py:xindex_to_lon"]}
{"id": "C140", "title": "Both forms of the base checks give the same flags", "statement": "A report checked with qc.base_qc_report and one checked with perform_base_qc with the same limits have the same flags for platform, position, date, day or night, blacklist, sea surface temperature and air temperature; base_qc_report changes nothing but the flags that it names.", "quantifier": "every report for which both complete", "why_tests_cant": "Two implementations of the same checks can be compared on samples only; they agree except on sets of inputs that random samples do not hit.", "anchors": ["qc.py:base_qc_report", "Extended_IMMA.py:MarineReportQC.perform_base_qc"]}
{"id": "C141", "title": "Near-real-time lines are read as they stand and checked as they stand", "statement": "NRT.readstr makes a record of a line exactly if the line has six texts between commas, with a readable date, latitude and longitude and a temperature that is readable or nan; otherwise it raises ValueError, and an empty text gives nothing. The record has the identifier, minute, place and temperature of the line; only latitudes above 200 and longitudes above 400 are replaced. Unique identifiers differ whenever identifier or date text differ, if dates are written with the same number of characters. The base checks complete for the report made of the record; the position flag is that of the position on the line, the date is flagged exactly outside 1850-2024, the time never, and the missing temperature exactly for nan.", "quantifier": "every text, every reading of numbers and dates, every line, every setting of the checks", "why_tests_cant": "texts and numbers are unbounded; that a replacement never changes a flag is about all positions", "anchors": ["NRT.py:readstr", "Extended_IMMA.py:MarineReport.__init__", "Extended_IMMA.py:perform_base_qc"]}
{"id": "C142", "title": "Test records are read column by column", "statement": "TestIMMA.IMMA.readstr makes a record of a list of texts exactly if columns 1 to 8 and 12 are there and, from the third on, readable as numbers; the values are those of the columns, year, month and day cut off to whole numbers; -32768 means a missing value for the hour and the temperature and for nothing else.", "quantifier": "every list of texts and every reading of numbers", "why_tests_cant": "the lists and the numbers are unbounded", "anchors": ["TestIMMA.py:readstr"]}
{"id": "C143", "title": "The accessors of a voyage act on the one report an index means", "statement": "Voyage.getrep, getvar and get_qc give what the report meant by the index gives, where negative indices count from the end; setvar and set_qc do to that report what they do to a report by itself and leave all others alone; what was set is read back with every index that means the report; an index that means no report raises IndexError and changes nothing; last_rep gives the last report. Setting a position or time through the voyage does not change what is stored about speed, course, distance and time difference.", "quantifier": "every voyage, index, variable, flag and value", "why_tests_cant": "voyages and indices are unbounded, and the claim is about all other reports as well", "anchors": ["Extended_IMMA.py:Voyage.getrep", "Extended_IMMA.py:Voyage.setvar", "Extended_IMMA.py:Voyage.getvar", "Extended_IMMA.py:Voyage.set_qc", "Extended_IMMA.py:Voyage.get_qc", "Extended_IMMA.py:Voyage.last_rep"]}
{"id": "C144", "title": "The main program may check further months while the tracking of earlier ones runs", "statement": "After the main program and the wrapper of the tracking have completed for a range of months, let the tracking jobs run and, at the same time, runs of the main program over other months, divided among them in any way: in whatever order the operations of all these programs on the file system come, a tracking job that comes to its end does so without error and leaves exactly the results it would leave alone; a run of the main program that comes to its end does so without error and leaves in the directories of its months exactly the files it would have left if it had been run alone before the tracking; all come to their end if they have enough turns; the files of the months that are tracked are not changed.  This is also so if, before, the same was tried any number of times and everything was killed at any point.", "quantifier": "all archives and settings as in C122, all other months, all divisions of jobs and months among rounds and programs, all interleavings and kill points", "why_tests_cant": "the operations of a dozen programs interleave in more ways than any test can run; what matters is that no program ever reads or removes what another one writes", "anchors": ["marine_qc.py", "tracking_qc.py", "Tracking_QC_wrapper.py:main", "Extended_IMMA.py:Voyage.write_tracking_output"]}
{"id": "C145", "title": "The tracking program accepts a month only if its files fit together", "statement": "Whatever is in the files of a drifter and a month, the tracking program takes the month's reports only if the files of variables, position flags and temperature flags are all there, are not empty and have the same number of lines; the reports are then the rows of the file of variables in order, every row of flags has the unique identifier of the report in the same place, and that report has exactly the flags of the row. If one of the files is there but they do not fit together, the program stops with an error and writes nothing, and it does so in particular if a file has been emptied by a run of the main program that opened it again.", "quantifier": "all contents of the three files, months, run names, identifiers, parameters and file systems", "why_tests_cant": "a flag attached to the wrong report shows only for particular contents of the files; tests use files that fit", "anchors": ["tracking_qc.py:main"]}
{"id": "C146", "title": "Repeating the base checks of a report is harmless", "statement": "What a base check of a report does (all variables, SST only, SLP only, or wind only) does not depend on the quality flags the report carried before. If a report is checked without an error, then any report with the same variables is, with the same outcome for every flag the check sets, and all other flags left alone. In particular a checked report can be checked again at any later time, whatever flags were set, changed or removed in between: each flag of the check comes back to the value of the first time, flags of other checks survive. Checking twice in a row is the same as checking once.", "quantifier": "every report, every set of flags it carries, every set of parameters, every way of calculating the sun's elevation, each of the four base checks that can complete", "why_tests_cant": "The flags present before a check, and the history of other checks in between, range over an unbounded set; a test repeats a check on a few reports with few flags.", "anchors": ["Extended_IMMA.py:MarineReportQC.perform_base_qc", "Extended_IMMA.py:MarineReportQC.perform_base_sst_qc", "Extended_IMMA.py:MarineReportQC.perform_base_slp_qc", "Extended_IMMA.py:MarineReportQC.perform_base_wind_qc", "Extended_IMMA.py:MarineReportQC.do_day_check"]}
{"id": "C147", "title": "Buddy checks may be repeated and run in any order", "statement": "The outcome of a buddy check of a deck (MDS or Bayesian, any variable, any parameters) does not depend on flags the deck's filter does not ask for, in particular not on the outcomes of earlier buddy checks: of two decks alike but for such flags, if one is checked without an error so is the other, every report gets the same value of the flag the check sets and keeps everything else. So repeating a buddy check changes nothing, and two buddy checks that set different flags give the same deck in either order, if the filter asks for neither flag.", "quantifier": "every deck, filter, variable, fields of deviations, parameters, width of rows, error function, and every assignment of the flags that are not asked for", "why_tests_cant": "The flags a deck carries and the order of checks are unbounded; a test runs each check once, on decks without flags.", "anchors": ["Extended_IMMA.py:Deck.mds_buddy_check", "Extended_IMMA.py:Deck.bayesian_buddy_check", "Extended_IMMA.py:QC_filter.test_report"]}
{"id": "C148", "title": "The checks of a voyage may be repeated and run in any order", "statement": "The checks of a voyage for saturated runs, multiple rounded values, repeated values, speeds between neighbours (iQuam) and spikes look at no quality flags: of two voyages with the same reports but for flags, if one is checked without an error so is the other, every report gets the same value of the flag the check sets and keeps everything else. So repeating such a check, at once or after any other checks, changes nothing, and two of them that set different flags give the same in either order.", "quantifier": "every voyage, every assignment of flags to its reports, all parameters and variables, every distance and course function, every rounding of numbers when printed", "why_tests_cant": "The flags a voyage carries and the order of checks are unbounded; a test runs each check once, on reports without flags.", "anchors": ["Extended_IMMA.py:Voyage.find_saturated_runs", "Extended_IMMA.py:Voyage.find_multiple_rounded_values", "Extended_IMMA.py:Voyage.find_repeated_values", "Extended_IMMA.py:Voyage.iquam_track_check", "Extended_IMMA.py:Voyage.spike_check"]}
{"id": "C149", "title": "The track check may be repeated and moved among the other checks of a voyage", "statement": "Voyage.track_check does not depend on flags already set nor on what an earlier track check left in the reports; repeating it changes nothing; and making one of the other checks of the voyage (saturated runs, rounded values, repeated values, iQuam track, spikes) before it or after it gives the same reports and flags.", "quantifier": "all voyages, parameters and geometries for which the calls complete; the other checks not asked to look at the alternate differences as a variable", "why_tests_cant": "independence of the history of a voyage and of the order of checks concerns all voyages and all earlier states", "anchors": ["Extended_IMMA.py:Voyage.track_check", "Extended_IMMA.py:Voyage.calc_alternate_speeds", "Extended_IMMA.py:Voyage.find_saturated_runs", "Extended_IMMA.py:Voyage.iquam_track_check", "Extended_IMMA.py:Voyage.spike_check"]}
{"id": "C15", "title": "MDS-style indices stay in the grid and follow the border rule", "statement": "mds_lat_to_yindex for latitudes in [-90,90] and mds_lon_to_xindex for longitudes in [-180,180] return indices of the 1 degree grid whose closed cell contains the point; northern/eastern borders are pushed away from the equator/Greenwich, southern/western likewise, and the poles and date line are pulled inwards.", "quantifier": "all real positions", "why_tests_cant": "truncation towards zero changes meaning with sign; the border rule must hold at every border", "anchors": ["qc.py:mds_lat_to_yindex", "qc.py:mds_lon_to_xindex"]}
{"id": "C150", "title": "The full track check may be repeated", "statement": "Calling mds_full_track_check once more on a voyage that it has already checked changes no flag.", "quantifier": "all voyages for which the first call completes", "why_tests_cant": "the state left in the reports by the repeated passes differs between voyages without bound", "anchors": ["track_check.py:mds_full_track_check", "track_check.py:mds_track_check", "Extended_IMMA.py:Voyage.add_report"]}
{"id": "C151", "title": "The checks of a drifter may be repeated and run in any order", "statement": "The checks of a drifter's record (both aground checks, both speed checks, the tail check and the bias and noise check) do not depend on flags already set: on records that differ in flags only they complete or fail alike, set the same values, and leave all other flags and all data as they are. Repeating one changes nothing, also through the Voyage methods that apply them to drifters only. Two of them that set different flags, or one of them and one of the voyage checks of C148, give the same reports in either order.", "quantifier": "all records, parameters, geometries and solar elevations; all flags the reports may carry", "why_tests_cant": "independence of the history of flags and of the order of checks concerns all records and all earlier states", "anchors": ["trackqc.py:aground_check", "trackqc.py:new_aground_check", "trackqc.py:speed_check", "trackqc.py:new_speed_check", "trackqc.py:sst_tail_check", "trackqc.py:sst_biased_noisy_check", "Extended_IMMA.py:Voyage.buoy_aground_check", "Extended_IMMA.py:Voyage.buoy_tail_check"]}
{"id": "C152", "title": "The checks of the tracking program may be repeated", "statement": "Running the aground, speed, tail and bias checks of tracking_qc.py, with the filters between them, on the reports they have left behind changes nothing: the same reports are chosen for each check, and each ends with the same flags and the same stored differences to the report before.", "quantifier": "all lists of reports (with any flags and stored differences), parameters, geometries and solar elevations for which the checks complete", "why_tests_cant": "whether later checks disturb what earlier checks and filters depend on must hold for every record and every combination of flags", "anchors": ["tracking_qc.py:main", "Extended_IMMA.py:QC_filter.test_report", "Extended_IMMA.py:Voyage.add_report", "Extended_IMMA.py:Voyage.sort", "Extended_IMMA.py:Voyage.new_buoy_aground_check", "Extended_IMMA.py:Voyage.buoy_bias_noise_check"]}
{"id": "C153", "title": "The tracking flags do not depend on the order in which reports are read", "statement": "If the reports of a drifter have different times, the checks of tracking_qc.py give every report the same flags in whatever order the reports are read; nothing else in the reports depends on that order but the differences to the report before that are stored in them. Where the checks can be made (C96) they complete in every order.", "quantifier": "all lists of reports of one platform with distinct times, all their permutations, all parameters, geometries and solar elevations", "why_tests_cant": "there are n! orders of n reports, and the order passes through building, sorting and filtering of four voyages", "anchors": ["tracking_qc.py:main", "Extended_IMMA.py:Voyage.add_report", "Extended_IMMA.py:Voyage.sort", "trackqc.py:new_aground_check", "trackqc.py:new_speed_check", "trackqc.py:sst_tail_check", "trackqc.py:sst_biased_noisy_check"]}
{"id": "C154", "title": "The original aground and speed checks of the tracking program", "statement": "With the switch for the original aground and speed checks on, the tracking program keeps every report and changes only the seven drifter flags. Reports with a good position get the aground flag; of these the ones that passed the ship track check get the speed flag; the temperature checks see the reports with good positions and temperatures that are neither aground nor too fast. A report that did not pass the ship track check and had no speed flag gets no temperature flag. The checks complete on every trackable record and the results go to files whose names carry the mark of the original checks.", "quantifier": "all records of reports, all parameters", "why_tests_cant": "the flags of one pass decide which reports the next sees, for records of any length and any earlier flags", "anchors": ["tracking_qc.py:main", "Extended_IMMA.py:Voyage.buoy_aground_check", "Extended_IMMA.py:Voyage.buoy_speed_check"]}
{"id": "C155", "title": "The original tracking checks may be repeated and do not depend on the order of reading", "statement": "Running the original tracking checks on their own result gives the same result, and reading the reports of a drifter in another order gives the same reports with the same flags when their times differ.", "quantifier": "all records of reports, all orders, all parameters", "why_tests_cant": "all permutations and all earlier flags", "anchors": ["tracking_qc.py:main"]}
{"id": "C156", "title": "The tracking program may be run again and never touches its input", "statement": "Whether a run of the tracking program completes or stops with an exception, it changes no file but files of tracking results and removes no directory, so that any later run, for any drifter, reads the reports it would have read before. For a drifter whose reports can be tracked a second run after a first one that completed completes as well and leaves every file and directory as it is.", "quantifier": "all drifters, months, output directories, run names, parameters, edge cases and file systems; for the second part all tracks that fulfil the conditions of the checks", "why_tests_cant": "a statement about every file of every file system after every possible end of a run, including the failed ones", "anchors": ["tracking_qc.py:main", "Extended_IMMA.py:Voyage.write_tracking_output", "tracking_qc.py:safe_make_tracking_dir", "tracking_qc.py:safe_make_edge_dir"]}
{"id": "C157", "title": "The new and the original tracking checks do not disturb each other", "statement": "A run of the tracking program with the original checks changes only files of tracking results and may be repeated without changing anything. The program with the new checks and the one with the original checks may be run on the same drifter one after the other in either order: both complete, afterwards the results of both are there, each computed from the reports as the base program left them and the same in either order, and every other file is as it was.", "quantifier": "all drifters, months, output directories, run names, parameters, edge cases and file systems, under the conditions of the checks; for the first part all runs, completed or not", "why_tests_cant": "two programs that write below the same directories: no pair of paths of any two runs may coincide and no run may change what the other reads", "anchors": ["tracking_qc.py:main", "Extended_IMMA.py:Voyage.write_tracking_output", "tracking_qc.py:safe_make_tracking_dir", "tracking_qc.py:safe_make_edge_dir"]}
{"id": "C158", "title": "The wrapper does not flood the queue and does not wait for others", "statement": "At no time are more than 250 jobs of the wrapper's user in the queue because of the wrapper, whatever other jobs come and go; the scripts are submitted in order, each once, and if the queue is short enough again and again all are submitted and the wrapper ends. The number of jobs it takes to be in the queue is the number of jobs of its user.", "quantifier": "all lists of scripts, all queues, all interleavings of submissions, looks at the queue, ends of jobs and jobs of other users", "why_tests_cant": "all schedules of a loop that polls a queue changed by others, of any length", "anchors": ["Tracking_QC_wrapper.py:checkload", "Tracking_QC_wrapper.py:write_submission"]}
{"id": "C159", "title": "The columns of the table for high resolution carry the result of their check", "statement": "After a run of the high-resolution program, each column of its table of sea-surface-temperature flags holds the result of the check it is named after. True of clim, nonorm, freez, noval, hardlimit and bud, which are 0 or 1 for every report; never true of spike and nbud, which are 9 (not checked) in every row of every month.", "quantifier": "every archive, climatology, month and choice of parameters for which the month completes, and every report in it", "why_tests_cant": "A test sees the flags of the reports it has; that no input at all can put a result into a column needs all paths through reading, base checks, tracks and buddy checks.", "anchors": ["marine_qc_hires.py:main", "Extended_IMMA.py:MarineReportQC.perform_base_sst_qc", "Extended_IMMA.py:Deck.write_qc"]}
{"id": "C16", "title": "Surrounding grid points bracket the position", "statement": "get_four_surrounding_points(lat,lon,0) returns x1<=lon<=x2 with x2-x1=1 and y1<=lat<=y2 with y2-y1=1, all four being cell centres (or their continuation across the pole or date line).", "quantifier": "all latitudes in [-90,90] and longitudes in [-180,180]", "why_tests_cant": "bracketing must hold at every border; in the unchanged code it fails at latitude -89.5", "anchors": ["qc.py:get_four_surrounding_points"]}
{"id": "C160", "title": "The columns of the tables of the main program carry the result of their check", "statement": "After the checks of a month every column of the tables of flags holds, for every report, the result of the check it is named after. True (0 or 1) of the columns of the base checks and the simple buddy checks; true of the columns of the checks of ships exactly for reports whose date, hour, position and identifier passed, which otherwise hold 9; never true of SST nbud, AT freez, DPT freez and DPT bbud, which hold 9 for every report.", "quantifier": "every archive, climatology, month and choice of parameters for which the month completes, every report in it, and every column the program writes", "why_tests_cant": "A test sees the flags of the reports it has; that a column can never, or must always, carry a result is a statement about all paths through reading, base checks, ship checks and buddy checks.", "anchors": ["marine_qc.py:main", "Extended_IMMA.py:MarineReportQC.perform_base_qc", "Extended_IMMA.py:Deck.write_qc"]}
{"id": "C17", "title": "Bilinear interpolation is safe and fill_missing_vals is conservative", "statement": "bilinear_interp inside a proper rectangle always lies between the smallest and largest corner values (so its own final assertions never fire), equals the corner values at the corners, and reproduces any affine field exactly; fill_missing_vals keeps present corners, leaves nothing missing if anything is present, and fills only with values between the smallest and largest present.", "quantifier": "all rectangles, positions and corner values", "why_tests_cant": "an inequality over a continuum", "anchors": ["qc.py:bilinear_interp", "qc.py:fill_missing_vals", "qc.py:missing_mean"]}
{"id": "C18", "title": "Climatology lookups never leave the field and reject bad dates", "statement": "Climatology.get_value and get_value_mds_style return None for every month/day that does not exist in a leap year; otherwise for single, pentad and daily fields the time index used is 0, the pentad minus one, or the day number minus one, always within the field, and for in-range positions the returned value is the one stored in the cell containing the position (None when masked).", "quantifier": "all fields, positions and month/day pairs", "why_tests_cant": "an out of range index silently wraps in numpy when negative, so a wrong value is returned rather than an error", "anchors": ["Climatology.py:Climatology.get_value", "Climatology.py:Climatology.get_value_mds_style", "Climatology.py:Climatology.get_tindex"]}
{"id": "C19", "title": "Loading a climatology is independent of the file's axis orientation", "statement": "For a file whose latitudes run south-to-north or north-to-south and whose longitudes start near 0 or near -180, from_filename yields a field in which the entry for a position is the one the file stores for that position.", "quantifier": "all field sizes (even number of longitudes) and contents", "why_tests_cant": "the composition of flip and roll must be right for every index", "anchors": ["Climatology.py:Climatology.from_filename"]}
{"id": "C20", "title": "Climatology checks flag exactly the outliers", "statement": "climatology_check fails iff an input is missing or |value-normal| exceeds the limit; climatology_plus_stdev_check fails iff an input is missing or |value-normal| exceeds limit times the standard deviation clamped to the given range; the low-bar variant fails iff an input is missing or |value-normal| exceeds both limit*stdev and the low bar (stdev>0). All are monotone: increasing |anomaly| never turns a fail into a pass.", "quantifier": "all values, normals, deviations and limits", "why_tests_cant": "exact decision boundary over a continuum, including missing values", "anchors": ["qc.py:climatology_check", "qc.py:climatology_plus_stdev_check", "qc.py:climatology_plus_stdev_with_lowbar"]}
{"id": "C21", "title": "Single value checks decide exactly their stated condition", "statement": "hard_limit passes iff the value is present and inside the closed limits; sst_freeze_check fails iff the value is present and below freezing_point - n_sigma*uncertainty; supersat_check fails iff a value is missing or dewpoint exceeds temperature; value_check and no_normal_check fail iff the value is missing; wind_consistency fails iff direction is calm with non-zero speed or variable with speed above the limit.", "quantifier": "all values, missing included, and all limits", "why_tests_cant": "boundary and missing-value semantics over a continuum", "anchors": ["qc.py:hard_limit", "qc.py:sst_freeze_check", "qc.py:supersat_check", "qc.py:value_check", "qc.py:no_normal_check", "qc.py:wind_consistency"]}
{"id": "C22", "title": "Position, time and date checks accept exactly valid input", "statement": "position_check passes iff latitude in [-90,90] and longitude in [-180,360]; time_check passes iff the hour is present and in [0,24); date_check passes iff year in 1850..2024 and the date exists in the calendar; for months in 1..12 it never raises.", "quantifier": "all numbers and integer dates", "why_tests_cant": "date validity depends on the Gregorian rule; the index into the month table can go out of range", "anchors": ["qc.py:position_check", "qc.py:time_check", "qc.py:date_check"]}
{"id": "C23", "title": "The blacklist is exactly the documented list", "statement": "blacklist returns 1 iff the report is at 0,0 (longitude taken modulo 360), or has platform type 13, or ID SUPERIGORINA, or deck 874, or deck 732 inside a region listed for its year, or is one of the listed buoys in Nov 2005-Jan 2006; it is invariant under adding 360 to a longitude in (-180,0].", "quantifier": "all reports", "why_tests_cant": "a disjunction of table lookups over a continuum of positions", "anchors": ["qc.py:blacklist"]}
{"id": "C24", "title": "Generic identifiers depend on the year only through the documented windows", "statement": "id_is_generic is true for missing IDs and for the fixed list in every year, and for '2', '00002' exactly in 1921-1941, '3' exactly in 1930-1937, '7', '00007' exactly in 1934-1954; for every other ID it is false in every year.", "quantifier": "all strings and years", "why_tests_cant": "the negative half ranges over all strings", "anchors": ["qc.py:id_is_generic"]}
{"id": "C25", "title": "The day test looks exactly one hour back", "statement": "day_test evaluates the sun's elevation at the instant time_since_sun_above_horizon whole hours before the report, rolling to the previous day and, on 1 January, to 31 December of the previous year; track_day_test evaluates it at the report time.", "quantifier": "all dates, hours and positions, for any elevation function", "why_tests_cant": "the roll-over touches the leap rule and holds for every date", "anchors": ["qc.py:day_test", "trackqc.py:track_day_test"]}
{"id": "C26", "title": "Angles on a circle", "statement": "angle_diff is symmetric, zero for equal angles, and for angles less than a full turn apart lies in [0,pi] and is the distance on the circle.", "quantifier": "all real angles", "why_tests_cant": "continuum", "anchors": ["qc.py:angle_diff"]}
{"id": "C27", "title": "Winsorised and trimmed means are order independent and bounded", "statement": "winsorised_mean and trimmed_mean give the same answer for every permutation of the input, lie between the smallest and largest input, shift with a constant added to all values, and for n>=4 the winsorised mean ignores the values of the lowest and highest quarter beyond their quartile.", "quantifier": "all non-empty lists of numbers and all trims", "why_tests_cant": "permutations and list lengths are unbounded", "anchors": ["qc.py:winsorised_mean", "qc.py:trimmed_mean", "trackqc.py:trim_mean"]}
{"id": "C28", "title": "Bayesian gross-error probability is a probability", "statement": "For inputs satisfying the stated preconditions, p_data_given_gross is in (0,1), p_data_given_good is in (0,1], p_gross is in [0,1] (so its own assertions never fire), equals 0 and 1 for priors 0 and 1, and is non-decreasing in the prior.", "quantifier": "all priors, ranges, observations, means and positive deviations; any strictly increasing error function", "why_tests_cant": "continuum of seven parameters", "anchors": ["qc.py:p_gross", "qc.py:p_data_given_good", "qc.py:p_data_given_gross"]}
{"id": "C30", "title": "QC flags behave as a map from (type, flag) to the last value written", "statement": "After any sequence of set_qc calls, get_qc returns the last value written for that type and flag name, and 9 if none was written; writing one flag changes no other; only the allowed types and integer values 0..9 are accepted and a rejected call changes nothing.", "quantifier": "all histories of set_qc/get_qc calls", "why_tests_cant": "histories are unbounded; the key is a string concatenation so distinct pairs could collide", "anchors": ["Extended_IMMA.py:MarineReport.set_qc", "Extended_IMMA.py:MarineReport.get_qc"]}
{"id": "C31", "title": "Report variables and the timestamp stay consistent", "statement": "After any sequence of setvar calls getvar returns the last value written (None for NaN or unset), and the report's timestamp always equals the one computed from the current year, month, day and hour.", "quantifier": "all histories of setvar calls", "why_tests_cant": "histories; the timestamp is a cached derived value", "anchors": ["Extended_IMMA.py:MarineReport.setvar", "Extended_IMMA.py:MarineReport.getvar", "Extended_IMMA.py:MarineReport.calculate_dt"]}
{"id": "C32", "title": "Report comparisons are those of identifier and time", "statement": "For reports with timestamps the comparison operators agree with each other and with (ID, time) ordering as documented, so sorting a list of reports yields a chronological order.", "quantifier": "all pairs and triples of reports", "why_tests_cant": "transitivity and trichotomy range over triples", "anchors": ["Extended_IMMA.py:MarineReport.__gt__", "Extended_IMMA.py:MarineReport.__ge__", "Extended_IMMA.py:MarineReport.__le__", "Extended_IMMA.py:MarineReport.__eq__"]}
{"id": "C33", "title": "Normalised longitude", "statement": "MarineReport.lon() returns a longitude in [-180,180] equal to the stored one modulo 360 for every stored longitude in [-180,360], and None when none is stored.", "quantifier": "all longitudes", "why_tests_cant": "continuum", "anchors": ["Extended_IMMA.py:MarineReport.lon"]}
{"id": "C34", "title": "Base QC sets every flag and each flag means what it says", "statement": "perform_base_qc on any report leaves each base flag with value 0 or 1 equal to the outcome of the corresponding check applied to the report's variables, independent of earlier flag values; in particular the day flag is 1 whenever position, date or time fail, and dew point hard limit is decided by the dew point humidity.", "quantifier": "all reports and parameters", "why_tests_cant": "the routine is a long sequence of writes to a shared dictionary; interference can only be excluded by a proof over all reports", "anchors": ["Extended_IMMA.py:MarineReportQC.perform_base_qc"]}
{"id": "C35", "title": "Humidity variables are all present or all missing", "statement": "After calculate_humidity_variables either temperature and dew point are usable and the relative humidity is in [0,150], or every listed humidity variable is missing.", "quantifier": "all reports", "why_tests_cant": "depends on missing-value comparison semantics", "anchors": ["Extended_IMMA.py:MarineReport.calculate_humidity_variables"]}
{"id": "C36", "title": "Ship speed and course codes", "statement": "calculate_dsi_vsi converts the coded speed to the documented knots before and after 1968 and the coded course to degrees, for every code 0..9 and leaves missing or other codes missing.", "quantifier": "all codes, years and missing values", "why_tests_cant": "finite codes but unbounded years", "anchors": ["Extended_IMMA.py:MarineReport.calculate_dsi_vsi"]}
{"id": "C37", "title": "QC filters select exactly the matching reports and splitting loses nothing", "statement": "QC_filter.test_report returns 0 iff every configured flag has its configured value; split_reports divides a deck into passes and fails which together contain every report exactly once, each in the original order.", "quantifier": "all filters, all decks", "why_tests_cant": "permutation/order statement over unbounded lists and filters", "anchors": ["Extended_IMMA.py:QC_filter.test_report", "Extended_IMMA.py:QC_filter.split_reports"]}
{"id": "C38", "title": "Platforms partition the deck", "statement": "For a deck built by append, get_one_platform_at_a_time yields for each distinct ID exactly one voyage containing, in append order, exactly the reports with that ID that pass the filter, so each passing report is seen exactly once.", "quantifier": "all append histories and filters", "why_tests_cant": "histories; the index is maintained incrementally", "anchors": ["Extended_IMMA.py:Deck.append", "Extended_IMMA.py:Deck.get_one_platform_at_a_time", "Extended_IMMA.py:Deck.sort", "Extended_IMMA.py:Deck.index_by_id"]}
{"id": "C39", "title": "The climatology library is a map", "statement": "ClimatologyLibrary.get_field returns the field most recently added under the same variable and statistic, adding one field never changes another, and asking for a missing one raises.", "quantifier": "all histories of add_field", "why_tests_cant": "histories", "anchors": ["Extended_IMMA.py:ClimatologyLibrary"]}
{"id": "C40", "title": "Voyages carry speed, distance, course and time difference to the previous report", "statement": "After any sequence of add_report calls, every report after the first holds the distance, time difference, speed and course computed from its predecessor, and sort re-establishes this for the sorted order.", "quantifier": "all sequences of reports", "why_tests_cant": "histories", "anchors": ["Extended_IMMA.py:Voyage.add_report", "Extended_IMMA.py:Voyage.sort"]}
{"id": "C41", "title": "Saturated runs are flagged exactly", "statement": "find_saturated_runs flags a report iff it belongs to a maximal run of consecutive saturated reports that has more than the minimum number of reports and lasts at least the minimum time; every report receives a flag.", "quantifier": "all voyages and parameters", "why_tests_cant": "all binary sequences with times; end-of-voyage run handling", "anchors": ["Extended_IMMA.py:Voyage.find_saturated_runs"]}
{"id": "C42", "title": "Repeated and rounded values are flagged exactly", "statement": "find_repeated_values flags a report iff the voyage has more than min_count values and the report's value makes up more than the threshold fraction; find_multiple_rounded_values flags a report iff the voyage has more than min_count values, the report holds a whole-degree value and whole-degree values make up at least the threshold fraction; reports without a value are never flagged.", "quantifier": "all voyages", "why_tests_cant": "counting argument over unbounded lists", "anchors": ["Extended_IMMA.py:Voyage.find_repeated_values", "Extended_IMMA.py:Voyage.find_multiple_rounded_values"]}
{"id": "C43", "title": "iQuam track check ends with no violating pair among survivors", "statement": "iquam_track_check terminates; afterwards no two unflagged reports within the neighbourhood violate the speed limits; if no pair violates, nothing is flagged; every flagged report took part in a violation; every report receives a flag.", "quantifier": "all voyages, neighbourhood sizes and limits", "why_tests_cant": "a greedy while loop over an unbounded, data dependent number of rounds", "anchors": ["Extended_IMMA.py:Voyage.iquam_track_check"]}
{"id": "C44", "title": "Spike check ends with no violating pair among survivors", "statement": "spike_check terminates; afterwards no two unflagged reports within the neighbourhood have a gradient beyond the limits; reports without a value are never flagged; nothing is flagged when nothing violates.", "quantifier": "all voyages and limits", "why_tests_cant": "greedy while loop", "anchors": ["Extended_IMMA.py:Voyage.spike_check"]}
{"id": "C45", "title": "Ship track check decisions", "statement": "Voyage.track_check gives every report a track flag and a few-observations flag in {0,1}; voyages of fewer than three reports, buoys and generic IDs are never track-flagged; first and last report are never flagged; an interior report is flagged only if it is far from the straight-line midpoint of its neighbours and at least one further test fails.", "quantifier": "all voyages whose reports have positions and are in time order", "why_tests_cant": "decision logic over unbounded sequences with missing values", "anchors": ["Extended_IMMA.py:Voyage.track_check"]}
{"id": "C46", "title": "MDS track check returns one flag per report and is monotone over passes", "statement": "mds_track_check returns one 0/1 flag per report; mds_full_track_check makes at most five passes and a report once flagged stays flagged; the first and last report are never flagged.", "quantifier": "all voyages", "why_tests_cant": "iterated masks over unbounded sequences", "anchors": ["track_check.py:mds_track_check", "track_check.py:mds_full_track_check"]}
{"id": "C47", "title": "Modal speed and speed limits", "statement": "modesp returns None for fewer than two speeds, otherwise a value at least 8.5 knots which is the representative of a fullest 3-knot bin (lowest on ties); set_speed_limits returns the documented limits, always positive and increasing with modal speed.", "quantifier": "all speed lists", "why_tests_cant": "histogram over unbounded lists", "anchors": ["track_check.py:modesp", "track_check.py:set_speed_limits"]}
{"id": "C49", "title": "Aground flags form a suffix", "statement": "aground_check and new_aground_check flag a suffix of the record: once a report is flagged all later ones are; records not longer than the smoothing window are all passed; the loop terminates; every report gets a flag; new_aground_check flags iff, looking back from the end of the smoothed record, positions stay within tolerance of the last one for at least min_win_period.", "quantifier": "all drifter records and parameters", "why_tests_cant": "while loop with index arithmetic over unbounded records", "anchors": ["trackqc.py:aground_check", "trackqc.py:new_aground_check"]}
{"id": "C50", "title": "Drifter speed check flags exactly the members of fast windows", "statement": "speed_check flags a report iff it lies in some assessed window, from a report to the last report not more than max_win_period later and at least min_win_period long, whose mean speed exceeds the limit.", "quantifier": "all drifter records and parameters", "why_tests_cant": "existential over windows of unbounded records", "anchors": ["trackqc.py:speed_check"]}
{"id": "C51", "title": "New drifter speed check ignores positions screened out", "statement": "new_speed_check leaves existing iQuam flags untouched and flags a report iff it lies between an unscreened report and the first unscreened report at least min_win_period later whose mean speed exceeds the limit.", "quantifier": "all drifter records, screens and parameters", "why_tests_cant": "existential over windows", "anchors": ["trackqc.py:new_speed_check"]}
{"id": "C52", "title": "Tail flags are a prefix and a suffix, never the whole record", "statement": "sst_tail_check flags a prefix of the record as start tail and a suffix as end tail; the two never cover all assessed observations; observations outside tails and records with no assessable observation are unflagged; its internal npass assertion can never fire.", "quantifier": "all drifter SST records and parameters", "why_tests_cant": "two passes of two nested loops with shared indices", "anchors": ["trackqc.py:sst_tail_check"]}
{"id": "C53", "title": "Bias and noise flags are all-or-nothing", "statement": "sst_biased_noisy_check gives every report the same bias, noise and short flags; at most the pair bias/noise (long record) or only short (short record) can be set; exact conditions on mean, deviation and exceedance count decide them.", "quantifier": "all drifter SST records and parameters", "why_tests_cant": "statistics over unbounded records", "anchors": ["trackqc.py:sst_biased_noisy_check"]}
{"id": "C54", "title": "Super-observations are cell means independent of input order", "statement": "After adding any list of observations and averaging, each pentad cell holds the mean and number of exactly the observations falling in it, whatever the order they were added.", "quantifier": "all lists of observations", "why_tests_cant": "permutations of unbounded lists", "anchors": ["Extended_IMMA.py:Np_Super_Ob.add_rep", "Extended_IMMA.py:Np_Super_Ob.take_average"]}
{"id": "C55", "title": "Buddy limits use the first populated neighbourhood", "statement": "get_buddy_limits gives a cell the mean of its neighbours in the first search level with at least one neighbour and a deviation in the documented multiple; with no level satisfied it falls back to mean 0 and deviation 500.", "quantifier": "all grids and parameters", "why_tests_cant": "search over levels and neighbourhoods", "anchors": ["Extended_IMMA.py:Np_Super_Ob.get_buddy_limits_with_parameters", "Extended_IMMA.py:get_threshold_multiplier"]}
{"id": "C56", "title": "Buddy checks give every report a legal flag", "statement": "mds_buddy_check flags 0 or 1 for every report and 0 for reports failing the filter; bayesian_buddy_check flags min(9, floor(10 p)) in 0..9.", "quantifier": "all decks", "why_tests_cant": "all reports of unbounded decks", "anchors": ["Extended_IMMA.py:Deck.mds_buddy_check", "Extended_IMMA.py:Deck.bayesian_buddy_check"]}
{"id": "C60", "title": "Base-36 digits round trip", "statement": "decode_base36(encode_base36(n)) = n for 0<=n<36 and encode_base36(decode_base36(c)) = c for every digit or capital letter.", "quantifier": "all digit values", "why_tests_cant": "stated here because the record round trip depends on it", "anchors": ["IMMA1.py:encode_base36", "IMMA1.py:decode_base36"]}
{"id": "C61", "title": "An IMMA attachment written and read back is unchanged", "statement": "For every attachment layout with fixed-width fields and every assignment of in-range values (or missing) to its parameters, encoding yields exactly the declared number of characters and decoding them returns the same values.", "quantifier": "all attachment layouts and all in-range records", "why_tests_cant": "product of unbounded field values and layouts", "anchors": ["IMMA1.py:IMMA.encode", "IMMA1.py:IMMA.decode"]}
{"id": "C62", "title": "A multi-attachment record written and read back is unchanged", "statement": "For a record consisting of the core followed by any list of fixed-length attachments, reading the line produced by write returns the same attachments and values, although write strips trailing blanks.", "quantifier": "all attachment lists and values", "why_tests_cant": "unbounded records; stripping and padding interact with the length fields", "anchors": ["IMMA1.py:IMMA.write", "IMMA1.py:IMMA.readstr"]}
{"id": "C63", "title": "Background and ICOADS file selection picks the first available candidate", "statement": "icoads_filename_from_stub returns the filled-in name of the first stub pair whose file exists, and None if none does; get_background_filename does the same among non-empty files, preferring a compressed file over a plain one of the same stub, and the returned path is readable afterwards.", "quantifier": "all stub lists and file system contents", "why_tests_cant": "all file system states", "anchors": ["BackgroundField.py:icoads_filename_from_stub", "BackgroundField.py:get_background_filename"]}
{"id": "C64", "title": "Placeholder filling and bad-ID lists", "statement": "process_string replaces every placeholder occurrence and leaves other text unchanged; process_bad_id_file returns every non-blank entry with trailing whitespace removed and padded to nine characters, in file order, so a nine-character report ID is excluded iff its trimmed form is listed.", "quantifier": "all strings and files", "why_tests_cant": "all strings", "anchors": ["BackgroundField.py:process_string", "BackgroundField.py:process_bad_id_file"]}
{"id": "C65", "title": "safe_filename makes a legal file name of the same length", "statement": "safe_filename contains neither '/' nor '*', keeps the length, changes nothing else and is idempotent.", "quantifier": "all strings", "why_tests_cant": "all strings", "anchors": ["Extended_IMMA.py:safe_filename"]}
{"id": "C66", "title": "Humidity conversions are mutually consistent", "statement": "Before rounding, sh_from_vap and vap_from_sh are inverse, sh equals sh_from_vap of vap, vap follows Buck's formulas over water (wet bulb above 0) and over ice (otherwise), rh is 100 when dew point equals air temperature, below 100 when the dew point is lower and above when it is higher; every routine returns None when an input is missing; rounding gives a multiple of a tenth within half a tenth.", "quantifier": "all temperatures and pressures in the physical range", "why_tests_cant": "continuum of real arguments", "anchors": ["CalcHums.py"]}
{"id": "C67", "title": "Great-circle distance is a metric-like quantity", "statement": "sphere_distance is the great-circle distance on a sphere of the Earth's radius: symmetric, non-negative, zero exactly for the same place, at most half the circumference, unchanged when longitudes are shifted by 360 degrees, and it satisfies the triangle inequality.", "quantifier": "all positions", "why_tests_cant": "continuum", "anchors": ["spherical_geometry.py:sphere_distance", "spherical_geometry.py:angular_distance"]}
{"id": "C68", "title": "Dead reckoning travels the requested distance", "statement": "lat_lon_from_course_and_distance returns a point whose great-circle distance from the start is the requested one (up to half the circumference), and intermediate_point returns the start for fraction 0 and the end for fraction 1.", "quantifier": "all starting points, courses and distances", "why_tests_cant": "continuum", "anchors": ["spherical_geometry.py:lat_lon_from_course_and_distance", "spherical_geometry.py:intermediate_point"]}
{"id": "C70", "title": "Tracking wrapper submits the chunks its mode promises", "statement": "Tracking_QC_wrapper submits in mode all every chunk, in mode standard exactly the regular ones, in mode new exactly the new ones, and in mode noend exactly those that end at least gap months before the end of the series, each once; any other mode is rejected.", "quantifier": "all series, modes and gaps", "why_tests_cant": "decision logic over all histories", "anchors": ["Tracking_QC_wrapper.py:main"]}
{"id": "C71", "title": "Interpolated climatology values are safe and local", "statement": "On a one-degree climatology get_interpolated_value never raises for a valid position and date; it returns None exactly when the field is missing at every position 0.001 degrees diagonally around the point, and otherwise a value between two values the field holds within one degree of the point; at the centre of a cell it returns the value of that cell.", "quantifier": "all one-degree fields with any pattern of missing cells, all positions and dates", "why_tests_cant": "continuum of positions and all missing-data patterns around poles and date line", "anchors": ["Climatology.py:Climatology.get_interpolated_value", "qc.py:fill_missing_vals", "qc.py:get_four_surrounding_points"]}
{"id": "C72", "title": "The sun's angles are in range and obey the culmination bounds", "statement": "For arguments in the documented ranges, a latitude other than 0 and a sun not exactly at the nadir, sunangle returns without raising, with azimuth in [0,360], elevation and declination in [-90,90] and right ascension in [0,360); the elevation never exceeds 90-|latitude-declination| nor falls below |latitude+declination|-90, so it is never positive in the polar night, and at the pole it equals the declination.", "quantifier": "all years, days, times and positions", "why_tests_cant": "a theorem about trigonometric functions of every real input; tests sample a few dates", "anchors": ["qc.py:sunangle"]}
{"id": "C73", "title": "The sun routine's clock follows the calendar", "statement": "From each calendar day to the next the time at which sunangle evaluates the sun's position advances by exactly one day.", "quantifier": "all pairs of consecutive dates", "why_tests_cant": "needs the calendar rule for every year boundary; the repository's tests use isolated dates", "anchors": ["qc.py:sunangle"]}
{"id": "C74", "title": "The trimmed standard deviation measures the spread of the middle values", "statement": "trim_std squared is the mean squared distance from their mean of the values left after removing the n/trim smallest and n/trim largest; it does not depend on the order of the input or on a constant added to all values, is never negative, and is 0 exactly when the values left are equal.", "quantifier": "all lists of numbers and all trims", "why_tests_cant": "list lengths, orders and values are unbounded", "anchors": ["trackqc.py:trim_std"]}
{"id": "C75", "title": "A report's position is normalised", "statement": "lat() is the stored latitude and lon() is the one number above -180 and at most 180 that is a whole number of turns from the stored longitude; both are None exactly when the stored value is missing.", "quantifier": "all reports with a stored longitude above -180 and at most 540", "why_tests_cant": "continuum of longitudes including the wrap points", "anchors": ["Extended_IMMA.py:MarineReport.lon", "Extended_IMMA.py:MarineReport.lat"]}
{"id": "C76", "title": "Neighbour cells are searched once and lie within the radius", "statement": "get_neighbour_anomalies returns each occupied cell within the search radius exactly once, never the cell itself and never a cell outside the radius; the number of columns searched grows with latitude so that their width matches the radius.", "quantifier": "all grids, cells and search radii", "why_tests_cant": "the claim is about every cell of every grid and every radius, and fails only in rows near the poles", "anchors": ["Extended_IMMA.py:Np_Super_Ob.get_neighbour_anomalies"]}
{"id": "C77", "title": "Both ways to compute MDS buddy limits agree", "statement": "get_buddy_limits gives every cell the limits get_buddy_limits_with_parameters gives with the tables written into it.", "quantifier": "all grids, fields and cells", "why_tests_cant": "equality of two programs over all grids", "anchors": ["Extended_IMMA.py:Np_Super_Ob.get_buddy_limits", "Extended_IMMA.py:Np_Super_Ob.get_buddy_limits_with_parameters"]}
{"id": "C78", "title": "Reading an IMMA line always ends, with a complete record or a ValueError or KeyError", "statement": "For every line, reading ends; it either raises ValueError (text that is not a number where a number is due) or KeyError (an attachment number the format does not know), or it appends the core and then only known attachments, and every parameter of each of them is then in the dictionary, other parameters being untouched. A line of line ends only changes nothing. Attachment 97 can never be read.", "quantifier": "all lines and all records read into", "why_tests_cant": "all strings; the loop is driven by lengths found in the line itself, which may be zero, negative or beyond the end", "anchors": ["IMMA1.py:IMMA.readstr", "IMMA1.py:IMMA.decode"]}
{"id": "C79", "title": "Declared ranges fit the declared widths", "statement": "In every attachment except 97 and 99, every whole number of units in the declared range of an integer parameter has a decimal text, with sign, no longer than the declared width.", "quantifier": "all attachments, parameters and numbers in range", "why_tests_cant": "product of all fields and all values", "anchors": ["IMMA1.py:definitions"]}
{"id": "C80", "title": "Different months have different input files and output directories", "statement": "Within one release version, icoads_filename gives different file names for different months, and safe_make_dir gives different directories below the same base directory; the version and year decide the release directory as documented.", "quantifier": "All base directories, versions, years from 0 on and months.", "why_tests_cant": "Tests check the names of a few months; that no two months ever share one is about all pairs.", "anchors": ["BackgroundField.py:icoads_filename", "BackgroundField.py:safe_make_dir", "BackgroundField.py:build_completions"]}
{"id": "C81", "title": "Output directories exist afterwards and nothing else changes", "statement": "If the base directory exists and no plain file is in the way, then after safe_make_dir_generic exactly the requested nested directories exist besides those that were there, plain files are untouched, the innermost is returned, and asking again changes nothing.", "quantifier": "All file system states, base directories and lists of names without slashes.", "why_tests_cant": "Depends on the state of the file system; a test creates one or two directories.", "anchors": ["BackgroundField.py:build_completions", "BackgroundField.py:safe_make_dir_generic", "BackgroundField.py:safe_make_dir"]}
{"id": "C82", "title": "Dates are written in ISO form or recognisably missing", "statement": "datestring writes every calendar date of the years 1000 to 9999 as YYYY-MM-DD and anything else as 0000-00-00, so that different dates have different texts and none has that of a missing date.", "quantifier": "All integer years, months and days.", "why_tests_cant": "Unbounded triples, leap years and invalid days; tests sample.", "anchors": ["Extended_IMMA.py:datestring"]}
{"id": "C83", "title": "Dead-reckoned longitudes stay in range", "statement": "lat_lon_from_course_and_distance returns a longitude in [-180, 180) when the start is in [-180, 180].", "quantifier": "all starting points, courses and distances up to half the circumference", "why_tests_cant": "continuum of arguments; sign conventions of the modulo operation matter only in narrow regions", "anchors": ["spherical_geometry.py:lat_lon_from_course_and_distance"]}
{"id": "C84", "title": "The course between two points leads from one to the other", "statement": "course_between_points returns a course between 0 and 360 degrees, and setting out on it from the first point for the great-circle distance arrives at the second point.", "quantifier": "all pairs of positions, the first not within 1e-7 radians of a pole", "why_tests_cant": "continuum of pairs, including antipodes, identical points and date-line crossings", "anchors": ["spherical_geometry.py:course_between_points", "spherical_geometry.py:lat_lon_from_course_and_distance", "spherical_geometry.py:sphere_distance"]}
{"id": "C85", "title": "Dew point is recovered from vapour pressure", "statement": "Without rounding, td_from_vap applied to the result of vap at the same pressure and temperature returns the dew point that vap was given.", "quantifier": "all dew points, temperatures and pressures in the physical range", "why_tests_cant": "continuum of real arguments; two formulas selected by an iterated wet-bulb estimate", "anchors": ["CalcHums.py:vap", "CalcHums.py:td_from_vap"]}
{"id": "C86", "title": "The columns of an output row are those of its header", "statement": "A row printed by print_variable_block or print_qc_block, read as comma-separated values, has the same number of fields as the header printed for the same names, and the field below each name is that variable's value (or \\N when missing), anomaly or flag, also when the identifier contains commas.", "quantifier": "all reports with a UID, all non-empty lists of variable or flag names", "why_tests_cant": "unbounded reports, identifiers and column lists", "anchors": ["Extended_IMMA.py:MarineReport.print_variable_block", "Extended_IMMA.py:MarineReport.print_qc_block", "Extended_IMMA.py:tostring"]}
{"id": "C87", "title": "A deck's output holds exactly the reports of the month", "statement": "Deck.write_output and write_min_output write a variables file and one flags file per block; each holds a header and one row for every report of the given year and month, in the order of the deck, and no others; no other file is changed.", "quantifier": "all non-empty decks of writable reports, months, run names and file systems in which the output directory exists", "why_tests_cant": "unbounded decks and file contents; the order of the flag blocks depends on dictionary order", "anchors": ["Extended_IMMA.py:Deck.write_output", "Extended_IMMA.py:Deck.write_min_output", "Extended_IMMA.py:Deck.write_qc"]}
{"id": "C88", "title": "Different output never goes to the same file", "statement": "Output of two different months, kinds of table or run names goes to different files, and for voyages that of two different identifiers does.", "quantifier": "all years, months, run names, kinds of table and identifiers", "why_tests_cant": "unbounded strings joined without separators between some of them", "anchors": ["Extended_IMMA.py:Deck.write_output", "Extended_IMMA.py:Deck.write_qc", "Extended_IMMA.py:Voyage.write_output", "Extended_IMMA.py:Voyage.write_qc"]}
{"id": "C89", "title": "A voyage's output holds exactly the reports of the month", "statement": "Voyage.write_output writes a variables file and one flags file per block, named after the identifier; each holds a header and one row for every report of the given month in voyage order, and no other file is changed.", "quantifier": "all non-empty voyages of writable reports with any identifier, months, run names and file systems in which the output directory exists", "why_tests_cant": "unbounded voyages, identifiers and file contents", "anchors": ["Extended_IMMA.py:Voyage.write_output", "Extended_IMMA.py:Voyage.write_qc"]}
{"id": "C90", "title": "The tracking file has one aligned row per report", "statement": "write_tracking_output writes a single file with a header and one row for every report of the voyage, whatever its month; every row has as many fields as the header and below each name the value or flag of that name.", "quantifier": "all non-empty voyages of writable reports, months, run names and file systems in which the output directory exists", "why_tests_cant": "unbounded voyages; rows assembled from six blocks whose line ends are stripped", "anchors": ["Extended_IMMA.py:Voyage.write_tracking_output"]}
{"id": "C91", "title": "A drifter's month is read back as it was written", "statement": "The tracking program reads, from the files written by Voyage.write_output for a drifter and a month, the same reports in the same order, with the same identifier, unique identifier, date and flags, and with position, time of day, temperatures, pressure and background values as printed.", "quantifier": "all voyages of reports that can be written, months, run names, identifiers and file systems in which the directory of the month exists", "why_tests_cant": "round trip through text over unbounded voyages and strings with separators", "anchors": ["Extended_IMMA.py:Voyage.write_output", "tracking_qc.py:main", "tracking_qc.py:EasyImma"]}
{"id": "C92", "title": "A chunk of months is read back complete and in order", "statement": "The months of a drifter written one after the other are read back as the reports of all the months asked for, in the order of the months and within a month in the order of the voyage; months without files are passed over, and if there is no report at all the program stops with an exception.", "quantifier": "all drifters, sets of months written in any order, months asked for and file systems in which the directories exist and no older files of the drifter do", "why_tests_cant": "unbounded number of months; files of one month must not overwrite those of another", "anchors": ["Extended_IMMA.py:Voyage.write_output", "tracking_qc.py:main"]}
{"id": "C93", "title": "Tracking changes nothing but the drifter flags", "statement": "When the tracking checks complete, every report of the drifter is still at its place in the list, and nothing of it has changed except the seven drifter flags and the stored differences to the report before.", "quantifier": "all lists of reports, parameters with a positive speed period, geometries and solar elevations", "why_tests_cant": "four checks run on voyages that share their report objects; any of them could lose, reorder or modify reports of any record", "anchors": ["tracking_qc.py:main", "Extended_IMMA.py:Voyage.new_buoy_aground_check", "Extended_IMMA.py:Voyage.new_buoy_speed_check", "Extended_IMMA.py:Voyage.buoy_tail_check", "Extended_IMMA.py:Voyage.buoy_bias_noise_check"]}
{"id": "C94", "title": "Which reports get which drifter flags", "statement": "Exactly the reports of the drifter with good position flags get the aground and speed flags; of these, exactly those with good temperature flags that were found neither aground nor aboard a ship get the tail flags, and of these exactly those in neither tail get the bias, noise and short flags. A report that is not chosen keeps its flags as they were.", "quantifier": "all lists of reports of platform type 7 and all combinations of flags, parameters with a positive speed period", "why_tests_cant": "2^n combinations of flags on every report, and the choice for one check depends on the results of the earlier checks", "anchors": ["tracking_qc.py:main", "Extended_IMMA.py:QC_filter", "Extended_IMMA.py:Voyage.buoy_tail_check"]}
{"id": "C95", "title": "Each tracking check sees the chosen reports in time order", "statement": "Each of the four checks is run on the voyage of exactly the chosen reports, in time order with ties in list order and with the differences between neighbours stored, whatever the order of the list; the flags it sets are those of the reports at their own places in the list.", "quantifier": "all lists of reports of one drifter with timestamps, in any order", "why_tests_cant": "all orders and sizes of the list; results must be attached to the right objects after sorting", "anchors": ["tracking_qc.py:main", "Extended_IMMA.py:Voyage.add_report", "Extended_IMMA.py:Voyage.sort"]}
{"id": "C96", "title": "The tracking program completes for every drifter", "statement": "If the parameters are valid and the reports that passed the position checks were made at existing places and times and have valid background values, the tracking checks and the building of the output voyage complete without an exception.", "quantifier": "all lists of reports of one drifter, geometries, solar elevations and valid parameters", "why_tests_cant": "an exception in any of four checks loses the whole record; it can depend on any pair of reports", "anchors": ["tracking_qc.py:main", "trackqc.py:new_speed_check", "Extended_IMMA.py:MarineReport.__sub__"]}
{"id": "C97", "title": "The results are written to each directory asked for", "statement": "When the checks complete, one tracking file with all reports of the drifter in time order is in each of the directories the edge arguments ask for, which are created if needed; no other file changes.", "quantifier": "all output directories, months, lists of edge words and file systems in which the paths are free; all trackable records", "why_tests_cant": "all combinations of edge words and of directories that already exist; unbounded records", "anchors": ["tracking_qc.py:main", "tracking_qc.py:safe_make_tracking_dir", "tracking_qc.py:safe_make_edge_dir"]}
{"id": "C98", "title": "What the base program writes the tracking program takes up", "statement": "After the base program has written the months of a drifter, the tracking program run on these months reads all the reports back, completes its checks and writes the results of all of them.", "quantifier": "all drifters, months, voyages of valid reports and file systems in which the directories exist", "why_tests_cant": "two programs that communicate through files: every report of every month must survive formatting, parsing and the checks", "anchors": ["Extended_IMMA.py:Voyage.write_output", "tracking_qc.py:main"]}
{"id": "C99", "title": "Every ship is checked on its own", "statement": "What the checks of ships in the main program make of the reports of one identifier depends on these reports only: running them on a deck without the other reports gives the same reports; and if the checks complete for the reports of each identifier alone they complete for the whole deck.", "quantifier": "all decks, filters, parameters, geometries and rounding functions", "why_tests_cant": "all interleavings of any number of platforms in one deck of shared report objects", "anchors": ["marine_qc.py:main", "Extended_IMMA.py:Deck.get_one_platform_at_a_time", "Extended_IMMA.py:Voyage"]}
