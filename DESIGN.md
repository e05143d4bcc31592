# Formal model of MarineQC in Lean 4

This directory holds a machine-checked model of the Python 2 program in `/repo` (zqtzt/MarineQC) and
theorems about it. `properties.jsonl` lists the properties in English, `MANIFEST.json` maps them to theorem
names, `seeded/LOG.jsonl` records the seeded-bug experiments.

## Layout

`lean/Verif/<Topic>/Model.lean` models functions of `/repo`, branch by branch; every definition cites file
and lines. `Spec.lean` (where a separate specification is needed) states what the functions should do
without reference to the model. `Lemmas.lean` holds helper proofs. `Props.lean` holds the property
theorems, named `Cnn_...`, each with an `example` showing that its hypotheses can be met.

| Topic | Models | Properties |
|---|---|---|
| Calendar | qc.py dates, month stepping, Julian day; which months marine_qc.py reads | C01-C09 |
| YM | YMCounter.py; chunk selection of Tracking_QC_wrapper.py | C10-C12, C70 |
| Grid | qc.py grid indices, interpolation; Climatology.py | C13-C19, C71 |
| Checks | qc.py single-report checks, sun position | C20-C26, C72, C73 |
| Stats | trimmed and winsorised means, Bayesian gross-error probabilities | C27, C28, C74 |
| Report | Extended_IMMA.py MarineReport, MarineReportQC, base checks | C30-C36, C75, C146 |
| Deck | QC_filter, Deck, ClimatologyLibrary | C37-C39 |
| Voyage | Voyage: order, spike, repeated, rounded and saturated values, iQuam track check | C40-C44, C148 |
| Track | track_check.py, Voyage.track_check, mds_track_check | C45-C47, C149, C150 |
| Buoy | trackqc.py | C49-C53, C151 |
| Buddy | Np_Super_Ob, mds and Bayesian buddy checks | C54-C56, C76, C77, C147 |
| Imma | IMMA1.py | C60-C62, C78, C79 |
| Files | BackgroundField.py, safe_filename, datestring | C63-C65, C80-C82 |
| Sphere | spherical_geometry.py | C67, C68, C83, C84 |
| Hums | CalcHums.py | C66, C85 |
| Output | print_variable_block, print_qc_block, the write_* methods of Deck and Voyage | C86-C90 |
| Drifter | tracking_qc.py: reading the CSV files back, and which files are accepted | C91, C92, C145 |
| Tracking | tracking_qc.py: the checks and the output; buoy checks of Voyage | C93–C98, C152–C157 |
| Queue | Tracking_QC_wrapper.py: `checkload` and the waiting in `write_submission` | C158 |
| Base | marine_qc.py: reading the reports of a month, the checks of ships, the buddy checks, the output, the run over months, the hand-over to tracking_qc.py | C99–C111, C115–C118, C160 |
| Lookup | qc.py: looking up a place and day in a climatology | C112–C114 |
| Wrapper | Tracking_QC_wrapper.py: the lists of identifiers, the choice of jobs, the job scripts; the arguments of tracking_qc.py; its jobs at the same time | C119–C124 |
| Crash | marine_qc.py and the writing functions, one operation on the file system at a time: runs that are killed, repeated, and read by the tracking program | C125–C127 |
| TrackOnly | marine_qc_track_only.py: the reports it checks and the files it writes, compared with those of the main program | C128–C130 |
| Hires | marine_qc_hires.py: the reports it checks, the files it writes, and what it has in common with the main program | C131–C133, C159 |
| Parallel | marine_qc.py: runs over different months at the same time, killed and started again; runs over further months while tracking jobs run | C134, C144 |
| Alone | marine_qc.py: what the results of one platform depend on (no new definitions; the model of Base) | C135 |
| Near | the same: which other platforms the flags of the buddy checks depend on (no new definitions) | C136 |
| Rest | Extended_IMMA.py: `pvar`, `printvar`, `print_report`, `print_longform_report`, `predict_next_point`; SimpleIMMA.py; qc.py: `base_qc_report` | C137–C140 |
| Feeds | NRT.py, TestIMMA.py; Extended_IMMA.py: the accessors of `Voyage` | C141–C143 |
| Conform | the repository's own unit tests as `example`s about the model (not proofs of properties) | – |

## Modelling conventions

* Python `int` is `Int` (or `Nat` for lengths and indices). Python 2 integer `/` is floor division.
* Python `float` is modelled by exact numbers: `Rat` where only field operations and comparisons are used
  (so the model is computable), `Real` where trigonometry, `exp`, `log`, `sqrt` or `erf` appear. Rounding,
  overflow, NaN and infinities are **not** modelled, except where NaN is tested explicitly.
* `None` is `Option.none`. Python 2 orders `None` below every number; where a comparison with `None` is
  reachable the model has an explicit comparison function that does this.
* An exception (failed `assert`, `IndexError`, `ZeroDivisionError`, `TypeError`) is a value: functions that
  can raise return `Except Err α`. `try/except` returns to an ordinary value.
* A method that mutates an object returns the new object. Loops are structural recursion or folds; a `while`
  loop whose termination is a property is modelled by a fuelled loop together with a proof that the fuel
  given suffices, or by well-founded recursion.
* `print` and logging are dropped.

## Plan per property

Calendar: C01-C06 are proved from a specification `IsDate`/`nextDay` of the proleptic Gregorian calendar.
C05 by case analysis on the month and integer division facts (`omega`) for all years, C06 from C05.
C07 by induction on the number of months; non-termination is stated as "no amount of fuel suffices".
C09 is false of the code at month 0: negation plus `_partial`.

YM: C10 by a loop invariant over the prefix processed; C11 from the definition of index in a strictly
increasing list of months; C12 from a characterisation of chunks by the data alone. C70 by cases on the mode.

Grid: C13-C16 with `Rat.floor`; C17 by convexity (nlinarith); C18 composes them; C19 index arithmetic.
C16 is false at latitude -89.5: negation plus `_partial`.

Checks: C20-C25 decision logic, proved by unfolding into an independently written `iff`. C26 over the reals.

Stats: C27 through `List.mergeSort` and permutation lemmas; C28 with an arbitrary strictly increasing `erf`.

Report: C30 by induction over histories; the concatenated key collides, so the full claim is false:
negation plus `_partial` for flag names that do not collide. C31: false for the month (setvar('MO')),
negation plus `_partial`. C34: DPT hard limit is false of the code.

Deck: C37 and C38 by induction over appends; `sort` after `append` duplicates: negation.

Voyage: C41-C44 by loop invariants; C43/C44 share one greedy-elimination core with a well-founded measure.

Buoy: loop invariants over index.

Buddy: C54 by induction and permutation; C55 by `List.find?`; C56 by cases.

Imma: C60-C62 by induction over the field list and number/string round trips.

Files: C63 with the file system as a parameter; C64, C65 by induction on strings.

Hums, Sphere: over the reals with Mathlib.

Output: a file system is a function from paths to contents; a CSV reader written for the specification reads back
what the writers leave.

Drifter: Python's csv reader as a state machine over characters; the round trip follows from the text of the files (Output)
by induction over the rows.

Tracking: the report objects shared by several voyages are reports with their position in the list; a relation between
list and voyage (chosen positions, time order, differences) is an invariant of the four checks.

Base: the loop over platforms is a function of the list of reports that replaces the chosen reports of one identifier at a
time (`refill`), so rounds of different identifiers do not see each other; the flags follow from C40-C45 because each check
depends only on the data, which no check changes. In the buddy checks no filter names a flag of a buddy check, so the
buddies can be told from the reports before the first check.
Base, reading (C104–C106): `ReadModel` follows the loop over the three files, with the record that a failed `readstr`
leaves behind (the program looks at it), the library of fields and `lastday` as state.  `ReadSpec` says which records are
used (`recordsFor`) and what a report made from a record is (`ReadAs`), without the loop.  C104 is by induction over lines
and months; C105 by an invariant that ties the fields in the library to the last dated record; C106 shows each step total
under stated conditions, and conversely what a completed run tells about its input.  Files are given as their lines;
`get_background_filename` and `from_filename` are a parameter (modelled on their own in Files and Grid).
Base, output (C107): the loop over drifters is a recursion over the index that returns the text for the list, the file system
and the exception.  The proof is by induction over the index, with C87 and C89 for the files of one deck and one voyage, and
the names of different files shown different from their form.
Base, run (C108–C111): `RunModel` chains the stages and the loop over months; the library of fields is the only state that
passes from one month to the next.  C108 shows that two libraries that differ in the background only give the same reports
(the background of a day is read before it is used).  C109 composes C104, C100, C102 and C107, the files of different months
being in different directories.  C110 composes C100–C103 with the base checks of C34, which give every report the checks use
its place and time.  C111 puts the conditions in terms of the records in the files only.

Base, hand-over (C115–C118): the two programs in sequence, on one file system.  C115 composes C109 (what a run leaves behind) with
C93 (what the tracking program reads); C116 adds C96 and C97.  C117 is an invariant of the flags over all stages of a month.
C118 puts the conditions in terms of the records in the files, by C104, C111 and C117, and adds the reading of the archive.

Lookup (C112–C114): the look-ups of qc.py that take the field as an argument. A failed assertion is an error value, and the bare
`except` of get_clim turns every error into `None`. The fields are those of topic Grid, whose cells (`InCell`) and time steps
(`CalendarSlot`) are the specification; C112 reduces to C13, C14 and C18, and C114 to C71 through an equation between the two
interpolations, which holds for fields of pentads only.

Wrapper (C119–C124): the wrapper between the main program and the tracking program, on the same file system. A job script is text;
the shell is modelled as far as the scripts use it (lines, comments, words between blanks), `argparse` as far as tracking_qc.py
uses it (long options, one word or several). C119 composes C109 (what a run leaves behind) with C70 (the dictionary of counters);
C120 is a round trip through text; C121 composes C119 and C10–C12 (chunks and their classes) with an induction over the jobs;
C122 composes C109, C118–C121: an induction over the scripts in any order, the files of different jobs being different.
For C123 the tracking program is modelled a second time as a tree of single operations on the file system (`Act`), and C123 is the
refinement between the two. C124 is an invariant over schedules of such operations: each job reads the files of the months only,
writes its own files only and makes directories that any job may make, so what it sees is what it would see alone; a job that is
killed leaves nothing that its next run does not overwrite.

Crash (C125–C127): the main program again, as a list of operations on the file system (make a directory, open a file, write a
character) that does not depend on the file system. C125: run to the end, the list does what `runMonths` does, by structural induction over
the loops, with a lemma for one program after the other. C126: a state left by a killed run (`Spec.Killed`: a first part of the operations
done, and any beginning of the text of each file opened so far) differs from the state before it only in files the run opens and in
directories it makes; this is an invariant over any number of killed runs, and a complete run from any such state opens all these files
again before it writes to them. The proof needs that the run writes only to files it has opened before, and that no path is both a file and a
directory of the run. C127: of the operations on the three files of a drifter in a month, a killed run has done a first part; as the file of
variables is closed before the files of flags are opened, either one of the three is absent, and the tracking program stops, or the
variables are complete and a table of flags may be cut off (`cut_flags`: with the right number of lines, a cut inside the last
line is an error or leaves the same flags). The rest is C115 for the months completed.

TrackOnly (C128–C130): `shadow r` keeps of a report what the tracking of drifters needs. Each check of the main program that sets a flag of
position or sea-surface temperature commutes with `shadow`; each of the others does not change the shadow, whatever it does to the rest. C128
is the simulation between the two programs made of these: line by line while reading, ship by ship, and for the two buddy checks they share. For C129
the two runs are followed write by write (`Along`): the tables of a drifter are equal when the shadows are, but for the anomalies that need
a climatology the second program does not read (`Bare`); none of the paths it writes is that of a deck file. C130:
the columns in which the tables differ are not read, the other files are equal, so each call of the tracking program reads the same and writes
the same, and the file systems stay alike for the next call.

Hires (C131–C133): C131 follows every write of the program, whatever the outcome; the names of its files are compared with those of the
main program from the end (the label `hires_`) and from the beginning (the prefix ends at the first digit). C132 is a simulation like C128 with `bones r` in the place of
`shadow r`: it forgets the climatologies, the flags that depend on them and what only the main program computes. The buddy checks of either
program change flags only that `bones` forgets. C133: reading goes on wherever the main program goes on, as the simulation has the form
"if one step succeeds so does the other"; the ship checks of the main program are known to complete from C110; the buddy checks complete because the
reports have been through the base checks; the output as in C107.

Parallel (C134): the operations of C125 become programs of the pool of C124 (`runSchedule`). Every file a run opens is in the directory of
one of its months and every directory it makes has another kind of name (by induction over the writing functions), so that programs over
different months satisfy the conditions of the lemma about the pool (`pooled_run`); the one run over all months is compared with the pool by
the same invariant (`View`). Killed rounds change files that the run over all months opens, and nothing else, so that the argument of C126
applies. Two programs that write to one file at the same time are outside of the model (each would write at its own place in the file).

Parallel (C144): tracking jobs (C124) and runs of the main program (C134) are programs of the same pool. What each reads, writes and makes is
bounded: a job reads files of the months that are tracked and writes its own result files below TrackingQC; a run opens files in the directories of its
months, which it does not track; directories never have the name of a file anybody writes. With `pooled_run` every program is where it would be alone.
Rounds that were killed leave a file system that differs in files which the programs open anew, so the last round is as the first (`run_like`, C126).
The wrapper itself is shown to write scripts and make directories for jobs only, so that a run over further months does not see it.

Report (C146): two runs of a base check on reports with the same variables are followed side by side. A relation says that both
reports got the same writes so far, and which flags were surely written; every step keeps it. The day check reads three flags, all
surely written before. So the second run makes the writes of the first.

Buddy (C147): the grid, the limits and each flag read only the variables of a report and the flags the filter asks for, so a check
sets the same values in a deck alike; setting one flag per report is idempotent and commutes with setting another.

Voyage (C148): each check calculates its list of flags from the reports without their flags; the lists the code starts from are
overwritten at every place before they are returned (for runs of saturation this is an induction over the loop). Then as for C147.

Track (C149, C150): the alternate differences are calculated from positions and times only, so they are the same for reports
that differ in flags and in older alternate differences; the flags are written at two places of their own, and writing at different
places commutes. For the full check the same is done for one pass; a witness of five reports shows that the later passes change what
a second call starts from.

Buoy (C151): each check is written as a plan (lists of flags with their places) that is calculated first and written
afterwards.  The plan of a record is shown to be that of the record with all flags removed; for `new_speed_check` this
goes through the copies, their differences and the iQuam check made on them.  Writing a plan twice, or two plans with
different places in either order, gives the same reports.

Tracking (C152): adding reports to a voyage overwrites all stored differences, so the voyage of a pass depends on flags
only through the filter.  The second run is compared with the first pass by pass: before each check it has the same reports
but with the flags of the final result, and the filters read only flags that no later check sets.

Tracking (C153): the voyages of a pass over two orders are both in time order and hold the same reports, so they are equal but
for the differences stored in their first reports; the checks are shown not to read those.  What a pass leaves is, up to
order, the checked voyage and the reports not chosen.

Tracking (C154, C155): the branch `oldqc` of tracking_qc.py is modelled as a second program, with the original aground and
speed checks, the extra filter on `iquam_track` and the mark in the names of the output files.  The lemmas about a pass
(C93–C97, C152, C153) hold for any check that is blind to flags, and the original checks are (C151), so the same
theorems are proved for it.

Tracking (C156): Rerun.lean compares two file systems. `Spec.OnlyTrackingFiles` says that they agree on all files whose name
does not begin with `Tracking_` and that the second has all directories of the first. Every step of the output preserves it,
also when it fails; the names of the input files are not of this form, so that what is read does not change. The second run
is then a fixed point: all directories exist and every file is overwritten with the same text. C98 gives the hypotheses.

Tracking (C157): Beside.lean runs `trackingMain` and `formerMain` after each other. Two paths with the run names `runid` and
`runid` + `oldqc` have different lengths after the last slash, so that the output of one is another file for the other, and
by C156_inputs and C157_inputs both read the reports of the base program.

Queue (C158): the queue is a list of jobs, each with its user and the rest of its line of the listing. `QueueStep` is one step
of the wrapper or of anybody else: a submission, a look at the listing that shows too many jobs or few enough, or any other
change that adds no job of the wrapper's user. The bound is an invariant of all executions. `str.count` is modelled from left
to right and proved to be the greatest number of occurrences that do not overlap (`Spec.Occurs`). The end of the loop is
stated with an arbitrary sequence of listings.

Hires columns (C159): which of the columns in the table of the program for high resolution carry a result. That two flags are never set and five are 0 or 1
is an invariant of the reports from the moment they are read through the base checks, the ships and the buddy checks; the rows of the file then follow from C133.

Base columns (C160): the flags each stage of the main program sets (C34, C100, C102) are put together into one statement for every column of the tables: which hold a
result for every report, which only for reports that passed the checks of place and time, and which never do.

Drifter (C145): for arbitrary files the loops over the rows of flags are followed by induction; a row that has another UID, a column
without a value or no report in its place makes the reading fail, so that success gives the relation row by row. The flags of the
two files are stored under names that begin with POS and SST and do not disturb each other.

Alone (C135): no part of reading, base checks and ship checks looks at the background values a report carries: each step commutes with
`veil`, which blanks them. With C104 the reading of a record is then a function of the record and its month alone, with C99 the ship
checks of a platform a function of its reports, and with C102 the buddy checks set only their own flags.

Near (C136): the specifications of the buddy flags (C102) determine the flags, given the mean and number of anomalies in the cells a search
looks at; these are sums over the reports there and do not depend on their order. With C135 the reports of each platform nearby are the
same in both runs.

Rest (C137–C140): code that the programs do not call. A printed line is a list of cells; each cell is shown to have its width and to show
its value (`CellOk`), and a line cut at the sums of the widths gives the cells back. The prediction is followed from the differences that C40
says the reports of a voyage hold. The reader of simple records is the inverse of a writer given as a specification, since the code has none.
`base_qc_report` is taken through its flags one by one as C34 was, and compared with C34.

Feeds (C141–C143): the readers of near-real-time lines and of test records are functions of a text, with the readings of numbers
and dates as parameters. A specification joins texts with commas; the reader is shown to give a record exactly for such lines. The flags
of the report follow from C31, C22 and C34. The accessors of a voyage are functions of a list and an index.

The table below is generated by `tools/design.py` from `MANIFEST.json`: for each property, the modules with its theorems,
and what was proved. A theorem `Cnn_..._partial` proves part of the English statement, `Cnn_..._violation` proves that the
code does not have the property somewhere. All other `Cnn_...` theorems are further parts of the property.

<!-- table -->
| Property | Theorems in | Status | Note |
|---|---|---|---|
| C01 yesterday() is the exact calendar predecessor | Calendar/Props | proved | Years 1..9999 as accepted by datetime. |
| C02 Pentads tile the year | Calendar/Props | proved | The finite day and pentad tables are checked by the kernel and lifted to all inputs. |
| C03 day_in_year numbers the 365-day year | Calendar/Props | proved |  |
| C04 dayinyear counts the days of a given year | Calendar/Props, Checks/DayTest | proved |  |
| C05 Julian day numbers advance by exactly one per day | Calendar/Props | proved | All integer years. |
| C06 Time differences are exact, signed and additive | Calendar/Props | proved | Hours are exact rationals, float rounding is not modelled. |
| C07 year_month_gen enumerates every month once | Calendar/Props | proved | Non-termination is stated as: no number of loop rounds suffices. |
| C08 Month stepping is invertible and gives the three month window | Calendar/Props | proved |  |
| C09 season() maps months to seasons and rejects other numbers | Calendar/Props | partial | Proved for every integer except 0, where the code returns DJF (C09_season_zero_violation). |
| C10 Chunks of months are exactly the gap-separated groups of data | YM/Props | proved | Gaps 1..10; C10_gap_eleven_violation shows the code breaks for larger gaps. |
| C100 What the flags of the checks of ships mean | Base/Props | proved | The distance must be symmetric and zero between equal points, which is proved of sphere_distance in C67. |
| C101 The checks of ships complete | Base/Props | partial | Proved when the reports of each identifier come in time order in the deck. One ship with three reports out of order can stop the program for all ships (C101_unordered_violation). |
| C102 Which reports are compared with their buddies, and what the buddy flags mean | Base/BuddyProps | proved |  |
| C103 The buddy checks complete | Base/BuddyProps | proved | The base checks limit the anomalies to the maximum the Bayesian check allows, because both read the same parameter. |
| C104 Reading a month: every usable record becomes one report | Base/ReadInv, Base/ReadLine, Base/ReadProps | proved | C104_columns leaves out lines with a second core among their attachments. |
| C105 Background and climatology of a report are those of its own date and place | Base/ReadNeeds, Base/ReadProps | partial | Fails when neighbouring dated records of different months have the same day of the month (C105_stale_violation). |
| C106 When reading a month completes | Base/ReadCompletion, Base/ReadNeeds | partial | The conditions are sufficient and mostly necessary (C106_needed); the program gives up where it means to skip (C106_violation). |
| C107 The files a month leaves behind | Base/OutProps | partial | C107_deck: without tracking, in full. C107_output_partial: with tracking, for drifters whose reports have a place and, if an hour is given, a date, and whose identifiers have no slash and make different file names. C107_violation: a drifter report with an hour but no day stops the program after the deck's files, leaving an empty list and no drifter files. |
| C108 A run over months is the same as separate runs | Base/RunProps | proved | C108_months: the run over months as a whole. C108_reports: the reports of one month, whatever background is left in the library. |
| C109 What a run leaves behind | Base/RunEnd | partial | C109_rows: the reports written are the records of the month's file, in order. C109_records: the unique identifiers in each file of the deck. C109_run_partial and C109_stops_partial: all months and the stopping of the run, under the conditions of C107 on drifters and with an output directory in which nothing is in the way. |
| C11 Chunk classification and dates | YM/Props | proved | Gaps 1..10, for every counter over a range of consecutive months. |
| C110 The flags of a month, from its files to its output | Base/RunChecks | partial | C110_flags: in full, for checks that complete. C110_completes_partial: completion under conditions on the files and lines; C101 and C106 show by example that such conditions are needed. |
| C111 A run over an archive in good order completes | Base/RunArchive | partial | C111_run_partial: from conditions on the archive alone to the files of all months. The conditions are sufficient; C101, C106 and C107 show for some of them by example that they are needed. |
| C112 Fields are read in the cell and time step of the place and day | Lookup/Props | partial | Fields of 73 pentads, single fields, daily fields of one degree and daily fields of a quarter of a degree. get_sst_daily accepts longitudes up to 365 but raises IndexError beyond 180 (C112_daily_violation); get_sst accepts longitudes from -185 to 365 but raises AssertionError beyond -180 and 360 for a single field (C112_single_violation). |
| C113 The normal of a report is the value of its cell and day, and looking it up never fails | Lookup/Props | proved |  |
| C114 The interpolated normal lies between values nearby | Lookup/Props | partial | Proved for fields of pentads except at latitude -89.5, where the program raises AssertionError (C114_south_violation). Single fields next to the date line lose the neighbours on the other side (C114_dateline_violation). |
| C115 The tracking program reads back what the main program found | Base/RunHandover | partial | Missing: identifiers with a slash or an asterisk or of fewer than nine characters (C91), an identifier whose file name is that of another drifter, and the conditions of C107 on drifters. |
| C116 A run of the main program and then the tracking program | Base/RunHandover | partial | Missing: as for C115 and C96. |
| C117 Every flag is one digit | Base/RunFlags | proved | For completed checks; completion is C106 and C111. |
| C118 From the archive to the tracks | Base/RunTrack | partial | Missing: as for C111 and C116. |
| C119 The wrapper sees the drifters the main program saw | Wrapper/Lists | partial | Missing: identifiers with a comma or a line break, which are cut (C119_comma_violation), and the conditions of C107 and C109. |
| C12 Regular chunks are stable and each chunk is new exactly once | YM/Props | proved | Including the converse: edge-case chunks are not stable. |
| C120 A job script passes on what the wrapper decided | Wrapper/Command | partial | Missing: identifiers with a blank inside, which argparse rejects (C120_blank_violation), or with characters special to the shell or beginning with a hyphen. |
| C121 The wrapper submits one job per wanted chunk | Wrapper/Jobs, Wrapper/RunNames, Wrapper/Sample | partial | Missing: identifiers with a slash; and that each script file holds its own script when two identifiers differ in blanks only, in which case one overwrites the other (C121_name_violation). |
| C122 The whole system tracks every drifter's record once | Wrapper/System | partial | Missing: as for C118 and C119-C121 (identifiers that are not plain words of at most nine characters padded with blanks). Jobs at the same time are C124. |
| C123 The tracking job, operation by operation | Wrapper/Steps | proved | For every script, settings and file system. A file is read in one step, a text is written one character at a time. |
| C124 Tracking jobs may run at the same time, be killed and be started again | Wrapper/Restart | partial | Missing: what is missing in C122. A file is read in one step (no job changes the files that are read), a text is written one character at a time. |
| C125 The main program, operation by operation | Crash/Steps | proved | For every environment, list of months and file system, whether the run completes or stops with an exception. |
| C126 An interrupted run can be repeated | Crash/Rerun | proved | Spec.Killed: any number of operations done, and of each file the run has opened any beginning. That a restarted run takes the same data from its inputs is part of the model: the inputs are not on the file system that is written. |
| C127 A month that was being written is never read in part | Crash/Again, Crash/Archive, Crash/Tracked | partial | Proved where the files of the drifter did not exist before the run, under the conditions of C115 (C127_interrupted_partial) and from the archive (C127_archive_partial). C127_again_violation: where a run overwrites the files of an earlier run and is killed, a temperature cut off after its first digit is read without error. Files that were closed are taken to be complete. |
| C128 Preparing the tracking alone gives the same reports as the main program | TrackOnly/Props | proved | Shadow.lean: all that the programs compute for these flags they compute from what the two reports have in common. |
| C129 The program that only prepares tracking leaves the same files for the tracking program | TrackOnly/Props | proved | For the two programs as modelled (see DESIGN.md on the run): completion, the directories, the untouched deck files and the equality of all other files are proved from any file system; the only difference allowed is spelled out in LacksAnomalies. |
| C13 Latitude indices address the cell containing the point | Grid/Props | proved | Positions are exact rationals. |
| C130 The tracking program gives the same after either program | TrackOnly/Props | proved | The reports of drifters are assumed to be Storable (C91), as C118 derives from the archive, and the tracking program's directories not to be files of the deck. |
| C131 The program for high resolution changes only its own files | Hires/Props | partial | Proved for every run. Missing: main-program files of a drifter whose identifier is hires or ends in _hires can have the name of a file of this program (C131_names_violation). |
| C132 The program for high resolution agrees with the main program where the climatology does not matter | Hires/Props | partial | Proved for reports and lists; the files of the main program under the exclusion of C131. |
| C133 The program for high resolution completes where the main program does | Hires/Props | partial | Under the conditions of C111 (which C101, C106 and C107 show to be needed) and a climatology on a regular grid. |
| C134 The months of a run may be checked by programs that run at the same time | Parallel/Props | proved | C134_alone: the program of the pool is the run. C134_at_once: any interleaving. C134_restart: after killed programs. C134_others: files of others, without any condition. Programs that share a month, and the copies of compressed background files in the scratch directory, are not covered. |
| C135 Apart from the buddy checks, a platform's results do not depend on other platforms | Alone/Props, Alone/Sample | partial | Proved for everything in a report but the background values. Missing: those, which a record of another platform can change (C135_background_violation), because the program reads a new background only when the day of the month changes. |
| C136 Only platforms nearby can change a platform's flags | Near/Props | proved | For completed checks; completion is C106 and C111. Background values are excepted in the statement (C135_background_violation). |
| C137 A fixed-width line can be read by column | Rest/Print | proved | The numbers must have room in their columns (a hypothesis of the theorems): Python's format does not cut them. |
| C138 The predicted next place continues the last leg | Rest/Predict | proved | The geometry is a parameter; that course, distance and dead reckoning fit together is C84. |
| C139 A record of fixed columns is read back exactly | Rest/Reader | proved | Python's float of a text is a parameter, with the hypothesis that it reads right-aligned integers and refuses blanks. |
| C14 Longitude indices are periodic and address the right cell | Grid/Props | proved | Every longitude from -540 eastwards; C14_west_of_range_violation shows what happens further west. |
| C140 Both forms of the base checks give the same flags | Rest/OldCases, Rest/OldChecks | partial | The two differ for longitudes from 360 to 720 (C140_longitude_violation), hour 24 (C140_hour_violation) and missing hours, where base_qc_report raises (C140_missing_hour_violation). The flag for air temperatures to leave out is under another name and goes to 1893 instead of 1892 (C140_flags). |
| C141 Near-real-time lines are read as they stand and checked as they stand | Feeds/Props | proved | float and dateutil are arbitrary functions; the text nan as latitude or longitude counts as not readable. Near-real-time reports of 2025 and later are all flagged for their date. |
| C142 Test records are read column by column | Feeds/Access | proved | float is an arbitrary function. |
| C143 The accessors of a voyage act on the one report an index means | Feeds/Access | proved | C143_stale and C143_stale_violation: the stored speed, course, distance and time difference become stale. |
| C144 The main program may check further months while the tracking of earlier ones runs | Parallel/Both | partial | Missing: what is missing in C122. Months that are being tracked are not checked again at the same time: a job that then finds a file emptied stops with an error and writes nothing (C145_emptied). |
| C145 The tracking program accepts a month only if its files fit together | Drifter/Match | proved | C145_accepted and C145_refused for any files. Rows are counted without empty lines: C145_blank_line shows a month in which the last report has no flags because a file of flags ends with an empty line. |
| C146 Repeating the base checks of a report is harmless | Report/Again | proved | All four base checks that can complete (perform_base_dat_qc never does, C34_dat_violation). A check that raises in mid-course is not covered. |
| C147 Buddy checks may be repeated and run in any order | Buddy/Again | proved | For checks that complete; a filter that asks for the check's own flag is excluded (a report flagged the first time would be left out the second time). |
| C148 The checks of a voyage may be repeated and run in any order | Voyage/Again | proved | The five checks that set one flag per report, for voyages of any length; for checks that complete. |
| C149 The track check may be repeated and moved among the other checks of a voyage | Track/Again, Track/Order | proved | Independence of flags and of earlier differences, repetition, and both directions of exchanging the order with the five other checks of a voyage. |
| C15 MDS-style indices stay in the grid and follow the border rule | Grid/Props | proved | For every resolution with a whole number of cells per hemisphere, not finer than 0.001 degrees. |
| C150 The full track check may be repeated | Track/FullAgain, Track/FullBlind | partial | The code violates the full claim: the passes over the unflagged reports overwrite the speeds stored in the shared reports, so a second call can take a flag away (C150_violation, witness of five reports). Proved: a check that flags nothing may be repeated (C150_twice_partial), and the flags found do not depend on flags already set or on alternate differences left before (C150_blind). |
| C151 The checks of a drifter may be repeated and run in any order | Buoy/Again | proved | Flags are shown to be calculated from reports stripped of all flags, including the iQuam screening that new_speed_check makes on copies. The Voyage methods are covered with sort=False, as tracking_qc.py calls them. As in C52 and C53 the elevation of the sun is an arbitrary function. |
| C152 The checks of the tracking program may be repeated | Tracking/Again | proved | With oldqc false, the default, as in C93-C98. The result is equal in full: data, flags and stored differences. |
| C153 The tracking flags do not depend on the order in which reports are read | Tracking/Order | proved | With oldqc false, the default. The stored differences are left out because Voyage.sort does not renew those of the first report; the checks are shown not to read them. |
| C154 The original aground and speed checks of the tracking program | Tracking/Former | proved | With oldqc true. Completion is for the records of C96; the parameters must be valid. |
| C155 The original tracking checks may be repeated and do not depend on the order of reading | Tracking/Former | proved | With oldqc true. As C152 and C153: the order theorem leaves the stored differences out. |
| C156 The tracking program may be run again and never touches its input | Tracking/Rerun | proved | With new tracking checks. C156_only_tracking and C156_inputs hold for every run; C156_rerun under the conditions of C97_main, and C156_after_base gives them for what the base program wrote. Names of runs and identifiers contain no slash. |
| C157 The new and the original tracking checks do not disturb each other | Tracking/Beside | proved | C157_only_tracking and C157_inputs hold for every run; C157_rerun and C157_beside under the conditions of C97_main and C154_main, and C157_after_base gives them for what the base program wrote. |
| C158 The wrapper does not flood the queue and does not wait for others | Queue/Props | partial | The bound holds with 251 and 251 is reached (C158_over_violation), because the look at the queue comes after the submission; with more than 250 jobs at the start one more is submitted (C158_start). The count is never too small (C158_sees_own) and exact if the name is nowhere else in the listing (C158_exact); jobs of users whose names contain the name are counted and can stop the wrapper for ever (C158_others_violation). Nobody else submits jobs as the same user. |
| C159 The columns of the table for high resolution carry the result of their check | Hires/Columns | partial | Proved for clim, nonorm, freez, noval, hardlimit and bud. For spike and nbud the claim is false of every report the program checks (C159_never_violation) and of every row it writes (C159_file_violation). rep and bbud as in the main program. |
| C16 Surrounding grid points bracket the position | Grid/Interp | partial | Every latitude except -89.5, where the code returns the same latitude twice (C16_surrounding_points_violation). |
| C160 The columns of the tables of the main program carry the result of their check | Base/Columns | partial | Proved for every column but four: SST nbud, AT freez, DPT freez and DPT bbud have no check and hold 9 for every report (C160_never_violation). The Bayesian columns hold a probability and are C102 and C117. |
| C17 Bilinear interpolation is safe and fill_missing_vals is conservative | Grid/Interp | proved |  |
| C18 Climatology lookups never leave the field and reject bad dates | Grid/Clim | proved | Also get_value_ostia. Fields of ny rows and 2 ny columns. |
| C19 Loading a climatology is independent of the file's axis orientation | Grid/Clim | partial | Three-dimensional variables on grids finer than two degrees. Coarser grids starting at 0 and four-dimensional variables are mishandled by the code (C19_coarse_violation, C19_four_dim_violation). |
| C20 Climatology checks flag exactly the outliers | Checks/Props | proved | All values and limits; the low-bar variant is stated for positive deviations and C20_lowbar_zero_deviation_raises shows what happens at 0. |
| C21 Single value checks decide exactly their stated condition | Checks/Props | proved |  |
| C22 Position, time and date checks accept exactly valid input | Checks/Props | proved | C22_date_month_raises records that months outside -11..12 raise IndexError instead of failing. |
| C23 The blacklist is exactly the documented list | Checks/Props | proved | The deck 732 table is specified region by region, the program has it year by year. |
| C24 Generic identifiers depend on the year only through the documented windows | Checks/Props | proved |  |
| C25 The day test looks exactly one hour back | Checks/DayTest | proved | For an arbitrary elevation function. C25_track_day_test_hour_24: hour 24 passes track_day_test's own assertion but raises in sunangle. |
| C26 Angles on a circle | Checks/DayTest | proved | C26_beyond_a_turn_violation shows the restriction to one turn is needed. |
| C27 Winsorised and trimmed means are order independent and bounded | Stats/Props | proved | Exact arithmetic. Lists of Python 2 integers, where the division truncates, are not modelled. The mean of the values kept by trimmed_mean is defined for trim 0 and for trim 3 or more; C27_trimmed_undefined gives the other cases, where numpy returns NaN. |
| C28 Bayesian gross-error probability is a probability | Stats/Props | proved | Over the reals: rounding of floats and of scipy's erf is not modelled. |
| C30 QC flags behave as a map from (type, flag) to the last value written | Report/Props | partial | Acceptance and the flags-as-a-map reading are proved for keys that do not collide; C30_collision_violation shows two distinct (type, name) pairs that share one stored flag. |
| C31 Report variables and the timestamp stay consistent | Report/Props | partial | Proved for every sequence of non-raising writes ending in a day, hour or year write; C31_month_violation and C31_raise_violation show the stale timestamp after a month write and after a raising write. |
| C32 Report comparisons are those of identifier and time | Report/Order | proved | All reports with timestamps; C32_missing_raises and C32_missing_time_intransitive describe reports without a timestamp. |
| C33 Normalised longitude | Report/Props | proved |  |
| C34 Base QC sets every flag and each flag means what it says | Report/BaseQc | partial | Every flag equals its check, nothing else changes, completion for all reports with a position, year and month. The clause on the dew-point hard limit is false of the code (C34_hardlimit_violation: always 1) and perform_base_dat_qc never completes (C34_dat_violation). |
| C35 Humidity variables are all present or all missing | Report/Props | proved |  |
| C36 Ship speed and course codes | Report/Props | proved | Codes above 9 raise in the code; the theorem says so. |
| C37 QC filters select exactly the matching reports and splitting loses nothing | Deck/Props | proved |  |
| C38 Platforms partition the deck | Deck/Props | proved | deck index; sort and pop disagreements are proved as violations of the stronger reading (see DESIGN) |
| C39 The climatology library is a map | Deck/Props | proved |  |
| C40 Voyages carry speed, distance, course and time difference to the previous report | Voyage/Difference, Voyage/Links | proved |  |
| C41 Saturated runs are flagged exactly | Voyage/Sat | proved |  |
| C42 Repeated and rounded values are flagged exactly | Voyage/Values | proved |  |
| C43 iQuam track check ends with no violating pair among survivors | Voyage/Pairs | proved |  |
| C44 Spike check ends with no violating pair among survivors | Voyage/Pairs | proved |  |
| C45 Ship track check decisions | Track/Complete, Track/Props | partial | Decision, flags, unchanged data and completion proved for voyages in time order; out of time order the check can raise (C45_unordered_violation). |
| C46 MDS track check returns one flag per report and is monotone over passes | Track/Full | partial | Everything proved except that a single report from deck 720 before 1891 gets two flags (C46_one_flag_violation). |
| C47 Modal speed and speed limits | Track/Speed | partial | Modal speed and limits characterised exactly; the limit is not monotone in the modal speed across 8.51 knots (C47_limits_violation). |
| C49 Aground flags form a suffix | Buoy/Aground | proved | Both aground checks: exact flags on the smoothed track, flagged reports form the end of the record, completion and rejected parameters. |
| C50 Drifter speed check flags exactly the members of fast windows | Buoy/Speed | proved | Exact flags for a positive minimum period, completion and rejected parameters. A minimum period of zero is accepted by the code but makes every longer record raise (C50_zero_period_violation). |
| C51 New drifter speed check ignores positions screened out | Buoy/Screen, Buoy/Speed | proved | Exact flags with the screen given by the iQuam check on ship copies; for placed reports the screen is characterised by the removal sequence; completion; iQuam flags untouched. A period of zero never completes (C51_zero_period_violation). |
| C52 Tail flags are a prefix and a suffix, never the whole record | Buoy/TailProps | proved | Exact arithmetic; the npass assertion is unreachable because the window tests do not depend on direction (floating point summation order could differ between the two directions). |
| C53 Bias and noise flags are all-or-nothing | Buoy/Bias | proved | Exact arithmetic. |
| C54 Super-observations are cell means independent of input order | Buddy/Cells | proved | Sums and means over any list of observations; adding succeeds exactly for places on the globe and dates of a leap year; order does not matter. Exact arithmetic. |
| C55 Buddy limits use the first populated neighbourhood | Buddy/Limits | proved | Limits of a cell with any tables, and completion with usable tables; the multiplier characterised for all tables. |
| C56 Buddy checks give every report a legal flag | Buddy/Check | proved | Flags of both checks tied to the specifications of C54 and C55, and completion. The error function is the integral; square roots are real. |
| C60 Base-36 digits round trip | Imma/Fields | proved |  |
| C61 An IMMA attachment written and read back is unchanged | Imma/Fields, Imma/Layouts | partial | Proved for every fixed-width layout and every value the fields can hold, except negative numbers: every negative value is written one unit too high (C61_negative_violation). Text in NU and base-36 values outside 0-35 are not restored either (violations). |
| C62 A multi-attachment record written and read back is unchanged | Imma/Record, Imma/Sample | partial | Proved for the core followed by any list of attachments 1-7, 9, 95, 96, 98 whose last attachment has a value. A last attachment without values is lost; attachments 8 and 99 are misread (violations); 97 cannot be read (C78). |
| C63 Background and ICOADS file selection picks the first available candidate | Files/Select | partial | Choice of the file proved for all stub lists and file systems. Violated: for a compressed file without a scratch copy the returned file is empty, because the command line appends '.bz2' a second time (C63_bunzip_violation). |
| C64 Placeholder filling and bad-ID lists | Files/Names | proved | Stubs are taken apart into fixed text and placeholders; bad-ID files as lists of lines. |
| C65 safe_filename makes a legal file name of the same length | Files/Names | proved | C65_collision shows that different names can become equal. |
| C66 Humidity conversions are mutually consistent | Hums/Mixed, Hums/Props | partial | Inverses, Buck's formulas, wet bulb, saturation and rounding proved. rh below 100 exactly if the dew point is below the temperature: proved for the same phase (C66_unsaturated_partial) and for every dew point at least 0.1 degrees from 0 (C66_humidity_partial); false nearer to freezing (C66_supersaturation_violation). Three routines raise TypeError for missing inputs (C66_missing_violation) |
| C67 Great-circle distance is a metric-like quantity | Sphere/Distance | proved | great-circle distance over real arithmetic: symmetric, zero only for the same place, triangle inequality, range, turns |
| C68 Dead reckoning travels the requested distance | Sphere/Between, Sphere/Travel | proved | the point reached is the one reached by travelling along the great circle; started exactly at a pole the course is ignored (C68_pole) |
| C70 Tracking wrapper submits the chunks its mode promises | YM/Props | partial | all, standard, new and the identifier dictionary are exact. noend also submits chunks that are near both ends (C70_noend_violation); its exact behaviour is C70_mode_noend_partial. |
| C71 Interpolated climatology values are safe and local | Grid/InterpValue | partial | Every latitude except -89.5, where the call raises (C71_interpolated_violation). |
| C72 The sun's angles are in range and obey the culmination bounds | Checks/Sun | proved | Exact real arithmetic. At the nadir and on the equator a division by zero occurs (C72_equator_raises). |
| C73 The sun routine's clock follows the calendar | Checks/Sun | partial | Holds for 1980-2099. Before 1980 the clock stands still or jumps at year ends (C73_sun_clock_violation). |
| C74 The trimmed standard deviation measures the spread of the middle values | Stats/Spread | proved |  |
| C75 A report's position is normalised | Report/Position | proved |  |
| C76 Neighbour cells are searched once and lie within the radius | Buddy/Radius | partial | Proved for rows further from the poles than the radius and radii that do not reach round the globe; proved to fail at the poles (C76_pole_violation, C76_double_count_violation). |
| C77 Both ways to compute MDS buddy limits agree | Buddy/Radius | proved | Equality of both computations for every cell. |
| C78 Reading an IMMA line always ends, with a complete record or a ValueError or KeyError | Imma/Read | proved |  |
| C79 Declared ranges fit the declared widths | Imma/Layouts | proved |  |
| C80 Different months have different input files and output directories | Files/Names | proved |  |
| C81 Output directories exist afterwards and nothing else changes | Files/Select | proved | C81_missing_base: without the base directory nothing is made although a name is returned. |
| C82 Dates are written in ISO form or recognisably missing | Files/Dates | proved |  |
| C83 Dead-reckoned longitudes stay in range | Sphere/Between | partial | proved for eastward courses; westward across the date line the longitude falls below -180 (C83_westward_violation) |
| C84 The course between two points leads from one to the other | Sphere/Between | proved | away from the poles; at a pole the code fixes the course (C84_pole) |
| C85 Dew point is recovered from vapour pressure | Hums/Mixed, Hums/Props | partial | Proved when the wet bulb is above 0 (C85_water_partial), for air not above 0 with dew point at most -0.1 (C85_ice_partial), and for dew points from -10 to -0.1 in air above 0 whose wet bulb is not (C85_mixed_partial). False at 0 degrees (C85_freezing_violation) and for very dry air above 0 with low dew points (C85_dry_violation: -40 becomes less than -43) |
| C86 The columns of an output row are those of its header | Output/Lines | partial | Proved for every non-empty list of names; for an empty list of variables the header is an empty line while rows have three fields (C86_empty_violation). |
| C87 A deck's output holds exactly the reports of the month | Output/Tables | proved | Reports must have a UID without special characters and no quotation mark in the identifier; the output directory exists. The order in which the blocks are written is arbitrary. For an empty deck an empty variables file is left and IndexError raised (C87_empty). |
| C88 Different output never goes to the same file | Output/Voyages | partial | Proved for decks, and for voyages with equal run names and safe identifiers; voyage files collide when safe_filename maps identifiers to the same text (C88_voyage_violation) or run names contain underscores (C88_run_violation). |
| C89 A voyage's output holds exactly the reports of the month | Output/Voyages | partial | Proved for identifiers without a slash; with a slash writing stops after the variables file (C89_slash_violation) because write_qc uses the raw identifier. |
| C90 The tracking file has one aligned row per report | Output/Tracking | proved | Reports must have a UID without special characters; numbers are written by an arbitrary function giving text that is not empty, has no separators and does not end in white space. |
| C91 A drifter's month is read back as it was written | Drifter/Props | partial | str and float are any pair of functions that agree up to rounding (Spec.Numerals). Proved for identifiers without slash and asterisk. With an asterisk the reader does not find the variables file (C91_asterisk_violation); identifiers shorter than nine characters are never found (C91_short_violation). |
| C92 A chunk of months is read back complete and in order | Drifter/Props | partial | As for C91; the exception for a chunk without reports is part of the theorem. |
| C93 Tracking changes nothing but the drifter flags | Tracking/Props | proved |  |
| C94 Which reports get which drifter flags | Tracking/Props | proved | The platform type of all reports is 7, which the program itself sets when it reads them (C91). |
| C95 Each tracking check sees the chosen reports in time order | Tracking/Props | proved | Reports have timestamps and one identifier, as when they have been read (C91). |
| C96 The tracking program completes for every drifter | Tracking/Complete, Tracking/Main | partial | Proved when all reports, also those excluded from the checks, have a position and time, and no two good reports of the same minute have different times. Otherwise the program can stop: one report without a position prevents all output (C96_unplaced_violation), and two reports of the same minute in the wrong order stop the speed check (C96_same_minute_violation). |
| C97 The results are written to each directory asked for | Tracking/Main, Tracking/Output | proved | The hypotheses on the reports are those of C96; the directories and the file name must not be taken by something of the other kind. |
| C98 What the base program writes the tracking program takes up | Tracking/Handover | partial | Composition of C92, C96 and C97, with their restrictions on identifiers (C91) and on reports of the same minute (C96). |
| C99 Every ship is checked on its own | Base/Props | proved |  |
<!-- end of table -->

## What is modelled and what is not

Modelled, function by function: BackgroundField.py, CalcHums.py, Climatology.py (the NetCDF variables are arguments),
IMMA1.py (from text of a record to parameters and back), NRT.py, SimpleIMMA.py, spherical_geometry.py, TestIMMA.py, track_check.py, trackqc.py, YMCounter.py;
of qc.py and Extended_IMMA.py every function except those listed below; of Tracking_QC_wrapper.py everything but the waiting for the queue;
marine_qc_track_only.py and marine_qc_hires.py but for what marine_qc.py leaves out below; of marine_qc.py the choice of months, the reading of reports, the checks of ships, the buddy checks, the output and the loop over months; of tracking_qc.py everything but the reading of
parameter files.

Not modelled:

* floating-point rounding, overflow, NaN and infinities (except where the code tests for them or a property names them);
  in particular all "exactly on the limit" statements are about exact numbers. C52 (number of passes of a drifter's
  windows) and everything else computed from times is for exact arithmetic;
* reading NetCDF, gzip and bzip2 files; process spawning, the log files; the time between two looks at the queue;
  loss of what was written before a power failure; `ConfigParser`, `json`, and `argparse` except for the arguments of tracking_qc.py (without its
  abbreviations and its `-x=value` forms): their results are arguments; the shell beyond lines, comments and plain words;
* `str` and `repr` of floats: an arbitrary function `fmt`;
* messages printed on the terminal;
* in Extended_IMMA.py: `printsim`;
* in qc.py: `imma1_record_to_marine_rep` (it uses names that are not defined);
* the driver scripts' `main` functions except as stated above, the unit tests.

## Trusted base

* Lean 4.33.0's kernel.
* The axioms `propext`, `Classical.choice` and `Quot.sound`, all from Lean's standard library. `tools/axioms.txt` lists for
  every theorem of `MANIFEST.json` the axioms that it depends on, as printed by `#print axioms`. No other axiom is used:
  no `sorryAx`, no `Lean.ofReduceBool`.
* The definitions from Mathlib that appear in statements (`Real.sin`, `Complex.arg`, `Real.exp`, `Int.floor`, ...).
* The reading of the Python source: each definition of a `Model.lean` cites file and lines. Nothing but reading
  connects the Lean definitions with the Python text. As a check of the reading, the topic Conform states the
  repository's unit tests (test_qc.py, test_YMCounter.py, test_BackgroundField.py, test_track_check.py,
  test_Extended_IMMA.py, test_trackqc.py, test_CalcHums.py, test_spherical_geometry.py, test_Climatology.py) as
  `example`s or theorems named `test_...`: the model gives the results that those tests expect of the code.
  Each file says which tests are left out. These examples are tests, not proofs, and no claim rests on them.

## Disagreements found between code and documented or expected behaviour

Each is proved of the model by the theorem named.

* season(0) is 'DJF' instead of None (`C09_season_zero_violation`).
* year_month_gen never ends for months of one year in the wrong order (`C07_year_month_gen_diverges`).
* get_chunks breaks for gaps above 10: chunks are lost or end before they start (`C10_gap_eleven_violation`).
* edge mode 'noend' submits chunks that end at the end of the series when they also start at its start (`C70_noend_violation`).
* lon_to_xindex returns an index outside the grid west of -540 (`C14_west_of_range_violation`).
* get_four_surrounding_points returns the same latitude twice at -89.5, and get_interpolated_value raises there (`C16_surrounding_points_violation`, `C71_interpolated_violation`).
* Climatology.from_filename reverses the level axis of four-dimensional variables (`C19_four_dim_violation`).
* ... and does not roll fields of two degrees or coarser (`C19_coarse_violation`).
* climatology_plus_stdev_with_lowbar divides by a standard deviation of zero (`C20_lowbar_zero_deviation_raises`).
* date_check raises IndexError for months from 13 and up to -12 (`C22_date_month_raises`).
* angle_diff is negative beyond a full turn (`C26_beyond_a_turn_violation`).
* sunangle divides by zero with the sun at the nadir on the equator (`C72_equator_raises`).
* the sun clock stands still at the turn of 1976/77 and jumps at the turn of 1979/80 (`C73_sun_clock_violation`).
* flags of different variables share one key when the concatenated names agree (`C30_collision_violation`).
* setvar('MO', ...) leaves the old timestamp (`C31_month_violation`).
* a setvar that raises leaves the new value with the old timestamp (`C31_raise_violation`).
* comparing reports with missing timestamps raises (`C32_missing_raises`).
* the hard-limit flag of the dew point is always 1 (`C34_hardlimit_violation`).
* perform_base_dat_qc always raises (`C34_dat_violation`).
* after Deck.sort every report is yielded twice (`C38_sort_violation`).
* after Deck.pop the platform generator raises IndexError (`C38_pop_violation`).
* the track check raises for reports that are not in time order (`C45_unordered_violation`).
* mds_track_check returns two flags for a single report from deck 720 before 1891 (`C46_one_flag_violation`).
* the speed limits are not monotone and the 'max' exceeds the 'max max' limit (`C47_limits_violation`).
* speed_check and new_speed_check with a minimum period of zero always raise (`C50_zero_period_violation`, `C51_zero_period_violation`).
* at the poles the buddy search looks at the opposite pole and counts cells twice (`C76_pole_violation`, `C76_double_count_violation`).
* negative values are written one unit too high in IMMA records (`C61_negative_violation`).
* a character field with units cannot be written (`C61_text_units_violation`).
* base-36 digits outside the range are changed (`C61_digit_violation`).
* a trailing attachment without values is lost (`C62_trailing_violation`).
* attachments 8 and 99 are misread (`C62_attachment8_violation`, `C62_attachment99_violation`).
* an uncompressed background file is empty (the command doubles the ending) (`C63_bunzip_violation`).
* dead reckoning west across the date line returns a longitude below -180 (`C83_westward_violation`).
* at the poles the course is ignored (`C68_pole`, `C84_pole`).
* relative humidity above 100 for a dew point below the temperature (`C66_supersaturation_violation`).
* three humidity routines raise TypeError for missing values (`C66_missing_violation`).
* td_from_vap does not invert vap at the freezing point (`C85_freezing_violation`), nor for very dry air above 0 degrees (`C85_dry_violation`).
* an output header without variables is empty (`C86_empty_violation`).
* an empty deck leaves an empty variables file and raises IndexError (`C87_empty`).
* voyages can overwrite each other's files (`C88_voyage_violation`, `C88_run_violation`).
* a slash in the identifier stops Voyage.write_output after its first file (`C89_slash_violation`).
* the tracking program does not find a drifter with an asterisk in its identifier (`C91_asterisk_violation`), nor one whose identifier is shorter than nine characters (`C91_short_violation`).
* one report without a position, even if it is excluded from all checks, keeps the tracking program from writing anything (`C96_unplaced_violation`).
* two reports of a drifter in the same minute, the later first, stop the tracking program (`C96_same_minute_violation`).
* one ship whose reports are not in time order can stop the main program for all ships (`C101_unordered_violation`).
* a report keeps the background of the month before when the day of the month is the same (`C105_stale_violation`).
* a blank or malformed line, a month without a file, a record without position, outside the earth or with hour 24 stops the reading of a month (`C106_violation`).
* a drifter's report with an hour but without a day stops the main program after the deck's files, with an empty list of drifters (`C107_violation`).
* get_sst_daily raises IndexError for longitudes from 180 to 365, which it accepts (`C112_daily_violation`); get_sst raises for a single field beyond -180 and 360 (`C112_single_violation`).
* the interpolated normal raises at latitude -89.5 (`C114_south_violation`), and for single fields ignores the neighbours across the date line (`C114_dateline_violation`).
* an identifier with a comma is cut at the comma by the tracking wrapper (`C119_comma_violation`).
* an identifier with a blank inside makes the tracking program stop at its arguments (`C120_blank_violation`).
* two identifiers that differ in blanks only share a job script, and the first is lost (`C121_name_violation`).
* where the main program overwrites the files of an earlier run and is killed, the tracking program can read a number of which the last digits are missing (`C127_again_violation`).
* a drifter named `hires`, or whose identifier ends in `_hires`, has a file of the main program with the name of a file of the program for high resolution (`C131_names_violation`).
* a record of another platform in the archive can change the background temperature a report gets (`C135_background_violation`).
* base_qc_report and perform_base_qc differ for longitudes above 360 (`C140_longitude_violation`), hour 24 (`C140_hour_violation`) and a missing hour (`C140_missing_hour_violation`), and in the last year of the deck left out for air temperature (`C140_flags`).
* date_check flags every year after 2024, so that all near-real-time reports since then are flagged (`C141_flags`).
* Voyage.setvar leaves speed, course, distance and time difference as they were (`C143_stale`, `C143_stale_violation`).
* mds_full_track_check stores the speeds of its later passes in the reports of the voyage, so that a second call can take away a flag the first one set (`C150_violation`).
* the tracking wrapper can have 251 jobs in the queue where 250 is documented as the maximum (`C158_over_violation`), and counts jobs of users whose names contain that of its own (`C158_others_violation`).
* marine_qc_hires.py writes the columns `spike` and `nbud` but runs no check that sets them: both hold 9 in every row (`C159_never_violation`, `C159_file_violation`).
* the main program writes the columns SST `nbud`, AT `freez`, DPT `freez` and DPT `bbud` but has no check that sets them: they hold 9 for every report (`C160_never_violation`).
