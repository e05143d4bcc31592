import Verif.Buoy.Model
import Verif.Conform.Tools

/-!
# The repository's unit tests as tests of the model: the drifter position checks of test_trackqc.py

Generated from test_trackqc.py:61-1108 by reading its lists of reports and expected flags.  These are not proofs of
properties.  They check that the model gives the flags that the repository's own tests expect of the code, on the
inputs of those tests.  The model takes the functions of spherical_geometry.py as a parameter; here they are rational
approximations.
-/

namespace MarineQC.Conform

/-- A report of the tests, as `MarineReportQC` makes it from a record. -/
def driftRep (yr mo dy : Int) (hr lat lon : Rat) (pt : Option Rat) : Except Err Report :=
  Report.init (some "AAAAAAAAA") none [("YR", some yr), ("MO", some mo), ("DY", some dy), ("HR", some hr),
    ("LAT", some lat), ("LON", some lon), ("SST", some 5), ("PT", pt)]

/-- test_trackqc.py:647-651. -/
def iquamTest : IquamParams := ⟨15, 60, 111 / 100, 1 / 100, 5⟩

/-- test_trackqc.py:66-72. -/
def groundTrack1 : List (Except Err Report) :=
  [driftRep 2003 12 1 12 0 0 none,
   driftRep 2003 12 2 12 0 0 none,
   driftRep 2003 12 3 12 0 0 none,
   driftRep 2003 12 4 12 0 0 none,
   driftRep 2003 12 5 12 0 0 none,
   driftRep 2003 12 6 12 0 0 none,
   driftRep 2003 12 7 12 0 0 none]

/-- test_trackqc.py:75-81. -/
def groundTrack2 : List (Except Err Report) :=
  [driftRep 2003 12 1 12 0 0 none,
   driftRep 2003 12 2 12 0 0 none,
   driftRep 2003 12 3 12 1 0 none,
   driftRep 2003 12 4 12 0 0 none,
   driftRep 2003 12 5 12 0 1 none,
   driftRep 2003 12 6 12 0 0 none,
   driftRep 2003 12 7 12 0 0 none]

/-- test_trackqc.py:84-90. -/
def groundTrack3 : List (Except Err Report) :=
  [driftRep 2003 12 1 12 0 0 none,
   driftRep 2003 12 2 12 0 0 none,
   driftRep 2003 12 3 12 1 0 none,
   driftRep 2003 12 4 12 1 0 none,
   driftRep 2003 12 5 12 0 0 none,
   driftRep 2003 12 6 12 0 0 none,
   driftRep 2003 12 7 12 0 0 none]

/-- test_trackqc.py:93-99. -/
def groundTrack4 : List (Except Err Report) :=
  [driftRep 2003 12 1 12 0 0 none,
   driftRep 2003 12 2 12 0 0 none,
   driftRep 2003 12 3 12 (1 / 100) (1 / 100) none,
   driftRep 2003 12 4 12 (1 / 100) (1 / 100) none,
   driftRep 2003 12 5 12 0 0 none,
   driftRep 2003 12 6 12 0 0 none,
   driftRep 2003 12 7 12 0 0 none]

/-- test_trackqc.py:102-108. -/
def groundTrack5 : List (Except Err Report) :=
  [driftRep 2003 12 1 12 0 0 none,
   driftRep 2003 12 2 12 0 (-1 / 50) none,
   driftRep 2003 12 3 12 0 (-1 / 25) none,
   driftRep 2003 12 4 12 0 (-3 / 50) none,
   driftRep 2003 12 5 12 0 (-2 / 25) none,
   driftRep 2003 12 6 12 0 (-1 / 10) none,
   driftRep 2003 12 7 12 0 (-3 / 25) none]

/-- test_trackqc.py:111-117. -/
def groundTrack6 : List (Except Err Report) :=
  [driftRep 2003 12 1 12 0 0 none,
   driftRep 2003 12 2 12 (1 / 50) 0 none,
   driftRep 2003 12 3 12 (1 / 25) 0 none,
   driftRep 2003 12 4 12 (3 / 50) 0 none,
   driftRep 2003 12 5 12 (2 / 25) 0 none,
   driftRep 2003 12 6 12 (1 / 10) 0 none,
   driftRep 2003 12 7 12 (3 / 25) 0 none]

/-- test_trackqc.py:120-126. -/
def groundTrack7 : List (Except Err Report) :=
  [driftRep 2003 12 1 12 0 0 none,
   driftRep 2003 12 2 12 (1 / 50) 0 none,
   driftRep 2003 12 3 12 (1 / 25) 0 none,
   driftRep 2003 12 4 12 (3 / 50) 0 none,
   driftRep 2003 12 5 12 (2 / 25) 0 none,
   driftRep 2003 12 6 12 (2 / 25) 0 none,
   driftRep 2003 12 7 12 (2 / 25) 0 none]

/-- test_trackqc.py:129-135. -/
def groundTrack8 : List (Except Err Report) :=
  [driftRep 2003 12 1 1 0 0 none,
   driftRep 2003 12 1 2 0 0 none,
   driftRep 2003 12 1 3 0 0 none,
   driftRep 2003 12 1 4 0 0 none,
   driftRep 2003 12 1 5 0 0 none,
   driftRep 2003 12 1 6 0 0 none,
   driftRep 2003 12 1 7 0 0 none]

/-- test_trackqc.py:138-144. -/
def groundTrack9 : List (Except Err Report) :=
  [driftRep 2003 12 1 12 0 0 none,
   driftRep 2003 12 4 12 0 0 none,
   driftRep 2003 12 7 12 0 0 none,
   driftRep 2003 12 10 12 0 0 none,
   driftRep 2003 12 13 12 0 0 none,
   driftRep 2003 12 16 12 0 0 none,
   driftRep 2003 12 19 12 0 0 none]

/-- test_trackqc.py:147-153. -/
def groundTrack10 : List (Except Err Report) :=
  [driftRep 2003 12 1 12 0 0 none,
   driftRep 2003 12 3 0 0 0 none,
   driftRep 2003 12 4 12 0 0 none,
   driftRep 2003 12 6 0 0 0 none,
   driftRep 2003 12 7 12 0 0 none,
   driftRep 2003 12 9 0 0 0 none,
   driftRep 2003 12 10 12 0 0 none]

/-- test_trackqc.py:156-162. -/
def groundTrack11 : List (Except Err Report) :=
  [driftRep 2003 12 1 12 0 0 none,
   driftRep 2003 12 4 12 0 0 none,
   driftRep 2003 12 7 12 0 0 none,
   driftRep 2003 12 8 12 0 0 none,
   driftRep 2003 12 9 12 0 0 none,
   driftRep 2003 12 10 12 0 0 none,
   driftRep 2003 12 11 12 0 0 none]

/-- test_trackqc.py:165-171. -/
def groundTrack12 : List (Except Err Report) :=
  [driftRep 2003 12 1 12 0 0 none,
   driftRep 2003 12 2 12 (1 / 200) (-1 / 200) none,
   driftRep 2003 12 3 12 (1 / 100) (-1 / 100) none,
   driftRep 2003 12 4 12 (3 / 200) (-3 / 200) none,
   driftRep 2003 12 5 12 (1 / 50) (-1 / 50) none,
   driftRep 2003 12 6 12 (1 / 40) (-1 / 40) none,
   driftRep 2003 12 7 12 (3 / 100) (-3 / 100) none]

/-- test_trackqc.py:174-180. -/
def groundTrack13 : List (Except Err Report) :=
  [driftRep 2003 12 1 12 85 0 none,
   driftRep 2003 12 2 12 85 (-1 / 50) none,
   driftRep 2003 12 3 12 85 (-1 / 25) none,
   driftRep 2003 12 4 12 85 (-3 / 50) none,
   driftRep 2003 12 5 12 85 (-2 / 25) none,
   driftRep 2003 12 6 12 85 (-1 / 10) none,
   driftRep 2003 12 7 12 85 (-3 / 25) none]

/-- test_trackqc.py:183-189. -/
def groundTrack14 : List (Except Err Report) :=
  [driftRep 2003 12 1 12 0 0 none,
   driftRep 2003 12 2 12 0 0 none,
   driftRep 2003 12 3 12 0 0 none,
   driftRep 2003 12 4 12 0 0 none,
   driftRep 2003 12 5 12 (1 / 50) 0 none,
   driftRep 2003 12 6 12 (1 / 25) 0 none,
   driftRep 2003 12 7 12 (3 / 50) 0 none]

/-- test_trackqc.py:192-193. -/
def groundTrack15 : List (Except Err Report) :=
  [driftRep 2003 12 1 12 0 0 none,
   driftRep 2003 12 2 12 0 (-1 / 50) none]

/-- test_trackqc.py:196-202. -/
def groundTrack16 : List (Except Err Report) :=
  [driftRep 2003 12 1 12 0 0 none,
   driftRep 2003 12 2 12 0 (-1 / 50) none,
   driftRep 2003 12 3 12 0 (-1 / 25) none,
   driftRep 2003 12 4 12 0 (-3 / 50) none,
   driftRep 2003 12 5 12 0 (-2 / 25) none,
   driftRep 2003 12 6 12 0 (-1 / 10) none,
   driftRep 2003 12 7 12 0 (-3 / 25) none]

/-- test_trackqc.py:205-211. -/
def groundTrack17 : List (Except Err Report) :=
  [driftRep 2003 12 1 12 0 0 none,
   driftRep 2003 12 2 12 0 (-1 / 50) none,
   driftRep 2003 12 3 12 0 (-1 / 25) none,
   driftRep 2003 12 4 12 0 (-3 / 50) none,
   driftRep 2003 12 5 12 0 (-2 / 25) none,
   driftRep 2003 12 6 12 0 (-1 / 10) none,
   driftRep 2003 12 7 12 0 (-3 / 25) none]

/-- test_trackqc.py:214-220. -/
def groundTrack18 : List (Except Err Report) :=
  [driftRep 2003 12 1 12 0 0 none,
   driftRep 2003 12 2 12 0 (-1 / 50) none,
   driftRep 2003 12 3 12 0 (-1 / 25) none,
   driftRep 2003 12 2 12 0 (-3 / 50) none,
   driftRep 2003 12 5 12 0 (-2 / 25) none,
   driftRep 2003 12 6 12 0 (-1 / 10) none,
   driftRep 2003 12 7 12 0 (-3 / 25) none]

/-- test_trackqc.py:391-395 `test_stationary`. -/
example : ((drifterOf groundTrack1).bind (agroundCheck testGeo 3 1 2)).map (flagList "POS" "drf_agr") = .ok [1, 1, 1, 1, 1, 1, 1] := by
  decide +kernel

/-- test_trackqc.py:397-401 `test_stationary_jitter_spikes`. -/
example : ((drifterOf groundTrack2).bind (agroundCheck testGeo 3 1 2)).map (flagList "POS" "drf_agr") = .ok [1, 1, 1, 1, 1, 1, 1] := by
  decide +kernel

/-- test_trackqc.py:403-407 `test_stationary_big_remaining_jitter`. -/
example : ((drifterOf groundTrack3).bind (agroundCheck testGeo 3 1 2)).map (flagList "POS" "drf_agr") = .ok [0, 0, 0, 0, 1, 1, 1] := by
  decide +kernel

/-- test_trackqc.py:409-413 `test_stationary_small_remaining_jitter`. -/
example : ((drifterOf groundTrack4).bind (agroundCheck testGeo 3 1 2)).map (flagList "POS" "drf_agr") = .ok [1, 1, 1, 1, 1, 1, 1] := by
  decide +kernel

/-- test_trackqc.py:415-419 `test_moving_west`. -/
example : ((drifterOf groundTrack5).bind (agroundCheck testGeo 3 1 2)).map (flagList "POS" "drf_agr") = .ok [0, 0, 0, 0, 0, 0, 0] := by
  decide +kernel

/-- test_trackqc.py:421-425 `test_moving_north`. -/
example : ((drifterOf groundTrack6).bind (agroundCheck testGeo 3 1 2)).map (flagList "POS" "drf_agr") = .ok [0, 0, 0, 0, 0, 0, 0] := by
  decide +kernel

/-- test_trackqc.py:427-431 `test_moving_north_then_stop`. -/
example : ((drifterOf groundTrack7).bind (agroundCheck testGeo 3 1 2)).map (flagList "POS" "drf_agr") = .ok [0, 0, 0, 0, 1, 1, 1] := by
  decide +kernel

/-- test_trackqc.py:433-437 `test_stationary_high_freq_sampling`. -/
example : ((drifterOf groundTrack8).bind (agroundCheck testGeo 3 1 2)).map (flagList "POS" "drf_agr") = .ok [0, 0, 0, 0, 0, 0, 0] := by
  decide +kernel

/-- test_trackqc.py:439-443 `test_stationary_low_freq_sampling`. -/
example : ((drifterOf groundTrack9).bind (agroundCheck testGeo 3 1 2)).map (flagList "POS" "drf_agr") = .ok [0, 0, 0, 0, 0, 0, 0] := by
  decide +kernel

/-- test_trackqc.py:445-449 `test_stationary_mid_freq_sampling`. -/
example : ((drifterOf groundTrack10).bind (agroundCheck testGeo 3 1 2)).map (flagList "POS" "drf_agr") = .ok [1, 1, 1, 1, 1, 1, 1] := by
  decide +kernel

/-- test_trackqc.py:451-455 `test_stationary_low_to_mid_freq_sampling`. -/
example : ((drifterOf groundTrack11).bind (agroundCheck testGeo 3 1 2)).map (flagList "POS" "drf_agr") = .ok [0, 0, 1, 1, 1, 1, 1] := by
  decide +kernel

/-- test_trackqc.py:457-461 `test_moving_slowly_northwest`. -/
example : ((drifterOf groundTrack12).bind (agroundCheck testGeo 3 1 2)).map (flagList "POS" "drf_agr") = .ok [1, 1, 1, 1, 1, 1, 1] := by
  decide +kernel

/-- test_trackqc.py:463-467 `test_moving_slowly_west_in_arctic`. -/
example : ((drifterOf groundTrack13).bind (agroundCheck testGeo 3 1 2)).map (flagList "POS" "drf_agr") = .ok [1, 1, 1, 1, 1, 1, 1] := by
  decide +kernel

/-- test_trackqc.py:469-473 `test_stop_then_moving_north`. -/
example : ((drifterOf groundTrack14).bind (agroundCheck testGeo 3 1 2)).map (flagList "POS" "drf_agr") = .ok [0, 0, 0, 0, 0, 0, 0] := by
  decide +kernel

/-- test_trackqc.py:475-483 `test_too_short_for_qc`. -/
example : ((drifterOf groundTrack15).bind (agroundCheck testGeo 3 1 2)).map (flagList "POS" "drf_agr") = .ok [0, 0] := by
  decide +kernel

/-- test_trackqc.py:485-493 `test_error_bad_input_parameter`. -/
example : ((drifterOf groundTrack16).bind (agroundCheck testGeo 0 1 2)).map (flagList "POS" "drf_agr") = .error .assertion := by
  decide +kernel

/-- test_trackqc.py:495-503 `test_error_missing_observation`. -/
example : (((drifterOf groundTrack17).map (lacking 1 "LON")).bind (agroundCheck testGeo 3 1 2)).map (flagList "POS" "drf_agr") = .error .assertion := by
  decide +kernel

/-- test_trackqc.py:505-513 `test_error_not_time_sorted`. -/
example : ((drifterOf groundTrack18).bind (agroundCheck testGeo 3 1 2)).map (flagList "POS" "drf_agr") = .error .assertion := by
  decide +kernel

/-- test_trackqc.py:517-521 `test_new_stationary`. -/
example : ((drifterOf groundTrack1).bind (newAgroundCheck testGeo 3 1)).map (flagList "POS" "drf_agr") = .ok [1, 1, 1, 1, 1, 1, 1] := by
  decide +kernel

/-- test_trackqc.py:523-527 `test_new_stationary_jitter_spikes`. -/
example : ((drifterOf groundTrack2).bind (newAgroundCheck testGeo 3 1)).map (flagList "POS" "drf_agr") = .ok [1, 1, 1, 1, 1, 1, 1] := by
  decide +kernel

/-- test_trackqc.py:529-533 `test_new_stationary_big_remaining_jitter`. -/
example : ((drifterOf groundTrack3).bind (newAgroundCheck testGeo 3 1)).map (flagList "POS" "drf_agr") = .ok [0, 0, 0, 0, 1, 1, 1] := by
  decide +kernel

/-- test_trackqc.py:535-539 `test_new_stationary_small_remaining_jitter`. -/
example : ((drifterOf groundTrack4).bind (newAgroundCheck testGeo 3 1)).map (flagList "POS" "drf_agr") = .ok [1, 1, 1, 1, 1, 1, 1] := by
  decide +kernel

/-- test_trackqc.py:541-545 `test_new_moving_west`. -/
example : ((drifterOf groundTrack5).bind (newAgroundCheck testGeo 3 1)).map (flagList "POS" "drf_agr") = .ok [0, 0, 0, 0, 0, 0, 0] := by
  decide +kernel

/-- test_trackqc.py:547-551 `test_new_moving_north`. -/
example : ((drifterOf groundTrack6).bind (newAgroundCheck testGeo 3 1)).map (flagList "POS" "drf_agr") = .ok [0, 0, 0, 0, 0, 0, 0] := by
  decide +kernel

/-- test_trackqc.py:553-557 `test_new_moving_north_then_stop`. -/
example : ((drifterOf groundTrack7).bind (newAgroundCheck testGeo 3 1)).map (flagList "POS" "drf_agr") = .ok [0, 0, 0, 0, 1, 1, 1] := by
  decide +kernel

/-- test_trackqc.py:559-563 `test_new_stationary_high_freq_sampling`. -/
example : ((drifterOf groundTrack8).bind (newAgroundCheck testGeo 3 1)).map (flagList "POS" "drf_agr") = .ok [0, 0, 0, 0, 0, 0, 0] := by
  decide +kernel

/-- test_trackqc.py:565-569 `test_new_stationary_low_freq_sampling`. -/
example : ((drifterOf groundTrack9).bind (newAgroundCheck testGeo 3 1)).map (flagList "POS" "drf_agr") = .ok [1, 1, 1, 1, 1, 1, 1] := by
  decide +kernel

/-- test_trackqc.py:571-575 `test_new_stationary_mid_freq_sampling`. -/
example : ((drifterOf groundTrack10).bind (newAgroundCheck testGeo 3 1)).map (flagList "POS" "drf_agr") = .ok [1, 1, 1, 1, 1, 1, 1] := by
  decide +kernel

/-- test_trackqc.py:577-581 `test_new_stationary_low_to_mid_freq_sampling`. -/
example : ((drifterOf groundTrack11).bind (newAgroundCheck testGeo 3 1)).map (flagList "POS" "drf_agr") = .ok [1, 1, 1, 1, 1, 1, 1] := by
  decide +kernel

/-- test_trackqc.py:583-587 `test_new_moving_slowly_northwest`. -/
example : ((drifterOf groundTrack12).bind (newAgroundCheck testGeo 3 1)).map (flagList "POS" "drf_agr") = .ok [0, 0, 0, 1, 1, 1, 1] := by
  decide +kernel

/-- test_trackqc.py:589-593 `test_new_moving_slowly_west_in_arctic`. -/
example : ((drifterOf groundTrack13).bind (newAgroundCheck testGeo 3 1)).map (flagList "POS" "drf_agr") = .ok [1, 1, 1, 1, 1, 1, 1] := by
  decide +kernel

/-- test_trackqc.py:595-599 `test_new_stop_then_moving_north`. -/
example : ((drifterOf groundTrack14).bind (newAgroundCheck testGeo 3 1)).map (flagList "POS" "drf_agr") = .ok [0, 0, 0, 0, 0, 0, 0] := by
  decide +kernel

/-- test_trackqc.py:601-609 `test_new_too_short_for_qc`. -/
example : ((drifterOf groundTrack15).bind (newAgroundCheck testGeo 3 1)).map (flagList "POS" "drf_agr") = .ok [0, 0] := by
  decide +kernel

/-- test_trackqc.py:611-619 `test_new_error_bad_input_parameter`. -/
example : ((drifterOf groundTrack16).bind (newAgroundCheck testGeo 2 1)).map (flagList "POS" "drf_agr") = .error .assertion := by
  decide +kernel

/-- test_trackqc.py:621-629 `test_new_error_missing_observation`. -/
example : (((drifterOf groundTrack17).map (lacking 1 "LON")).bind (newAgroundCheck testGeo 3 1)).map (flagList "POS" "drf_agr") = .error .assertion := by
  decide +kernel

/-- test_trackqc.py:631-639 `test_new_error_not_time_sorted`. -/
example : ((drifterOf groundTrack18).bind (newAgroundCheck testGeo 3 1)).map (flagList "POS" "drf_agr") = .error .assertion := by
  decide +kernel

/-- test_trackqc.py:654-660. -/
def speedTrack1 : List (Except Err Report) :=
  [driftRep 2003 12 1 12 0 0 (some 7),
   driftRep 2003 12 2 12 0 0 (some 7),
   driftRep 2003 12 3 12 0 0 (some 7),
   driftRep 2003 12 4 12 0 0 (some 7),
   driftRep 2003 12 5 12 0 0 (some 7),
   driftRep 2003 12 6 12 0 0 (some 7),
   driftRep 2003 12 7 12 0 0 (some 7)]

/-- test_trackqc.py:663-669. -/
def speedTrack2 : List (Except Err Report) :=
  [driftRep 2003 12 1 12 0 0 (some 7),
   driftRep 2003 12 2 12 3 0 (some 7),
   driftRep 2003 12 3 12 6 0 (some 7),
   driftRep 2003 12 4 12 9 0 (some 7),
   driftRep 2003 12 5 12 12 0 (some 7),
   driftRep 2003 12 6 12 15 0 (some 7),
   driftRep 2003 12 7 12 18 0 (some 7)]

/-- test_trackqc.py:672-678. -/
def speedTrack3 : List (Except Err Report) :=
  [driftRep 2003 12 1 12 0 0 (some 7),
   driftRep 2003 12 2 12 0 1 (some 7),
   driftRep 2003 12 3 12 0 2 (some 7),
   driftRep 2003 12 4 12 0 3 (some 7),
   driftRep 2003 12 5 12 0 4 (some 7),
   driftRep 2003 12 6 12 0 5 (some 7),
   driftRep 2003 12 7 12 0 6 (some 7)]

/-- test_trackqc.py:681-687. -/
def speedTrack4 : List (Except Err Report) :=
  [driftRep 2003 12 1 12 0 0 (some 7),
   driftRep 2003 12 2 12 1 0 (some 7),
   driftRep 2003 12 3 12 2 0 (some 7),
   driftRep 2003 12 4 12 5 0 (some 7),
   driftRep 2003 12 5 12 8 0 (some 7),
   driftRep 2003 12 6 12 9 0 (some 7),
   driftRep 2003 12 7 12 10 0 (some 7)]

/-- test_trackqc.py:690-696. -/
def speedTrack5 : List (Except Err Report) :=
  [driftRep 2003 12 1 0 0 0 (some 7),
   driftRep 2003 12 1 1 3 0 (some 7),
   driftRep 2003 12 1 2 6 0 (some 7),
   driftRep 2003 12 1 3 9 0 (some 7),
   driftRep 2003 12 1 4 12 0 (some 7),
   driftRep 2003 12 1 5 15 0 (some 7),
   driftRep 2003 12 1 6 18 0 (some 7)]

/-- test_trackqc.py:699-705. -/
def speedTrack6 : List (Except Err Report) :=
  [driftRep 2003 12 1 12 0 0 (some 7),
   driftRep 2003 12 2 13 5 0 (some 7),
   driftRep 2003 12 3 14 10 0 (some 7),
   driftRep 2003 12 4 15 15 0 (some 7),
   driftRep 2003 12 5 16 20 0 (some 7),
   driftRep 2003 12 6 17 25 0 (some 7),
   driftRep 2003 12 7 18 30 0 (some 7)]

/-- test_trackqc.py:708-714. -/
def speedTrack7 : List (Except Err Report) :=
  [driftRep 2003 12 1 0 0 0 (some 7),
   driftRep 2003 12 1 12 (1 / 2) 0 (some 7),
   driftRep 2003 12 2 0 1 0 (some 7),
   driftRep 2003 12 2 12 (5 / 2) 0 (some 7),
   driftRep 2003 12 3 0 4 0 (some 7),
   driftRep 2003 12 3 12 (9 / 2) 0 (some 7),
   driftRep 2003 12 4 0 5 0 (some 7)]

/-- test_trackqc.py:717-723. -/
def speedTrack8 : List (Except Err Report) :=
  [driftRep 2003 12 1 12 0 0 (some 7),
   driftRep 2003 12 2 12 3 0 (some 7),
   driftRep 2003 12 4 12 12 0 (some 7),
   driftRep 2003 12 5 12 12 0 (some 7),
   driftRep 2003 12 5 23 14 0 (some 7),
   driftRep 2003 12 6 23 14 0 (some 7),
   driftRep 2003 12 7 23 17 0 (some 7)]

/-- test_trackqc.py:726-732. -/
def speedTrack9 : List (Except Err Report) :=
  [driftRep 2003 12 1 12 85 0 (some 7),
   driftRep 2003 12 2 12 85 30 (some 7),
   driftRep 2003 12 3 12 85 60 (some 7),
   driftRep 2003 12 4 12 85 90 (some 7),
   driftRep 2003 12 5 12 85 120 (some 7),
   driftRep 2003 12 6 12 85 150 (some 7),
   driftRep 2003 12 7 12 85 180 (some 7)]

/-- test_trackqc.py:735-741. -/
def speedTrack10 : List (Except Err Report) :=
  [driftRep 2003 12 1 12 0 0 (some 7),
   driftRep 2003 12 2 12 0 0 (some 7),
   driftRep 2003 12 3 12 50 0 (some 7),
   driftRep 2003 12 4 12 0 0 (some 7),
   driftRep 2003 12 5 12 0 0 (some 7),
   driftRep 2003 12 6 12 50 0 (some 7),
   driftRep 2003 12 7 12 0 0 (some 7)]

/-- test_trackqc.py:744-745. -/
def speedTrack11 : List (Except Err Report) :=
  [driftRep 2003 12 1 12 0 0 (some 7),
   driftRep 2003 12 2 12 0 0 (some 7)]

/-- test_trackqc.py:748-754. -/
def speedTrack12 : List (Except Err Report) :=
  [driftRep 2003 12 1 12 0 0 (some 7),
   driftRep 2003 12 2 12 0 0 (some 7),
   driftRep 2003 12 3 12 0 0 (some 7),
   driftRep 2003 12 4 12 0 0 (some 7),
   driftRep 2003 12 5 12 0 0 (some 7),
   driftRep 2003 12 6 12 0 0 (some 7),
   driftRep 2003 12 7 12 0 0 (some 7)]

/-- test_trackqc.py:757-763. -/
def speedTrack13 : List (Except Err Report) :=
  [driftRep 2003 12 1 12 0 0 (some 7),
   driftRep 2003 12 2 12 0 0 (some 7),
   driftRep 2003 12 3 12 0 0 (some 7),
   driftRep 2003 12 4 12 0 0 (some 7),
   driftRep 2003 12 5 12 0 0 (some 7),
   driftRep 2003 12 6 12 0 0 (some 7),
   driftRep 2003 12 7 12 0 0 (some 7)]

/-- test_trackqc.py:766-772. -/
def speedTrack14 : List (Except Err Report) :=
  [driftRep 2003 12 1 12 0 0 (some 7),
   driftRep 2003 12 2 12 0 0 (some 7),
   driftRep 2003 12 3 12 0 0 (some 7),
   driftRep 2003 12 2 12 0 0 (some 7),
   driftRep 2003 12 5 12 0 0 (some 7),
   driftRep 2003 12 6 12 0 0 (some 7),
   driftRep 2003 12 7 12 0 0 (some 7)]

/-- test_trackqc.py:908-912 `test_stationary`. -/
example : ((drifterOf speedTrack1).bind (speedCheck testGeo (5 / 2) (1 / 2) 1)).map (flagList "POS" "drf_spd") = .ok [0, 0, 0, 0, 0, 0, 0] := by
  decide +kernel

/-- test_trackqc.py:914-918 `test_fast_drifter`. -/
example : ((drifterOf speedTrack2).bind (speedCheck testGeo (5 / 2) (1 / 2) 1)).map (flagList "POS" "drf_spd") = .ok [1, 1, 1, 1, 1, 1, 1] := by
  decide +kernel

/-- test_trackqc.py:920-924 `test_slow_drifter`. -/
example : ((drifterOf speedTrack3).bind (speedCheck testGeo (5 / 2) (1 / 2) 1)).map (flagList "POS" "drf_spd") = .ok [0, 0, 0, 0, 0, 0, 0] := by
  decide +kernel

/-- test_trackqc.py:926-930 `test_slow_fast_slow_drifter`. -/
example : ((drifterOf speedTrack4).bind (speedCheck testGeo (5 / 2) (1 / 2) 1)).map (flagList "POS" "drf_spd") = .ok [0, 0, 1, 1, 1, 0, 0] := by
  decide +kernel

/-- test_trackqc.py:932-936 `test_high_freqency_sampling`. -/
example : ((drifterOf speedTrack5).bind (speedCheck testGeo (5 / 2) (1 / 2) 1)).map (flagList "POS" "drf_spd") = .ok [0, 0, 0, 0, 0, 0, 0] := by
  decide +kernel

/-- test_trackqc.py:938-942 `test_low_freqency_sampling`. -/
example : ((drifterOf speedTrack6).bind (speedCheck testGeo (5 / 2) (1 / 2) 1)).map (flagList "POS" "drf_spd") = .ok [0, 0, 0, 0, 0, 0, 0] := by
  decide +kernel

/-- test_trackqc.py:944-948 `test_slow_fast_slow_mid_freqency_sampling`. -/
example : ((drifterOf speedTrack7).bind (speedCheck testGeo (5 / 2) (1 / 2) 1)).map (flagList "POS" "drf_spd") = .ok [0, 1, 1, 1, 1, 1, 0] := by
  decide +kernel

/-- test_trackqc.py:950-954 `test_irregular_sampling`. -/
example : ((drifterOf speedTrack8).bind (speedCheck testGeo (5 / 2) (1 / 2) 1)).map (flagList "POS" "drf_spd") = .ok [1, 1, 0, 0, 0, 1, 1] := by
  decide +kernel

/-- test_trackqc.py:956-960 `test_fast_arctic_drifter`. -/
example : ((drifterOf speedTrack9).bind (speedCheck testGeo (5 / 2) (1 / 2) 1)).map (flagList "POS" "drf_spd") = .ok [1, 1, 1, 1, 1, 1, 1] := by
  decide +kernel

/-- test_trackqc.py:962-966 `test_stationary_gross_error`. -/
example : ((drifterOf speedTrack10).bind (speedCheck testGeo (5 / 2) (1 / 2) 1)).map (flagList "POS" "drf_spd") = .ok [0, 1, 1, 1, 1, 1, 1] := by
  decide +kernel

/-- test_trackqc.py:968-976 `test_too_short_for_qc`. -/
example : ((drifterOf speedTrack11).bind (speedCheck testGeo (5 / 2) (1 / 2) 1)).map (flagList "POS" "drf_spd") = .ok [0, 0] := by
  decide +kernel

/-- test_trackqc.py:978-986 `test_error_bad_input_parameter`. -/
example : ((drifterOf speedTrack12).bind (speedCheck testGeo (-5 / 2) (1 / 2) 1)).map (flagList "POS" "drf_spd") = .error .assertion := by
  decide +kernel

/-- test_trackqc.py:988-996 `test_error_missing_observation`. -/
example : (((drifterOf speedTrack13).map (lacking 1 "LON")).bind (speedCheck testGeo (5 / 2) (1 / 2) 1)).map (flagList "POS" "drf_spd") = .error .assertion := by
  decide +kernel

/-- test_trackqc.py:998-1006 `test_error_not_time_sorted`. -/
example : ((drifterOf speedTrack14).bind (speedCheck testGeo (5 / 2) (1 / 2) 1)).map (flagList "POS" "drf_spd") = .error .assertion := by
  decide +kernel

/-- test_trackqc.py:1010-1014 `test_new_stationary`. -/
example : ((drifterOf speedTrack1).bind (newSpeedCheck testGeo iquamTest (5 / 2) (1 / 2))).map (flagList "POS" "drf_spd") = .ok [0, 0, 0, 0, 0, 0, 0] := by
  decide +kernel

/-- test_trackqc.py:1016-1020 `test_new_fast_drifter`. -/
example : ((drifterOf speedTrack2).bind (newSpeedCheck testGeo iquamTest (5 / 2) (1 / 2))).map (flagList "POS" "drf_spd") = .ok [1, 1, 1, 1, 1, 1, 1] := by
  decide +kernel

/-- test_trackqc.py:1022-1026 `test_new_slow_drifter`. -/
example : ((drifterOf speedTrack3).bind (newSpeedCheck testGeo iquamTest (5 / 2) (1 / 2))).map (flagList "POS" "drf_spd") = .ok [0, 0, 0, 0, 0, 0, 0] := by
  decide +kernel

/-- test_trackqc.py:1028-1032 `test_new_slow_fast_slow_drifter`. -/
example : ((drifterOf speedTrack4).bind (newSpeedCheck testGeo iquamTest (5 / 2) (1 / 2))).map (flagList "POS" "drf_spd") = .ok [0, 0, 1, 1, 1, 0, 0] := by
  decide +kernel

/-- test_trackqc.py:1034-1038 `test_new_high_freqency_sampling`. -/
example : ((drifterOf speedTrack5).bind (newSpeedCheck testGeo iquamTest (5 / 2) (1 / 2))).map (flagList "POS" "drf_spd") = .ok [0, 0, 0, 0, 0, 0, 0] := by
  decide +kernel

/-- test_trackqc.py:1040-1044 `test_new_low_freqency_sampling`. -/
example : ((drifterOf speedTrack6).bind (newSpeedCheck testGeo iquamTest (5 / 2) (1 / 2))).map (flagList "POS" "drf_spd") = .ok [1, 1, 1, 1, 1, 1, 1] := by
  decide +kernel

/-- test_trackqc.py:1046-1050 `test_new_slow_fast_slow_mid_freqency_sampling`. -/
example : ((drifterOf speedTrack7).bind (newSpeedCheck testGeo iquamTest (5 / 2) (1 / 2))).map (flagList "POS" "drf_spd") = .ok [0, 0, 1, 1, 1, 0, 0] := by
  decide +kernel

/-- test_trackqc.py:1052-1056 `test_new_irregular_sampling`. -/
example : ((drifterOf speedTrack8).bind (newSpeedCheck testGeo iquamTest (5 / 2) (1 / 2))).map (flagList "POS" "drf_spd") = .ok [1, 1, 1, 0, 0, 1, 1] := by
  decide +kernel

/-- test_trackqc.py:1058-1062 `test_new_fast_arctic_drifter`. -/
example : ((drifterOf speedTrack9).bind (newSpeedCheck testGeo iquamTest (5 / 2) (1 / 2))).map (flagList "POS" "drf_spd") = .ok [1, 1, 1, 1, 1, 1, 1] := by
  decide +kernel

/-- test_trackqc.py:1064-1068 `test_new_stationary_gross_error`. -/
example : ((drifterOf speedTrack10).bind (newSpeedCheck testGeo iquamTest (5 / 2) (1 / 2))).map (flagList "POS" "drf_spd") = .ok [0, 0, 0, 0, 0, 0, 0] := by
  decide +kernel

/-- test_trackqc.py:1070-1078 `test_new_too_short_for_qc`. -/
example : ((drifterOf speedTrack11).bind (newSpeedCheck testGeo iquamTest (5 / 2) (1 / 2))).map (flagList "POS" "drf_spd") = .ok [0, 0] := by
  decide +kernel

/-- test_trackqc.py:1080-1088 `test_new_error_bad_input_parameter`. -/
example : ((drifterOf speedTrack12).bind (newSpeedCheck testGeo iquamTest (-5 / 2) (1 / 2))).map (flagList "POS" "drf_spd") = .error .assertion := by
  decide +kernel

/-- test_trackqc.py:1090-1098 `test_new_error_missing_observation`. -/
example : (((drifterOf speedTrack13).map (lacking 1 "LON")).bind (newSpeedCheck testGeo iquamTest (5 / 2) (1 / 2))).map (flagList "POS" "drf_spd") = .error .assertion := by
  decide +kernel

/-- test_trackqc.py:1100-1108 `test_new_error_not_time_sorted`. -/
example : ((drifterOf speedTrack14).bind (newSpeedCheck testGeo iquamTest (5 / 2) (1 / 2))).map (flagList "POS" "drf_spd") = .error .assertion := by
  decide +kernel
end MarineQC.Conform
