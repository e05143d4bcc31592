import Verif.Buddy.Model
import Verif.Conform.Tools
import Verif.Files.Model
import Verif.Output.Model
import Verif.YM.Model
import Verif.Report.Props

/-!
# The repository's unit tests as tests of the model: test_YMCounter.py, test_BackgroundField.py, test_track_check.py and test_Extended_IMMA.py

These are not proofs of properties.  They check that the model gives the results that the repository's own tests expect of
the code, on the inputs of those tests.  Left out: tests that look at files of the machine they were written for
(test_BackgroundField.py:76-146), tests that compare real numbers with a tolerance (test_track_check.py:12-67 and
108-240), and the limits with square roots (test_Extended_IMMA.py:289-329).
-/

namespace MarineQC.Conform

/-! ## test_YMCounter.py -/

/-- test_YMCounter.py:7-62. -/
example : getChunks [1, 0, 1, 0, 1, 0, 1, 0, 1, 0, 1, 0] 3 = ([0], [10]) ∧
    getChunks [0, 1, 0, 1, 0, 1, 0, 1, 0, 1, 0, 1] 3 = ([1], [11]) ∧
    getChunks [1, 1, 1, 1, 1, 1, 1, 1, 1, 1, 1, 1] 3 = ([0], [11]) ∧
    getChunks [0, 0, 0, 0, 0, 0, 0, 0, 0, 0, 0, 0] 3 = ([], []) ∧
    getChunks [1, 1, 1, 0, 0, 0, 1, 1, 1, 1, 1, 1] 3 = ([0, 6], [2, 11]) := by decide +kernel

/-- The counter of the tests for the months of 1985. -/
def counterOf (l : List Int) : Except Err YMCounter := do
  let c ← YMCounter.init 1985 1 1985 12
  return { c with counter := l }

/-- test_YMCounter.py:66-125. -/
example : ((counterOf [0, 0, 0, 0, 0, 0, 0, 0, 0, 0, 0, 1]).bind fun c => c.yieldDates 3)
      = .ok [(1985, 12, 1985, 12, ["end_edge_case"])] := by rfl

example : ((counterOf [1, 1, 1, 1, 1, 1, 0, 0, 0, 0, 0, 0]).bind fun c => c.yieldDates 3)
      = .ok [(1985, 1, 1985, 6, ["start_edge_case"])] := by rfl

example : ((counterOf [0, 0, 0, 1, 1, 1, 1, 0, 0, 0, 0, 0]).bind fun c => c.yieldDates 3)
      = .ok [(1985, 4, 1985, 7, ["regular"])] := by rfl

example : ((counterOf [0, 0, 0, 1, 1, 1, 1, 1, 1, 0, 0, 0]).bind fun c => c.yieldDates 3)
      = .ok [(1985, 4, 1985, 9, ["new", "regular"])] := by rfl

/-! ## test_BackgroundField.py -/

/-- test_BackgroundField.py:5-34. -/
example : buildCompletions "a".toList ["b".toList, "c".toList] = ["a/b".toList, "a/b/c".toList] ∧
    buildCompletions "a".toList ["b".toList] = ["a/b".toList] ∧
    buildCompletions "a/".toList ["b".toList] = ["a/b".toList] := by decide +kernel

/-- test_BackgroundField.py:37-46. -/
example : processString "OnceUponAYYYYMMMMDDDD".toList 2019 3 31 = "OnceUponA20190331".toList := by decide +kernel

/-- test_BackgroundField.py:49-77. -/
example : makeFilename "/project/data/coriolis/YYYY/MMMM/DDDD/".toList "AwesomeData_YYYYMMMMDDDD.nc".toList 2002 2 17
      = "/project/data/coriolis/2002/02/17/AwesomeData_20020217.nc".toList ∧
    makeFilename "/project/data/coriolis/YYYY/MMMM/DDDD".toList "AwesomeData_YYYYMMMMDDDD.nc".toList 2002 2 17
      = "/project/data/coriolis/2002/02/17/AwesomeData_20020217.nc".toList := by decide +kernel

/-! ## test_track_check.py -/

/-- test_track_check.py:69-105. -/
example : modesp [] = .ok none ∧ modesp [some 17] = .ok none ∧
    modesp (List.replicate 6 (some (20 / kmToNm))) = .ok (some ((39 / 2) / kmToNm)) ∧
    modesp (List.replicate 6 (some (2 / kmToNm))) = .ok (some ((17 / 2) / kmToNm)) ∧
    modesp (List.replicate 6 (some (200 / kmToNm))) = .ok (some ((69 / 2) / kmToNm)) ∧
    modesp ((List.range' 1 19).map fun i => some (i / kmToNm)) = .ok (some ((17 / 2) / kmToNm)) := by decide +kernel

/-- test_track_check.py:240-246.  The default of `max_direction_change` is 60. -/
example : ([0, 45, 90, 135, 180, 225, 270, 315, 360] : List Rat).all fun a =>
    directionContinuity (some a) (some a) (some (a + 601 / 10)) 60 == .ok 10
      && directionContinuity (some a) (some a) (some (a + 599 / 10)) 60 == .ok 0 := by decide +kernel

/-- test_track_check.py:249-269.  The default of `max_speed_change` is 10. -/
example : speedContinuity (some 12) (some 12) (some (12 / kmToNm)) 10 = 0 ∧
    speedContinuity (some 12) (some 12) (some ((12 + 1001 / 100) / kmToNm)) 10 = 10 ∧
    speedContinuity (some 12) (some 12) (some ((12 + 999 / 100) / kmToNm)) 10 = 0 ∧
    speedContinuity (some 12) (some 12) none 10 = 0 := by decide +kernel

/-! ## test_Extended_IMMA.py -/

/-- test_Extended_IMMA.py:22-30. -/
def buddyReps1 : List (Except Err Report) :=
  [Report.init (some "AAAAAAAAA") none
    [("YR", some 2003), ("MO", some 1), ("DY", some 1), ("HR", some 2), ("LAT", some (1 / 2)), ("LON", some (41 / 2)), ("SST", some 5)],
   Report.init (some "BBBBBBBBB") none
    [("YR", some 2002), ("MO", some 12), ("DY", some 31), ("HR", some 2), ("LAT", some (3 / 2)), ("LON", some (41 / 2)), ("SST", some 2)],
   Report.init (some "BBBBBBBBB") none
    [("YR", some 2002), ("MO", some 12), ("DY", some 30), ("HR", some 2), ("LAT", some (3 / 2)), ("LON", some (43 / 2)), ("SST", some 2)],
   Report.init (some "BBBBBBBBB") none
    [("YR", some 2002), ("MO", some 12), ("DY", some 29), ("HR", some 2), ("LAT", some (3 / 2)), ("LON", some (39 / 2)), ("SST", some 2)],
   Report.init (some "BBBBBBBBB") none
    [("YR", some 2002), ("MO", some 12), ("DY", some 28), ("HR", some 2), ("LAT", some (1 / 2)), ("LON", some (39 / 2)), ("SST", some 2)],
   Report.init (some "BBBBBBBBB") none
    [("YR", some 2003), ("MO", some 1), ("DY", some 6), ("HR", some 2), ("LAT", some (1 / 2)), ("LON", some (43 / 2)), ("SST", some 2)],
   Report.init (some "BBBBBBBBB") none
    [("YR", some 2003), ("MO", some 1), ("DY", some 7), ("HR", some 2), ("LAT", some (-1 / 2)), ("LON", some (41 / 2)), ("SST", some 2)],
   Report.init (some "BBBBBBBBB") none
    [("YR", some 2003), ("MO", some 1), ("DY", some 8), ("HR", some 2), ("LAT", some (-1 / 2)), ("LON", some (43 / 2)), ("SST", some 2)],
   Report.init (some "BBBBBBBBB") none
    [("YR", some 2003), ("MO", some 1), ("DY", some 9), ("HR", some 2), ("LAT", some (-1 / 2)), ("LON", some (39 / 2)), ("SST", some 2)]]

/-- test_Extended_IMMA.py:42-50. -/
def buddyReps2 : List (Except Err Report) :=
  [Report.init (some "AAAAAAAAA") none
    [("YR", some 2003), ("MO", some 1), ("DY", some 1), ("HR", some 2), ("LAT", some (1 / 2)), ("LON", some (41 / 2)), ("SST", some 5)],
   Report.init (some "BBBBBBBBB") none
    [("YR", some 2002), ("MO", some 12), ("DY", some 21), ("HR", some 2), ("LAT", some (3 / 2)), ("LON", some (41 / 2)), ("SST", some 2)],
   Report.init (some "BBBBBBBBB") none
    [("YR", some 2002), ("MO", some 12), ("DY", some 20), ("HR", some 2), ("LAT", some (3 / 2)), ("LON", some (43 / 2)), ("SST", some 2)],
   Report.init (some "BBBBBBBBB") none
    [("YR", some 2002), ("MO", some 12), ("DY", some 19), ("HR", some 2), ("LAT", some (3 / 2)), ("LON", some (39 / 2)), ("SST", some 2)],
   Report.init (some "BBBBBBBBB") none
    [("YR", some 2002), ("MO", some 12), ("DY", some 18), ("HR", some 2), ("LAT", some (1 / 2)), ("LON", some (39 / 2)), ("SST", some 2)],
   Report.init (some "BBBBBBBBB") none
    [("YR", some 2003), ("MO", some 1), ("DY", some 16), ("HR", some 2), ("LAT", some (1 / 2)), ("LON", some (43 / 2)), ("SST", some 2)],
   Report.init (some "BBBBBBBBB") none
    [("YR", some 2003), ("MO", some 1), ("DY", some 17), ("HR", some 2), ("LAT", some (-1 / 2)), ("LON", some (41 / 2)), ("SST", some 2)],
   Report.init (some "BBBBBBBBB") none
    [("YR", some 2003), ("MO", some 1), ("DY", some 18), ("HR", some 2), ("LAT", some (-1 / 2)), ("LON", some (43 / 2)), ("SST", some 2)],
   Report.init (some "BBBBBBBBB") none
    [("YR", some 2003), ("MO", some 1), ("DY", some 19), ("HR", some 2), ("LAT", some (-1 / 2)), ("LON", some (39 / 2)), ("SST", some 2)]]

/-- test_Extended_IMMA.py:62-70. -/
def buddyReps3 : List (Except Err Report) :=
  [Report.init (some "AAAAAAAAA") none
    [("YR", some 2003), ("MO", some 1), ("DY", some 1), ("HR", some 2), ("LAT", some (1 / 2)), ("LON", some (41 / 2)), ("SST", some 5)],
   Report.init (some "BBBBBBBBB") none
    [("YR", some 2002), ("MO", some 12), ("DY", some 21), ("HR", some 2), ("LAT", some (5 / 2)), ("LON", some (41 / 2)), ("SST", some 2)],
   Report.init (some "BBBBBBBBB") none
    [("YR", some 2002), ("MO", some 12), ("DY", some 20), ("HR", some 2), ("LAT", some (5 / 2)), ("LON", some (45 / 2)), ("SST", some 2)],
   Report.init (some "BBBBBBBBB") none
    [("YR", some 2002), ("MO", some 12), ("DY", some 19), ("HR", some 2), ("LAT", some (5 / 2)), ("LON", some (37 / 2)), ("SST", some 2)],
   Report.init (some "BBBBBBBBB") none
    [("YR", some 2002), ("MO", some 12), ("DY", some 18), ("HR", some 2), ("LAT", some (1 / 2)), ("LON", some (37 / 2)), ("SST", some 2)],
   Report.init (some "BBBBBBBBB") none
    [("YR", some 2003), ("MO", some 1), ("DY", some 16), ("HR", some 2), ("LAT", some (1 / 2)), ("LON", some (45 / 2)), ("SST", some 2)],
   Report.init (some "BBBBBBBBB") none
    [("YR", some 2003), ("MO", some 1), ("DY", some 17), ("HR", some 2), ("LAT", some (-3 / 2)), ("LON", some (41 / 2)), ("SST", some 2)],
   Report.init (some "BBBBBBBBB") none
    [("YR", some 2003), ("MO", some 1), ("DY", some 18), ("HR", some 2), ("LAT", some (-3 / 2)), ("LON", some (45 / 2)), ("SST", some 2)],
   Report.init (some "BBBBBBBBB") none
    [("YR", some 2003), ("MO", some 1), ("DY", some 19), ("HR", some 2), ("LAT", some (-3 / 2)), ("LON", some (37 / 2)), ("SST", some 2)]]

/-- test_Extended_IMMA.py:84-92. -/
def buddyReps4 : List (Except Err Report) :=
  [Report.init (some "AAAAAAAAA") none
    [("YR", some 2003), ("MO", some 1), ("DY", some 1), ("HR", some 2), ("LAT", some (1 / 2)), ("LON", some (41 / 2)), ("SST", some 5)],
   Report.init (some "BBBBBBBBB") none
    [("YR", some 2002), ("MO", some 12), ("DY", some 21), ("HR", some 2), ("LAT", some (7 / 2)), ("LON", some (41 / 2)), ("SST", some (19 / 10))],
   Report.init (some "BBBBBBBBB") none
    [("YR", some 2002), ("MO", some 12), ("DY", some 20), ("HR", some 2), ("LAT", some (7 / 2)), ("LON", some (47 / 2)), ("SST", some (17 / 10))],
   Report.init (some "BBBBBBBBB") none
    [("YR", some 2002), ("MO", some 12), ("DY", some 19), ("HR", some 2), ("LAT", some (7 / 2)), ("LON", some (35 / 2)), ("SST", some 2)],
   Report.init (some "BBBBBBBBB") none
    [("YR", some 2002), ("MO", some 12), ("DY", some 18), ("HR", some 2), ("LAT", some (1 / 2)), ("LON", some (35 / 2)), ("SST", some 2)],
   Report.init (some "BBBBBBBBB") none
    [("YR", some 2003), ("MO", some 1), ("DY", some 16), ("HR", some 2), ("LAT", some (1 / 2)), ("LON", some (47 / 2)), ("SST", some 2)],
   Report.init (some "BBBBBBBBB") none
    [("YR", some 2003), ("MO", some 1), ("DY", some 17), ("HR", some 2), ("LAT", some (-5 / 2)), ("LON", some (41 / 2)), ("SST", some 2)],
   Report.init (some "BBBBBBBBB") none
    [("YR", some 2003), ("MO", some 1), ("DY", some 18), ("HR", some 2), ("LAT", some (-5 / 2)), ("LON", some (47 / 2)), ("SST", some (23 / 10))],
   Report.init (some "BBBBBBBBB") none
    [("YR", some 2003), ("MO", some 1), ("DY", some 19), ("HR", some 2), ("LAT", some (-5 / 2)), ("LON", some (35 / 2)), ("SST", some (21 / 10))]]

/-- test_Extended_IMMA.py:236-239. -/
def superReps1 : List (Except Err Report) :=
  [Report.init (some "AAAAAAAAA") none
    [("YR", some 2003), ("MO", some 12), ("DY", some 1), ("HR", some 0), ("LAT", some (1 / 2)), ("LON", some (1 / 2)), ("SST", some 5)],
   Report.init (some "BBBBBBBBB") none
    [("YR", some 2003), ("MO", some 12), ("DY", some 1), ("HR", some 0), ("LAT", some (1 / 2)), ("LON", some (1 / 2)), ("SST", some 5)],
   Report.init (some "BBBBBBBBB") none
    [("YR", some 2003), ("MO", some 12), ("DY", some 1), ("HR", some 10), ("LAT", some (1 / 2)), ("LON", some (1 / 2)), ("SST", some 5)],
   Report.init (some "BBBBBBBBB") none
    [("YR", some 2003), ("MO", some 12), ("DY", some 1), ("HR", some 10), ("LAT", some (3 / 2)), ("LON", some (1 / 2)), ("SST", some 5)]]

/-- test_Extended_IMMA.py:251-255. -/
def superReps2 : List (Except Err Report) :=
  [Report.init (some "AAAAAAAAA") none
    [("YR", some 2003), ("MO", some 1), ("DY", some 1), ("HR", some 0), ("LAT", some (1 / 2)), ("LON", some (1 / 2)), ("SST", some 5)],
   Report.init (some "BBBBBBBBB") none
    [("YR", some 2003), ("MO", some 1), ("DY", some 1), ("HR", some 0), ("LAT", some (1 / 2)), ("LON", some (1 / 2)), ("SST", some 5)],
   Report.init (some "BBBBBBBBB") none
    [("YR", some 2003), ("MO", some 1), ("DY", some 1), ("HR", some 10), ("LAT", some (1 / 2)), ("LON", some (1 / 2)), ("SST", some 5)],
   Report.init (some "BBBBBBBBB") none
    [("YR", some 2002), ("MO", some 12), ("DY", some 31), ("HR", some 10), ("LAT", some (1 / 2)), ("LON", some (1 / 2)), ("SST", some 2)],
   Report.init (some "BBBBBBBBB") none
    [("YR", some 2003), ("MO", some 1), ("DY", some 1), ("HR", some 10), ("LAT", some (3 / 2)), ("LON", some (1 / 2)), ("SST", some 5)]]

/-- test_Extended_IMMA.py:340-346. -/
def voyageReps : List (Except Err Report) :=
  [Report.init (some "AAAAAAAAA") none
    [("YR", some 2003), ("MO", some 12), ("DY", some 1), ("HR", some 0), ("LAT", some 0), ("LON", some 0), ("SST", some 5)],
   Report.init (some "AAAAAAAAA") none
    [("YR", some 2003), ("MO", some 12), ("DY", some 1), ("HR", some 1), ("LAT", some (1 / 10)), ("LON", some 0), ("SST", some 5)],
   Report.init (some "AAAAAAAAA") none
    [("YR", some 2003), ("MO", some 12), ("DY", some 1), ("HR", some 2), ("LAT", some (1 / 5)), ("LON", some 0), ("SST", some 5)],
   Report.init (some "AAAAAAAAA") none
    [("YR", some 2003), ("MO", some 12), ("DY", some 1), ("HR", some 3), ("LAT", some (3 / 10)), ("LON", some 0), ("SST", some 5)],
   Report.init (some "AAAAAAAAA") none
    [("YR", some 2003), ("MO", some 12), ("DY", some 1), ("HR", some 4), ("LAT", some (2 / 5)), ("LON", some 0), ("SST", some 5)],
   Report.init (some "AAAAAAAAA") none
    [("YR", some 2003), ("MO", some 12), ("DY", some 1), ("HR", some 5), ("LAT", some (1 / 2)), ("LON", some 0), ("SST", some 5)],
   Report.init (some "AAAAAAAAA") none
    [("YR", some 2003), ("MO", some 12), ("DY", some 1), ("HR", some 6), ("LAT", some (3 / 5)), ("LON", some 0), ("SST", some 5)]]

/-- test_Extended_IMMA.py:348-354. -/
def voyageBadReps : List (Except Err Report) :=
  [Report.init (some "AAAAAAAAA") none
    [("YR", some 2003), ("MO", some 12), ("DY", some 1), ("HR", some 0), ("LAT", some 0), ("LON", some 0), ("SST", some 5)],
   Report.init (some "AAAAAAAAA") none
    [("YR", some 2003), ("MO", some 12), ("DY", some 1), ("HR", some 1), ("LAT", some (1 / 10)), ("LON", some 0), ("SST", some 5)],
   Report.init (some "AAAAAAAAA") none
    [("YR", some 2003), ("MO", some 12), ("DY", some 1), ("HR", some 2), ("LAT", some (1 / 5)), ("LON", some 0), ("SST", some 5)],
   Report.init (some "AAAAAAAAA") none
    [("YR", some 2003), ("MO", some 12), ("DY", some 1), ("HR", some 3), ("LAT", some (3 / 10)), ("LON", some 10), ("SST", some 5)],
   Report.init (some "AAAAAAAAA") none
    [("YR", some 2003), ("MO", some 12), ("DY", some 1), ("HR", some 4), ("LAT", some (2 / 5)), ("LON", some 0), ("SST", some 5)],
   Report.init (some "AAAAAAAAA") none
    [("YR", some 2003), ("MO", some 12), ("DY", some 1), ("HR", some 5), ("LAT", some (1 / 2)), ("LON", some 0), ("SST", some 5)],
   Report.init (some "AAAAAAAAA") none
    [("YR", some 2003), ("MO", some 12), ("DY", some 1), ("HR", some 6), ("LAT", some (3 / 5)), ("LON", some 0), ("SST", some 5)]]

/-- test_Extended_IMMA.py:509-519. -/
def marineReps : List (Except Err Report) :=
  [Report.init (some "AAAAAAAAA") (some "A642D2")
    [("YR", some 2003), ("MO", some 12), ("DY", some 1), ("HR", some 0), ("LAT", some 0), ("LON", some 0), ("SST", some 5), ("AT", some 10), ("DPT", some 11), ("SLP", some 1023)],
   Report.init (some "AAAAAAAAA") none
    [("YR", some 2003), ("MO", some 12), ("DY", some 1), ("HR", some 0), ("LAT", some 0), ("LON", some 0), ("SST", some 5), ("AT", some 10), ("DPT", some 10)],
   Report.init (some "BBBBBBBBB") none
    [("YR", some 2003), ("MO", some 12), ("DY", some 1), ("HR", some 0), ("LAT", some 0), ("LON", some 0), ("SST", some 5), ("AT", some 10), ("DPT", some 9)],
   Report.init (some "BBBBBBBBB") none
    [("YR", some 2003), ("MO", some 12), ("DY", some 1), ("HR", some 0), ("LAT", some 0), ("LON", some 0), ("SST", some 5)],
   Report.init (some "BBBBBBBBB") none
    [("YR", some 2003), ("MO", some 12), ("DY", some 1), ("HR", some 10), ("LAT", some 0), ("LON", some 0), ("SST", some 5)],
   Report.init (some "BBBBBBBBB") none
    [("YR", some 2003), ("MO", some 12), ("DY", some 1), ("HR", some 10), ("LAT", some 0), ("LON", some 0), ("SST", some 5)],
   Report.init (some "BBBBBBBBB") none
    [("YR", some 2003), ("MO", some 12), ("DY", some 1), ("HR", some 10), ("LAT", some 1), ("LON", some 0), ("SST", some 5)]]

/-- test_Extended_IMMA.py:9-15. -/
example : safeFilename "D/BU".toList = "D_BU".toList ∧ safeFilename "G*NY".toList = "G_NY".toList := by decide +kernel

/-- The grid of the tests: anomalies from a climatological value of 0.5, averaged. -/
def gridOf (l : List (Except Err Report)) : Except Err SuperOb := do
  let l ← l.mapM id
  gridReports [] "SST" (l.map fun r => r.addClim "SST" (some (1 / 2)) none)

/-- The radii near the equator, where the cosine of the latitude is close to 1. -/
def equatorSpan (x : Int) (_ : Nat) : Int := x

/-- test_Extended_IMMA.py:117-119. -/
def buddyTest : BuddyParams :=
  ⟨[[1, 1, 2], [2, 2, 2], [1, 1, 4], [2, 2, 4]], [[0, 5, 15, 100], [0], [0, 5, 15, 100], [0]],
    [[4, 7 / 2, 3, 5 / 2], [4], [4, 7 / 2, 3, 5 / 2], [4]]⟩

/-- Mean and deviation for the first report of the tests, with a deviation of 1.5 everywhere. -/
def limitsTest (l : List (Except Err Report)) : Except Err (Rat × Rat) := do
  let g ← gridOf l
  let i ← cellIndex (some (1 / 2)) (some (41 / 2)) (some 1) (some 1)
  cellLimits equatorSpan g (fun _ _ _ _ => .ok (some (3 / 2))) buddyTest (i.1.toNat, i.2.1.toNat, i.2.2.toNat)

/-- test_Extended_IMMA.py:106-123. -/
example : limitsTest buddyReps1 = .ok (3 / 2, 7 / 2 * (3 / 2)) := by decide +kernel

/-- test_Extended_IMMA.py:125-142. -/
example : limitsTest buddyReps2 = .ok (3 / 2, 7 / 2 * (3 / 2)) := by decide +kernel

/-- test_Extended_IMMA.py:144-161. -/
example : limitsTest buddyReps3 = .ok (3 / 2, 4 * (3 / 2)) := by decide +kernel

/-- test_Extended_IMMA.py:163-181. -/
example : limitsTest buddyReps4 = .ok (0, 500) := by decide +kernel

/-- test_Extended_IMMA.py:184-202. -/
example : thresholdMultiplier 0 [10, 5, 0] [4, 3, 2] = .error .assertion ∧
    thresholdMultiplier 1 [1, 5, 10] [4, 3, 2] = .error .assertion ∧
    (List.range' 1 19).all (fun n => thresholdMultiplier n [0, 5, 10] [4, 3, 2]
      == .ok (if n ≤ 5 then 4 else if n ≤ 10 then 3 else 2)) := by decide +kernel

/-- test_Extended_IMMA.py:268-287. -/
example : ((gridOf superReps2).bind fun g => g.neighbours equatorSpan [2, 2, 2] (180, 89, 0))
    = .ok ([9 / 2, 3 / 2], [1, 1]) := by decide +kernel

/-- test_Extended_IMMA.py:289-306: a report alone has no neighbours. -/
example : ((gridOf (superReps1.take 1)).bind fun g => g.neighbours equatorSpan [1, 1, 2] (180, 89, 66)) = .ok ([], []) := by
  decide +kernel

/-- test_Extended_IMMA.py:375-379. -/
def spikeTest : SpikeParams := ⟨1 / 2, 1, 2, 1, 5⟩

/-- test_Extended_IMMA.py:373-383. -/
example : ((drifterOf voyageReps).bind (spikeCheck testGeo spikeTest "SST")).map (flagList "SST" "spike")
    = .ok [0, 0, 0, 0, 0, 0, 0] := by decide +kernel

/-- test_Extended_IMMA.py:385-399. -/
example : (((drifterOf voyageReps).map fun v => v.modify 3 fun r => (r.setvar "SST" (some 16)).1).bind
      (spikeCheck testGeo spikeTest "SST")).map (flagList "SST" "spike")
    = .ok [0, 0, 0, 1, 0, 0, 0] := by decide +kernel

/-- test_Extended_IMMA.py:403-407. -/
def iquamShipTest : IquamParams := ⟨15, 60, 111 / 100, 1 / 100, 5⟩

/-- test_Extended_IMMA.py:401-412. -/
example : ((drifterOf voyageReps).bind (iquamTrackCheck testGeo iquamShipTest)).map (flagList "POS" "iquam_track")
    = .ok [0, 0, 0, 0, 0, 0, 0] := by decide +kernel

/-- test_Extended_IMMA.py:414-428. -/
example : ((drifterOf voyageBadReps).bind (iquamTrackCheck testGeo iquamShipTest)).map (flagList "POS" "iquam_track")
    = .ok [0, 0, 0, 1, 0, 0, 0] := by decide +kernel

/-- test_Extended_IMMA.py:430-440. -/
example : ((drifterOf voyageReps).bind (trackCheck testGeo ⟨60, 10, 40, 150⟩)).map (flagList "POS" "trk")
    = .ok [0, 0, 0, 0, 0, 0, 0] := by decide +kernel

/-- test_Extended_IMMA.py:442-455. -/
example : ((drifterOf voyageBadReps).bind (trackCheck testGeo ⟨60, 10, 40, 150⟩)).map (flagList "POS" "trk")
    = .ok [0, 0, 0, 1, 0, 0, 0] := by decide +kernel

/-- The reports of test_Extended_IMMA.py:457-484: `gap` for the dew point of every 19th report, `quick` for reports twelve
minutes apart. -/
def saturatedReps (gap quick : Bool) : List (Except Err Report) :=
  (List.range 50).map fun i => Report.init (some "AAAAAAAAA") none
    [("YR", some 2003), ("MO", some 12), ("DY", some (1 + i / 24 : Nat)),
      ("HR", some (if quick then (i : Rat) / 5 else (i % 24 : Nat))), ("LAT", some 0), ("LON", some 0), ("SST", some 5),
      ("DPT", some (if gap && i % 19 == 0 then 13 else 76 / 5)), ("AT", some (76 / 5))]

/-- test_Extended_IMMA.py:457-502. -/
example : ((drifterOf (saturatedReps true false)).bind (findSaturatedRuns testGeo 48 20)).map (flagList "DPT" "repsat")
    = .ok (List.replicate 50 0) := by decide +kernel

example : ((drifterOf (saturatedReps true true)).bind (findSaturatedRuns testGeo 48 20)).map (flagList "DPT" "repsat")
    = .ok (List.replicate 50 0) := by decide +kernel

example : ((drifterOf (saturatedReps false false)).bind (findSaturatedRuns testGeo 48 20)).map (flagList "DPT" "repsat")
    = .ok (List.replicate 50 1) := by decide +kernel

/-- Report `i` of test_Extended_IMMA.py:509-524. -/
def marineRep (i : Nat) : Except Err Report := (marineReps[i]?).getD (.error .index)

/-- test_Extended_IMMA.py:541-544. -/
example : (marineRep 0).map Report.saturated = .ok false ∧ (marineRep 1).map Report.saturated = .ok true ∧
    (marineRep 2).map Report.saturated = .ok false := by decide +kernel

/-- test_Extended_IMMA.py:546-568: the order of two reports that the sort goes by. -/
example : (do return (← marineRep 2).lt (← marineRep 4) : Except Err Bool) = .ok true ∧
    (do return (← marineRep 4).lt (← marineRep 2) : Except Err Bool) = .ok false ∧
    (do return (← marineRep 0).lt (← marineRep 2) : Except Err Bool) = .ok true ∧
    (do return (← marineRep 2).lt (← marineRep 0) : Except Err Bool) = .ok false := by decide +kernel

/-- test_Extended_IMMA.py:570-586, with the distances of `testGeo`. -/
example : (do (← marineRep 4).sub testGeo (← marineRep 2) : Except Err Diff) = .ok ⟨0, 0, 0, 10⟩ ∧
    (do (← marineRep 6).sub testGeo (← marineRep 2) : Except Err Diff)
      = .ok ⟨11119508 / 100000 / 10, 11119508 / 100000, 0, 10⟩ := by decide +kernel

/-- test_Extended_IMMA.py:588-593. -/
example : (do let r ← marineRep 0
              let r := r.addClim "SST" (some (1 / 2)) none
              return (r.getnorm "SST", r.getanom "SST") : Except Err (Option Rat × Option Rat))
    = .ok (some (1 / 2), some (9 / 2)) := by decide +kernel

/-- test_Extended_IMMA.py:595-602. -/
example : (do let r ← marineRep 0
              let r := r.addClim "SST" (some (1 / 2)) (some (3 / 2))
              let a ← r.getNormalisedAnom "SST"
              return [r.getnorm "SST", r.getstdev "SST", r.getanom "SST", a] : Except Err (List (Option Rat)))
    = .ok [some (1 / 2), some (3 / 2), some (9 / 2), some 3] := by decide +kernel

/-- test_Extended_IMMA.py:604-609. -/
example : (do let r ← marineRep 0
              let s := r.setext "ODDVARNAME" (some (-9999 / 100))
              return (r.getvar "SQUIDINK", s.getvar "ODDVARNAME") : Except Err (Option Rat × Option Rat))
    = .ok (none, some (-9999 / 100)) := by decide +kernel

/-- test_Extended_IMMA.py:611-620. -/
example : (do let r ← marineRep 0
              let s ← r.setQc "POS" "date" 0
              return (r.getQc "POS" "date", s.getQc "POS" "date") : Except Err (Int × Int)) = .ok (9, 0) ∧
    (do let r ← marineRep 0
        let s ← r.setQc "POS" "date" 11
        return s.getQc "POS" "date" : Except Err Int) = .error .assertion := by decide +kernel

/-- test_Extended_IMMA.py:625-629. -/
def printTest : List VarName :=
  [("ID", []), ("YR", []), ("MO", []), ("DY", []), ("HR", []), ("LAT", []), ("LON", []), ("AT", []), ("AT", ["anom"]),
    ("SST", []), ("SST", ["anom"]), ("DPT", []), ("DPT", ["anom"]), ("SLP", []), ("SLP", ["anom"])]

/-- Python's `str` of the numbers with one decimal that the test prints. -/
def oneDecimal (x : Rat) : List Char := intText x.num ++ ['.', '0']

/-- test_Extended_IMMA.py:622-634. -/
example : ((marineRep 0).bind fun r => printVariableBlock oneDecimal r printTest false true)
    = .ok "A642D2,2003-12-01,67,\"AAAAAAAAA\",2003,12,1,0.0,0.0,0.0,10.0,\\N,5.0,\\N,11.0,\\N,1023.0,\\N\n".toList := by
  decide +kernel

example : ((marineRep 0).bind fun r => printVariableBlock oneDecimal r printTest true true)
    = .ok "UID,DATE,PENTAD,ID,YR,MO,DY,HR,LAT,LON,AT,AT_anom,SST,SST_anom,DPT,DPT_anom,SLP,SLP_anom\n".toList := by
  decide +kernel

/-- test_Extended_IMMA.py:640-643. -/
def printFlagsTest : List String :=
  ["bud", "clim", "nonorm", "freez", "noval", "nbud", "bbud", "rep", "spike", "hardlimit"]

/-- test_Extended_IMMA.py:636-649. -/
example : ((marineRep 0).bind fun r => printQcBlock r "SST" printFlagsTest false true)
    = .ok "A642D2,9,9,9,9,9,9,9,9,9,9\n".toList := by decide +kernel

example : ((marineRep 0).bind fun r => printQcBlock r "SST" printFlagsTest true true)
    = .ok "UID,bud,clim,nonorm,freez,noval,nbud,bbud,rep,spike,hardlimit\n".toList := by decide +kernel

/-- test_Extended_IMMA.py:655-669, with the flag of the position. -/
def filterRep (flag : Int) : Except Err Report := do
  let r ← Report.init none none [("YR", some 2003), ("MO", some 12), ("DY", some 1), ("HR", some 0), ("LAT", some 0),
    ("LON", some 0)]
  r.setQc "POS" "pos" flag

/-- test_Extended_IMMA.py:673-696. -/
example : (filterRep 0).map (QcFilter.testReport []) = .ok 0 ∧
    (filterRep 1).map (QcFilter.testReport (QcFilter.add [] "POS" "pos" 0)) = .ok 1 ∧
    (filterRep 0).map (QcFilter.testReport (QcFilter.add [] "POS" "pos" 0)) = .ok 0 := by decide +kernel

/-- test_Extended_IMMA.py:677-684. -/
example : (do let a ← filterRep 0
              let b ← filterRep 1
              let d ← (QcFilter.add [] "POS" "pos" 0).split ((Deck.empty.append a).append b)
              return (d.1.reps.length, d.2.1.reps.length) : Except Err (Nat × Nat)) = .ok (1, 1) := by decide +kernel

end MarineQC.Conform
