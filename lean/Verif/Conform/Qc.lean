import Verif.Calendar.Model
import Verif.Checks.Model
import Verif.Grid.Model
import Verif.Stats.Props

/-!
# The repository's unit tests as tests of the model: test_qc.py

These are not proofs of properties.  They check that the model gives the results that the repository's own tests expect of
the code, on the inputs of those tests.  Left out: tests that need data files (test_qc.py:104-221, except the dummy
fields), and tests of the sun routine (test_qc.py:576-612), which compare real numbers with a tolerance.
-/

namespace MarineQC.Conform

/-- test_qc.py:11-18. -/
example : windConsistency (some 0) (some 361) 4 = 0 ∧ windConsistency (some 1) (some 361) 4 = 1 ∧
    windConsistency (some 2) (some 362) 4 = 0 ∧ windConsistency (some 5) (some 362) 4 = 1 := by decide +kernel

/-- test_qc.py:21-37. -/
example : [1, 2, 3, 4, 5, 6, 7, 8, 9, 10, 11, 12].map season =
    ["DJF", "DJF", "MAM", "MAM", "MAM", "JJA", "JJA", "JJA", "SON", "SON", "SON", "DJF"].map (fun s => .ok (some s)) ∧
    season 13 = .ok none := by decide +kernel

/-- test_qc.py:40-70. -/
example : yesterday 2003 2 30 = none ∧ yesterday 2003 2 3 = some (2003, 2, 2) ∧ yesterday 1999 1 1 = some (1998, 12, 31) ∧
    yesterday 2008 3 1 = some (2008, 2, 29) ∧ yesterday 2007 3 1 = some (2007, 2, 28) := by decide +kernel

/-- test_qc.py:73-78. -/
example : ((List.range 73).map fun (i : Nat) => (pentadToMonthDay (i + 1)).bind fun md => whichPentad md.1 md.2) =
    (List.range 73).map fun (i : Nat) => .ok ((i : Int) + 1) := by decide +kernel

/-- test_qc.py:81-101. -/
example : dayInYear 1 1 = .ok 1 ∧ dayInYear 12 31 = .ok 365 ∧ dayInYear 2 29 = dayInYear 3 1 ∧ dayInYear 1 31 = .ok 31 := by
  decide +kernel

/-- test_qc.py:95-101. -/
example : ((List.range 12).flatMap fun (m : Nat) =>
      (List.range ([31, 28, 31, 30, 31, 30, 31, 31, 30, 31, 30, 31].getD m 0)).map fun (d : Nat) => dayInYear (m + 1) (d + 1)) =
    (List.range 365).map fun (i : Nat) => .ok ((i : Int) + 1) := by decide +kernel

/-- test_qc.py:223-238, differences of days. -/
example : (do return (← julDay 2001 1 2) - (← julDay 2001 1 1)) = Except.ok (ε := Err) 1 ∧
    (do return (← julDay 2002 1 1) - (← julDay 2001 1 1)) = Except.ok (ε := Err) 365 ∧
    (do return (← julDay 2005 1 1) - (← julDay 2004 1 1)) = Except.ok (ε := Err) 366 := by decide +kernel

/-- test_qc.py:241-278. -/
example : timeDifference 2000 1 7 none 2000 1 7 (some 5) = .ok none ∧ timeDifference 2000 1 7 (some 5) 2000 1 7 none = .ok none ∧
    timeDifference 2000 1 7 none 2000 1 7 none = .ok none ∧
    timeDifference 2000 1 7 (some 5) 2000 1 7 (some 6) = .ok (some 1) ∧
    timeDifference 2000 1 7 (some 5) 2000 1 7 (some 5) = .ok (some 0) ∧
    timeDifference 2000 1 7 (some 5) 2000 1 8 (some 5) = .ok (some 24) ∧
    timeDifference 2000 1 8 (some 5) 2000 1 7 (some 5) = .ok (some (-24)) ∧
    timeDifference 2001 1 7 (some 5) 2002 1 7 (some 5) = .ok (some 8760) ∧
    timeDifference 2001 1 7 (some 5) 2003 1 7 (some 5) = .ok (some 17520) ∧
    timeDifference 1800 1 1 (some 0) 1900 1 1 (some 0) = .ok (some 876576) := by decide +kernel

/-- test_qc.py:281-297. -/
example : whichPentad 1 6 = .ok 2 ∧ whichPentad 1 21 = .ok 5 ∧ whichPentad 12 26 = .ok 72 ∧ whichPentad 1 1 = .ok 1 ∧
    whichPentad 12 31 = .ok 73 ∧ whichPentad 2 29 = .ok 12 := by decide +kernel

/-- test_qc.py:300-306. -/
example : valueCheck none = 1 ∧ valueCheck (some (57 / 10)) = 0 := by decide +kernel

/-- test_qc.py:309-328.  The defaults of the code are an uncertainty of 0, a freezing point of -1.8 and 2 sigma. -/
example : sstFreezeCheck (some (-18 / 10)) (some 0) (some (-18 / 10)) 2 = .ok 0 ∧
    sstFreezeCheck (some (38 / 10)) (some 0) (some (-18 / 10)) 2 = .ok 0 ∧
    sstFreezeCheck (some (-38 / 10)) (some 0) (some (-18 / 10)) 2 = .ok 1 ∧
    sstFreezeCheck (some (-18 / 10)) (some 0) (some (-19 / 10)) 2 = .ok 0 ∧
    sstFreezeCheck (some (-2)) (some 0) (some (-19 / 10)) 2 = .ok 1 := by decide +kernel

/-- test_qc.py:331-344. -/
example : hardLimit (some 0) (-1) 1 = .ok 0 ∧
    hardLimit (some (-1232423 / 1000000)) (-1232423 / 1000000) (17484 / 10000) = .ok 0 ∧
    hardLimit (some (17484 / 10000)) (-1232423 / 1000000) (17484 / 10000) = .ok 0 ∧
    hardLimit (some (-1232423 / 1000000 - 232 / 10)) (-1232423 / 1000000) (17484 / 10000) = .ok 1 ∧
    hardLimit (some (17484 / 10000 + 95 / 10)) (-1232423 / 1000000) (17484 / 10000) = .ok 1 := by decide +kernel

/-- test_qc.py:347-377.  The default limit is 8. -/
example : climatologyCheck (some 0) (some 8) (some 8) = 0 ∧ climatologyCheck (some 0) (some (-8)) (some 8) = 0 ∧
    climatologyCheck (some 17) (some (232 / 10)) (some 8) = 0 ∧ climatologyCheck (some 17) (some (17 + 81 / 10)) (some 8) = 1 ∧
    climatologyCheck (some 17) (some (17 - 81 / 10)) (some 8) = 1 ∧ climatologyCheck (some 17) (some (173 / 10)) (some 1) = 0 ∧
    climatologyCheck (some 17) (some (173 / 10)) (some (2 / 10)) = 1 ∧ climatologyCheck (some 20) none (some 8) = 1 ∧
    climatologyCheck none (some (73 / 10)) (some 8) = 1 ∧ climatologyCheck (some 0) (some 3) none = 1 := by decide +kernel

/-- test_qc.py:380-391. -/
example : positionCheck (some 0) (some 0) = .ok 0 ∧ positionCheck (some 91) (some 0) = .ok 1 ∧
    positionCheck (some (-91)) (some 0) = .ok 1 ∧ positionCheck (some 0) (some (-1801 / 10)) = .ok 1 ∧
    positionCheck (some 0) (some (3601 / 10)) = .ok 1 := by decide +kernel

/-- test_qc.py:394-403. -/
example : dayinyear 1999 1 1 = .ok 1 ∧ dayinyear 1999 12 31 = .ok 365 ∧ dayinyear 1984 12 31 = .ok 366 := by decide +kernel

/-- test_qc.py:406-434. -/
example : winsorisedMean [0, 0, 0, 0, 0, 0, 0, 0, 0] = .ok 0 ∧ winsorisedMean [4, 4, 4, 4, 4, 4, 4] = .ok 4 ∧
    winsorisedMean [4, 4, 4] = .ok 4 ∧ winsorisedMean [3, 4, 5] = .ok 4 ∧ winsorisedMean [1, 2, 3, 4, 5, 6, 7] = .ok 4 ∧
    winsorisedMean [1, 2, 3, 4, 5, 6, 700] = .ok 4 ∧
    winsorisedMean [1, 2, 3, 4, 5, 6, 7, 8, 9, 10, 11, 12, 13, 14, 99, 1000] = .ok (85 / 10) := by
  refine ⟨?_, ?_, ?_, ?_, ?_, ?_, ?_⟩ <;> unfold winsorisedMean <;>
    rw [pySort_unique (List.Perm.refl _) (by decide +kernel)] <;> decide +kernel

/-- test_qc.py:437-457. -/
example : trimmedMean [0, 0, 0, 0, 0, 0, 0, 0, 0] 10 = some 0 ∧ trimmedMean [0, 0, 0, 0, 0, 0, 0, 0, 0, 10] 4 = some 0 ∧
    trimmedMean [0, 0, 0, 0, 0, 0, 0, 0, 0, 10] 50 = some 1 ∧ trimmedMean [13 / 10, 7 / 10, 4] 0 = some 2 := by
  refine ⟨?_, ?_, ?_, ?_⟩ <;> unfold trimmedMean
  · rw [pySort_unique (List.Perm.refl _) (by decide +kernel)]; decide +kernel
  · rw [pySort_unique (List.Perm.refl _) (by decide +kernel)]; decide +kernel
  · rw [pySort_unique (List.Perm.refl _) (by decide +kernel)]; decide +kernel
  · rw [pySort_unique (s := [7 / 10, 13 / 10, 4]) (List.Perm.swap _ _ _) (by decide +kernel)]; decide +kernel

/-- test_qc.py:460-495. -/
example : latToYindex (992 / 10) 1 = 0 ∧ latToYindex 37 1 = 53 ∧ latToYindex 35 5 = 11 ∧ latToYindex (-1993 / 10) 1 = 179 ∧
    latToYindex (8752 / 100) (1 / 4) = 9 ∧ latToYindex (-5 / 2) 5 = 18 ∧
    [1 / 4, 1 / 2, 1, 2, 5].map (latToYindex (899 / 10)) = [0, 0, 0, 0, 0] ∧
    [1 / 4, 1 / 2, 1, 2, 5].map (latToYindex (-899 / 10)) = [719, 359, 179, 89, 35] := by decide +kernel

/-- test_qc.py:472-478. -/
example : ((List.range 180).map fun (i : Nat) => latToYindex (90 - i) 1) = (List.range 180).map (fun (i : Nat) => (i : Int)) ∧
    ((List.range 180).map fun (i : Nat) => latToYindex (90 - i - 1 / 2) 1) = (List.range 180).map (fun (i : Nat) => (i : Int)) := by
  decide +kernel

/-- test_qc.py:498-530. -/
example : lonToXindex (-180) 1 = 0 ∧ lonToXindex 180 1 = 0 ∧ lonToXindex (-1805 / 10) 1 = 359 ∧ lonToXindex (-1815 / 10) 1 = 358 ∧
    lonToXindex (-74) 1 = 106 ∧ lonToXindex (-1795 / 10) 1 = 0 ∧ lonToXindex (1805 / 10) 1 = 0 ∧ lonToXindex (3595 / 10) 1 = 179 ∧
    lonToXindex (1795 / 10) 5 = 71 ∧ lonToXindex (1799 / 10) (1 / 4) = 1439 ∧ lonToXindex (-1799 / 10 + 1 / 4) (1 / 4) = 1 ∧
    lonToXindex 360 1 = 180 ∧ lonToXindex (1851 / 10) 1 = 5 := by decide +kernel

/-- test_qc.py:525-530. -/
example : ((List.range 520).map fun (i : Nat) => lonToXindex (-1795 / 10 + i) 1) =
    (List.range 520).map (fun (i : Nat) => ((i % 360 : Nat) : Int)) := by decide +kernel

/-- test_qc.py:533-573. -/
example : blacklist (some "") (some 980) (some 1850) (some 1) (some 0) (some 0) none = .ok 1 ∧
    blacklist (some "") (some 874) (some 1850) (some 1) (some 0) (some 1) none = .ok 1 ∧
    blacklist (some "") (some 732) (some 1850) (some 1) (some 0) (some 1) (some 13) = .ok 1 ∧
    blacklist (some "") (some 732) (some 1850) (some 1) (some 0) (some 1) none = .ok 0 ∧
    blacklist (some "") (some 732) (some 1958) (some 1) (some 45) (some (-172)) none = .ok 1 ∧
    blacklist (some "") (some 732) (some 1974) (some 1) (some (-47)) (some (-60)) none = .ok 1 ∧
    blacklist (some "") (some 732) (some 1958) (some 1) (some 45) (some (-172 + 360)) none = .ok 1 ∧
    blacklist (some "") (some 732) (some 1974) (some 1) (some (-47)) (some (-60 + 360)) none = .ok 1 ∧
    blacklist (some "") (some 731) (some 1958) (some 1) (some 45) (some (-172)) none = .ok 0 ∧
    blacklist (some "") (some 731) (some 1974) (some 1) (some (-47)) (some (-60)) none = .ok 0 ∧
    blacklist (some "") (some 732) (some 1957) (some 1) (some 45) (some (-172)) none = .ok 0 ∧
    blacklist (some "") (some 732) (some 1975) (some 1) (some (-47)) (some (-60)) none = .ok 0 := by decide +kernel

/-- test_qc.py:615-642. -/
example : yindexToLat 0 1 = .ok (895 / 10) ∧ yindexToLat 179 1 = .ok (-895 / 10) ∧ yindexToLat 35 5 = .ok (-875 / 10) ∧
    yindexToLat 0 5 = .ok (875 / 10) ∧ xindexToLon 0 1 = .ok (-1795 / 10) ∧ xindexToLon 359 1 = .ok (1795 / 10) ∧
    xindexToLon 179 1 = .ok (-1 / 2) ∧ xindexToLon 180 1 = .ok (1 / 2) := by decide +kernel

/-- test_qc.py:645-655. -/
example : missingMean [none, none] = none ∧ missingMean [none, some (73 / 10)] = some (73 / 10) ∧
    missingMean [some (9942 / 10), none] = some (9942 / 10) ∧ missingMean [some 6, some 1] = some (35 / 10) := by decide +kernel

/-- test_qc.py:658-686. -/
example : fillMissingVals none none none none = (none, none, none, none) ∧
    fillMissingVals (some 1) (some 2) (some 3) none = (some 1, some 2, some 3, some (5 / 2)) ∧
    fillMissingVals none (some 2) (some 3) none = (some (5 / 2), some 2, some 3, some (5 / 2)) ∧
    fillMissingVals none none (some 3) none = (some 3, some 3, some 3, some 3) := by decide +kernel

/-- test_qc.py:689-739.  The default of `max90` is 1. -/
example : getFourSurroundingPoints (4 / 10) (3222 / 10 - 360) 1 = .ok (-385 / 10, -375 / 10, -1 / 2, 1 / 2) ∧
    getFourSurroundingPoints (899 / 10) (1 / 10) 1 = .ok (-1 / 2, 1 / 2, 895 / 10, 895 / 10) ∧
    getFourSurroundingPoints (899 / 10) (1 / 10) 0 = .ok (-1 / 2, 1 / 2, 895 / 10, 905 / 10) ∧
    getFourSurroundingPoints (1 / 10) (1 / 10) 1 = .ok (-1 / 2, 1 / 2, -1 / 2, 1 / 2) ∧
    getFourSurroundingPoints 0 0 1 = .ok (-1 / 2, 1 / 2, -1 / 2, 1 / 2) ∧
    getFourSurroundingPoints 0 (1799 / 10) 1 = .ok (1795 / 10, 1805 / 10, -1 / 2, 1 / 2) ∧
    getFourSurroundingPoints 0 (-1799 / 10) 1 = .ok (-1805 / 10, -1795 / 10, -1 / 2, 1 / 2) := by
  refine ⟨?_, ?_, ?_, ?_, ?_, ?_, ?_⟩ <;> decide +kernel

/-- test_qc.py:742-779. -/
example : bilinearInterp 0 1 0 1 0 0 (some 0) (some 0) (some 0) (some 0) = .ok 0 ∧
    bilinearInterp 0 1 0 1 (1 / 2) (1 / 2) (some 0) (some 1) (some 1) (some 2) = .ok 1 ∧
    bilinearInterp 0 1 0 1 0 0 (some 0) (some 1) (some 1) (some 2) = .ok 0 ∧
    bilinearInterp 0 1 0 1 1 1 (some 0) (some 1) (some 1) (some 2) = .ok 2 ∧
    bilinearInterp 0 1 0 1 0 1 (some 0) (some 1) (some 1) (some 2) = .ok 1 ∧
    bilinearInterp 0 1 0 1 1 0 (some 0) (some 1) (some 1) (some 2) = .ok 1 ∧
    bilinearInterp 0 1 0 1 0 0 (some 0) (some 1) (some 1) (some 1) = .ok 0 ∧
    bilinearInterp 0 1 0 1 0 1 (some 0) (some 1) (some 1) (some 1) = .ok 1 ∧
    bilinearInterp 0 1 0 1 1 1 (some 0) (some 1) (some 1) (some 1) = .ok 1 ∧
    bilinearInterp 0 1 0 1 1 0 (some 0) (some 1) (some 1) (some 1) = .ok 1 ∧
    bilinearInterp 0 1 0 1 (1 / 2) 0 (some 0) (some 0) (some 1) (some 1) = .ok (1 / 2) ∧
    bilinearInterp 0 1 0 1 (1 / 2) (1 / 2) (some 0) (some 0) (some 1) (some 1) = .ok (1 / 2) := by decide +kernel

/-- test_qc.py:782-838. -/
example : [90, 88, 85, -85, -884 / 10, -90, 0].map (fun x => mdsLatToYindex x 5) = [0, 0, 0, 35, 35, 35, 18] ∧
    [-180, -178, -175, 175, 1784 / 10, 180, 0].map (fun x => mdsLonToXindex x 5) = [0, 0, 0, 71, 71, 71, 35] ∧
    [90, 89, 88, 87, 887 / 10, -90, -89, -88, -87, -887 / 10, 0, 1 / 2, 1, -1 / 2, -1].map (fun x => mdsLatToYindex x 1) =
      [0, 0, 1, 2, 1, 179, 179, 178, 177, 178, 90, 89, 88, 90, 91] ∧
    [-180, -179, -178, 180, 179, 178, -1, 0, 1].map (fun x => mdsLonToXindex x 1) = [0, 0, 1, 359, 359, 358, 178, 179, 181] := by
  decide +kernel

/-- test_qc.py:841-850, for every error function that gives the data a positive probability. -/
example (erf : ℝ → ℝ) (g : ℝ) (hg : 0 < g) (h : pDataGivenGood erf 0 (1 / 10) 8 (-8) 0 1 = .ok g) :
    pGross erf 1 (1 / 10) 8 (-8) 0 0 1 = .ok 1 ∧ pGross erf 0 (1 / 10) 8 (-8) 0 0 1 = .ok 0 := by
  constructor <;> norm_num [pGross, pDataGivenGross, h, hg.ne', pyAssert, bind, Except.bind, pure, Except.pure]

/-- test_qc.py:853-857. -/
example : pDataGivenGross 1 10 0 = .ok (1 / 11) := by
  norm_num [pDataGivenGross, pyAssert, bind, Except.bind, pure, Except.pure]

/-- The dummy field of test_Climatology.py:24, and fields with the numbers of steps of the files of that test. -/
def dummyField (n : Nat) : Arr3 := ⟨n, 360, 720, fun _ _ _ => some 1⟩

/-- test_Climatology.py:26-34, 40-42 and 56-57; the other tests of the file need data files. -/
example : (dummyField 1).getTindex 1 1 = .ok 0 ∧ (dummyField 1).getTindex 12 31 = .ok 0 ∧
    (dummyField 365).getTindex 1 1 = .ok 0 ∧ (dummyField 365).getTindex 12 31 = .ok 364 ∧
    (dummyField 73).getTindex 1 1 = .ok 0 ∧ (dummyField 73).getTindex 12 31 = .ok 72 ∧ (dummyField 1).res = 1 / 2 ∧
    (dummyField 1).getValue 12 (145 / 2) (some 3) (some 7) = .ok (some 1) := by decide +kernel

end MarineQC.Conform
