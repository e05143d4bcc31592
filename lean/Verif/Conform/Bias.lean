import Verif.Conform.Tail

/-!
# The repository's unit tests as tests of the model: the check for bias and noise of test_trackqc.py

Generated from test_trackqc.py:2479-3416 by reading its lists of reports and expected flags.  These are not proofs of
properties.  They check that the model gives the flags that the repository's own tests expect of the code, on the
inputs of those tests.  The elevation of the sun is simplified: it is up from 6 to 18 hours.
-/

namespace MarineQC.Conform

/-- The flags that the tests look at. -/
def biasSeen (l : List Report) : List (List Int) :=
  [flagList "SST" "drf_bias" l, flagList "SST" "drf_noise" l, flagList "SST" "drf_short" l]

/-- test_trackqc.py:2484-2492. -/
def biasTrack1 : List (Except Err Report) :=
  [sstRep 12 (some 5) (some 5) (some (1 / 100)) (some 0),
   sstRep (121 / 10) (some 5) (some 5) (some (1 / 100)) (some 0),
   sstRep (61 / 5) (some 5) (some 5) (some (1 / 100)) (some 0),
   sstRep (123 / 10) (some 5) (some 5) (some (1 / 100)) (some 0),
   sstRep (62 / 5) (some 5) (some 5) (some (1 / 100)) (some 0),
   sstRep (25 / 2) (some 5) (some 5) (some (1 / 100)) (some 0),
   sstRep (63 / 5) (some 5) (some 5) (some (1 / 100)) (some 0),
   sstRep (127 / 10) (some 5) (some 5) (some (1 / 100)) (some 0),
   sstRep (64 / 5) (some 5) (some 5) (some (1 / 100)) (some 0)]

/-- test_trackqc.py:2495-2503. -/
def biasTrack2 : List (Except Err Report) :=
  [sstRep 0 (some 5) none (some (1 / 100)) (some 0),
   sstRep (1 / 10) (some 5) none (some (1 / 100)) (some 0),
   sstRep (1 / 5) (some 5) none (some (1 / 100)) (some 0),
   sstRep (3 / 10) (some 5) none (some (1 / 100)) (some 0),
   sstRep (2 / 5) (some 5) none (some (1 / 100)) (some 0),
   sstRep (1 / 2) (some 5) none (some (1 / 100)) (some 0),
   sstRep (3 / 5) (some 5) none (some (1 / 100)) (some 0),
   sstRep (7 / 10) (some 5) none (some (1 / 100)) (some 0),
   sstRep (4 / 5) (some 5) none (some (1 / 100)) (some 0)]

/-- test_trackqc.py:2506-2514. -/
def biasTrack3 : List (Except Err Report) :=
  [sstRep 0 (some 5) (some 5) (some (1 / 100)) (some (1 / 5)),
   sstRep (1 / 10) (some 5) (some 5) (some (1 / 100)) (some (1 / 5)),
   sstRep (1 / 5) (some 5) (some 5) (some (1 / 100)) (some (1 / 5)),
   sstRep (3 / 10) (some 5) (some 5) (some (1 / 100)) (some (1 / 5)),
   sstRep (2 / 5) (some 5) (some 5) (some (1 / 100)) (some (1 / 5)),
   sstRep (1 / 2) (some 5) (some 5) (some (1 / 100)) (some (1 / 5)),
   sstRep (3 / 5) (some 5) (some 5) (some (1 / 100)) (some (1 / 5)),
   sstRep (7 / 10) (some 5) (some 5) (some (1 / 100)) (some (1 / 5)),
   sstRep (4 / 5) (some 5) (some 5) (some (1 / 100)) (some (1 / 5))]

/-- test_trackqc.py:2517-2525. -/
def biasTrack4 : List (Except Err Report) :=
  [sstRep 0 (some 5) (some 5) (some (2 / 5)) (some 0),
   sstRep (1 / 10) (some 5) (some 5) (some (2 / 5)) (some 0),
   sstRep (1 / 5) (some 5) (some 5) (some (2 / 5)) (some 0),
   sstRep (3 / 10) (some 5) (some 5) (some (2 / 5)) (some 0),
   sstRep (2 / 5) (some 5) (some 5) (some (2 / 5)) (some 0),
   sstRep (1 / 2) (some 5) (some 5) (some (2 / 5)) (some 0),
   sstRep (3 / 5) (some 5) (some 5) (some (2 / 5)) (some 0),
   sstRep (7 / 10) (some 5) (some 5) (some (2 / 5)) (some 0),
   sstRep (4 / 5) (some 5) (some 5) (some (2 / 5)) (some 0)]

/-- test_trackqc.py:2528-2536. -/
def biasTrack5 : List (Except Err Report) :=
  [sstRep 0 (some (31 / 5)) (some 5) (some (1 / 100)) (some 0),
   sstRep (1 / 10) (some (31 / 5)) (some 5) (some (1 / 100)) (some 0),
   sstRep (1 / 5) (some (31 / 5)) (some 5) (some (1 / 100)) (some 0),
   sstRep (3 / 10) (some (31 / 5)) (some 5) (some (1 / 100)) (some 0),
   sstRep (2 / 5) (some (31 / 5)) (some 5) (some (1 / 100)) (some 0),
   sstRep (1 / 2) (some (31 / 5)) (some 5) (some (1 / 100)) (some 0),
   sstRep (3 / 5) (some (31 / 5)) (some 5) (some (1 / 100)) (some 0),
   sstRep (7 / 10) (some (31 / 5)) (some 5) (some (1 / 100)) (some 0),
   sstRep (4 / 5) (some (31 / 5)) (some 5) (some (1 / 100)) (some 0)]

/-- test_trackqc.py:2539-2547. -/
def biasTrack6 : List (Except Err Report) :=
  [sstRep 0 (some (19 / 5)) (some 5) (some (1 / 100)) (some 0),
   sstRep (1 / 10) (some (19 / 5)) (some 5) (some (1 / 100)) (some 0),
   sstRep (1 / 5) (some (19 / 5)) (some 5) (some (1 / 100)) (some 0),
   sstRep (3 / 10) (some (19 / 5)) (some 5) (some (1 / 100)) (some 0),
   sstRep (2 / 5) (some (19 / 5)) (some 5) (some (1 / 100)) (some 0),
   sstRep (1 / 2) (some (19 / 5)) (some 5) (some (1 / 100)) (some 0),
   sstRep (3 / 5) (some (19 / 5)) (some 5) (some (1 / 100)) (some 0),
   sstRep (7 / 10) (some (19 / 5)) (some 5) (some (1 / 100)) (some 0),
   sstRep (4 / 5) (some (19 / 5)) (some 5) (some (1 / 100)) (some 0)]

/-- test_trackqc.py:2550-2558. -/
def biasTrack7 : List (Except Err Report) :=
  [sstRep 0 (some 7) (some 5) (some (1 / 100)) (some 0),
   sstRep (1 / 10) (some 5) (some 5) (some (1 / 100)) (some 0),
   sstRep (1 / 5) (some 3) (some 5) (some (1 / 100)) (some 0),
   sstRep (3 / 10) (some 5) (some 5) (some (1 / 100)) (some 0),
   sstRep (2 / 5) (some 7) (some 5) (some (1 / 100)) (some 0),
   sstRep (1 / 2) (some 5) (some 5) (some (1 / 100)) (some 0),
   sstRep (3 / 5) (some 3) (some 5) (some (1 / 100)) (some 0),
   sstRep (7 / 10) (some 5) (some 5) (some (1 / 100)) (some 0),
   sstRep (4 / 5) (some 7) (some 5) (some (1 / 100)) (some 0)]

/-- test_trackqc.py:2561-2569. -/
def biasTrack8 : List (Except Err Report) :=
  [sstRep 0 (some 9) (some 5) (some (1 / 100)) (some 0),
   sstRep (1 / 10) (some 7) (some 5) (some (1 / 100)) (some 0),
   sstRep (1 / 5) (some 5) (some 5) (some (1 / 100)) (some 0),
   sstRep (3 / 10) (some 7) (some 5) (some (1 / 100)) (some 0),
   sstRep (2 / 5) (some 9) (some 5) (some (1 / 100)) (some 0),
   sstRep (1 / 2) (some 7) (some 5) (some (1 / 100)) (some 0),
   sstRep (3 / 5) (some 5) (some 5) (some (1 / 100)) (some 0),
   sstRep (7 / 10) (some 7) (some 5) (some (1 / 100)) (some 0),
   sstRep (4 / 5) (some 9) (some 5) (some (1 / 100)) (some 0)]

/-- test_trackqc.py:2572-2580. -/
def biasTrack9 : List (Except Err Report) :=
  [sstRep 0 (some (31 / 5)) none (some (1 / 100)) (some 0),
   sstRep (1 / 10) (some (31 / 5)) none (some (1 / 100)) (some 0),
   sstRep (1 / 5) (some (31 / 5)) (some 5) (some (1 / 100)) (some 0),
   sstRep (3 / 10) (some (31 / 5)) (some 5) (some (1 / 100)) (some 0),
   sstRep (2 / 5) (some (31 / 5)) (some 5) (some (1 / 100)) (some 0),
   sstRep (1 / 2) (some (31 / 5)) (some 5) (some (1 / 100)) (some 0),
   sstRep (3 / 5) (some (31 / 5)) (some 5) (some (1 / 100)) (some 0),
   sstRep (7 / 10) (some (31 / 5)) none (some (1 / 100)) (some 0),
   sstRep (4 / 5) (some (31 / 5)) none (some (1 / 100)) (some 0)]

/-- test_trackqc.py:2583-2587. -/
def biasTrack10 : List (Except Err Report) :=
  [sstRep 0 (some 5) (some 5) (some (1 / 100)) (some 0),
   sstRep (1 / 10) (some 5) (some 5) (some (1 / 100)) (some 0),
   sstRep (1 / 5) (some 9) (some 5) (some (1 / 100)) (some 0),
   sstRep (3 / 10) (some 5) (some 5) (some (1 / 100)) (some 0),
   sstRep (2 / 5) (some 5) (some 5) (some (1 / 100)) (some 0)]

/-- test_trackqc.py:2590-2594. -/
def biasTrack11 : List (Except Err Report) :=
  [sstRep 0 (some 9) (some 5) (some (1 / 100)) (some 0),
   sstRep (1 / 10) (some 5) (some 5) (some (1 / 100)) (some 0),
   sstRep (1 / 5) (some 9) (some 5) (some (1 / 100)) (some 0),
   sstRep (3 / 10) (some 5) (some 5) (some (1 / 100)) (some 0),
   sstRep (2 / 5) (some 5) (some 5) (some (1 / 100)) (some 0)]

/-- test_trackqc.py:2597-2605. -/
def biasTrack12 : List (Except Err Report) :=
  [sstRep 0 (some 5) none (some (1 / 100)) (some 0),
   sstRep (1 / 10) (some 5) none (some (1 / 100)) (some 0),
   sstRep (1 / 5) (some 9) (some 5) (some (1 / 100)) (some 0),
   sstRep (3 / 10) (some 5) (some 5) (some (1 / 100)) (some 0),
   sstRep (2 / 5) (some 9) (some 5) (some (1 / 100)) (some 0),
   sstRep (1 / 2) (some 5) (some 5) (some (1 / 100)) (some 0),
   sstRep (3 / 5) (some 5) (some 5) (some (1 / 100)) (some 0),
   sstRep (7 / 10) (some 5) none (some (1 / 100)) (some 0),
   sstRep (4 / 5) (some 5) none (some (1 / 100)) (some 0)]

/-- test_trackqc.py:2608-2616. -/
def biasTrack13 : List (Except Err Report) :=
  [sstRep 0 (some 5) none (some (1 / 100)) (some 0),
   sstRep (1 / 10) (some 5) none (some (2 / 5)) (some 0),
   sstRep (1 / 5) (some 9) (some 5) (some (1 / 100)) (some 0),
   sstRep (3 / 10) (some 5) (some 5) (some (1 / 100)) (some 0),
   sstRep (2 / 5) (some 9) (some 5) (some (1 / 100)) (some 0),
   sstRep (1 / 2) (some 5) (some 5) (some (1 / 100)) (some 0),
   sstRep (3 / 5) (some 5) (some 5) (some (1 / 100)) (some 0),
   sstRep (7 / 10) (some 5) none (some (1 / 100)) (some 0),
   sstRep (4 / 5) (some 5) none (some (1 / 100)) (some 0)]

/-- test_trackqc.py:2619-2627. -/
def biasTrack14 : List (Except Err Report) :=
  [sstRep 0 (some 5) (some 5) (some (1 / 100)) (some 0),
   sstRep (1 / 10) (some 5) (some 5) (some (1 / 100)) (some 0),
   sstRep (1 / 5) (some 5) (some 5) (some (1 / 100)) (some 0),
   sstRep (3 / 10) (some 5) (some 5) (some (1 / 100)) (some 0),
   sstRep (2 / 5) (some 5) (some 5) (some (1 / 100)) (some 0),
   sstRep (1 / 2) (some 5) (some 5) (some (1 / 100)) (some 0),
   sstRep (3 / 5) (some 5) (some 5) (some (1 / 100)) (some 0),
   sstRep (7 / 10) (some 5) (some 5) (some (1 / 100)) (some 0),
   sstRep (4 / 5) (some 5) (some 5) (some (1 / 100)) (some 0)]

/-- test_trackqc.py:2630-2634. -/
def biasTrack15 : List (Except Err Report) :=
  [sstRep 0 (some 5) (some 5) (some (1 / 100)) (some 0),
   sstRep (1 / 10) (some 5) (some 5) (some (1 / 100)) (some 0),
   sstRep (1 / 5) (some 5) (some 5) (some (1 / 100)) (some 0),
   sstRep (3 / 10) (some 5) (some 5) (some (1 / 100)) (some 0),
   sstRep (2 / 5) (some 5) (some 5) (some (1 / 100)) (some 0)]

/-- test_trackqc.py:2637-2645. -/
def biasTrack16 : List (Except Err Report) :=
  [sstRep 0 (some 5) none (some (1 / 100)) (some 0),
   sstRep (1 / 10) (some 5) none (some (1 / 100)) (some 0),
   sstRep (1 / 5) (some 5) (some 5) (some (1 / 100)) (some 0),
   sstRep (3 / 10) (some 5) (some 5) (some (1 / 100)) (some 0),
   sstRep (2 / 5) (some 5) (some 5) (some (1 / 100)) (some 0),
   sstRep (1 / 2) (some 5) (some 5) (some (1 / 100)) (some 0),
   sstRep (3 / 5) (some 5) (some 5) (some (1 / 100)) (some 0),
   sstRep (7 / 10) (some 5) none (some (1 / 100)) (some 0),
   sstRep (4 / 5) (some 5) none (some (1 / 100)) (some 0)]

/-- test_trackqc.py:2648-2656. -/
def biasTrack17 : List (Except Err Report) :=
  [sstRep 0 (some 7) (some 5) (some 4) (some 0),
   sstRep (1 / 10) (some 5) (some 5) (some 4) (some 0),
   sstRep (1 / 5) (some 3) (some 5) (some 4) (some 0),
   sstRep (3 / 10) (some 5) (some 5) (some 4) (some 0),
   sstRep (2 / 5) (some 7) (some 5) (some 4) (some 0),
   sstRep (1 / 2) (some 5) (some 5) (some 4) (some 0),
   sstRep (3 / 5) (some 3) (some 5) (some 4) (some 0),
   sstRep (7 / 10) (some 5) (some 5) (some 4) (some 0),
   sstRep (4 / 5) (some 7) (some 5) (some 4) (some 0)]

/-- test_trackqc.py:2659-2667. -/
def biasTrack18 : List (Except Err Report) :=
  [sstRep 0 (some 5) none (some 4) (some 0),
   sstRep (1 / 10) (some 5) none (some 4) (some 0),
   sstRep (1 / 5) (some 9) (some 5) (some 4) (some 0),
   sstRep (3 / 10) (some 5) (some 5) (some 4) (some 0),
   sstRep (2 / 5) (some 9) (some 5) (some 4) (some 0),
   sstRep (1 / 2) (some 5) (some 5) (some 4) (some 0),
   sstRep (3 / 5) (some 5) (some 5) (some 4) (some 0),
   sstRep (7 / 10) (some 5) none (some 4) (some 0),
   sstRep (4 / 5) (some 5) none (some 4) (some 0)]

/-- test_trackqc.py:2670-2678. -/
def biasTrack19 : List (Except Err Report) :=
  [sstRep 0 (some 5) (some 5) (some (1 / 100)) (some 0),
   sstRep (1 / 10) (some 5) (some 5) (some (1 / 100)) (some 0),
   sstRep (1 / 5) (some 5) (some 5) (some (1 / 100)) (some 0),
   sstRep (3 / 10) (some 5) (some 5) (some (1 / 100)) (some 0),
   sstRep (2 / 5) (some 5) (some 5) (some (1 / 100)) (some 0),
   sstRep (1 / 2) (some 5) (some 5) (some (1 / 100)) (some 0),
   sstRep (3 / 5) (some 5) (some 5) (some (1 / 100)) (some 0),
   sstRep (7 / 10) (some 5) (some 5) (some (1 / 100)) (some 0),
   sstRep (4 / 5) (some 5) (some 5) (some (1 / 100)) (some 0)]

/-- test_trackqc.py:2681-2689. -/
def biasTrack20 : List (Except Err Report) :=
  [sstRep 0 (some 5) (some 5) (some (1 / 100)) (some 0),
   sstRep (1 / 10) (some 5) (some 5) (some (1 / 100)) (some 0),
   sstRep (1 / 5) (some 5) (some 5) (some (1 / 100)) (some 0),
   sstRep (3 / 10) (some 5) (some 5) (some (1 / 100)) (some 0),
   sstRep (2 / 5) (some 5) (some 5) (some (1 / 100)) (some 0),
   sstRep (1 / 2) (some 5) (some 5) (some (1 / 100)) (some 0),
   sstRep (3 / 5) (some 5) (some 5) (some (1 / 100)) (some 0),
   sstRep (7 / 10) (some 5) (some 5) (some (1 / 100)) (some 0),
   sstRep (4 / 5) (some 5) (some 5) (some (1 / 100)) (some 0)]

/-- test_trackqc.py:2692-2700. -/
def biasTrack21 : List (Except Err Report) :=
  [sstRepNoBg 0 (some 5) (some (1 / 100)) (some 0),
   sstRepNoBg (1 / 10) (some 5) (some (1 / 100)) (some 0),
   sstRepNoBg (1 / 5) (some 5) (some (1 / 100)) (some 0),
   sstRepNoBg (3 / 10) (some 5) (some (1 / 100)) (some 0),
   sstRepNoBg (2 / 5) (some 5) (some (1 / 100)) (some 0),
   sstRepNoBg (1 / 2) (some 5) (some (1 / 100)) (some 0),
   sstRepNoBg (3 / 5) (some 5) (some (1 / 100)) (some 0),
   sstRepNoBg (7 / 10) (some 5) (some (1 / 100)) (some 0),
   sstRepNoBg (4 / 5) (some 5) (some (1 / 100)) (some 0)]

/-- test_trackqc.py:2703-2711. -/
def biasTrack22 : List (Except Err Report) :=
  [sstRep 0 (some 5) (some 5) (some (1 / 100)) (some (11 / 10)),
   sstRep (1 / 10) (some 5) (some 5) (some (1 / 100)) (some 0),
   sstRep (1 / 5) (some 5) (some 5) (some (1 / 100)) (some 0),
   sstRep (3 / 10) (some 5) (some 5) (some (1 / 100)) (some 0),
   sstRep (2 / 5) (some 5) (some 5) (some (1 / 100)) (some 0),
   sstRep (1 / 2) (some 5) (some 5) (some (1 / 100)) (some 0),
   sstRep (3 / 5) (some 5) (some 5) (some (1 / 100)) (some 0),
   sstRep (7 / 10) (some 5) (some 5) (some (1 / 100)) (some 0),
   sstRep (4 / 5) (some 5) (some 5) (some (1 / 100)) (some 0)]

/-- test_trackqc.py:2714-2722. -/
def biasTrack23 : List (Except Err Report) :=
  [sstRep 0 (some 5) (some 5) (some (1 / 100)) (some 0),
   sstRep (1 / 10) (some 5) (some 5) (some (1 / 100)) (some 0),
   sstRep (1 / 5) (some 5) (some 5) (some (1 / 100)) (some 0),
   sstRep (3 / 10) (some 5) (some 5) (some (1 / 100)) (some 0),
   sstRep (2 / 5) (some 5) (some 5) (some (1 / 100)) (some 0),
   sstRep (1 / 2) (some 5) (some 5) (some (1 / 100)) (some 0),
   sstRep (3 / 5) (some 5) (some 5) (some (1 / 100)) (some 0),
   sstRep (7 / 10) (some 5) (some 5) (some (1 / 100)) (some 0),
   sstRep (4 / 5) (some 5) (some 5) (some (1 / 100)) (some 0)]

/-- test_trackqc.py:2725-2733. -/
def biasTrack24 : List (Except Err Report) :=
  [sstRep 0 (some 5) (some 5) (some (1 / 100)) (some 0),
   sstRep (1 / 10) (some 5) (some 5) (some (1 / 100)) (some 0),
   sstRep (1 / 5) (some 5) (some 5) (some (1 / 100)) (some 0),
   sstRep (1 / 10) (some 5) (some 5) (some (1 / 100)) (some 0),
   sstRep (2 / 5) (some 5) (some 5) (some (1 / 100)) (some 0),
   sstRep (1 / 2) (some 5) (some 5) (some (1 / 100)) (some 0),
   sstRep (3 / 5) (some 5) (some 5) (some (1 / 100)) (some 0),
   sstRep (7 / 10) (some 5) (some 5) (some (1 / 100)) (some 0),
   sstRep (4 / 5) (some 5) (some 5) (some (1 / 100)) (some 0)]

/-- test_trackqc.py:2736-2744. -/
def biasTrack25 : List (Except Err Report) :=
  [sstRep 0 (some 5) (some 5) (some (1 / 100)) (some 0),
   sstRep (1 / 10) (some 5) (some 5) (some (1 / 100)) (some 0),
   sstRep (1 / 5) (some 5) (some 5) (some (1 / 100)) (some 0),
   sstRep (3 / 10) (some 5) (some 5) (some (1 / 100)) (some 0),
   sstRep (2 / 5) (some 5) (some 5) (some (1 / 100)) (some 0),
   sstRep (1 / 2) (some 5) (some 5) (some (1 / 100)) (some 0),
   sstRep (3 / 5) (some 5) (some 5) (some (1 / 100)) (some 0),
   sstRep (7 / 10) (some 5) (some 5) (some (1 / 100)) (some 0),
   sstRep (4 / 5) (some 5) (some 46) (some (1 / 100)) (some 0)]

/-- test_trackqc.py:2747-2755. -/
def biasTrack26 : List (Except Err Report) :=
  [sstRep 0 (some 5) (some 5) (some (1 / 100)) (some 0),
   sstRep (1 / 10) (some 5) (some 5) (some (1 / 100)) (some 0),
   sstRep (1 / 5) (some 5) (some 5) (some (1 / 100)) (some 0),
   sstRep (3 / 10) (some 5) (some 5) (some (-1 / 100)) (some 0),
   sstRep (2 / 5) (some 5) (some 5) (some (1 / 100)) (some 0),
   sstRep (1 / 2) (some 5) (some 5) (some (1 / 100)) (some 0),
   sstRep (3 / 5) (some 5) (some 5) (some (1 / 100)) (some 0),
   sstRep (7 / 10) (some 5) (some 5) (some (1 / 100)) (some 0),
   sstRep (4 / 5) (some 5) (some 5) (some (1 / 100)) (some 0)]

/-- test_trackqc.py:3100-3108 `test_all_daytime`. -/
example :
    ((drifterOf biasTrack1).bind (sstBiasedNoisyCheck testSunReal ⟨9, (11 / 10), 1, (29 / 100), 3, 2, (3 / 10)⟩)).map biasSeen =
      .ok [[0, 0, 0, 0, 0, 0, 0, 0, 0], [0, 0, 0, 0, 0, 0, 0, 0, 0], [0, 0, 0, 0, 0, 0, 0, 0, 0]] :=
  bias_decided (1 / 100) (by norm_num) (by decide +kernel) (by decide +kernel)

/-- test_trackqc.py:3110-3118 `test_all_land_masked`. -/
example :
    ((drifterOf biasTrack2).bind (sstBiasedNoisyCheck testSunReal ⟨9, (11 / 10), 1, (29 / 100), 3, 2, (3 / 10)⟩)).map biasSeen =
      .ok [[0, 0, 0, 0, 0, 0, 0, 0, 0], [0, 0, 0, 0, 0, 0, 0, 0, 0], [0, 0, 0, 0, 0, 0, 0, 0, 0]] :=
  bias_decided (1 / 100) (by norm_num) (by decide +kernel) (by decide +kernel)

/-- test_trackqc.py:3120-3128 `test_all_ice`. -/
example :
    ((drifterOf biasTrack3).bind (sstBiasedNoisyCheck testSunReal ⟨9, (11 / 10), 1, (29 / 100), 3, 2, (3 / 10)⟩)).map biasSeen =
      .ok [[0, 0, 0, 0, 0, 0, 0, 0, 0], [0, 0, 0, 0, 0, 0, 0, 0, 0], [0, 0, 0, 0, 0, 0, 0, 0, 0]] :=
  bias_decided (1 / 100) (by norm_num) (by decide +kernel) (by decide +kernel)

/-- test_trackqc.py:3130-3138 `test_all_bgvar_exceeds_limit`. -/
example :
    ((drifterOf biasTrack4).bind (sstBiasedNoisyCheck testSunReal ⟨9, (11 / 10), 1, (29 / 100), 3, 2, (3 / 10)⟩)).map biasSeen =
      .ok [[0, 0, 0, 0, 0, 0, 0, 0, 0], [0, 0, 0, 0, 0, 0, 0, 0, 0], [0, 0, 0, 0, 0, 0, 0, 0, 0]] :=
  bias_decided 0 (by norm_num) (by decide +kernel) (by decide +kernel)

/-- test_trackqc.py:3140-3148 `test_biased_warm`. -/
example :
    ((drifterOf biasTrack5).bind (sstBiasedNoisyCheck testSunReal ⟨9, (11 / 10), 1, (29 / 100), 3, 2, (3 / 10)⟩)).map biasSeen =
      .ok [[1, 1, 1, 1, 1, 1, 1, 1, 1], [0, 0, 0, 0, 0, 0, 0, 0, 0], [0, 0, 0, 0, 0, 0, 0, 0, 0]] :=
  bias_decided (1 / 100) (by norm_num) (by decide +kernel) (by decide +kernel)

/-- test_trackqc.py:3150-3158 `test_biased_cool`. -/
example :
    ((drifterOf biasTrack6).bind (sstBiasedNoisyCheck testSunReal ⟨9, (11 / 10), 1, (29 / 100), 3, 2, (3 / 10)⟩)).map biasSeen =
      .ok [[1, 1, 1, 1, 1, 1, 1, 1, 1], [0, 0, 0, 0, 0, 0, 0, 0, 0], [0, 0, 0, 0, 0, 0, 0, 0, 0]] :=
  bias_decided (1 / 100) (by norm_num) (by decide +kernel) (by decide +kernel)

/-- test_trackqc.py:3160-3168 `test_noisy`. -/
example :
    ((drifterOf biasTrack7).bind (sstBiasedNoisyCheck testSunReal ⟨9, (11 / 10), 1, (29 / 100), 3, 2, (3 / 10)⟩)).map biasSeen =
      .ok [[0, 0, 0, 0, 0, 0, 0, 0, 0], [1, 1, 1, 1, 1, 1, 1, 1, 1], [0, 0, 0, 0, 0, 0, 0, 0, 0]] :=
  bias_decided (1 / 100) (by norm_num) (by decide +kernel) (by decide +kernel)

/-- test_trackqc.py:3170-3178 `test_biased_and_noisy`. -/
example :
    ((drifterOf biasTrack8).bind (sstBiasedNoisyCheck testSunReal ⟨9, (11 / 10), 1, (29 / 100), 3, 2, (3 / 10)⟩)).map biasSeen =
      .ok [[1, 1, 1, 1, 1, 1, 1, 1, 1], [1, 1, 1, 1, 1, 1, 1, 1, 1], [0, 0, 0, 0, 0, 0, 0, 0, 0]] :=
  bias_decided (1 / 100) (by norm_num) (by decide +kernel) (by decide +kernel)

/-- test_trackqc.py:3180-3188 `test_biased_warm_obs_missing`. -/
example :
    ((drifterOf biasTrack9).bind (sstBiasedNoisyCheck testSunReal ⟨5, (11 / 10), 1, (29 / 100), 3, 2, (3 / 10)⟩)).map biasSeen =
      .ok [[1, 1, 1, 1, 1, 1, 1, 1, 1], [0, 0, 0, 0, 0, 0, 0, 0, 0], [0, 0, 0, 0, 0, 0, 0, 0, 0]] :=
  bias_decided (1 / 100) (by norm_num) (by decide +kernel) (by decide +kernel)

/-- test_trackqc.py:3190-3198 `test_short_record_one_bad`. -/
example :
    ((drifterOf biasTrack10).bind (sstBiasedNoisyCheck testSunReal ⟨9, (11 / 10), 1, (29 / 100), 3, 2, (3 / 10)⟩)).map biasSeen =
      .ok [[0, 0, 0, 0, 0], [0, 0, 0, 0, 0], [0, 0, 0, 0, 0]] :=
  bias_decided (1 / 100) (by norm_num) (by decide +kernel) (by decide +kernel)

/-- test_trackqc.py:3200-3208 `test_short_record_two_bad`. -/
example :
    ((drifterOf biasTrack11).bind (sstBiasedNoisyCheck testSunReal ⟨9, (11 / 10), 1, (29 / 100), 3, 2, (3 / 10)⟩)).map biasSeen =
      .ok [[0, 0, 0, 0, 0], [0, 0, 0, 0, 0], [1, 1, 1, 1, 1]] :=
  bias_decided (1 / 100) (by norm_num) (by decide +kernel) (by decide +kernel)

/-- test_trackqc.py:3210-3218 `test_short_record_two_bad_obs_missing`. -/
example :
    ((drifterOf biasTrack12).bind (sstBiasedNoisyCheck testSunReal ⟨9, (11 / 10), 1, (29 / 100), 3, 2, (3 / 10)⟩)).map biasSeen =
      .ok [[0, 0, 0, 0, 0, 0, 0, 0, 0], [0, 0, 0, 0, 0, 0, 0, 0, 0], [1, 1, 1, 1, 1, 1, 1, 1, 1]] :=
  bias_decided (1 / 100) (by norm_num) (by decide +kernel) (by decide +kernel)

/-- test_trackqc.py:3220-3228 `test_short_record_two_bad_obs_missing_with_bgvar`. -/
example :
    ((drifterOf biasTrack13).bind (sstBiasedNoisyCheck testSunReal ⟨9, (11 / 10), 1, (29 / 100), 3, 2, (3 / 10)⟩)).map biasSeen =
      .ok [[0, 0, 0, 0, 0, 0, 0, 0, 0], [0, 0, 0, 0, 0, 0, 0, 0, 0], [0, 0, 0, 0, 0, 0, 0, 0, 0]] :=
  bias_decided (1 / 100) (by norm_num) (by decide +kernel) (by decide +kernel)

/-- test_trackqc.py:3230-3238 `test_good_data`. -/
example :
    ((drifterOf biasTrack14).bind (sstBiasedNoisyCheck testSunReal ⟨9, (11 / 10), 1, (29 / 100), 3, 2, (3 / 10)⟩)).map biasSeen =
      .ok [[0, 0, 0, 0, 0, 0, 0, 0, 0], [0, 0, 0, 0, 0, 0, 0, 0, 0], [0, 0, 0, 0, 0, 0, 0, 0, 0]] :=
  bias_decided (1 / 100) (by norm_num) (by decide +kernel) (by decide +kernel)

/-- test_trackqc.py:3240-3248 `test_short_record_good_data`. -/
example :
    ((drifterOf biasTrack15).bind (sstBiasedNoisyCheck testSunReal ⟨9, (11 / 10), 1, (29 / 100), 3, 2, (3 / 10)⟩)).map biasSeen =
      .ok [[0, 0, 0, 0, 0], [0, 0, 0, 0, 0], [0, 0, 0, 0, 0]] :=
  bias_decided (1 / 100) (by norm_num) (by decide +kernel) (by decide +kernel)

/-- test_trackqc.py:3250-3258 `test_short_record_obs_missing_good_data`. -/
example :
    ((drifterOf biasTrack16).bind (sstBiasedNoisyCheck testSunReal ⟨9, (11 / 10), 1, (29 / 100), 3, 2, (3 / 10)⟩)).map biasSeen =
      .ok [[0, 0, 0, 0, 0, 0, 0, 0, 0], [0, 0, 0, 0, 0, 0, 0, 0, 0], [0, 0, 0, 0, 0, 0, 0, 0, 0]] :=
  bias_decided (1 / 100) (by norm_num) (by decide +kernel) (by decide +kernel)

/-- test_trackqc.py:3260-3268 `test_noisy_big_bgvar`. -/
example :
    ((drifterOf biasTrack17).bind (sstBiasedNoisyCheck testSunReal ⟨9, (11 / 10), 1, (29 / 100), 3, 2, 4⟩)).map biasSeen =
      .ok [[0, 0, 0, 0, 0, 0, 0, 0, 0], [0, 0, 0, 0, 0, 0, 0, 0, 0], [0, 0, 0, 0, 0, 0, 0, 0, 0]] :=
  bias_decided 4 (by norm_num) (by decide +kernel) (by decide +kernel)

/-- test_trackqc.py:3270-3278 `test_short_record_two_bad_obs_missing_big_bgvar`. -/
example :
    ((drifterOf biasTrack18).bind (sstBiasedNoisyCheck testSunReal ⟨9, (11 / 10), 1, (29 / 100), 3, 2, 4⟩)).map biasSeen =
      .ok [[0, 0, 0, 0, 0, 0, 0, 0, 0], [0, 0, 0, 0, 0, 0, 0, 0, 0], [0, 0, 0, 0, 0, 0, 0, 0, 0]] :=
  bias_decided 4 (by norm_num) (by decide +kernel) (by decide +kernel)

/-- test_trackqc.py:3280-3288 `test_good_data`. -/
example :
    ((drifterOf biasTrack19).bind (sstBiasedNoisyCheck testSunReal ⟨9, (11 / 10), 1, (29 / 100), 3, 2, (3 / 10)⟩)).map biasSeen =
      .ok [[0, 0, 0, 0, 0, 0, 0, 0, 0], [0, 0, 0, 0, 0, 0, 0, 0, 0], [0, 0, 0, 0, 0, 0, 0, 0, 0]] :=
  bias_decided (1 / 100) (by norm_num) (by decide +kernel) (by decide +kernel)

/-- test_trackqc.py:3290-3302 `test_error_bad_input_parameter`. -/
example :
    ((drifterOf biasTrack20).bind (sstBiasedNoisyCheck testSunReal ⟨0, (11 / 10), 1, (29 / 100), 3, 2, (3 / 10)⟩)).map biasSeen =
      .error .assertion :=
  bias_decided (1 / 100) (by norm_num) (by decide +kernel) (by decide +kernel)

/-- test_trackqc.py:3304-3316 `test_error_missing_matched_value`. -/
example :
    ((drifterOf biasTrack21).bind (sstBiasedNoisyCheck testSunReal ⟨9, (11 / 10), 1, (29 / 100), 3, 2, (3 / 10)⟩)).map biasSeen =
      .error .assertion :=
  bias_decided (1 / 100) (by norm_num) (by decide +kernel) (by decide +kernel)

/-- test_trackqc.py:3318-3330 `test_error_invalid_ice_value`. -/
example :
    ((drifterOf biasTrack22).bind (sstBiasedNoisyCheck testSunReal ⟨9, (11 / 10), 1, (29 / 100), 3, 2, (3 / 10)⟩)).map biasSeen =
      .error .assertion :=
  bias_decided (1 / 100) (by norm_num) (by decide +kernel) (by decide +kernel)

/-- test_trackqc.py:3332-3344 `test_error_missing_ob_value`. -/
example :
    (((drifterOf biasTrack23).map (lacking 1 "LAT")).bind (sstBiasedNoisyCheck testSunReal ⟨9, (11 / 10), 1, (29 / 100), 3, 2, (3 / 10)⟩)).map biasSeen =
      .error .assertion :=
  bias_decided (1 / 100) (by norm_num) (by decide +kernel) (by decide +kernel)

/-- test_trackqc.py:3346-3358 `test_error_not_time_sorted`. -/
example :
    ((drifterOf biasTrack24).bind (sstBiasedNoisyCheck testSunReal ⟨9, (11 / 10), 1, (29 / 100), 3, 2, (3 / 10)⟩)).map biasSeen =
      .error .assertion :=
  bias_decided (1 / 100) (by norm_num) (by decide +kernel) (by decide +kernel)

/-- test_trackqc.py:3360-3372 `test_error_invalid_background`. -/
example :
    ((drifterOf biasTrack25).bind (sstBiasedNoisyCheck testSunReal ⟨9, (11 / 10), 1, (29 / 100), 3, 2, (3 / 10)⟩)).map biasSeen =
      .error .assertion :=
  bias_decided (1 / 100) (by norm_num) (by decide +kernel) (by decide +kernel)

/-- test_trackqc.py:3374-3386 `test_error_invalid_background_error_variance`. -/
example :
    ((drifterOf biasTrack26).bind (sstBiasedNoisyCheck testSunReal ⟨9, (11 / 10), 1, (29 / 100), 3, 2, (3 / 10)⟩)).map biasSeen =
      .error .assertion :=
  bias_decided (1 / 100) (by norm_num) (by decide +kernel) (by decide +kernel)

end MarineQC.Conform
