import Verif.Conform.Windows

/-!
# The repository's unit tests as tests of the model: the tail check of test_trackqc.py

Generated from test_trackqc.py:1110-2477 by reading its lists of reports and expected flags.  These are not proofs of
properties.  They check that the model gives the flags that the repository's own tests expect of the code, on the
inputs of those tests.  The elevation of the sun is simplified: it is up from 6 to 18 hours.
-/

namespace MarineQC.Conform

/-- A report of the tests, as `MarineReportQC` makes it from a record, with the background values. -/
def sstRep (hr : Rat) (sst bg bgvar ice : Option Rat) : Except Err Report :=
  (Report.init (some "AAAAAAAAA") none [("YR", some 2003), ("MO", some 12), ("DY", some 1), ("HR", some hr),
    ("LAT", some 0), ("LON", some 0), ("SST", sst)]).map fun r =>
      ((r.setext "OSTIA" bg).setext "BGVAR" bgvar).setext "ICE" ice

/-- The same without a background value. -/
def sstRepNoBg (hr : Rat) (sst bgvar ice : Option Rat) : Except Err Report :=
  (Report.init (some "AAAAAAAAA") none [("YR", some 2003), ("MO", some 12), ("DY", some 1), ("HR", some hr),
    ("LAT", some 0), ("LON", some 0), ("SST", sst)]).map fun r => (r.setext "BGVAR" bgvar).setext "ICE" ice

/-- The flags that the tests look at. -/
def tailSeen (l : List Report) : List (List Int) :=
  [flagList "SST" "drf_tail1" l, flagList "SST" "drf_tail2" l]

/-- test_trackqc.py:1115-1123. -/
def tailTrack1 : List (Except Err Report) :=
  [sstRep 12 (some 5) (some 5) (some (1 / 100)) (some 0),
   sstRep (121 / 10) (some 5) (some 5) (some (1 / 100)) (some 0),
   sstRep (61 / 5) (some 5) (some 5) (some (1 / 100)) (some 0),
   sstRep (123 / 10) (some 5) (some 5) (some (1 / 100)) (some 0),
   sstRep (62 / 5) (some 5) (some 5) (some (1 / 100)) (some 0),
   sstRep (25 / 2) (some 5) (some 5) (some (1 / 100)) (some 0),
   sstRep (63 / 5) (some 5) (some 5) (some (1 / 100)) (some 0),
   sstRep (127 / 10) (some 5) (some 5) (some (1 / 100)) (some 0),
   sstRep (64 / 5) (some 5) (some 5) (some (1 / 100)) (some 0)]

/-- test_trackqc.py:1126-1134. -/
def tailTrack2 : List (Except Err Report) :=
  [sstRep 0 (some 5) none (some (1 / 100)) (some 0),
   sstRep (1 / 10) (some 5) none (some (1 / 100)) (some 0),
   sstRep (1 / 5) (some 5) none (some (1 / 100)) (some 0),
   sstRep (3 / 10) (some 5) none (some (1 / 100)) (some 0),
   sstRep (2 / 5) (some 5) none (some (1 / 100)) (some 0),
   sstRep (1 / 2) (some 5) none (some (1 / 100)) (some 0),
   sstRep (3 / 5) (some 5) none (some (1 / 100)) (some 0),
   sstRep (7 / 10) (some 5) none (some (1 / 100)) (some 0),
   sstRep (4 / 5) (some 5) none (some (1 / 100)) (some 0)]

/-- test_trackqc.py:1137-1145. -/
def tailTrack3 : List (Except Err Report) :=
  [sstRep 0 (some 5) (some 5) (some (1 / 100)) (some (1 / 5)),
   sstRep (1 / 10) (some 5) (some 5) (some (1 / 100)) (some (1 / 5)),
   sstRep (1 / 5) (some 5) (some 5) (some (1 / 100)) (some (1 / 5)),
   sstRep (3 / 10) (some 5) (some 5) (some (1 / 100)) (some (1 / 5)),
   sstRep (2 / 5) (some 5) (some 5) (some (1 / 100)) (some (1 / 5)),
   sstRep (1 / 2) (some 5) (some 5) (some (1 / 100)) (some (1 / 5)),
   sstRep (3 / 5) (some 5) (some 5) (some (1 / 100)) (some (1 / 5)),
   sstRep (7 / 10) (some 5) (some 5) (some (1 / 100)) (some (1 / 5)),
   sstRep (4 / 5) (some 5) (some 5) (some (1 / 100)) (some (1 / 5))]

/-- test_trackqc.py:1148-1156. -/
def tailTrack4 : List (Except Err Report) :=
  [sstRep 0 (some 5) (some 5) (some (1 / 100)) (some 0),
   sstRep (1 / 10) (some 5) none (some (1 / 100)) (some 0),
   sstRep (1 / 5) (some 5) none (some (1 / 100)) (some 0),
   sstRep (3 / 10) (some 5) none (some (1 / 100)) (some 0),
   sstRep (2 / 5) (some 5) none (some (1 / 100)) (some 0),
   sstRep (1 / 2) (some 5) none (some (1 / 100)) (some 0),
   sstRep (3 / 5) (some 5) none (some (1 / 100)) (some 0),
   sstRep (7 / 10) (some 5) none (some (1 / 100)) (some 0),
   sstRep (4 / 5) (some 5) none (some (1 / 100)) (some 0)]

/-- test_trackqc.py:1159-1167. -/
def tailTrack5 : List (Except Err Report) :=
  [sstRep 0 (some 6) (some 5) (some (1 / 100)) (some 0),
   sstRep (1 / 10) (some 6) (some 5) (some (1 / 100)) (some 0),
   sstRep (1 / 5) (some 6) (some 5) (some (1 / 100)) (some 0),
   sstRep (3 / 10) (some 6) (some 5) (some (1 / 100)) (some 0),
   sstRep (2 / 5) (some 5) (some 5) (some (1 / 100)) (some 0),
   sstRep (1 / 2) (some 5) (some 5) (some (1 / 100)) (some 0),
   sstRep (3 / 5) (some 5) (some 5) (some (1 / 100)) (some 0),
   sstRep (7 / 10) (some 5) (some 5) (some (1 / 100)) (some 0),
   sstRep (4 / 5) (some 5) (some 5) (some (1 / 100)) (some 0)]

/-- test_trackqc.py:1170-1178. -/
def tailTrack6 : List (Except Err Report) :=
  [sstRep 0 (some 4) (some 5) (some (1 / 100)) (some 0),
   sstRep (1 / 10) (some 4) (some 5) (some (1 / 100)) (some 0),
   sstRep (1 / 5) (some 4) (some 5) (some (1 / 100)) (some 0),
   sstRep (3 / 10) (some 4) (some 5) (some (1 / 100)) (some 0),
   sstRep (2 / 5) (some 5) (some 5) (some (1 / 100)) (some 0),
   sstRep (1 / 2) (some 5) (some 5) (some (1 / 100)) (some 0),
   sstRep (3 / 5) (some 5) (some 5) (some (1 / 100)) (some 0),
   sstRep (7 / 10) (some 5) (some 5) (some (1 / 100)) (some 0),
   sstRep (4 / 5) (some 5) (some 5) (some (1 / 100)) (some 0)]

/-- test_trackqc.py:1181-1189. -/
def tailTrack7 : List (Except Err Report) :=
  [sstRep 0 (some 5) none (some (1 / 100)) (some 0),
   sstRep (1 / 10) (some 5) none (some (1 / 100)) (some 0),
   sstRep (1 / 5) (some 6) (some 5) (some (1 / 100)) (some 0),
   sstRep (3 / 10) (some 6) (some 5) (some (1 / 100)) (some 0),
   sstRep (2 / 5) (some 6) (some 5) (some (1 / 100)) (some 0),
   sstRep (1 / 2) (some 6) (some 5) (some (1 / 100)) (some 0),
   sstRep (3 / 5) (some 5) (some 5) (some (1 / 100)) (some 0),
   sstRep (7 / 10) (some 5) (some 5) (some (1 / 100)) (some 0),
   sstRep (4 / 5) (some 5) (some 5) (some (1 / 100)) (some 0)]

/-- test_trackqc.py:1192-1200. -/
def tailTrack8 : List (Except Err Report) :=
  [sstRep 0 (some 5) (some 5) (some (1 / 100)) (some 0),
   sstRep (1 / 10) (some 5) (some 5) (some (1 / 100)) (some 0),
   sstRep (1 / 5) (some 5) (some 5) (some (1 / 100)) (some 0),
   sstRep (3 / 10) (some 5) (some 5) (some (1 / 100)) (some 0),
   sstRep (2 / 5) (some 5) (some 5) (some (1 / 100)) (some 0),
   sstRep (1 / 2) (some 6) (some 5) (some (1 / 100)) (some 0),
   sstRep (3 / 5) (some 6) (some 5) (some (1 / 100)) (some 0),
   sstRep (7 / 10) (some 6) (some 5) (some (1 / 100)) (some 0),
   sstRep (4 / 5) (some 6) (some 5) (some (1 / 100)) (some 0)]

/-- test_trackqc.py:1203-1211. -/
def tailTrack9 : List (Except Err Report) :=
  [sstRep 0 (some 5) (some 5) (some (1 / 100)) (some 0),
   sstRep (1 / 10) (some 5) (some 5) (some (1 / 100)) (some 0),
   sstRep (1 / 5) (some 5) (some 5) (some (1 / 100)) (some 0),
   sstRep (3 / 10) (some 6) (some 5) (some (1 / 100)) (some 0),
   sstRep (2 / 5) (some 6) (some 5) (some (1 / 100)) (some 0),
   sstRep (1 / 2) (some 6) (some 5) (some (1 / 100)) (some 0),
   sstRep (3 / 5) (some 6) (some 5) (some (1 / 100)) (some 0),
   sstRep (7 / 10) (some 5) none (some (1 / 100)) (some 0),
   sstRep (4 / 5) (some 5) none (some (1 / 100)) (some 0)]

/-- test_trackqc.py:1214-1222. -/
def tailTrack10 : List (Except Err Report) :=
  [sstRep 0 (some 5) (some 5) (some (1 / 100)) (some 0),
   sstRep (1 / 10) (some (15 / 2)) (some 5) (some (1 / 100)) (some 0),
   sstRep (1 / 5) (some 5) (some 5) (some (1 / 100)) (some 0),
   sstRep (3 / 10) (some 5) (some 5) (some (1 / 100)) (some 0),
   sstRep (2 / 5) (some 5) (some 5) (some (1 / 100)) (some 0),
   sstRep (1 / 2) (some 5) (some 5) (some (1 / 100)) (some 0),
   sstRep (3 / 5) (some 5) (some 5) (some (1 / 100)) (some 0),
   sstRep (7 / 10) (some 5) (some 5) (some (1 / 100)) (some 0),
   sstRep (4 / 5) (some 5) (some 5) (some (1 / 100)) (some 0)]

/-- test_trackqc.py:1225-1233. -/
def tailTrack11 : List (Except Err Report) :=
  [sstRep 0 (some 5) (some 5) (some (1 / 100)) (some 0),
   sstRep (1 / 10) (some 5) (some 5) (some (1 / 100)) (some 0),
   sstRep (1 / 5) (some 5) (some 5) (some (1 / 100)) (some 0),
   sstRep (3 / 10) (some 5) (some 5) (some (1 / 100)) (some 0),
   sstRep (2 / 5) (some 5) (some 5) (some (1 / 100)) (some 0),
   sstRep (1 / 2) (some 5) (some 5) (some (1 / 100)) (some 0),
   sstRep (3 / 5) (some 5) (some 5) (some (1 / 100)) (some 0),
   sstRep (7 / 10) (some (15 / 2)) (some 5) (some (1 / 100)) (some 0),
   sstRep (4 / 5) (some 5) (some 5) (some (1 / 100)) (some 0)]

/-- test_trackqc.py:1236-1244. -/
def tailTrack12 : List (Except Err Report) :=
  [sstRep 0 (some 6) (some 5) (some (1 / 100)) (some 0),
   sstRep (1 / 10) (some 6) (some 5) (some (1 / 100)) (some 0),
   sstRep (1 / 5) (some 6) (some 5) (some (1 / 100)) (some 0),
   sstRep (3 / 10) (some 6) (some 5) (some (1 / 100)) (some 0),
   sstRep (2 / 5) (some 5) (some 5) (some (1 / 100)) (some 0),
   sstRep (1 / 2) (some 5) (some 5) (some (1 / 100)) (some 0),
   sstRep (3 / 5) (some 5) (some 5) (some (1 / 100)) (some 0),
   sstRep (7 / 10) (some (15 / 2)) (some 5) (some (1 / 100)) (some 0),
   sstRep (4 / 5) (some 5) (some 5) (some (1 / 100)) (some 0)]

/-- test_trackqc.py:1247-1255. -/
def tailTrack13 : List (Except Err Report) :=
  [sstRep 0 (some 6) (some 5) (some (1 / 100)) (some 0),
   sstRep (1 / 10) (some 6) (some 5) (some (1 / 100)) (some 0),
   sstRep (1 / 5) (some 6) (some 5) (some (1 / 100)) (some 0),
   sstRep (3 / 10) (some 6) (some 5) (some (1 / 100)) (some 0),
   sstRep (2 / 5) (some 6) (some 5) (some (1 / 100)) (some 0),
   sstRep (1 / 2) (some 6) (some 5) (some (1 / 100)) (some 0),
   sstRep (3 / 5) (some 6) (some 5) (some (1 / 100)) (some 0),
   sstRep (7 / 10) (some 6) (some 5) (some (1 / 100)) (some 0),
   sstRep (4 / 5) (some 6) (some 5) (some (1 / 100)) (some 0)]

/-- test_trackqc.py:1258-1266. -/
def tailTrack14 : List (Except Err Report) :=
  [sstRep 0 (some 5) (some 5) (some (1 / 100)) (some 0),
   sstRep (1 / 10) (some 5) (some 5) (some (1 / 100)) (some 0),
   sstRep (1 / 5) (some (15 / 2)) (some 5) (some (1 / 100)) (some 0),
   sstRep (3 / 10) (some 5) (some 5) (some (1 / 100)) (some 0),
   sstRep (2 / 5) (some (15 / 2)) (some 5) (some (1 / 100)) (some 0),
   sstRep (1 / 2) (some 5) (some 5) (some (1 / 100)) (some 0),
   sstRep (3 / 5) (some (15 / 2)) (some 5) (some (1 / 100)) (some 0),
   sstRep (7 / 10) (some 5) (some 5) (some (1 / 100)) (some 0),
   sstRep (4 / 5) (some 5) (some 5) (some (1 / 100)) (some 0)]

/-- test_trackqc.py:1269-1277. -/
def tailTrack15 : List (Except Err Report) :=
  [sstRep 0 (some 6) (some 5) (some (1 / 100)) (some 0),
   sstRep (1 / 10) (some 6) (some 5) (some (1 / 100)) (some 0),
   sstRep (1 / 5) (some 6) (some 5) (some (1 / 100)) (some 0),
   sstRep (3 / 10) (some 6) (some 5) (some (2 / 5)) (some 0),
   sstRep (2 / 5) (some 5) (some 5) (some (1 / 100)) (some 0),
   sstRep (1 / 2) (some 5) (some 5) (some (1 / 100)) (some 0),
   sstRep (3 / 5) (some 5) (some 5) (some (1 / 100)) (some 0),
   sstRep (7 / 10) (some 5) (some 5) (some (1 / 100)) (some 0),
   sstRep (4 / 5) (some 5) (some 5) (some (1 / 100)) (some 0)]

/-- test_trackqc.py:1280-1288. -/
def tailTrack16 : List (Except Err Report) :=
  [sstRep 0 (some 6) (some 5) (some (1 / 100)) (some 0),
   sstRep (1 / 10) (some 6) (some 5) (some (1 / 100)) (some 0),
   sstRep (1 / 5) (some 6) (some 5) (some (1 / 100)) (some 0),
   sstRep (3 / 10) (some 6) (some 5) (some (1 / 100)) (some 0),
   sstRep (2 / 5) (some 6) (some 5) (some (2 / 5)) (some 0),
   sstRep (1 / 2) (some 6) (some 5) (some (1 / 100)) (some 0),
   sstRep (3 / 5) (some 6) (some 5) (some (1 / 100)) (some 0),
   sstRep (7 / 10) (some 6) (some 5) (some (1 / 100)) (some 0),
   sstRep (4 / 5) (some 6) (some 5) (some (1 / 100)) (some 0)]

/-- test_trackqc.py:1291-1299. -/
def tailTrack17 : List (Except Err Report) :=
  [sstRep 0 (some (36 / 5)) (some 5) (some (1 / 100)) (some 0),
   sstRep (1 / 10) (some (36 / 5)) (some 5) (some (1 / 100)) (some 0),
   sstRep (1 / 5) (some 5) (some 5) (some (1 / 100)) (some 0),
   sstRep (3 / 10) (some 5) (some 5) (some (1 / 100)) (some 0),
   sstRep (2 / 5) (some 5) (some 5) (some (1 / 100)) (some 0),
   sstRep (1 / 2) (some 5) (some 5) (some (1 / 100)) (some 0),
   sstRep (3 / 5) (some 5) (some 5) (some (1 / 100)) (some 0),
   sstRep (7 / 10) (some 5) (some 5) (some (1 / 100)) (some 0),
   sstRep (4 / 5) (some 5) (some 5) (some (1 / 100)) (some 0)]

/-- test_trackqc.py:1302-1310. -/
def tailTrack18 : List (Except Err Report) :=
  [sstRep 0 (some 5) (some 5) (some (1 / 100)) (some 0),
   sstRep (1 / 10) (some 5) (some 5) (some (1 / 100)) (some 0),
   sstRep (1 / 5) (some 5) (some 5) (some (1 / 100)) (some 0),
   sstRep (3 / 10) (some 5) (some 5) (some (1 / 100)) (some 0),
   sstRep (2 / 5) (some 5) (some 5) (some (1 / 100)) (some 0),
   sstRep (1 / 2) (some 5) (some 5) (some (1 / 100)) (some 0),
   sstRep (3 / 5) (some 5) (some 5) (some (1 / 100)) (some 0),
   sstRep (7 / 10) (some (36 / 5)) (some 5) (some (1 / 100)) (some 0),
   sstRep (4 / 5) (some (36 / 5)) (some 5) (some (1 / 100)) (some 0)]

/-- test_trackqc.py:1313-1321. -/
def tailTrack19 : List (Except Err Report) :=
  [sstRep 0 (some (36 / 5)) (some 5) (some (1 / 100)) (some 0),
   sstRep (1 / 10) (some (36 / 5)) (some 5) (some (1 / 100)) (some 0),
   sstRep (1 / 5) (some 5) (some 5) (some (1 / 100)) (some 0),
   sstRep (3 / 10) (some 5) (some 5) (some (1 / 100)) (some 0),
   sstRep (2 / 5) (some 5) (some 5) (some (1 / 100)) (some 0),
   sstRep (1 / 2) (some 5) (some 5) (some (1 / 100)) (some 0),
   sstRep (3 / 5) (some 5) (some 5) (some (1 / 100)) (some 0),
   sstRep (7 / 10) (some (36 / 5)) (some 5) (some (1 / 100)) (some 0),
   sstRep (4 / 5) (some (36 / 5)) (some 5) (some (1 / 100)) (some 0)]

/-- test_trackqc.py:1324-1332. -/
def tailTrack20 : List (Except Err Report) :=
  [sstRep 0 (some (36 / 5)) (some 5) (some (1 / 100)) (some 0),
   sstRep (1 / 10) (some (36 / 5)) (some 5) (some (1 / 100)) (some 0),
   sstRep (1 / 5) (some (36 / 5)) (some 5) (some (1 / 100)) (some 0),
   sstRep (3 / 10) (some (36 / 5)) (some 5) (some (1 / 100)) (some 0),
   sstRep (2 / 5) (some (36 / 5)) (some 5) (some (1 / 100)) (some 0),
   sstRep (1 / 2) (some (36 / 5)) (some 5) (some (1 / 100)) (some 0),
   sstRep (3 / 5) (some (36 / 5)) (some 5) (some (1 / 100)) (some 0),
   sstRep (7 / 10) (some (36 / 5)) (some 5) (some (1 / 100)) (some 0),
   sstRep (4 / 5) (some (36 / 5)) (some 5) (some (1 / 100)) (some 0)]

/-- test_trackqc.py:1335-1343. -/
def tailTrack21 : List (Except Err Report) :=
  [sstRep 0 (some (36 / 5)) (some 5) (some (1 / 100)) (some 0),
   sstRep (1 / 10) (some (36 / 5)) (some 5) (some (1 / 100)) (some 0),
   sstRep (1 / 5) (some 5) (some 5) (some (2 / 5)) (some 0),
   sstRep (3 / 10) (some 5) (some 5) (some (1 / 100)) (some 0),
   sstRep (2 / 5) (some 5) (some 5) (some (1 / 100)) (some 0),
   sstRep (1 / 2) (some 5) (some 5) (some (1 / 100)) (some 0),
   sstRep (3 / 5) (some 5) (some 5) (some (1 / 100)) (some 0),
   sstRep (7 / 10) (some 5) (some 5) (some (1 / 100)) (some 0),
   sstRep (4 / 5) (some 5) (some 5) (some (1 / 100)) (some 0)]

/-- test_trackqc.py:1346-1354. -/
def tailTrack22 : List (Except Err Report) :=
  [sstRep 0 (some (36 / 5)) (some 5) (some (1 / 100)) (some 0),
   sstRep (1 / 10) (some (36 / 5)) (some 5) (some (1 / 100)) (some 0),
   sstRep (1 / 5) (some (36 / 5)) (some 5) (some (1 / 100)) (some 0),
   sstRep (3 / 10) (some (36 / 5)) (some 5) (some (1 / 100)) (some 0),
   sstRep (2 / 5) (some (36 / 5)) (some 5) (some (2 / 5)) (some 0),
   sstRep (1 / 2) (some (36 / 5)) (some 5) (some (1 / 100)) (some 0),
   sstRep (3 / 5) (some (36 / 5)) (some 5) (some (1 / 100)) (some 0),
   sstRep (7 / 10) (some (36 / 5)) (some 5) (some (1 / 100)) (some 0),
   sstRep (4 / 5) (some (36 / 5)) (some 5) (some (1 / 100)) (some 0)]

/-- test_trackqc.py:1357-1365. -/
def tailTrack23 : List (Except Err Report) :=
  [sstRep 0 (some 6) (some 5) (some (1 / 100)) (some 0),
   sstRep (1 / 10) (some 6) (some 5) (some (1 / 100)) (some 0),
   sstRep (1 / 5) (some 6) (some 5) (some (1 / 100)) (some 0),
   sstRep (3 / 10) (some (31 / 5)) (some 5) (some (1 / 100)) (some 0),
   sstRep (2 / 5) (some 5) (some 5) (some (1 / 100)) (some 0),
   sstRep (1 / 2) (some 5) (some 5) (some (1 / 100)) (some 0),
   sstRep (3 / 5) (some 5) (some 5) (some (1 / 100)) (some 0),
   sstRep (7 / 10) (some 5) (some 5) (some (1 / 100)) (some 0),
   sstRep (4 / 5) (some 5) (some 5) (some (1 / 100)) (some 0)]

/-- test_trackqc.py:1368-1376. -/
def tailTrack24 : List (Except Err Report) :=
  [sstRep 0 (some 5) (some 5) (some (1 / 100)) (some 0),
   sstRep (1 / 10) (some 5) (some 5) (some (1 / 100)) (some 0),
   sstRep (1 / 5) (some 5) (some 5) (some (1 / 100)) (some 0),
   sstRep (3 / 10) (some 5) (some 5) (some (1 / 100)) (some 0),
   sstRep (2 / 5) (some 5) (some 5) (some (1 / 100)) (some 0),
   sstRep (1 / 2) (some (31 / 5)) (some 5) (some (1 / 100)) (some 0),
   sstRep (3 / 5) (some 6) (some 5) (some (1 / 100)) (some 0),
   sstRep (7 / 10) (some 6) (some 5) (some (1 / 100)) (some 0),
   sstRep (4 / 5) (some 6) (some 5) (some (1 / 100)) (some 0)]

/-- test_trackqc.py:1379-1387. -/
def tailTrack25 : List (Except Err Report) :=
  [sstRep 0 (some 6) (some 5) (some (1 / 100)) (some 0),
   sstRep (1 / 10) (some 6) (some 5) (some (1 / 100)) (some 0),
   sstRep (1 / 5) (some 6) (some 5) (some (1 / 100)) (some 0),
   sstRep (3 / 10) (some (31 / 5)) (some 5) (some (1 / 100)) (some 0),
   sstRep (2 / 5) (some 5) (some 5) (some (1 / 100)) (some 0),
   sstRep (1 / 2) (some (31 / 5)) (some 5) (some (1 / 100)) (some 0),
   sstRep (3 / 5) (some 6) (some 5) (some (1 / 100)) (some 0),
   sstRep (7 / 10) (some 6) (some 5) (some (1 / 100)) (some 0),
   sstRep (4 / 5) (some 6) (some 5) (some (1 / 100)) (some 0)]

/-- test_trackqc.py:1390-1398. -/
def tailTrack26 : List (Except Err Report) :=
  [sstRep 0 (some 6) (some 5) (some (1 / 100)) (some 0),
   sstRep (1 / 10) (some 6) (some 5) (some (1 / 100)) (some 0),
   sstRep (1 / 5) (some 6) (some 5) (some (1 / 100)) (some 0),
   sstRep (3 / 10) (some 5) (some 5) (some (1 / 100)) (some 0),
   sstRep (2 / 5) (some 5) (some 5) (some (1 / 100)) (some 0),
   sstRep (1 / 2) (some 5) (some 5) (some (1 / 100)) (some 0),
   sstRep (3 / 5) (some 5) (some 5) (some (1 / 100)) (some 0),
   sstRep (7 / 10) (some 5) (some 5) (some (1 / 100)) (some 0),
   sstRep (4 / 5) (some (31 / 5)) (some 5) (some (1 / 100)) (some 0)]

/-- test_trackqc.py:1401-1409. -/
def tailTrack27 : List (Except Err Report) :=
  [sstRep 0 (some 6) (some 5) (some (1 / 100)) (some 0),
   sstRep (1 / 10) (some 6) (some 5) (some (1 / 100)) (some 0),
   sstRep (1 / 5) (some 6) (some 5) (some (1 / 100)) (some 0),
   sstRep (3 / 10) (some 6) (some 5) (some (1 / 100)) (some 0),
   sstRep (2 / 5) (some 6) (some 5) (some (1 / 100)) (some 0),
   sstRep (1 / 2) (some 6) (some 5) (some (1 / 100)) (some 0),
   sstRep (3 / 5) (some 6) (some 5) (some (1 / 100)) (some 0),
   sstRep (7 / 10) (some 6) (some 5) (some (1 / 100)) (some 0),
   sstRep (4 / 5) (some 5) (some 5) (some (1 / 100)) (some 0)]

/-- test_trackqc.py:1412-1420. -/
def tailTrack28 : List (Except Err Report) :=
  [sstRep 0 (some 6) (some 5) (some (1 / 100)) (some 0),
   sstRep (1 / 10) (some 6) (some 5) (some (1 / 100)) (some 0),
   sstRep (1 / 5) (some 6) (some 5) (some (1 / 100)) (some 0),
   sstRep (3 / 10) (some 6) (some 5) (some (1 / 100)) (some 0),
   sstRep (2 / 5) (some 6) (some 5) (some (1 / 100)) (some 0),
   sstRep (1 / 2) (some 6) (some 5) (some (1 / 100)) (some 0),
   sstRep (3 / 5) (some 6) (some 5) (some (1 / 100)) (some 0),
   sstRep (7 / 10) (some (11 / 2)) (some 5) (some (1 / 100)) (some 0),
   sstRep (4 / 5) (some (11 / 2)) (some 5) (some (1 / 100)) (some 0)]

/-- test_trackqc.py:1423-1431. -/
def tailTrack29 : List (Except Err Report) :=
  [sstRep 0 (some 6) (some 5) (some (1 / 100)) (some 0),
   sstRep (1 / 10) (some 6) (some 5) (some (1 / 100)) (some 0),
   sstRep (1 / 5) (some 7) (some 5) (some (1 / 100)) (some 0),
   sstRep (3 / 10) (some 7) (some 5) (some (2 / 5)) (some 0),
   sstRep (2 / 5) (some 5) (some 5) (some (1 / 100)) (some 0),
   sstRep (1 / 2) (some 5) (some 5) (some (1 / 100)) (some 0),
   sstRep (3 / 5) (some 5) (some 5) (some (1 / 100)) (some 0),
   sstRep (7 / 10) (some 5) (some 5) (some (1 / 100)) (some 0),
   sstRep (4 / 5) (some 5) (some 5) (some (1 / 100)) (some 0)]

/-- test_trackqc.py:1434-1442. -/
def tailTrack30 : List (Except Err Report) :=
  [sstRep 0 (some 6) (some 5) (some (1 / 100)) (some 0),
   sstRep (1 / 10) (some 6) (some 5) (some (1 / 100)) (some 0),
   sstRep (1 / 5) (some 6) (some 5) (some (1 / 100)) (some 0),
   sstRep (3 / 10) (some 6) (some 5) (some (1 / 100)) (some 0),
   sstRep (2 / 5) (some 6) (some 5) (some (1 / 100)) (some 0),
   sstRep (1 / 2) (some 6) (some 5) (some (1 / 100)) (some 0),
   sstRep (3 / 5) (some 6) (some 5) (some (1 / 100)) (some 0),
   sstRep (7 / 10) (some (11 / 2)) (some 5) (some (1 / 100)) (some 0),
   sstRep (4 / 5) (some (11 / 2)) (some 5) (some (2 / 5)) (some 0)]

/-- test_trackqc.py:1445-1453. -/
def tailTrack31 : List (Except Err Report) :=
  [sstRep 0 (some (51 / 10)) (some 5) (some (1 / 100)) (some 0),
   sstRep (1 / 10) (some (51 / 10)) (some 5) (some (1 / 100)) (some 0),
   sstRep (1 / 5) (some (51 / 10)) (some 5) (some (1 / 100)) (some 0),
   sstRep (3 / 10) (some (51 / 10)) (some 5) (some (1 / 100)) (some 0),
   sstRep (2 / 5) (some (51 / 10)) (some 5) (some (1 / 100)) (some 0),
   sstRep (1 / 2) (some 5) (some 5) (some (1 / 100)) (some 0),
   sstRep (3 / 5) (some 5) (some 5) (some (1 / 100)) (some 0),
   sstRep (7 / 10) (some 5) (some 5) (some (1 / 100)) (some 0),
   sstRep (4 / 5) (some 5) (some 5) (some (1 / 100)) (some 0)]

/-- test_trackqc.py:1456-1464. -/
def tailTrack32 : List (Except Err Report) :=
  [sstRep 0 (some (61 / 10)) (some 5) (some (3 / 10)) (some 0),
   sstRep (1 / 10) (some (61 / 10)) (some 5) (some (3 / 10)) (some 0),
   sstRep (1 / 5) (some (61 / 10)) (some 5) (some (3 / 10)) (some 0),
   sstRep (3 / 10) (some (61 / 10)) (some 5) (some (3 / 10)) (some 0),
   sstRep (2 / 5) (some 5) (some 5) (some (3 / 10)) (some 0),
   sstRep (1 / 2) (some 5) (some 5) (some (3 / 10)) (some 0),
   sstRep (3 / 5) (some 5) (some 5) (some (3 / 10)) (some 0),
   sstRep (7 / 10) (some 5) (some 5) (some (3 / 10)) (some 0),
   sstRep (4 / 5) (some 5) (some 5) (some (3 / 10)) (some 0)]

/-- test_trackqc.py:1467-1475. -/
def tailTrack33 : List (Except Err Report) :=
  [sstRep 0 (some 5) (some 5) (some 1) (some 0),
   sstRep (1 / 10) (some (15 / 2)) (some 5) (some 1) (some 0),
   sstRep (1 / 5) (some 5) (some 5) (some 1) (some 0),
   sstRep (3 / 10) (some 5) (some 5) (some 1) (some 0),
   sstRep (2 / 5) (some 5) (some 5) (some 1) (some 0),
   sstRep (1 / 2) (some 5) (some 5) (some 1) (some 0),
   sstRep (3 / 5) (some 5) (some 5) (some 1) (some 0),
   sstRep (7 / 10) (some 5) (some 5) (some 1) (some 0),
   sstRep (4 / 5) (some 5) (some 5) (some 1) (some 0)]

/-- test_trackqc.py:1478-1486. -/
def tailTrack34 : List (Except Err Report) :=
  [sstRep 0 (some 5) (some 5) (some 1) (some 0),
   sstRep (1 / 10) (some 5) (some 5) (some 1) (some 0),
   sstRep (1 / 5) (some 5) (some 5) (some 1) (some 0),
   sstRep (3 / 10) (some 5) (some 5) (some 1) (some 0),
   sstRep (2 / 5) (some 5) (some 5) (some 1) (some 0),
   sstRep (1 / 2) (some 5) (some 5) (some 1) (some 0),
   sstRep (3 / 5) (some 5) (some 5) (some 1) (some 0),
   sstRep (7 / 10) (some 5) (some 5) (some 1) (some 0),
   sstRep (4 / 5) (some 5) (some 5) (some 1) (some 0)]

/-- test_trackqc.py:1489-1497. -/
def tailTrack35 : List (Except Err Report) :=
  [sstRepNoBg 0 (some 5) (some 1) (some 0),
   sstRepNoBg (1 / 10) (some 5) (some 1) (some 0),
   sstRepNoBg (1 / 5) (some 5) (some 1) (some 0),
   sstRepNoBg (3 / 10) (some 5) (some 1) (some 0),
   sstRepNoBg (2 / 5) (some 5) (some 1) (some 0),
   sstRepNoBg (1 / 2) (some 5) (some 1) (some 0),
   sstRepNoBg (3 / 5) (some 5) (some 1) (some 0),
   sstRepNoBg (7 / 10) (some 5) (some 1) (some 0),
   sstRepNoBg (4 / 5) (some 5) (some 1) (some 0)]

/-- test_trackqc.py:1500-1508. -/
def tailTrack36 : List (Except Err Report) :=
  [sstRep 0 (some 5) (some 5) (some 1) (some (11 / 10)),
   sstRep (1 / 10) (some 5) (some 5) (some 1) (some 0),
   sstRep (1 / 5) (some 5) (some 5) (some 1) (some 0),
   sstRep (3 / 10) (some 5) (some 5) (some 1) (some 0),
   sstRep (2 / 5) (some 5) (some 5) (some 1) (some 0),
   sstRep (1 / 2) (some 5) (some 5) (some 1) (some 0),
   sstRep (3 / 5) (some 5) (some 5) (some 1) (some 0),
   sstRep (7 / 10) (some 5) (some 5) (some 1) (some 0),
   sstRep (4 / 5) (some 5) (some 5) (some 1) (some 0)]

/-- test_trackqc.py:1511-1519. -/
def tailTrack37 : List (Except Err Report) :=
  [sstRep 0 (some 5) (some 5) (some 1) (some 0),
   sstRep (1 / 10) (some 5) (some 5) (some 1) (some 0),
   sstRep (1 / 5) (some 5) (some 5) (some 1) (some 0),
   sstRep (3 / 10) (some 5) (some 5) (some 1) (some 0),
   sstRep (2 / 5) (some 5) (some 5) (some 1) (some 0),
   sstRep (1 / 2) (some 5) (some 5) (some 1) (some 0),
   sstRep (3 / 5) (some 5) (some 5) (some 1) (some 0),
   sstRep (7 / 10) (some 5) (some 5) (some 1) (some 0),
   sstRep (4 / 5) (some 5) (some 5) (some 1) (some 0)]

/-- test_trackqc.py:1522-1530. -/
def tailTrack38 : List (Except Err Report) :=
  [sstRep 0 (some 5) (some 5) (some 1) (some 0),
   sstRep (1 / 10) (some 5) (some 5) (some 1) (some 0),
   sstRep (1 / 5) (some 5) (some 5) (some 1) (some 0),
   sstRep (1 / 10) (some 5) (some 5) (some 1) (some 0),
   sstRep (2 / 5) (some 5) (some 5) (some 1) (some 0),
   sstRep (1 / 2) (some 5) (some 5) (some 1) (some 0),
   sstRep (3 / 5) (some 5) (some 5) (some 1) (some 0),
   sstRep (7 / 10) (some 5) (some 5) (some 1) (some 0),
   sstRep (4 / 5) (some 5) (some 5) (some 1) (some 0)]

/-- test_trackqc.py:1533-1541. -/
def tailTrack39 : List (Except Err Report) :=
  [sstRep 0 (some 5) (some 5) (some 1) (some 0),
   sstRep (1 / 10) (some 5) (some 5) (some 1) (some 0),
   sstRep (1 / 5) (some 5) (some 5) (some 1) (some 0),
   sstRep (3 / 10) (some 5) (some 5) (some 1) (some 0),
   sstRep (2 / 5) (some 5) (some 5) (some 1) (some 0),
   sstRep (1 / 2) (some 5) (some 5) (some 1) (some 0),
   sstRep (3 / 5) (some 5) (some 5) (some 1) (some 0),
   sstRep (7 / 10) (some 5) (some 5) (some 1) (some 0),
   sstRep (4 / 5) (some 5) (some 46) (some 1) (some 0)]

/-- test_trackqc.py:1544-1552. -/
def tailTrack40 : List (Except Err Report) :=
  [sstRep 0 (some 5) (some 5) (some 1) (some 0),
   sstRep (1 / 10) (some 5) (some 5) (some 1) (some 0),
   sstRep (1 / 5) (some 5) (some 5) (some 1) (some 0),
   sstRep (3 / 10) (some 5) (some 5) (some (-1)) (some 0),
   sstRep (2 / 5) (some 5) (some 5) (some 1) (some 0),
   sstRep (1 / 2) (some 5) (some 5) (some 1) (some 0),
   sstRep (3 / 5) (some 5) (some 5) (some 1) (some 0),
   sstRep (7 / 10) (some 5) (some 5) (some 1) (some 0),
   sstRep (4 / 5) (some 5) (some 5) (some 1) (some 0)]

/-- test_trackqc.py:2081-2087 `test_all_daytime`. -/
example :
    ((drifterOf tailTrack1).bind (sstTailCheck testSunReal ⟨3, 3, 1, 3, 1, (29 / 100), 1, (3 / 10)⟩)).map tailSeen =
      .ok [[0, 0, 0, 0, 0, 0, 0, 0, 0], [0, 0, 0, 0, 0, 0, 0, 0, 0]] :=
  tail_decided (1 / 100) (by norm_num) (by norm_num) (by norm_num) (by decide +kernel) (by decide +kernel)

/-- test_trackqc.py:2089-2095 `test_all_land_masked`. -/
example :
    ((drifterOf tailTrack2).bind (sstTailCheck testSunReal ⟨3, 3, 1, 3, 1, (29 / 100), 1, (3 / 10)⟩)).map tailSeen =
      .ok [[0, 0, 0, 0, 0, 0, 0, 0, 0], [0, 0, 0, 0, 0, 0, 0, 0, 0]] :=
  tail_decided (1 / 100) (by norm_num) (by norm_num) (by norm_num) (by decide +kernel) (by decide +kernel)

/-- test_trackqc.py:2097-2103 `test_all_ice`. -/
example :
    ((drifterOf tailTrack3).bind (sstTailCheck testSunReal ⟨3, 3, 1, 3, 1, (29 / 100), 1, (3 / 10)⟩)).map tailSeen =
      .ok [[0, 0, 0, 0, 0, 0, 0, 0, 0], [0, 0, 0, 0, 0, 0, 0, 0, 0]] :=
  tail_decided (1 / 100) (by norm_num) (by norm_num) (by norm_num) (by decide +kernel) (by decide +kernel)

/-- test_trackqc.py:2105-2111 `test_one_usable_value`. -/
example :
    ((drifterOf tailTrack4).bind (sstTailCheck testSunReal ⟨3, 3, 2, 3, 1, (29 / 100), 1, (3 / 10)⟩)).map tailSeen =
      .ok [[0, 0, 0, 0, 0, 0, 0, 0, 0], [0, 0, 0, 0, 0, 0, 0, 0, 0]] :=
  tail_decided (1 / 100) (by norm_num) (by norm_num) (by norm_num) (by decide +kernel) (by decide +kernel)

/-- test_trackqc.py:2113-2119 `test_start_tail_bias`. -/
example :
    ((drifterOf tailTrack5).bind (sstTailCheck testSunReal ⟨3, 3, 1, 3, 1, (29 / 100), 1, (3 / 10)⟩)).map tailSeen =
      .ok [[1, 1, 1, 0, 0, 0, 0, 0, 0], [0, 0, 0, 0, 0, 0, 0, 0, 0]] :=
  tail_decided (1 / 100) (by norm_num) (by norm_num) (by norm_num) (by decide +kernel) (by decide +kernel)

/-- test_trackqc.py:2121-2127 `test_start_tail_negative_bias`. -/
example :
    ((drifterOf tailTrack6).bind (sstTailCheck testSunReal ⟨3, 3, 1, 3, 1, (29 / 100), 1, (3 / 10)⟩)).map tailSeen =
      .ok [[1, 1, 1, 0, 0, 0, 0, 0, 0], [0, 0, 0, 0, 0, 0, 0, 0, 0]] :=
  tail_decided (1 / 100) (by norm_num) (by norm_num) (by norm_num) (by decide +kernel) (by decide +kernel)

/-- test_trackqc.py:2129-2135 `test_start_tail_bias_obs_missing`. -/
example :
    ((drifterOf tailTrack7).bind (sstTailCheck testSunReal ⟨3, 3, 1, 3, 1, (29 / 100), 1, (3 / 10)⟩)).map tailSeen =
      .ok [[1, 1, 1, 1, 1, 0, 0, 0, 0], [0, 0, 0, 0, 0, 0, 0, 0, 0]] :=
  tail_decided (1 / 100) (by norm_num) (by norm_num) (by norm_num) (by decide +kernel) (by decide +kernel)

/-- test_trackqc.py:2137-2143 `test_end_tail_bias`. -/
example :
    ((drifterOf tailTrack8).bind (sstTailCheck testSunReal ⟨3, 3, 1, 3, 1, (29 / 100), 1, (3 / 10)⟩)).map tailSeen =
      .ok [[0, 0, 0, 0, 0, 0, 0, 0, 0], [0, 0, 0, 0, 0, 0, 1, 1, 1]] :=
  tail_decided (1 / 100) (by norm_num) (by norm_num) (by norm_num) (by decide +kernel) (by decide +kernel)

/-- test_trackqc.py:2145-2151 `test_end_tail_bias_obs_missing`. -/
example :
    ((drifterOf tailTrack9).bind (sstTailCheck testSunReal ⟨3, 3, 1, 3, 1, (29 / 100), 1, (3 / 10)⟩)).map tailSeen =
      .ok [[0, 0, 0, 0, 0, 0, 0, 0, 0], [0, 0, 0, 0, 1, 1, 1, 1, 1]] :=
  tail_decided (1 / 100) (by norm_num) (by norm_num) (by norm_num) (by decide +kernel) (by decide +kernel)

/-- test_trackqc.py:2153-2159 `test_start_tail_noisy`. -/
example :
    ((drifterOf tailTrack10).bind (sstTailCheck testSunReal ⟨3, 3, 1, 3, 1, (29 / 100), 1, (3 / 10)⟩)).map tailSeen =
      .ok [[1, 1, 1, 0, 0, 0, 0, 0, 0], [0, 0, 0, 0, 0, 0, 0, 0, 0]] :=
  tail_decided (1 / 100) (by norm_num) (by norm_num) (by norm_num) (by decide +kernel) (by decide +kernel)

/-- test_trackqc.py:2161-2167 `test_end_tail_noisy`. -/
example :
    ((drifterOf tailTrack11).bind (sstTailCheck testSunReal ⟨3, 3, 1, 3, 1, (29 / 100), 1, (3 / 10)⟩)).map tailSeen =
      .ok [[0, 0, 0, 0, 0, 0, 0, 0, 0], [0, 0, 0, 0, 0, 0, 1, 1, 1]] :=
  tail_decided (1 / 100) (by norm_num) (by norm_num) (by norm_num) (by decide +kernel) (by decide +kernel)

/-- test_trackqc.py:2169-2175 `test_two_tails`. -/
example :
    ((drifterOf tailTrack12).bind (sstTailCheck testSunReal ⟨3, 3, 1, 3, 1, (29 / 100), 1, (3 / 10)⟩)).map tailSeen =
      .ok [[1, 1, 1, 0, 0, 0, 0, 0, 0], [0, 0, 0, 0, 0, 0, 1, 1, 1]] :=
  tail_decided (1 / 100) (by norm_num) (by norm_num) (by norm_num) (by decide +kernel) (by decide +kernel)

/-- test_trackqc.py:2177-2183 `test_all_biased`. -/
example :
    ((drifterOf tailTrack13).bind (sstTailCheck testSunReal ⟨3, 3, 1, 3, 1, (29 / 100), 1, (3 / 10)⟩)).map tailSeen =
      .ok [[0, 0, 0, 0, 0, 0, 0, 0, 0], [0, 0, 0, 0, 0, 0, 0, 0, 0]] :=
  tail_decided (1 / 100) (by norm_num) (by norm_num) (by norm_num) (by decide +kernel) (by decide +kernel)

/-- test_trackqc.py:2185-2191 `test_all_noisy`. -/
example :
    ((drifterOf tailTrack14).bind (sstTailCheck testSunReal ⟨3, 3, 1, 3, 1, (29 / 100), 1, (3 / 10)⟩)).map tailSeen =
      .ok [[0, 0, 0, 0, 0, 0, 0, 0, 0], [0, 0, 0, 0, 0, 0, 0, 0, 0]] :=
  tail_decided (1 / 100) (by norm_num) (by norm_num) (by norm_num) (by decide +kernel) (by decide +kernel)

/-- test_trackqc.py:2193-2199 `test_start_tail_bias_with_bgvar`. -/
example :
    ((drifterOf tailTrack15).bind (sstTailCheck testSunReal ⟨3, 3, 1, 3, 1, (29 / 100), 1, (3 / 10)⟩)).map tailSeen =
      .ok [[1, 1, 0, 0, 0, 0, 0, 0, 0], [0, 0, 0, 0, 0, 0, 0, 0, 0]] :=
  tail_decided (1 / 100) (by norm_num) (by norm_num) (by norm_num) (by decide +kernel) (by decide +kernel)

/-- test_trackqc.py:2201-2207 `test_all_biased_with_bgvar`. -/
example :
    ((drifterOf tailTrack16).bind (sstTailCheck testSunReal ⟨3, 3, 1, 3, 1, (29 / 100), 1, (3 / 10)⟩)).map tailSeen =
      .ok [[1, 1, 1, 0, 0, 0, 0, 0, 0], [0, 0, 0, 0, 0, 0, 1, 1, 1]] :=
  tail_decided (1 / 100) (by norm_num) (by norm_num) (by norm_num) (by decide +kernel) (by decide +kernel)

/-- test_trackqc.py:2209-2215 `test_short_start_tail`. -/
example :
    ((drifterOf tailTrack17).bind (sstTailCheck testSunReal ⟨7, 3, 3, 2, 2, (29 / 100), 1, (3 / 10)⟩)).map tailSeen =
      .ok [[1, 0, 0, 0, 0, 0, 0, 0, 0], [0, 0, 0, 0, 0, 0, 0, 0, 0]] :=
  tail_decided (1 / 100) (by norm_num) (by norm_num) (by norm_num) (by decide +kernel) (by decide +kernel)

/-- test_trackqc.py:2217-2223 `test_short_end_tail`. -/
example :
    ((drifterOf tailTrack18).bind (sstTailCheck testSunReal ⟨7, 3, 3, 2, 2, (29 / 100), 1, (3 / 10)⟩)).map tailSeen =
      .ok [[0, 0, 0, 0, 0, 0, 0, 0, 0], [0, 0, 0, 0, 0, 0, 0, 0, 1]] :=
  tail_decided (1 / 100) (by norm_num) (by norm_num) (by norm_num) (by decide +kernel) (by decide +kernel)

/-- test_trackqc.py:2225-2231 `test_short_two_tails`. -/
example :
    ((drifterOf tailTrack19).bind (sstTailCheck testSunReal ⟨7, 3, 3, 2, 2, (29 / 100), 1, (3 / 10)⟩)).map tailSeen =
      .ok [[1, 0, 0, 0, 0, 0, 0, 0, 0], [0, 0, 0, 0, 0, 0, 0, 0, 1]] :=
  tail_decided (1 / 100) (by norm_num) (by norm_num) (by norm_num) (by decide +kernel) (by decide +kernel)

/-- test_trackqc.py:2233-2239 `test_short_all_fail`. -/
example :
    ((drifterOf tailTrack20).bind (sstTailCheck testSunReal ⟨7, 9, 3, 2, 2, (29 / 100), 1, (3 / 10)⟩)).map tailSeen =
      .ok [[0, 0, 0, 0, 0, 0, 0, 0, 0], [0, 0, 0, 0, 0, 0, 0, 0, 0]] :=
  tail_decided (1 / 100) (by norm_num) (by norm_num) (by norm_num) (by decide +kernel) (by decide +kernel)

/-- test_trackqc.py:2241-2247 `test_short_start_tail_with_bgvar`. -/
example :
    ((drifterOf tailTrack21).bind (sstTailCheck testSunReal ⟨7, 3, 3, 2, 2, (29 / 100), 1, (3 / 10)⟩)).map tailSeen =
      .ok [[0, 0, 0, 0, 0, 0, 0, 0, 0], [0, 0, 0, 0, 0, 0, 0, 0, 0]] :=
  tail_decided (1 / 100) (by norm_num) (by norm_num) (by norm_num) (by decide +kernel) (by decide +kernel)

/-- test_trackqc.py:2249-2255 `test_short_all_fail_with_bgvar`. -/
example :
    ((drifterOf tailTrack22).bind (sstTailCheck testSunReal ⟨7, 9, 3, 2, 2, (29 / 100), 1, (3 / 10)⟩)).map tailSeen =
      .ok [[1, 1, 0, 0, 0, 0, 0, 0, 0], [0, 0, 0, 0, 0, 0, 0, 1, 1]] :=
  tail_decided (1 / 100) (by norm_num) (by norm_num) (by norm_num) (by decide +kernel) (by decide +kernel)

/-- test_trackqc.py:2257-2263 `test_long_and_short_start_tail`. -/
example :
    ((drifterOf tailTrack23).bind (sstTailCheck testSunReal ⟨3, 3, 1, 1, 1, (29 / 100), 1, (3 / 10)⟩)).map tailSeen =
      .ok [[1, 1, 1, 1, 0, 0, 0, 0, 0], [0, 0, 0, 0, 0, 0, 0, 0, 0]] :=
  tail_decided (1 / 100) (by norm_num) (by norm_num) (by norm_num) (by decide +kernel) (by decide +kernel)

/-- test_trackqc.py:2265-2271 `test_long_and_short_end_tail`. -/
example :
    ((drifterOf tailTrack24).bind (sstTailCheck testSunReal ⟨3, 3, 1, 1, 1, (29 / 100), 1, (3 / 10)⟩)).map tailSeen =
      .ok [[0, 0, 0, 0, 0, 0, 0, 0, 0], [0, 0, 0, 0, 0, 1, 1, 1, 1]] :=
  tail_decided (1 / 100) (by norm_num) (by norm_num) (by norm_num) (by decide +kernel) (by decide +kernel)

/-- test_trackqc.py:2273-2279 `test_long_and_short_two_tails`. -/
example :
    ((drifterOf tailTrack25).bind (sstTailCheck testSunReal ⟨3, 3, 1, 1, 1, (29 / 100), 1, (3 / 10)⟩)).map tailSeen =
      .ok [[1, 1, 1, 1, 0, 0, 0, 0, 0], [0, 0, 0, 0, 0, 1, 1, 1, 1]] :=
  tail_decided (1 / 100) (by norm_num) (by norm_num) (by norm_num) (by decide +kernel) (by decide +kernel)

/-- test_trackqc.py:2281-2287 `test_one_long_and_one_short_tail`. -/
example :
    ((drifterOf tailTrack26).bind (sstTailCheck testSunReal ⟨3, 3, 1, 1, 1, (29 / 100), 1, (3 / 10)⟩)).map tailSeen =
      .ok [[1, 1, 0, 0, 0, 0, 0, 0, 0], [0, 0, 0, 0, 0, 0, 0, 0, 1]] :=
  tail_decided (1 / 100) (by norm_num) (by norm_num) (by norm_num) (by decide +kernel) (by decide +kernel)

/-- test_trackqc.py:2289-2295 `test_too_short_for_short_tail`. -/
example :
    ((drifterOf tailTrack27).bind (sstTailCheck testSunReal ⟨3, 3, 3, (1 / 2), 1, (29 / 100), 1, (3 / 10)⟩)).map tailSeen =
      .ok [[1, 1, 1, 1, 1, 1, 1, 0, 0], [0, 0, 0, 0, 0, 0, 0, 0, 0]] :=
  tail_decided (1 / 100) (by norm_num) (by norm_num) (by norm_num) (by decide +kernel) (by decide +kernel)

/-- test_trackqc.py:2297-2303 `test_long_and_short_all_fail`. -/
example :
    ((drifterOf tailTrack28).bind (sstTailCheck testSunReal ⟨3, 3, 1, (1 / 4), 1, (29 / 100), 1, (3 / 10)⟩)).map tailSeen =
      .ok [[0, 0, 0, 0, 0, 0, 0, 0, 0], [0, 0, 0, 0, 0, 0, 0, 0, 0]] :=
  tail_decided (1 / 100) (by norm_num) (by norm_num) (by norm_num) (by decide +kernel) (by decide +kernel)

/-- test_trackqc.py:2305-2311 `test_long_and_short_start_tail_with_bgvar`. -/
example :
    ((drifterOf tailTrack29).bind (sstTailCheck testSunReal ⟨3, 3, 1, 1, 1, (29 / 100), 1, (3 / 10)⟩)).map tailSeen =
      .ok [[1, 1, 1, 0, 0, 0, 0, 0, 0], [0, 0, 0, 0, 0, 0, 0, 0, 0]] :=
  tail_decided (1 / 100) (by norm_num) (by norm_num) (by norm_num) (by decide +kernel) (by decide +kernel)

/-- test_trackqc.py:2313-2319 `test_long_and_short_all_fail_with_bgvar`. -/
example :
    ((drifterOf tailTrack30).bind (sstTailCheck testSunReal ⟨3, 3, 1, (1 / 4), 1, (29 / 100), 1, (3 / 10)⟩)).map tailSeen =
      .ok [[1, 1, 1, 1, 1, 1, 1, 1, 0], [0, 0, 0, 0, 0, 0, 0, 0, 0]] :=
  tail_decided (1 / 100) (by norm_num) (by norm_num) (by norm_num) (by decide +kernel) (by decide +kernel)

/-- test_trackqc.py:2321-2327 `test_good_data`. -/
example :
    ((drifterOf tailTrack31).bind (sstTailCheck testSunReal ⟨3, 3, 1, 3, 1, (29 / 100), 1, (3 / 10)⟩)).map tailSeen =
      .ok [[0, 0, 0, 0, 0, 0, 0, 0, 0], [0, 0, 0, 0, 0, 0, 0, 0, 0]] :=
  tail_decided (1 / 100) (by norm_num) (by norm_num) (by norm_num) (by decide +kernel) (by decide +kernel)

/-- test_trackqc.py:2329-2335 `test_long_and_short_start_tail_big_bgvar`. -/
example :
    ((drifterOf tailTrack32).bind (sstTailCheck testSunReal ⟨3, 3, 1, 1, 1, (29 / 100), 1, (3 / 10)⟩)).map tailSeen =
      .ok [[0, 0, 0, 0, 0, 0, 0, 0, 0], [0, 0, 0, 0, 0, 0, 0, 0, 0]] :=
  tail_decided (3 / 10) (by norm_num) (by norm_num) (by norm_num) (by decide +kernel) (by decide +kernel)

/-- test_trackqc.py:2337-2343 `test_start_tail_noisy_big_bgvar`. -/
example :
    ((drifterOf tailTrack33).bind (sstTailCheck testSunReal ⟨3, 3, 1, 3, 1, (29 / 100), 1, 2⟩)).map tailSeen =
      .ok [[0, 0, 0, 0, 0, 0, 0, 0, 0], [0, 0, 0, 0, 0, 0, 0, 0, 0]] :=
  tail_decided 1 (by norm_num) (by norm_num) (by norm_num) (by decide +kernel) (by decide +kernel)

/-- test_trackqc.py:2345-2355 `test_error_bad_input_parameter`. -/
example :
    ((drifterOf tailTrack34).bind (sstTailCheck testSunReal ⟨0, 3, 1, 3, 1, (29 / 100), 1, (3 / 10)⟩)).map tailSeen =
      .error .assertion :=
  tail_decided 0 (by norm_num) (by norm_num) (by norm_num) (by decide +kernel) (by decide +kernel)

/-- test_trackqc.py:2357-2367 `test_error_missing_matched_value`. -/
example :
    ((drifterOf tailTrack35).bind (sstTailCheck testSunReal ⟨3, 3, 1, 3, 1, (29 / 100), 1, (3 / 10)⟩)).map tailSeen =
      .error .assertion :=
  tail_decided 0 (by norm_num) (by norm_num) (by norm_num) (by decide +kernel) (by decide +kernel)

/-- test_trackqc.py:2369-2379 `test_error_invalid_ice_value`. -/
example :
    ((drifterOf tailTrack36).bind (sstTailCheck testSunReal ⟨3, 3, 1, 3, 1, (29 / 100), 1, (3 / 10)⟩)).map tailSeen =
      .error .assertion :=
  tail_decided 0 (by norm_num) (by norm_num) (by norm_num) (by decide +kernel) (by decide +kernel)

/-- test_trackqc.py:2381-2391 `test_error_missing_ob_value`. -/
example :
    (((drifterOf tailTrack37).map (lacking 1 "LAT")).bind (sstTailCheck testSunReal ⟨3, 3, 1, 3, 1, (29 / 100), 1, (3 / 10)⟩)).map tailSeen =
      .error .assertion :=
  tail_decided 0 (by norm_num) (by norm_num) (by norm_num) (by decide +kernel) (by decide +kernel)

/-- test_trackqc.py:2393-2403 `test_error_not_time_sorted`. -/
example :
    ((drifterOf tailTrack38).bind (sstTailCheck testSunReal ⟨3, 3, 1, 3, 1, (29 / 100), 1, (3 / 10)⟩)).map tailSeen =
      .error .assertion :=
  tail_decided 0 (by norm_num) (by norm_num) (by norm_num) (by decide +kernel) (by decide +kernel)

/-- test_trackqc.py:2405-2415 `test_error_invalid_background`. -/
example :
    ((drifterOf tailTrack39).bind (sstTailCheck testSunReal ⟨3, 3, 1, 3, 1, (29 / 100), 1, (3 / 10)⟩)).map tailSeen =
      .error .assertion :=
  tail_decided 0 (by norm_num) (by norm_num) (by norm_num) (by decide +kernel) (by decide +kernel)

/-- test_trackqc.py:2417-2427 `test_error_invalid_background_error_variance`. -/
example :
    ((drifterOf tailTrack40).bind (sstTailCheck testSunReal ⟨3, 3, 1, 3, 1, (29 / 100), 1, (3 / 10)⟩)).map tailSeen =
      .error .assertion :=
  tail_decided 0 (by norm_num) (by norm_num) (by norm_num) (by decide +kernel) (by decide +kernel)

end MarineQC.Conform
