import Verif.Base.ReadProps

/-!
# A sample run of the reading loop
-/

namespace MarineQC

open Spec

/-- A field with the same value everywhere. -/
def flatField (nt ny nx : Nat) (q : Rat) : Arr3 := ⟨nt, ny, nx, fun _ _ _ => some q⟩

/-- A library with all fields the program uses. -/
def sampleLib : ClimLib Arr3 :=
  [("SST", [("mean", flatField 73 180 360 15)]), ("AT", [("mean", flatField 73 180 360 15)]),
   ("SLP2", [("mean", flatField 73 180 360 1000)]), ("SHU", [("mean", flatField 73 180 360 10)]),
   ("CRH", [("mean", flatField 73 180 360 80)]), ("CWB", [("mean", flatField 73 180 360 12)]),
   ("DPD", [("mean", flatField 73 180 360 2)]),
   ("DPT", [("mean", flatField 73 180 360 10), ("stdev", flatField 73 180 360 2)]),
   ("AT2", [("mean", flatField 73 180 360 15), ("stdev", flatField 73 180 360 2)]),
   ("SLP", [("mean", flatField 73 180 360 1000), ("stdev", flatField 73 180 360 5)])]

/-- A line of a file, up to the identifier. -/
def sampleLine (date : String) (ident : String) : List Char :=
  (date ++ "1200 4500 32000  " ++ "         " ++ ident).toList

/-- Files `/d/f1990-01`, …; the fields of sea-surface temperature tell the month and the day they are for. -/
def sampleEnv (files : List (String × List (List Char))) : ReadEnv Rat where
  fs := ⟨fun p => if (files.any fun f => f.1.toList == p) then some ['x'] else none, fun _ => true⟩
  dirs := ["/d".toList]
  files := ["fYYYY-MMMM".toList]
  lines := fun p => (files.find? fun f => f.1.toList == p).map (·.2)
  excl := ["SHIP     ".toList]
  tracking := true
  bgVar := fun _ => .ok (flatField 1 180 360 1)
  background := fun t => .ok (flatField 1 3600 7200 (100 * t.2.1 + t.2.2), flatField 1 3600 7200 0)
  hum := ⟨fun _ _ _ => some 10, fun _ _ _ => some 8, fun _ _ _ => some 80, fun _ _ _ => some 9, fun _ _ => some 2⟩
  elev := fun _ _ _ _ _ _ => (1 : Rat)
  params := sampleParams

/-- What is looked at of a report: identifier, day, flag for the month and background temperature. -/
structure Seen where
  id : Option String
  day : Option Int
  flag : Option Int
  back : Option (Option Rat)
deriving DecidableEq

def seenOf (r : Report) : Seen := ⟨r.id, r.getint "DY", r.qc "POSmonth_match", r.ext "OSTIA"⟩

def observed (r : Except Err ReadState) : Option (List Seen) := r.toOption.map fun s => s.deck.reps.map seenOf

/-- Three files; the last record of the first and the first record of the second have the same day of the month. -/
def threeFiles : List (String × List (List Char)) :=
  [("/d/f1990-01", [sampleLine "199001 4" "A        ", sampleLine "199001 5" "B        "]),
   ("/d/f1990-02", [sampleLine "199002 5" "C        ", sampleLine "199002 6" "D        "]),
   ("/d/f1990-03", [sampleLine "199003 7" "E        "])]

theorem threeFiles_read : observed (readReports (sampleEnv threeFiles) sampleLib 1990 2) =
    some [⟨some "A        ", some 4, some 0, some (some (-3403 / 20))⟩,
      ⟨some "B        ", some 5, some 0, some (some (-3383 / 20))⟩,
      ⟨some "C        ", some 5, some 1, some (some (-3383 / 20))⟩,
      ⟨some "D        ", some 6, some 1, some (some (-1363 / 20))⟩,
      ⟨some "E        ", some 7, some 0, some (some (657 / 20))⟩] := by decide +kernel

theorem threeFiles_records : (recordsFor (sampleEnv threeFiles) [(1990, 1), (1990, 2), (1990, 3)]).map
    (fun p => (p.1, dayOf p.2)) = [((1990, 1), some 4), ((1990, 1), some 5), ((1990, 2), some 5), ((1990, 2), some 6),
      ((1990, 3), some 7)] := by decide +kernel

end MarineQC
