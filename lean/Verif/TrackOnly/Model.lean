import Verif.Base.RunModel

/-!
# Model of the program that only prepares the tracking of drifters (`/repo/marine_qc_track_only.py`)

The program is a copy of the main program from which parts have been taken out.  What the two have in common is modelled
by the definitions for the main program: reading of lines and choice of records (lines 134-166 here, 140-172 in
marine_qc.py), background values (173-195; 180-203), the flag for the month in hand (204-207; 226), the loop over ships
(218-241; 237-260), the first two buddy checks (245-261; 264-280) and the output for drifters (265-281; 335-350).
-/

namespace MarineQC

variable {F : Type} [LinearOrder F] [Zero F]

/-- marine_qc_track_only.py:197-207: climatology of sea-surface temperature and base checks of a report, and the flag for
the month in hand. -/
def trackOnlyFinish (E : ReadEnv F) (year month : Int) (lib : ClimLib Arr3) (r : Report) : Except Err Report := do
  let r ← addMdsClims lib ["SST"] r
  let r ← r.performBaseQc E.elev E.params
  r.setQc "POS" "month_match" (reportMonthMatch year month r)

/-- marine_qc_track_only.py:168-210: a record that is used becomes a report of the deck. -/
def trackOnlyUse (E : ReadEnv F) (year month : Int) (bg : Option Arr3) (y m : Int) (s : ReadState) (rec : Imma) :
    Except Err ReadState := do
  let r ← reportOf rec
  let b ← addBackground E bg y m s r
  let r ← trackOnlyFinish E year month b.2.2 b.1
  return ⟨b.2.1, b.2.2, s.deck.append r⟩

/-- marine_qc_track_only.py:154-212, one line of a file. -/
def trackOnlyLine (E : ReadEnv F) (year month : Int) (bg : Option Arr3) (y m : Int) (s : ReadState) (line : List Char) :
    Except Err ReadState := do
  let b ← wanted E.excl y m (readState line)
  if b then trackOnlyUse E year month bg y m s (readState line).1 else return s

/-- marine_qc_track_only.py:134-214, one of the three months. -/
def trackOnlyMonthFile (E : ReadEnv F) (year month : Int) (s : ReadState) (ym : Int × Int) : Except Err ReadState := do
  let bg ← seasonField E ym.2
  let name ← icoadsFilenameFromStub E.fs E.dirs E.files (some ym.1) (some ym.2)
  let file ← openFile E name
  match file with
  | none => return s
  | some lines => lines.foldlM (trackOnlyLine E year month bg ym.1 ym.2) s

/-- marine_qc_track_only.py:123-216, the reading of the reports for one month. -/
def trackOnlyReports (E : ReadEnv F) (lib : ClimLib Arr3) (year month : Int) : Except Err ReadState := do
  let months ← monthsRead 3 year month
  match months with
  | none => .error .recursion
  | some l => l.foldlM (trackOnlyMonthFile E year month) ⟨-99, lib, Deck.empty⟩

/-- marine_qc_track_only.py:231-239, the checks of one ship. -/
def trackOnlyShip (G : Geo) (rnd : Rat → Rat) (P : ShipParams) (v : List Report) : Except Err (List Report) := do
  let v ← trackCheck G P.track v
  let v ← iquamTrackCheck G P.iquam v
  let v ← spikeCheck G P.spike "SST" v
  let v ← findSaturatedRuns G P.satTime P.satRun v
  let v ← findMultipleRounded rnd P.roundCount P.roundShare "DPT" v
  repeatedChecks rnd P ["SST"] v

/-- marine_qc_track_only.py:245-261, the buddy checks of the deck. -/
noncomputable def trackOnlyBuddies (erf : ℝ → ℝ) (span : Int → Nat → Int) (B : BuddyInputs) (d : Deck) : Except Err Deck := do
  let d ← bayesianBuddyCheck erf span (d.addFilter sstBuddies) "SST" B.sst1 B.sst2 B.sst3 B.sstBayes
  mdsBuddyCheck span d "SST" B.pentad B.mds

/-- marine_qc_track_only.py:123-261: the reports of a month, read and checked, and the library afterwards. -/
noncomputable def trackOnlyChecked (E : RunEnv F) (lib : ClimLib Arr3) (ym : Int × Int) :
    Except Err (Deck × ClimLib Arr3) := do
  let s ← trackOnlyReports E.read lib ym.1 ym.2
  let d ← shipPass E.geo (trackOnlyShip E.geo E.rnd E.ships) (s.deck.addFilter shipFilter)
  let d ← trackOnlyBuddies erf E.span E.buddy d
  return (d, s.lib)

/-- marine_qc_track_only.py:263-281, the output of a month. -/
def trackOnlyOutput (fmt : Rat → List Char) (vflags : List (String × List String)) (G : Geo) (runid out : List Char)
    (order : List (Option String × List Nat) → List (Option String × List Nat)) (tracking : Bool) (year month : Int)
    (d : Deck) (fs : FileSys) : FileSys × Option Err :=
  match safeMakeDir fs out year month with
  | (fs, none) => (fs, some .other)
  | (fs, some dir) => if tracking then drifterOutput fmt vflags G runid dir year month order d fs else (fs, none)

/-- marine_qc_track_only.py:123-283, the loop over months.  The file system afterwards, and the exception that stopped the
run. -/
noncomputable def trackOnlyRun (E : RunEnv F) : List (Int × Int) → ClimLib Arr3 → FileSys → FileSys × Option Err
  | [], _, fs => (fs, none)
  | ym :: l, lib, fs =>
    match trackOnlyChecked E lib ym with
    | .error e => (fs, some e)
    | .ok (d, lib) =>
      thenDo (trackOnlyOutput E.fmt E.vflags E.geo E.runid E.out E.order E.read.tracking ym.1 ym.2 d fs) fun fs =>
        trackOnlyRun E l lib fs

end MarineQC
