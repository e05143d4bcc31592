import Verif.Base.RunModel

/-!
# Model of the program for the climatology of high resolution (`/repo/marine_qc_hires.py`)

The program checks sea-surface temperatures once more, against another climatology.  What it has in common with the main
program is modelled by the definitions for the main program: reading of lines and choice of records (lines 135-162 here,
140-172 in marine_qc.py), the filter and the loop over ships (184-194; 237-248), the filter of the first buddy checks
(202-214; 264-276) and the filter for drifters (228-232; 336-340).  The climatology (117-123) is taken as read: of the
environment `RunEnv` the library, the background fields, the orders of flags and the number format are not used.
-/

namespace MarineQC

variable {F : Type} [LinearOrder F] [Zero F]

/-- marine_qc_hires.py:167-172: climatology of sea-surface temperature and base checks of a report, and the flag for the
month in hand. -/
def hiresFinish (E : ReadEnv F) (clim : Arr3) (year month : Int) (r : Report) : Except Err Report := do
  let x ← clim.lookup r.lat r.lon (r.getint "MO") (r.getint "DY")
  let r ← (r.addClim "SST" x none).performBaseSstQc E.elev E.params
  r.setQc "POS" "month_match" (reportMonthMatch year month r)

/-- marine_qc_hires.py:164-175: a record that is used becomes a report of the deck. -/
def hiresUse (E : ReadEnv F) (clim : Arr3) (year month : Int) (d : Deck) (rec : Imma) : Except Err Deck := do
  let r ← reportOf rec
  let r ← hiresFinish E clim year month r
  return d.append r

/-- marine_qc_hires.py:150-177, one line of a file. -/
def hiresLine (E : ReadEnv F) (clim : Arr3) (year month y m : Int) (d : Deck) (line : List Char) : Except Err Deck := do
  let b ← wanted E.excl y m (readState line)
  if b then hiresUse E clim year month d (readState line).1 else return d

/-- marine_qc_hires.py:135-179, one of the three months. -/
def hiresMonthFile (E : ReadEnv F) (clim : Arr3) (year month : Int) (d : Deck) (ym : Int × Int) : Except Err Deck := do
  let name ← icoadsFilenameFromStub E.fs E.dirs E.files (some ym.1) (some ym.2)
  let file ← openFile E name
  match file with
  | none => return d
  | some lines => lines.foldlM (hiresLine E clim year month ym.1 ym.2) d

/-- marine_qc_hires.py:129-181, the reading of the reports for one month. -/
def hiresReports (E : ReadEnv F) (clim : Arr3) (year month : Int) : Except Err Deck := do
  let months ← monthsRead 3 year month
  match months with
  | none => .error .recursion
  | some l => l.foldlM (hiresMonthFile E clim year month) Deck.empty

/-- marine_qc_hires.py:195-196, the checks of one ship. -/
def hiresShip (G : Geo) (rnd : Rat → Rat) (P : ShipParams) (v : List Report) : Except Err (List Report) := do
  let v ← trackCheck G P.track v
  findRepeated rnd P.repCount P.repShare "SST" v

/-- marine_qc_hires.py:202-217, the buddy checks of the deck. -/
noncomputable def hiresBuddies (erf : ℝ → ℝ) (span : Int → Nat → Int) (B : BuddyInputs) (d : Deck) : Except Err Deck := do
  let d ← bayesianBuddyCheck erf span (d.addFilter sstBuddies) "SST" B.sst1 B.sst2 B.sst3 B.sstBayes
  mdsBuddyCheck span d "SST" B.pentad B.mds

/-- marine_qc_hires.py:127-217: the reports of a month, read and checked. -/
noncomputable def hiresChecked (E : RunEnv F) (clim : Arr3) (ym : Int × Int) : Except Err Deck := do
  let d ← hiresReports E.read clim ym.1 ym.2
  let d ← shipPass E.geo (hiresShip E.geo E.rnd E.ships) (d.addFilter shipFilter)
  hiresBuddies erf E.span E.buddy d

/-- marine_qc_hires.py:221-222. -/
def hiresFlags : List (String × List String) :=
  [("SST", ["bud", "clim", "nonorm", "freez", "noval", "nbud", "bbud", "rep", "spike", "hardlimit"])]

/-- marine_qc_hires.py:224: the label of the files. -/
def hiresLabel (runid : List Char) : List Char := "hires_".toList ++ runid

/-- marine_qc_hires.py:237-241, one round of the loop: the text for `ID_file.txt`, the file system and the exception, if
any. -/
def hiresRound (G : Geo) (runid dir : List Char) (year month : Int) (d : Deck) (l : List Nat) (fs : FileSys) :
    List Char × FileSys × Option Err :=
  match d.voyage G l with
  | .error e => ([], fs, some e)
  | .ok [] => ([], fs, none)
  | .ok (r :: v) =>
    match r.id with
    | none => ([], fs, none)
    | some ident => (idFileLine ident.toList, voyageWriteQc (hiresLabel runid) dir year month (r :: v) hiresFlags fs)

/-- marine_qc_hires.py:235-241, the loop over the entries of the index. -/
def hiresRounds (G : Geo) (runid dir : List Char) (year month : Int) (d : Deck) :
    List (Option String × List Nat) → FileSys → List Char × FileSys × Option Err
  | [], fs => ([], fs, none)
  | e :: es, fs =>
    match hiresRound G runid dir year month d e.2 fs with
    | (s, fs, none) =>
      let r := hiresRounds G runid dir year month d es fs
      (s ++ r.1, r.2)
    | (s, fs, some x) => (s, fs, some x)

/-- marine_qc_hires.py:226-242.  As in the main program, what is written to `ID_file.txt` is put there when it is closed or
when the exception that stops the program destroys it. -/
def hiresDrifters (G : Geo) (runid dir : List Char) (year month : Int)
    (order : List (Option String × List Nat) → List (Option String × List Nat)) (d : Deck) (fs : FileSys) :
    FileSys × Option Err :=
  if canWrite fs (idFilePath dir) then
    let r := hiresRounds G runid dir year month (d.addFilter drifterFilter) (order d.idtracker) (fs.put (idFilePath dir) [])
    (r.2.1.put (idFilePath dir) r.1, r.2.2)
  else (fs, some .other)

/-- marine_qc_hires.py:219-242, the output of a month. -/
def hiresOutput (G : Geo) (runid out : List Char) (order : List (Option String × List Nat) → List (Option String × List Nat))
    (tracking : Bool) (year month : Int) (d : Deck) (fs : FileSys) : FileSys × Option Err :=
  match safeMakeDir fs out year month with
  | (fs, none) => (fs, some .other)
  | (fs, some dir) =>
    thenDo (deckWriteQc (hiresLabel runid) dir year month false d.reps hiresFlags fs) fun fs =>
      if tracking then hiresDrifters G runid dir year month order d fs else (fs, none)

/-- marine_qc_hires.py:125-244, the loop over months.  The file system afterwards, and the exception that stopped the
run. -/
noncomputable def hiresRun (E : RunEnv F) (clim : Arr3) : List (Int × Int) → FileSys → FileSys × Option Err
  | [], fs => (fs, none)
  | ym :: l, fs =>
    match hiresChecked E clim ym with
    | .error e => (fs, some e)
    | .ok d =>
      thenDo (hiresOutput E.geo E.runid E.out E.order E.read.tracking ym.1 ym.2 d fs) fun fs => hiresRun E clim l fs

end MarineQC
