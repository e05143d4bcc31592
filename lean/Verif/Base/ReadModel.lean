import Verif.Imma.Model
import Verif.Files.Model
import Verif.Grid.Model
import Verif.Deck.Model
import Verif.Report.QcModel
import Verif.Calendar.Model

/-!
# Model of the main program (`/repo/marine_qc.py`), part two: reading the reports of a month

The loop reads the files of the month before, of the month and of the month after.  A line that cannot be read leaves a
half-filled record behind, in which the program looks for the identifier; so reading is modelled here with the state it
leaves (`readState`), and `readState_eq` (in `ReadLine.lean`) shows that it agrees with the model of `readstr`.
-/

namespace MarineQC

/-- IMMA1.py:93-127 `decode`: the values stored, and the exception that stopped it.  The text of a field is stored
before it is read as a number. -/
def decodeState : List Field → List Char → (String → Option (Option Val)) → (String → Option (Option Val)) × Option Err
  | [], _, d => (d, none)
  | f :: fs, s, d =>
    match decodeField f (fieldText f s) with
    | .ok v => decodeState fs (afterField f s) (fun k => if k = f.name then some v else d k)
    | .error e => (fun k => if k = f.name then some (some (.str (fieldText f s))) else d k, some e)

/-- The loop of IMMA1.py:43-74, as `readLoop`, with the record left behind. -/
def readStateLoop : Nat → Int → Option Int → List Char → Imma → Imma × Option Err
  | 0, _, _, _, r => (r, some .recursion)
  | k + 1, a, len, line, r =>
    if line.length = 0 then (r, none)
    else
      match layoutOf a with
      | .error e => (r, some e)
      | .ok fs =>
        match decodeState fs (padLine len line) r.data with
        | (d, some e) => (⟨r.attachments, d⟩, some e)
        | (d, none) =>
          match len with
          | none => (⟨r.attachments ++ [a], d⟩, none)
          | some n =>
            if n = 0 then (⟨r.attachments ++ [a], d⟩, none)
            else if (sliceFrom (padLine len line) n).length > 0 then
              match readHeader (sliceFrom (padLine len line) n) with
              | .error e => (⟨r.attachments ++ [a], d⟩, some e)
              | .ok h => readStateLoop k h.1 h.2.1 h.2.2 ⟨r.attachments ++ [a], d⟩
            else (⟨r.attachments ++ [a], d⟩, none)

/-- IMMA1.py:27-78 `readstr`, on an empty record, with the record left behind. -/
def readState (line : List Char) : Imma × Option Err :=
  if line = [] then (Imma.empty, none)
  else readStateLoop (line.length + 1) 0 (some 108) (stripNewlines line) Imma.empty

/-- marine_qc.py:169-172: whether the record just read is used.  `rec.data['ID']` is looked up first, and raises when
there is none; then come the outcome of the reading, the year and the month. -/
def wanted (excl : List (List Char)) (y m : Int) (s : Imma × Option Err) : Except Err Bool :=
  match s.1.data "ID" with
  | none => .error .key
  | some ident =>
    if ident ∈ excl.map (fun t => some (Val.str t)) then .ok false
    else if s.2.isSome then .ok false
    else match s.1.data "YR" with
      | none => .error .key
      | some yr =>
        if yr ≠ some (.num y) then .ok false
        else match s.1.data "MO" with
          | none => .error .key
          | some mo => .ok (decide (mo = some (.num m)))

/-- A value of a record that is a number.  (All fields of `VARLIST` are decoded to numbers; a text could not be stored in
the array of the report.) -/
def numericOf : Option (Option Val) → Option Rat
  | some (some (.num q)) => some q
  | _ => none

/-- A value of a record that is a text. -/
def textOf : Option (Option Val) → Option String
  | some (some (.str s)) => some (String.ofList s)
  | _ => none

/-- `MarineReportQC(rec)` (marine_qc.py:174): Extended_IMMA.py:347-372.  The order in which the dictionary is iterated
does not matter (`C31_init_order_independent`). -/
def reportOf (rec : Imma) : Except Err Report :=
  Report.init (textOf (rec.data "ID")) (textOf (rec.data "UID")) (VARLIST.map fun v => (v, numericOf (rec.data v)))

/-- `get_value_mds_style` (Climatology.py:129-165) for a position that may be missing. -/
def Arr3.lookupMds (a : Arr3) (lat lon : Option Rat) (month day : Option Int) : Except Err (Option Rat) :=
  if badMonthDay month day then .ok none
  else match lat, lon with
    | some la, some lo => a.getValueMds la lo month day
    | _, _ => .error .type

/-- `get_value` (Climatology.py:167-202) for a position that may be missing. -/
def Arr3.lookup (a : Arr3) (lat lon : Option Rat) (month day : Option Int) : Except Err (Option Rat) :=
  if badMonthDay month day then .ok none
  else match lat, lon with
    | some la, some lo => a.getValue la lo month day
    | _, _ => .error .type

/-- `get_value_ostia` (Climatology.py:103-127) for a position that may be missing. -/
def Arr3.lookupOstia (a : Arr3) (lat lon : Option Rat) : Except Err (Option Rat) :=
  match lat, lon with
  | some la, some lo => a.getValueOstia la lo
  | _, _ => .error .type

/-- What the reading uses: files, exclusions, parameters and the checks of single reports. -/
structure ReadEnv (F : Type) [LinearOrder F] [Zero F] where
  /-- the file system, for the names of files -/
  fs : FileSys
  /-- `parameters['icoads_dir']` -/
  dirs : List (List Char)
  /-- `parameters['icoads_filenames']` -/
  files : List (List Char)
  /-- the lines of a compressed file, or `none` when opening it raises `IOError` -/
  lines : List Char → Option (List (List Char))
  /-- `ids_to_exclude` -/
  excl : List (List Char)
  /-- `tracking` -/
  tracking : Bool
  /-- `<season>_ostia_background` -/
  bgVar : Option String → Except Err Arr3
  /-- the fields of sea-surface temperature and ice of a day: the file `get_background_filename` finds, as
  `from_filename` reads it.  The modelling of the two functions is not repeated here. -/
  background : Int × Int × Int → Except Err (Arr3 × Arr3)
  hum : HumFns
  elev : Elev F
  params : BaseParams

variable {F : Type} [LinearOrder F] [Zero F]

/-- What the loop carries from line to line: `lastday`, `climlib` and `reps` (marine_qc.py:127, 136-138). -/
structure ReadState where
  lastday : Int
  lib : ClimLib Arr3
  deck : Deck

/-- marine_qc.py:183-194: the background fields of the day before.  When there is no such day the names are `None`, and
the fields are masked everywhere (Climatology.py:74-75). -/
def backgroundOf (E : ReadEnv F) (y m d : Int) : Except Err (Arr3 × Arr3) :=
  match yesterday y m d with
  | some t => E.background t
  | none => do
    let f ← fromNoFile
    return (f, f)

/-- marine_qc.py:183-194: the background fields put into the library. -/
def loadBackground (E : ReadEnv F) (lib : ClimLib Arr3) (y m d : Int) : Except Err (ClimLib Arr3) := do
  let b ← backgroundOf E y m d
  return (lib.addField "OSTIA" "background" b.1).addField "OSTIA" "ice" b.2

/-- marine_qc.py:180-194: new fields when the day changes. -/
def newDay (E : ReadEnv F) (y m d : Int) (last : Int) (lib : ClimLib Arr3) : Except Err (Int × ClimLib Arr3) :=
  if d ≠ last then do
    let lib ← loadBackground E lib y m d
    return (d, lib)
  else return (last, lib)

/-- marine_qc.py:196-203: the background values of a report. -/
def backgroundValues (lib : ClimLib Arr3) (bg : Arr3) (r : Report) : Except Err Report := do
  let f ← lib.getField "OSTIA" "background"
  let x ← f.lookupOstia r.lat r.lon
  let r := r.setext "OSTIA" (x.map fun q => q - 27315 / 100)
  let f ← lib.getField "OSTIA" "ice"
  let x ← f.lookupOstia r.lat r.lon
  let r := r.setext "ICE" x
  let x ← bg.lookupMds r.lat r.lon (r.getint "MO") (r.getint "DY")
  return r.setext "BGVAR" x

/-- marine_qc.py:180-203. -/
def addBackground (E : ReadEnv F) (bg : Option Arr3) (y m : Int) (s : ReadState) (r : Report) :
    Except Err (Report × Int × ClimLib Arr3) :=
  match r.getint "DY", bg with
  | some d, some bg =>
    if y ≥ 1985 then do
      let n ← newDay E y m d s.lastday s.lib
      let r ← backgroundValues n.2 bg r
      return (r, n)
    else return (r, s.lastday, s.lib)
  | _, _ => return (r, s.lastday, s.lib)

/-- marine_qc.py:205-209. -/
def addMdsClims (lib : ClimLib Arr3) : List String → Report → Except Err Report
  | [], r => .ok r
  | v :: vs, r => do
    let f ← lib.getField v "mean"
    let x ← f.lookupMds r.lat r.lon (r.getint "MO") (r.getint "DY")
    addMdsClims lib vs (r.addClim v x none)

/-- marine_qc.py:211-214. -/
def addClims (lib : ClimLib Arr3) : List String → Report → Except Err Report
  | [], r => .ok r
  | v :: vs, r => do
    let f ← lib.getField v "mean"
    let x ← f.lookup r.lat r.lon (r.getint "MO") (r.getint "DY")
    addClims lib vs (r.addClim v x none)

/-- marine_qc.py:216-221. -/
def addStdevClims (lib : ClimLib Arr3) : List String → Report → Except Err Report
  | [], r => .ok r
  | v :: vs, r => do
    let f ← lib.getField v "mean"
    let x ← f.lookup r.lat r.lon (r.getint "MO") (r.getint "DY")
    let f ← lib.getField v "stdev"
    let s ← f.lookup r.lat r.lon (r.getint "MO") (r.getint "DY")
    addStdevClims lib vs (r.addClim v x s)

/-- marine_qc.py:226: the flag for the month in hand.  A missing year or month equals none. -/
def reportMonthMatch (year month : Int) (r : Report) : Int :=
  match r.getint "YR", r.getint "MO" with
  | some y, some m => monthMatch year month y m
  | _, _ => 0

/-- marine_qc.py:205-226: climatology, humidity and base checks of a report, and the flag for the month in hand. -/
def finishReport (E : ReadEnv F) (year month : Int) (lib : ClimLib Arr3) (r : Report) : Except Err Report := do
  let r ← addMdsClims lib ["SST", "AT"] r
  let r ← addClims lib ["SLP2", "SHU", "CRH", "CWB", "DPD"] r
  let r ← addStdevClims lib ["DPT", "AT2", "SLP"] r
  let r ← r.calculateHumidity E.hum ["SHU", "VAP", "CRH", "CWB", "DPD"]
  let r ← r.performBaseQc E.elev E.params
  r.setQc "POS" "month_match" (reportMonthMatch year month r)

/-- marine_qc.py:174-229: a record that is used becomes a report of the deck. -/
def useRecord (E : ReadEnv F) (year month : Int) (bg : Option Arr3) (y m : Int) (s : ReadState) (rec : Imma) :
    Except Err ReadState := do
  let r ← reportOf rec
  let r ← raising (r.setvar "AT2" (r.getvar "AT"))
  let b ← addBackground E bg y m s r
  let r ← finishReport E year month b.2.2 b.1
  return ⟨b.2.1, b.2.2, s.deck.append r⟩

/-- marine_qc.py:160-231, one line of a file. -/
def readLine (E : ReadEnv F) (year month : Int) (bg : Option Arr3) (y m : Int) (s : ReadState) (line : List Char) :
    Except Err ReadState := do
  let b ← wanted E.excl y m (readState line)
  if b then useRecord E year month bg y m s (readState line).1 else return s

/-- marine_qc.py:144-147: the field of background variances of the season. -/
def seasonField (E : ReadEnv F) (m : Int) : Except Err (Option Arr3) :=
  if E.tracking then do
    let s ← season m
    let f ← E.bgVar s
    return some f
  else return none

/-- `gzip.open(filename, "r")` (marine_qc.py:152-156): no name raises `TypeError`, which is not caught; `IOError` is. -/
def openFile (E : ReadEnv F) (name : Option (List Char)) : Except Err (Option (List (List Char))) :=
  match name with
  | none => .error .type
  | some p => .ok (E.lines p)

/-- marine_qc.py:140-233, one of the three months. -/
def readMonthFile (E : ReadEnv F) (year month : Int) (s : ReadState) (ym : Int × Int) : Except Err ReadState := do
  let bg ← seasonField E ym.2
  let name ← icoadsFilenameFromStub E.fs E.dirs E.files (some ym.1) (some ym.2)
  let file ← openFile E name
  match file with
  | none => return s
  | some lines => lines.foldlM (readLine E year month bg ym.1 ym.2) s

/-- marine_qc.py:132-235, the reading of the reports for one month.  `climlib` is kept from month to month. -/
def readReports (E : ReadEnv F) (lib : ClimLib Arr3) (year month : Int) : Except Err ReadState := do
  let months ← monthsRead 3 year month
  match months with
  | none => .error .recursion
  | some l => l.foldlM (readMonthFile E year month) ⟨-99, lib, Deck.empty⟩

end MarineQC
