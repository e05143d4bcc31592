import Verif.Output.Model
import Verif.Imma.Model

/-!
# Model of reading a drifter's files back (`/repo/tracking_qc.py` 12-25 and 141-285)

`main` reads for every month of a chunk the three files that `Voyage.write_output` wrote and makes reports of them.
Python's `csv` reader (default dialect) is modelled by its state machine.  The conversion of text to a float, when a text
is stored in a numpy array or given to `float`, is a parameter `num`.  The order in which a dictionary is iterated is a
parameter `order`.  Which of several exceptions is
raised first is not modelled, nor the limit of 131072 characters of a field.
-/

namespace MarineQC

/-! ## Lines and the csv reader -/

/-- `for line in file`: the lines with their newlines; `acc` is the beginning of the current line. -/
def fileLinesFrom : List Char → List Char → List (List Char)
  | acc, [] => if acc = [] then [] else [acc]
  | acc, c :: s => if c = '\n' then (acc ++ [c]) :: fileLinesFrom [] s else fileLinesFrom (acc ++ [c]) s

/-- The lines of a file. -/
def fileLines (s : List Char) : List (List Char) := fileLinesFrom [] s

/-- The states of the reader in Python's `_csv.c`. -/
inductive CsvState where
  | startRecord | startField | inField | inQuoted | quoteInQuoted | eatNewline
deriving DecidableEq

/-- The reader: its state, the field and the record read so far. -/
structure CsvReader where
  state : CsvState
  field : List Char
  fields : List (List Char)
deriving DecidableEq

/-- `parse_reset`. -/
def CsvReader.start : CsvReader := ⟨.startRecord, [], []⟩

/-- `parse_save_field`, and the state that follows. -/
def CsvReader.save (m : CsvReader) (st : CsvState) : CsvReader := ⟨st, [], m.fields ++ [m.field]⟩

/-- `parse_add_char`, and the state that follows. -/
def CsvReader.add (m : CsvReader) (c : Char) (st : CsvState) : CsvReader := ⟨st, m.field ++ [c], m.fields⟩

/-- Is the character a newline or carriage return? -/
def isNewline (c : Char) : Bool := c == '\n' || c == '\r'

/-- The first character of a field. -/
def CsvReader.begin (m : CsvReader) (c : Char) : CsvReader :=
  if isNewline c then m.save .eatNewline
  else if c = '"' then { m with state := .inQuoted }
  else if c = ',' then m.save .startField
  else m.add c .inField

/-- `parse_process_char` of a character of the line; Python 2 refuses NUL characters. -/
def CsvReader.char (m : CsvReader) (c : Char) : Except Err CsvReader :=
  if c = '\x00' then .error .other else
  match m.state with
  | .startRecord => .ok (if isNewline c then { m with state := .eatNewline } else m.begin c)
  | .startField => .ok (m.begin c)
  | .inField =>
    .ok (if isNewline c then m.save .eatNewline else if c = ',' then m.save .startField else m.add c .inField)
  | .inQuoted => .ok (if c = '"' then { m with state := .quoteInQuoted } else m.add c .inQuoted)
  | .quoteInQuoted =>
    .ok (if c = '"' then m.add c .inQuoted else if c = ',' then m.save .startField
      else if isNewline c then m.save .eatNewline else m.add c .inField)
  | .eatNewline => if isNewline c then .ok m else .error .other

/-- `parse_process_char` of the end of the line. -/
def CsvReader.endLine (m : CsvReader) : CsvReader :=
  match m.state with
  | .startRecord => m
  | .startField | .inField | .quoteInQuoted => m.save .startRecord
  | .inQuoted => m
  | .eatNewline => { m with state := .startRecord }

/-- `Reader_iternext`, again and again: the rows of the remaining lines. -/
def csvRows : List (List Char) → CsvReader → Except Err (List (List (List Char)))
  | [], m => .ok (if m.field ≠ [] ∨ m.state = .inQuoted then [(m.save .startRecord).fields] else [])
  | line :: l, m => do
    let m ← line.foldlM CsvReader.char m
    let m := m.endLine
    if m.state = .startRecord then do
      let rows ← csvRows l CsvReader.start
      return m.fields :: rows
    else csvRows l m

/-! ## Dictionaries -/

/-- A dictionary from column names to texts, or None. -/
abbrev RowDict := List (List Char × Option (List Char))

/-- `d[k] = v`. -/
def rowSet (d : RowDict) (p : List Char × Option (List Char)) : RowDict :=
  if d.any (fun q => q.1 == p.1) then d.map (fun q => if q.1 = p.1 then p else q) else d ++ [p]

/-- `d[k]`. -/
def rowGet (d : RowDict) (k : List Char) : Option (Option (List Char)) :=
  (d.find? fun q => q.1 == k).map Prod.snd

/-- `csv.DictReader`: a row as a dictionary.  Columns without a field are None.  Fields without a column are kept under the
key None, which the second component reports. -/
def dictRow (header row : List (List Char)) : RowDict × Bool :=
  ((header.zip (row.map some ++ List.replicate (header.length - row.length) none)).foldl rowSet [],
    decide (row.length > header.length))

/-- `headers.split(',')`. -/
def splitCommas : List Char → List Char → List (List Char)
  | acc, [] => [acc]
  | acc, c :: s => if c = ',' then acc :: splitCommas [] s else splitCommas (acc ++ [c]) s

/-- tracking_qc.py:209-211, 237-239 and 262-264: the first line without its last character, split at the commas. -/
def readHeaders (lines : List (List Char)) : List (List Char) := splitCommas [] (lines.headD []).dropLast

/-- The rows after the header as dictionaries; empty rows are skipped. -/
def dictRows (header : List (List Char)) (lines : List (List Char)) : Except Err (List (RowDict × Bool)) := do
  let rows ← csvRows lines.tail CsvReader.start
  return (rows.filter (· ≠ [])).map (dictRow header)

/-! ## Reports -/

/-- tracking_qc.py:18-23 `EasyImma`: a backslash and N stand for None. -/
def easyImma (d : RowDict) : RowDict := d.map fun p => (p.1, if p.2 = some ['\\', 'N'] then none else p.2)

/-- The number in a text; numpy and `float` raise ValueError. -/
def numberOf (num : List Char → Option Rat) (s : List Char) : Except Err Rat :=
  match num s with
  | some x => .ok x
  | none => .error .value

/-- An entry of the record as `MarineReport.__init__` takes it; names that are not variables are skipped there. -/
def recordEntry (num : List Char → Option Rat) (d : RowDict) (k : List Char) : Except Err (String × Option Rat) :=
  if String.ofList k ∈ VARLIST then
    match rowGet d k with
    | some (some s) => do
      let x ← numberOf num s
      return (String.ofList k, some x)
    | _ => .ok (String.ofList k, none)
  else .ok (String.ofList k, none)

/-- tracking_qc.py:223-225: `None if line[k] is None else float(line[k])`. -/
def extEntry (num : List Char → Option Rat) (d : RowDict) (k : String) : Except Err (Option Rat) :=
  match rowGet d k.toList with
  | none => .error .key
  | some none => .ok none
  | some (some s) => do
    let x ← numberOf num s
    return some x

/-- tracking_qc.py:18-25 and 220-225: a row of the variables file as a report.  `EasyImma` also replaces the missing values
in the row itself.  Platform type 7 is added unless the file has the column. -/
def rowReport (num : List Char → Option Rat) (order : List (List Char) → List (List Char)) (row : RowDict) :
    Except Err Report := do
  let d := easyImma row
  let items ← (order (d.map Prod.fst)).mapM (recordEntry num d)
  let items := if (rowGet d "PT".toList).isSome then items else items ++ [("PT", some 7)]
  let r ← Report.init (((rowGet d "ID".toList).getD none).map String.ofList)
    (((rowGet d "UID".toList).getD none).map String.ofList) items
  let o ← extEntry num d "OSTIA"
  let i ← extEntry num d "ICE"
  let b ← extEntry num d "BGVAR"
  return ((r.setext "OSTIA" o).setext "ICE" i).setext "BGVAR" b

/-- `s.strip()`. -/
def pyStrip (s : List Char) : List Char := pyRstrip (s.dropWhile isBlank)

/-- tracking_qc.py:246-251 and 271-276: one column of a row of flags. -/
def addFlag (block : String) (d : RowDict) (r : Report) (k : List Char) : Except Err Report :=
  match rowGet d k with
  | some (some s) =>
    if k = "UID".toList then
      match r.uid with
      | some u => if pyStrip s ≠ pyStrip u.toList then .error .other else .ok r
      | none => .error .other
    else do
      let n ← parseInt s
      r.setQc block (String.ofList k) n
  | _ => .error .type

/-- tracking_qc.py:245-251: a row of flags. -/
def addFlagRow (order : List (List Char) → List (List Char)) (block : String) (row : RowDict × Bool) (r : Report) :
    Except Err Report := do
  let r ← (order (row.1.map Prod.fst)).foldlM (addFlag block row.1) r
  if row.2 then .error .type else return r

/-- tracking_qc.py:243-252 and 268-277: the flags of the month's reports. -/
def addFlags (order : List (List Char) → List (List Char)) (block : String) :
    List (RowDict × Bool) → List Report → Except Err (List Report)
  | [], reps => .ok reps
  | _ :: _, [] => .error .index
  | row :: rows, r :: reps => do
    let r ← addFlagRow order block row r
    let l ← addFlags order block rows reps
    return r :: l

/-- tracking_qc.py:206-227: the reports of the variables file. -/
def csvVariables (num : List Char → Option Rat) (order : List (List Char) → List (List Char)) (s : List Char) :
    Except Err (List Report) := do
  let header := readHeaders (fileLines s)
  if header.length ≤ 13 then .error .index
  else do
    let header := (header.set 11 "AT_anom".toList).set 13 "SST_anom".toList
    let rows ← dictRows header (fileLines s)
    rows.mapM fun row => rowReport num order row.1

/-- tracking_qc.py:234-252 and 259-277: the flags of one file. -/
def csvFlags (order : List (List Char) → List (List Char)) (block : String) (s : List Char) (reps : List Report) :
    Except Err (List Report) := do
  let rows ← dictRows (readHeaders (fileLines s)) (fileLines s)
  addFlags order block rows reps

/-- tracking_qc.py:165-171: the path of an input file. -/
def inputPath (out runid target : List Char) (year month : Int) (pre : String) : List Char :=
  out ++ '/' :: (intText year ++ '/' :: (zeroPad 2 month ++ '/' :: (pre.toList ++ intText year ++ zeroPad 2 month ++
    '_' :: target ++ '_' :: runid ++ ".csv".toList)))

/-- tracking_qc.py:173-277: nothing to do if there is none of the files; otherwise all have to exist, be not empty and have
the same number of lines. -/
def readMonth (num : List Char → Option Rat) (order : List (List Char) → List (List Char)) (fs : FileSys)
    (out runid target : List Char) (year month : Int) : Except Err (List Report) :=
  match fs.file (inputPath out runid target year month "Variables_"),
    fs.file (inputPath out runid target year month "POS_qc_"), fs.file (inputPath out runid target year month "SST_qc_") with
  | none, none, none => .ok []
  | some v, some p, some s =>
    if (fileLines v).length = 0 ∨ (fileLines p).length ≠ (fileLines v).length ∨
        (fileLines s).length ≠ (fileLines v).length then .error .other
    else do
      let reps ← csvVariables num order v
      let reps ← csvFlags order "POS" p reps
      csvFlags order "SST" s reps
  | _, _, _ => .error .other

/-- tracking_qc.py:141-143: the identifier with blanks appended up to nine characters. -/
def targetId (id : List Char) : List Char := id ++ List.replicate (9 - id.length) ' '

/-- tracking_qc.py:160-163 and 284-285: the reports of all months, in order; it is an error if there are none. -/
def readChunk (num : List Char → Option Rat) (order : List (List Char) → List (List Char)) (fs : FileSys)
    (out runid id : List Char) (months : List (Int × Int)) : Except Err (List Report) := do
  let l ← months.mapM fun (m : Int × Int) => readMonth num order fs out runid (targetId id) m.1 m.2
  if l.flatten = [] then .error .other else return l.flatten

end MarineQC
