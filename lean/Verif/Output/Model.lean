import Verif.Report.Model
import Verif.Files.Model

/-!
# Model of the output files (`/repo/Extended_IMMA.py` 64-73, 972-1078, 2439-2546, 3135-3250)

A file is the text written to it.  When an exception stops a write, the file keeps what was written before (the text
Python still holds in its buffer reaches the file when the file object is destroyed).  `str` of a floating-point number is
a parameter `fmt` of the model; `str` of an integer is its decimal form.  The messages printed on the terminal are left
out.
-/

namespace MarineQC

/-! ## One line -/

/-- Extended_IMMA.py:64-73 `tostring` of a value whose text is known; Python 2 reads `"\N"` as backslash and N. -/
def tostring (x : Option (List Char)) : List Char := x.getD ['\\', 'N']

/-- `str(self.getvar(v))`: the variables of `intVars` are integers. -/
def varText (fmt : Rat → List Char) (v : String) (x : Rat) : List Char :=
  if v ∈ intVars then intText (pyInt x) else fmt x

/-- An element of `varnames`: a non-empty list of names, the first one apart. -/
abbrev VarName := String × List String

/-- Extended_IMMA.py:993-997: the name of a column. -/
def columnName (v : VarName) : List Char := (v.2.foldl (fun s t => s ++ "_" ++ t) v.1).toList

/-- Extended_IMMA.py:1023-1037: the entry of a column. -/
def columnText (fmt : Rat → List Char) (r : Report) (v : VarName) : List Char :=
  if v.1 = "ID" then
    match r.id with
    | none => tostring none
    | some s => '"' :: s.toList ++ ['"']
  else if v.2.length > 0 then tostring ((r.getanom v.1).map fmt)
  else if v.1 = "UID" then tostring (r.uid.map String.toList)
  else tostring ((r.getvar v.1).map (varText fmt v.1))

/-- Extended_IMMA.py:1007-1009: with a missing number `strptime` fails. -/
def rowDate (r : Report) : List Char :=
  match r.getint "YR", r.getint "MO", r.getint "DY" with
  | some y, some m, some d => datestring y m d
  | _, _, _ => "0000-00-00".toList

/-- Extended_IMMA.py:1012-1016.  A missing month or day is below 1 in Python 2 and fails the assertion. -/
def rowPentad (r : Report) : Int :=
  match r.getint "MO", r.getint "DY" with
  | some m, some d =>
    match whichPentad m d with
    | .ok p => p
    | .error _ => 0
  | _, _ => 0

/-- The entries each followed by a comma. -/
def withCommas (l : List (List Char)) : List (Option (List Char)) := l.flatMap fun s => [some s, some [',']]

/-- What `join` makes of a piece. -/
def pieceText : Option (List Char) → Except Err (List Char)
  | some s => .ok s
  | none => .error .type

/-- Extended_IMMA.py:1039-1043 and 1077-1080: the last piece is dropped, a newline added and all joined; `join` raises
TypeError for a piece that is None. -/
def joinPieces (l : List (Option (List Char))) : Except Err (List Char) := do
  let l := l.dropLast ++ [some ['\n']]
  let l ← l.mapM pieceText
  return l.flatten

/-- Extended_IMMA.py:986-999 and 1000-1037: the pieces of a line of variables. -/
def variablePieces (fmt : Rat → List Char) (r : Report) (vars : List VarName) (header printuid : Bool) :
    List (Option (List Char)) :=
  if header then
    (if printuid then [some "UID,DATE,PENTAD,".toList] else [some []]) ++ withCommas (vars.map columnName)
  else
    (if printuid then
        [r.uid.map String.toList, some [','], some (rowDate r), some [','], some (intText (rowPentad r)), some [',']]
      else [some []]) ++ withCommas (vars.map (columnText fmt r))

/-- Extended_IMMA.py:972-1041 `print_variable_block`. -/
def printVariableBlock (fmt : Rat → List Char) (r : Report) (vars : List VarName) (header printuid : Bool) :
    Except Err (List Char) :=
  joinPieces (variablePieces fmt r vars header printuid)

/-- Extended_IMMA.py:1059-1077: the pieces of a line of flags. -/
def qcPieces (r : Report) (block : String) (vars : List String) (header printuid : Bool) : List (Option (List Char)) :=
  if header then
    (if printuid then [some "UID,".toList] else [some []]) ++ withCommas (vars.map String.toList)
  else
    (if printuid then [r.uid.map String.toList, some [',']] else [some []]) ++
      withCommas (vars.map fun v => intText (r.getQc block v))

/-- Extended_IMMA.py:1043-1081 `print_qc_block`. -/
def printQcBlock (r : Report) (block : String) (vars : List String) (header printuid : Bool) : Except Err (List Char) :=
  joinPieces (qcPieces r block vars header printuid)

/-! ## Files -/

/-- The directory part of a path. -/
def parentPath (p : List Char) : List Char := ((p.reverse.dropWhile (· != '/')).drop 1).reverse

/-- Can `open(p, 'w')` succeed? -/
def canWrite (fs : FileSys) (p : List Char) : Bool := fs.dir (parentPath p) && !fs.dir p

/-- The file system with the contents of one file replaced. -/
def FileSys.put (fs : FileSys) (p s : List Char) : FileSys := { fs with file := fun q => if q = p then some s else fs.file q }

/-- Successive `outfile.write`: the text written until the end or the first exception. -/
def writeLines : List (Except Err (List Char)) → List Char × Option Err
  | [] => ([], none)
  | .ok s :: l => (s ++ (writeLines l).1, (writeLines l).2)
  | .error e :: _ => ([], some e)

/-- `open`, `write` of the lines and `close`: the file system left behind and the exception raised, if any. -/
def writeFile (fs : FileSys) (p : List Char) (l : List (Except Err (List Char))) : FileSys × Option Err :=
  if canWrite fs p then (fs.put p (writeLines l).1, (writeLines l).2) else (fs, some .other)

/-- Go on unless an exception was raised. -/
def thenDo (s : FileSys × Option Err) (f : FileSys → FileSys × Option Err) : FileSys × Option Err :=
  match s.2 with
  | none => f s.1
  | some _ => s

/-- `rep.getvar('YR') == year and rep.getvar('MO') == month`. -/
def inMonth (year month : Int) (r : Report) : Bool :=
  decide (r.getint "YR" = some year) && decide (r.getint "MO" = some month)

/-- A header, for which the first report is looked up, and the lines of the chosen reports. -/
def tableLines (reps chosen : List Report) (header row : Report → Except Err (List Char)) :
    List (Except Err (List Char)) :=
  (match reps with
    | [] => Except.error Err.index
    | r :: _ => header r) :: chosen.map row

/-- Extended_IMMA.py:3186-3192, `varnames`. -/
def deckVars : List VarName :=
  [("ID", []), ("YR", []), ("MO", []), ("DY", []), ("HR", []), ("LAT", []), ("LON", []), ("AT", []), ("AT", ["anom"]),
   ("SST", []), ("SST", ["anom"]), ("DPT", []), ("DPT", ["anom"]), ("SLP", []), ("SLP", ["anom"]), ("OSTIA", []),
   ("W", []), ("D", [])]

/-- Extended_IMMA.py:3202-3209, `allvarnames`. -/
def deckFlags : List (String × List String) :=
  [("POS", ["day", "isship", "trk", "date", "time", "pos", "blklst", "isbuoy", "iquam_track"]),
   ("SST", ["bud", "clim", "nonorm", "freez", "noval", "nbud", "bbud", "rep", "spike", "hardlimit"]),
   ("AT", ["bud", "clim", "nonorm", "freez", "noval", "mat_blacklist", "bbud", "rep", "hardlimit"]),
   ("DPT", ["bud", "clim", "nonorm", "freez", "noval", "hum_blacklist", "bbud", "rep", "ssat", "repsat", "round",
     "hardlimit"]),
   ("SLP", ["bud", "clim", "nonorm", "noval", "rep"]),
   ("W", ["noval", "hardlimit", "consistency", "wind_blacklist"])]

/-- Extended_IMMA.py:3231-3236, `varnames`. -/
def deckMinVars : List VarName :=
  [("ID", []), ("YR", []), ("MO", []), ("DY", []), ("HR", []), ("LAT", []), ("LON", []), ("AT", []), ("AT", ["anom"]),
   ("SST", []), ("SST", ["anom"]), ("DPT", []), ("DPT", ["anom"])]

/-- Extended_IMMA.py:3246-3251, `allvarnames`. -/
def deckMinFlags : List (String × List String) :=
  [("POS", ["day", "isship", "trk", "date", "time", "pos", "blklst", "isbuoy"]),
   ("SST", ["bud", "clim", "nonorm", "freez", "noval", "nbud", "bbud", "rep"]),
   ("AT", ["bud", "clim", "nonorm", "freez", "noval", "mat_blacklist", "bbud", "rep"]),
   ("DPT", ["bud", "clim", "nonorm", "freez", "noval", "hum_blacklist", "bbud", "rep", "ssat", "repsat", "round"])]

/-- Extended_IMMA.py:2523-2528, `varnames`. -/
def voyageVars : List VarName :=
  [("ID", []), ("YR", []), ("MO", []), ("DY", []), ("HR", []), ("LAT", []), ("LON", []), ("AT", []), ("AT", ["anom"]),
   ("SST", []), ("SST", ["anom"]), ("DPT", []), ("DPT", ["anom"]), ("SLP", []), ("SLP", ["anom"]), ("OSTIA", []),
   ("ICE", []), ("BGVAR", [])]

/-- Extended_IMMA.py:2537-2540, `allvarnames`. -/
def voyageFlags : List (String × List String) :=
  [("POS", ["day", "isship", "trk", "date", "time", "pos", "blklst", "isbuoy", "iquam_track", "isdrifter"]),
   ("SST", ["bud", "clim", "nonorm", "freez", "noval", "nbud", "bbud", "rep", "spike", "hardlimit"])]

/-- Extended_IMMA.py:3144-3148 and 3170-3174: the path of an output file of a deck; `pre` is `Variables_` or the name of a
block with `_qc_`. -/
def deckPath (runid dir : List Char) (year month : Int) (test : Bool) (pre : List Char) : List Char :=
  dir ++ '/' :: ((if test then "Test_".toList else []) ++
    (pre ++ intText year ++ zeroPad 2 month ++ '_' :: runid ++ ".csv".toList))

/-- Extended_IMMA.py:3135-3160 `Deck.write_qc`; the blocks come in the order in which the dictionary is iterated. -/
def deckWriteQc (runid dir : List Char) (year month : Int) (test : Bool) (reps : List Report) :
    List (String × List String) → FileSys → FileSys × Option Err
  | [], fs => (fs, none)
  | b :: l, fs =>
    thenDo (writeFile fs (deckPath runid dir year month test (b.1.toList ++ "_qc_".toList))
      (tableLines reps (reps.filter (inMonth year month)) (fun r => printQcBlock r b.1 b.2 true true)
        (fun r => printQcBlock r b.1 b.2 false true)))
      (deckWriteQc runid dir year month test reps l)

/-- Extended_IMMA.py:3162-3216 `Deck.write_output` and 3218-3262 `write_min_output`, which differ in the lists of
variables and flags. -/
def deckWrite (fmt : Rat → List Char) (vars : List VarName) (flags : List (String × List String))
    (runid dir : List Char) (year month : Int) (test : Bool) (reps : List Report) (fs : FileSys) : FileSys × Option Err :=
  thenDo (writeFile fs (deckPath runid dir year month test "Variables_".toList)
    (tableLines reps (reps.filter (inMonth year month)) (fun r => printVariableBlock fmt r vars true true)
      (fun r => printVariableBlock fmt r vars false true)))
    (deckWriteQc runid dir year month test reps flags)

/-- The path of an output file of a voyage, Extended_IMMA.py:2449-2450 and 2519-2522; `ident` is what stands for the
identifier. -/
def voyagePath (runid dir : List Char) (year month : Int) (pre ident : List Char) : List Char :=
  dir ++ '/' :: (pre ++ intText year ++ zeroPad 2 month ++ '_' :: ident ++ '_' :: runid ++ ".csv".toList)

/-- Extended_IMMA.py:2439-2459 `Voyage.write_qc`.  The identifier goes into the file name as it is. -/
def voyageWriteQc (runid dir : List Char) (year month : Int) (reps : List Report) :
    List (String × List String) → FileSys → FileSys × Option Err
  | [], fs => (fs, none)
  | b :: l, fs =>
    match reps with
    | [] => (fs, some .index)
    | r :: _ =>
      match r.id with
      | none => (fs, some .type)
      | some ident =>
        thenDo (writeFile fs (voyagePath runid dir year month (b.1.toList ++ "_qc_".toList) ident.toList)
          (tableLines reps (reps.filter (inMonth year month)) (fun r => printQcBlock r b.1 b.2 true true)
            (fun r => printQcBlock r b.1 b.2 false true)))
          (voyageWriteQc runid dir year month reps l)

/-- Extended_IMMA.py:2513-2550 `Voyage.write_output`.  (`safe_filename(None)` raises AttributeError.) -/
def voyageWrite (fmt : Rat → List Char) (flags : List (String × List String)) (runid dir : List Char) (year month : Int)
    (reps : List Report) (fs : FileSys) : FileSys × Option Err :=
  match reps with
  | [] => (fs, some .index)
  | r :: _ =>
    match r.id with
    | none => (fs, some .other)
    | some ident =>
      thenDo (writeFile fs (voyagePath runid dir year month "Variables_".toList (safeFilename ident.toList))
        (tableLines reps (reps.filter (inMonth year month)) (fun r => printVariableBlock fmt r voyageVars true true)
          (fun r => printVariableBlock fmt r voyageVars false true)))
        (voyageWriteQc runid dir year month reps flags)

/-! ## Tracking output -/

/-- The six blocks of Extended_IMMA.py:2480-2486: variables, or flags of a block. -/
inductive Block where
  | vars (l : List VarName)
  | flags (block : String) (l : List String)

/-- Extended_IMMA.py:2480-2486. -/
def trackingBlocks : List Block :=
  [.vars [("ID", []), ("LON", []), ("LAT", []), ("YR", []), ("MO", []), ("DY", []), ("HR", [])],
   .flags "POS" ["day", "isship", "trk", "date", "time", "pos", "blklst", "isbuoy", "iquam_track", "isdrifter"],
   .flags "SST" ["bud", "clim", "nonorm", "freez", "noval", "nbud", "bbud", "rep", "spike", "hardlimit"],
   .flags "POS" ["drf_agr", "drf_spd"],
   .flags "SST" ["drf_tail1", "drf_tail2", "drf_bias", "drf_noise", "drf_short"],
   .vars [("SST", []), ("OSTIA", []), ("BGVAR", []), ("ICE", [])]]

/-- One block of a line. -/
def Block.print (fmt : Rat → List Char) (r : Report) (header printuid : Bool) : Block → Except Err (List Char)
  | .vars l => printVariableBlock fmt r l header printuid
  | .flags b l => printQcBlock r b l header printuid

/-- Extended_IMMA.py:2497-2498 and 2508-2509: the blocks without trailing white space, with commas between, except the
last, which keeps its newline. -/
def joinBlocks : List (List Char) → List Char
  | [] => []
  | [s] => s
  | s :: l => pyRstrip s ++ ',' :: joinBlocks l

/-- Extended_IMMA.py:2489-2509: a line of the tracking file; only the first block has the UID. -/
def trackingLine (fmt : Rat → List Char) (header : Bool) (r : Report) : Except Err (List Char) := do
  let l ← (trackingBlocks.zipIdx).mapM fun (b : Block × Nat) => b.1.print fmt r header (b.2 == 0)
  return joinBlocks l

/-- Extended_IMMA.py:2461-2511 `write_tracking_output`. -/
def writeTracking (fmt : Rat → List Char) (runid dir : List Char) (year month : Int) (reps : List Report) (fs : FileSys) :
    FileSys × Option Err :=
  match reps with
  | [] => (fs, some .index)
  | r :: _ =>
    match r.id with
    | none => (fs, some .other)
    | some ident =>
      writeFile fs (voyagePath runid dir year month "Tracking_".toList (safeFilename ident.toList))
        (tableLines reps reps (trackingLine fmt true) (trackingLine fmt false))

end MarineQC
