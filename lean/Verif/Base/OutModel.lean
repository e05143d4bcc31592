import Verif.Output.Model
import Verif.Deck.Model
import Verif.Voyage.Model

/-!
# Model of the main program (`/repo/marine_qc.py`), part three: the output of a month

The files a month leaves behind.  What is written to `ID_file.txt` reaches it, at the latest, when it is closed or when
the exception that stops the program destroys it; the model puts the text there at that moment.
-/

namespace MarineQC

/-- marine_qc.py:336-338. -/
def drifterFilter : QcFilter := (QcFilter.add [] "POS" "month_match" 1).add "POS" "isdrifter" 1

/-- marine_qc.py:348: a line of `ID_file.txt`. -/
def idFileLine (ident : List Char) : List Char := ident ++ ',' :: (safeFilename ident ++ ['\n'])

/-- The voyage of Extended_IMMA.py:3127-3133 for the listed positions.  (What `add_report` stores in the reports of the
deck is not kept: nothing looks at it later.) -/
def Deck.voyage (G : Geo) (d : Deck) (l : List Nat) : Except Err (List Report) := do
  let chosen ← d.platform l
  (chosen.map (·.1)).foldlM (addReport G) []

/-- marine_qc.py:344-349, one round of the loop: the text for `ID_file.txt`, the file system and the exception, if any.
The blocks of flags come in the order `flags`. -/
def drifterRound (fmt : Rat → List Char) (flags : List (String × List String)) (G : Geo) (runid dir : List Char)
    (year month : Int) (d : Deck) (l : List Nat) (fs : FileSys) : List Char × FileSys × Option Err :=
  match d.voyage G l with
  | .error e => ([], fs, some e)
  | .ok [] => ([], fs, none)
  | .ok (r :: v) =>
    match r.id with
    | none => ([], fs, none)
    | some ident => (idFileLine ident.toList, voyageWrite fmt flags runid dir year month (r :: v) fs)

/-- marine_qc.py:342-349, the loop over the entries of the index. -/
def drifterRounds (fmt : Rat → List Char) (flags : List (String × List String)) (G : Geo) (runid dir : List Char)
    (year month : Int) (d : Deck) : List (Option String × List Nat) → FileSys → List Char × FileSys × Option Err
  | [], fs => ([], fs, none)
  | e :: es, fs =>
    match drifterRound fmt flags G runid dir year month d e.2 fs with
    | (s, fs, none) =>
      let r := drifterRounds fmt flags G runid dir year month d es fs
      (s ++ r.1, r.2)
    | (s, fs, some x) => (s, fs, some x)

/-- The path of the list of identifiers, marine_qc.py:341. -/
def idFilePath (dir : List Char) : List Char := dir ++ "/ID_file.txt".toList

/-- marine_qc.py:335-350.  `order` is the order in which the dictionary of identifiers is iterated. -/
def drifterOutput (fmt : Rat → List Char) (flags : List (String × List String)) (G : Geo) (runid dir : List Char)
    (year month : Int) (order : List (Option String × List Nat) → List (Option String × List Nat)) (d : Deck)
    (fs : FileSys) : FileSys × Option Err :=
  if canWrite fs (idFilePath dir) then
    let r := drifterRounds fmt flags G runid dir year month (d.addFilter drifterFilter) (order d.idtracker)
      (fs.put (idFilePath dir) [])
    (r.2.1.put (idFilePath dir) r.1, r.2.2)
  else (fs, some .other)

/-- marine_qc.py:331-350, the output of a month.  `dflags` and `vflags` are the orders in which the dictionaries of flags
are iterated. -/
def outputStage (fmt : Rat → List Char) (dflags vflags : List (String × List String)) (G : Geo) (runid out : List Char)
    (order : List (Option String × List Nat) → List (Option String × List Nat)) (tracking : Bool) (year month : Int)
    (d : Deck) (fs : FileSys) : FileSys × Option Err :=
  match safeMakeDir fs out year month with
  | (fs, none) => (fs, some .other)
  | (fs, some dir) =>
    thenDo (deckWrite fmt deckVars dflags runid dir year month false d.reps fs) fun fs =>
      if tracking then drifterOutput fmt vflags G runid dir year month order d fs else (fs, none)

end MarineQC
