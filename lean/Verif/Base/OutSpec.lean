import Verif.Base.OutModel
import Verif.Base.Ships
import Verif.Drifter.Props
import Verif.Files.Select

/-!
# Specification of the output of a month (C107)
-/

namespace MarineQC.Spec

/-- The report of a drifter made in the month in hand. -/
def DriftsNow (r : Report) : Prop := r.getQc "POS" "month_match" = 1 ∧ r.getQc "POS" "isdrifter" = 1

instance (r : Report) : Decidable (DriftsNow r) := by unfold DriftsNow; infer_instance

/-- The reports of one drifter, in order. -/
def driftOf (i : Option String) (reps : List Report) : List Report :=
  reps.filter fun r => decide (r.id = i ∧ DriftsNow r)

/-- The report has a place, and, if it has a time of day, that is on the clock and goes with a date: month 1 to 12, day 1
to 31. -/
def Traceable (r : Report) : Prop :=
  r.lat ≠ none ∧ r.lon ≠ none ∧ ∀ h, r.getvar "HR" = some h → 0 ≤ h ∧ h < 24 ∧
    ∃ y m d, r.getint "YR" = some y ∧ r.getint "MO" = some m ∧ r.getint "DY" = some d ∧ 1 ≤ m ∧ m ≤ 12 ∧ 1 ≤ d ∧ d ≤ 31

/-- The files of a deck hold its reports of the month. -/
def DeckFiles (fmt : Rat → List Char) (runid dir : List Char) (year month : Int) (reps : List Report) (fs : FileSys) : Prop :=
  HoldsTable fs (deckPath runid dir year month false "Variables_".toList)
    (variableTable fmt deckVars (ofMonth year month reps)) ∧
  ∀ b ∈ deckFlags, HoldsTable fs (deckPath runid dir year month false (b.1.toList ++ "_qc_".toList))
    (flagTable b.1 b.2 (ofMonth year month reps))

/-- The files of a drifter hold its reports of the month. -/
def DrifterFiles (fmt : Rat → List Char) (runid dir : List Char) (year month : Int) (ident : String) (reps : List Report)
    (fs : FileSys) : Prop :=
  HoldsTable fs (voyagePath runid dir year month "Variables_".toList (safeFilename ident.toList))
    (variableTable fmt voyageVars (ofMonth year month reps)) ∧
  ∀ b ∈ voyageFlags, HoldsTable fs (voyagePath runid dir year month (b.1.toList ++ "_qc_".toList) ident.toList)
    (flagTable b.1 b.2 (ofMonth year month reps))

/-- The path of one of the files a month leaves behind: those of the deck, and, when drifters are to be tracked, those of
each drifter and the list of identifiers. -/
inductive MonthFile (runid dir : List Char) (year month : Int) (tracking : Bool) (reps : List Report) : List Char → Prop
  | vars : MonthFile runid dir year month tracking reps (deckPath runid dir year month false "Variables_".toList)
  | flags (b) : b ∈ deckFlags →
    MonthFile runid dir year month tracking reps (deckPath runid dir year month false (b.1.toList ++ "_qc_".toList))
  | drifterVars (r i) : tracking = true → r ∈ reps → r.id = some i → DriftsNow r →
    MonthFile runid dir year month tracking reps (voyagePath runid dir year month "Variables_".toList (safeFilename i.toList))
  | drifterFlags (r i b) : tracking = true → r ∈ reps → r.id = some i → DriftsNow r → b ∈ voyageFlags →
    MonthFile runid dir year month tracking reps (voyagePath runid dir year month (b.1.toList ++ "_qc_".toList) i.toList)
  | list : tracking = true → MonthFile runid dir year month tracking reps (idFilePath dir)

/-- There is an output directory; nothing that is not a directory has the name of the month's directory or its year's,
and no directory has the name of a file to be written; there are reports, and those of the month have a UID and can be
written. -/
structure OutputReady (runid out : List Char) (year month : Int) (reps : List Report) (fs : FileSys) : Prop where
  noSlash : '/' ∉ runid
  base : IsBase out
  there : fs.dir out = true
  yearPos : 0 ≤ year
  monthPos : 0 ≤ month
  yearName : fs.file (out ++ '/' :: intText year) = none
  dirName : fs.file (monthDir out year month) = none
  deck : ∀ pre, fs.dir (deckPath runid (monthDir out year month) year month false pre) = false
  voyage : ∀ pre i, fs.dir (voyagePath runid (monthDir out year month) year month pre i) = false
  list : fs.dir (idFilePath (monthDir out year month)) = false
  nonempty : reps ≠ []
  writable : ∀ r ∈ ofMonth year month reps, Writable r

/-- The drifters' reports can be put in a row, and their identifiers make different file names. -/
structure DriftersReady (reps : List Report) : Prop where
  traceable : ∀ r ∈ reps, DriftsNow r → Traceable r
  slash : ∀ r ∈ reps, DriftsNow r → ∀ i, r.id = some i → '/' ∉ i.toList
  names : ∀ r ∈ reps, ∀ s ∈ reps, DriftsNow r → DriftsNow s → ∀ i j, r.id = some i → s.id = some j →
    safeFilename i.toList = safeFilename j.toList → i = j

end MarineQC.Spec
