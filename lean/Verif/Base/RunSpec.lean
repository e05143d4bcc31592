import Verif.Base.ReadSpec
import Verif.Base.BuddySpec
import Verif.Base.Spec
import Verif.Base.OutSpec

/-! # What a run over months leaves behind: specification -/

namespace MarineQC.Spec

/-- `r'` is the report `r` after the checks of ships and the buddy checks: nothing but their flags differs, and the
differences to neighbouring reports. -/
structure AfterChecks (r r' : Report) : Prop where
  id : r'.id = r.id
  uid : r'.uid = r.uid
  data : r'.data = r.data
  clim : r'.clim = r.clim
  dt : r'.dt = r.dt
  ext : ∀ k, k ∉ linkNames ++ altNames → r'.ext k = r.ext k
  flags : ∀ k, k ∉ stored (shipFlagNames ++ buddyFlagNames) → r'.qc k = r.qc k

/-- What the output of a month leaves behind: the files of the deck, and, with tracking, the list of the drifters that
reported, one line for each, and the files of each of them. -/
def MonthLeft (fmt : Rat → List Char) (runid dir : List Char) (year month : Int) (tracking : Bool) (reps : List Report)
    (fs : FileSys) : Prop :=
  DeckFiles fmt runid dir year month reps fs ∧
  (tracking = true → ∃ ids : List String,
    ids.Nodup ∧ (∀ i, i ∈ ids ↔ ∃ r ∈ reps, r.id = some i ∧ DriftsNow r) ∧
    fs.file (idFilePath dir) = some (ids.flatMap fun i : String => i.toList ++ ',' :: (safeFilename i.toList ++ ['\n'])) ∧
    ∀ i ∈ ids, DrifterFiles fmt runid dir year month i (driftOf (some i) reps) fs)

/-- The report passed the checks of its date, hour and position and is not on the blacklist. -/
def PlacedWell (r : Report) : Prop :=
  r.getQc "POS" "date" = 0 ∧ r.getQc "POS" "time" = 0 ∧ r.getQc "POS" "pos" = 0 ∧ r.getQc "POS" "blklst" = 0

instance (r : Report) : Decidable (PlacedWell r) := by unfold PlacedWell; infer_instance

/-- The reports of a platform that are checked against one another, each with what became of it. -/
def platformPairs (i : Option String) (before after : List Report) : List (Report × Report) :=
  (before.zip after).filter fun p => decide (p.1.id = i ∧ PlacedWell p.1)

/-- The hour of a record; midnight when a record of deck 701 from before 1860 has none. -/
def hourGiven (rec : Imma) : Option Rat :=
  match numericOf (rec.data "HR") with
  | some h => some h
  | none =>
    if (numericOf (rec.data "DCK")).map pyInt = some 701 ∧ (∀ y ∈ (numericOf (rec.data "YR")).map pyInt, y < 1860) then some 0
    else none

/-- The records of each identifier are in the order of their times. -/
def InOrder (l : List Imma) : Prop :=
  l.Pairwise fun a b => textOf (a.data "ID") = textOf (b.data "ID") →
    ∀ d ∈ dayOf a, ∀ h ∈ hourGiven a, ∀ d' ∈ dayOf b, ∀ h' ∈ hourGiven b, d < d' ∨ (d = d' ∧ h ≤ h')

end MarineQC.Spec
