import Verif.Hires.Model
import Verif.TrackOnly.Spec

/-!
# Specification of the program for the climatology of high resolution

What its reports have to have in common with those of the main program, and the files it may change.
-/

namespace MarineQC.Spec

/-- The flags of position and sea-surface temperature that do not depend on the climatology and that both programs set. -/
def climateFree : List (String × String) :=
  [("POS", "isbuoy"), ("POS", "isdrifter"), ("POS", "isship"), ("POS", "is780"), ("POS", "pos"), ("POS", "date"),
   ("POS", "time"), ("POS", "blklst"), ("POS", "day"), ("POS", "month_match"), ("POS", "trk"), ("POS", "few"),
   ("SST", "noval"), ("SST", "freez"), ("SST", "hardlimit"), ("SST", "rep")]

/-- The two reports have the same identity, time and data, but for what only the main program computes, and the same flags as far as these do not depend on the
climatology, those that are set and those that are not. -/
structure SameButClimate (r s : Report) : Prop where
  id : s.id = r.id
  uid : s.uid = r.uid
  dt : s.dt = r.dt
  data : ∀ k, k ∉ mainOnly ++ ["OSTIA", "ICE", "BGVAR"] → s.data k = r.data k
  flags : ∀ p ∈ climateFree, s.qc (p.1 ++ p.2) = r.qc (p.1 ++ p.2)

/-- The files of flags of the program for high resolution for a month: that of the whole deck and those of drifters. -/
def HiresFlagFile (runid out : List Char) (months : List (Int × Int)) (p : List Char) : Prop :=
  ∃ m ∈ months, p = deckPath ("hires_".toList ++ runid) (monthDir out m.1 m.2) m.1 m.2 false "SST_qc_".toList ∨
    ∃ ident, p = voyagePath ("hires_".toList ++ runid) (monthDir out m.1 m.2) m.1 m.2 "SST_qc_".toList ident

/-- The flags of sea-surface temperature in the files of the program for high resolution. -/
def hiresColumns : List String := ["bud", "clim", "nonorm", "freez", "noval", "nbud", "bbud", "rep", "spike", "hardlimit"]

/-- What the program for high resolution leaves behind for a month: a file with the flags of the reports of the month, and,
with tracking, the list of the drifters that reported, one line for each, and a file for each of them. -/
def HiresLeft (runid dir : List Char) (year month : Int) (tracking : Bool) (reps : List Report) (fs : FileSys) : Prop :=
  HoldsTable fs (deckPath ("hires_".toList ++ runid) dir year month false "SST_qc_".toList)
    (flagTable "SST" hiresColumns (ofMonth year month reps)) ∧
  (tracking = true → ∃ ids : List String,
    ids.Nodup ∧ (∀ i, i ∈ ids ↔ ∃ r ∈ reps, r.id = some i ∧ DriftsNow r) ∧
    fs.file (idFilePath dir) = some (ids.flatMap fun i : String => i.toList ++ ',' :: (safeFilename i.toList ++ ['\n'])) ∧
    ∀ i ∈ ids, HoldsTable fs (voyagePath ("hires_".toList ++ runid) dir year month "SST_qc_".toList i.toList)
      (flagTable "SST" hiresColumns (ofMonth year month (driftOf (some i) reps))))

/-- The lists of drifters of the months. -/
def DrifterList (out : List Char) (months : List (Int × Int)) (p : List Char) : Prop :=
  ∃ m ∈ months, p = idFilePath (monthDir out m.1 m.2)

/-- The identifier could be taken for part of a label of the program for high resolution. -/
def LikeLabel (ident : List Char) : Prop := ident = "hires".toList ∨ "_hires".toList <:+ ident

/-- The files that the main program leaves for a month: those of the whole deck, the list of drifters, and those of the drifters
whose identifier could not be taken for part of a label. -/
def MainFile (runid out : List Char) (months : List (Int × Int)) (p : List Char) : Prop :=
  DeckFile runid out months p ∨ DrifterList out months p ∨ DrifterVariables runid out months p ∨
    ∃ m ∈ months, ∃ b ∈ voyageFlags, ∃ ident, ¬ LikeLabel ident ∧
      p = voyagePath runid (monthDir out m.1 m.2) m.1 m.2 (b.1.toList ++ "_qc_".toList) ident

end MarineQC.Spec
