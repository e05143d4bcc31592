import Verif.Drifter.Csv
import Verif.Report.Props

/-!
# Specification of reading back

What a report written by `Voyage.write_output` is when `tracking_qc.py` has read it.
-/

namespace MarineQC.Spec

/-- What is assumed of `str` and `float`: a written number is not confused with anything else, and reading it gives the number
rounded by `rnd` (Python 2 writes twelve digits).  Integers are read exactly. -/
structure Numerals (fmt : Rat → List Char) (num : List Char → Option Rat) (rnd : Rat → Rat) : Prop where
  plain : ∀ x, Plain (fmt x) ∧ Tidy (fmt x) ∧ fmt x ≠ missing
  read : ∀ x, num (fmt x) = some (rnd x)
  int : ∀ n : Int, num (intText n) = some n

/-- A report that can be written and read back. -/
structure Storable (rnd : Rat → Rat) (q : Report) : Prop where
  uid : ∃ u, q.uid = some u ∧ Plain u.toList ∧ Tidy u.toList ∧ u.toList ≠ missing
  ident : ∃ i, q.id = some i ∧ '"' ∉ i.toList ∧ Tidy i.toList ∧ i.toList ≠ missing
  flags : ∀ t f, 0 ≤ q.getQc t f ∧ q.getQc t f ≤ 9
  dated : ∀ y mo dy hr, q.getint "YR" = some y → q.getint "MO" = some mo → q.getint "DY" = some dy →
    q.getvar "HR" = some hr → 1 ≤ y ∧ y ≤ 9999 ∧ 1 ≤ mo ∧ mo ≤ 12 ∧ 0 ≤ rnd hr ∧ rnd hr < 24

/-- The flags that are kept. -/
def keptFlags : List (String × String) :=
  [("POS", "day"), ("POS", "isship"), ("POS", "trk"), ("POS", "date"), ("POS", "time"), ("POS", "pos"), ("POS", "blklst"),
   ("POS", "isbuoy"), ("POS", "iquam_track"), ("POS", "isdrifter"), ("SST", "bud"), ("SST", "clim"), ("SST", "nonorm"),
   ("SST", "freez"), ("SST", "noval"), ("SST", "nbud"), ("SST", "bbud"), ("SST", "rep"), ("SST", "spike"),
   ("SST", "hardlimit")]

/-- `q'` is what is read back of `q`. -/
structure ReadBack (rnd : Rat → Rat) (q q' : Report) : Prop where
  ident : q'.id = q.id
  uid : q'.uid = q.uid
  date : ∀ v ∈ ["YR", "MO", "DY"], q'.getint v = q.getint v
  vars : ∀ v ∈ ["HR", "LAT", "LON", "AT", "SST", "DPT", "SLP"], q'.getvar v = (q.getvar v).map rnd
  platform : q'.getint "PT" = some 7
  lost : ∀ v ∈ ["DS", "VS", "AT2", "DCK", "SID", "SHU", "VAP", "CRH", "CWB", "DPD", "W", "WI", "D", "DI", "WW"],
    q'.getvar v = none
  ext : ∀ v ∈ ["OSTIA", "ICE", "BGVAR"], q'.getext v = .ok ((q.getvar v).map rnd)
  flags : ∀ k ∈ keptFlags, q'.getQc k.1 k.2 = q.getQc k.1 k.2
  unset : ∀ t f, (∀ k ∈ keptFlags, t ++ f ≠ k.1 ++ k.2) → q'.getQc t f = 9
  time : q'.dt = timestamp (q'.getint "YR") (q'.getint "MO") (q'.getint "DY") (q'.getvar "HR")

end MarineQC.Spec
