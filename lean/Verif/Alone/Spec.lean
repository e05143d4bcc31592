import Verif.Base.BuddySpec
import Verif.Base.RunSpec

/-!
# Specification: what a report has that does not depend on other platforms
-/

namespace MarineQC.Spec

/-- The two reports are the same but for the background values and the flags of the buddy checks. -/
structure SameButBuddies (r s : Report) : Prop where
  id : s.id = r.id
  uid : s.uid = r.uid
  dt : s.dt = r.dt
  data : s.data = r.data
  clim : s.clim = r.clim
  ext : ∀ k, k ∉ ["OSTIA", "ICE", "BGVAR"] → s.ext k = r.ext k
  flags : ∀ k, k ∉ stored buddyFlagNames → s.qc k = r.qc k

/-- The records of the platform with this identifier, each with its month. -/
def recordsOf (i : Option String) (l : List ((Int × Int) × Imma)) : List ((Int × Int) × Imma) :=
  l.filter fun p => decide (textOf (p.2.data "ID") = i)

/-- The reports of the platform with this identifier. -/
def reportsOf (i : Option String) (l : List Report) : List Report := l.filter fun r => decide (r.id = i)

end MarineQC.Spec
