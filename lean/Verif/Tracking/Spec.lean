import Verif.Tracking.Model
import Verif.Voyage.Links
import Verif.Report.Order
import Verif.Deck.Props

/-!
# Specification of the tracking program

Which reports a check may look at, and what it may change.
-/

namespace MarineQC.Spec

/-- A drifter's report whose date, time and position passed their checks. -/
def GoodPosition (r : Report) : Prop :=
  r.getQc "POS" "isbuoy" = 1 ∧ r.getQc "POS" "date" = 0 ∧ r.getQc "POS" "time" = 0 ∧ r.getQc "POS" "pos" = 0 ∧
  r.getQc "POS" "blklst" = 0

/-- A report whose sea surface temperature passed the base checks and is at most doubtful to the Bayesian buddy check. -/
def GoodTemperature (r : Report) : Prop :=
  r.getQc "SST" "clim" = 0 ∧ r.getQc "SST" "nonorm" = 0 ∧ r.getQc "SST" "freez" = 0 ∧ r.getQc "SST" "noval" = 0 ∧
  r.getQc "SST" "rep" = 0 ∧ r.getQc "SST" "hardlimit" = 0 ∧ r.getQc "SST" "bbud" < 4

/-- The report has not been found aground or aboard a ship. -/
def Drifting (r : Report) : Prop := r.getQc "POS" "drf_agr" = 0 ∧ r.getQc "POS" "drf_spd" = 0

/-- The report is in neither bad tail of the record. -/
def OutsideTails (r : Report) : Prop := r.getQc "SST" "drf_tail1" = 0 ∧ r.getQc "SST" "drf_tail2" = 0

/-- The names under which a voyage stores the differences to the report before. -/
def linkNames : List String := ["speed", "course", "distance", "time_diff"]

/-- `r'` is `r` except for flags with the given keys and for the differences to the report before. -/
structure OnlyFlags (keys : List String) (r r' : Report) : Prop where
  id : r'.id = r.id
  uid : r'.uid = r.uid
  data : r'.data = r.data
  clim : r'.clim = r.clim
  dt : r'.dt = r.dt
  ext : ∀ k, k ∉ linkNames → r'.ext k = r.ext k
  flags : ∀ k, k ∉ keys → r'.qc k = r.qc k

/-- The first report is not later than the second. -/
def NotLater (a b : Report) : Prop := ∃ da db, a.dt = some da ∧ b.dt = some db ∧ dtLt db da = false

/-- `order` lists the positions of the chosen reports, each once. -/
def Chooses (chosen : Report → Prop) (reps : List Report) (order : List Nat) : Prop :=
  order.Nodup ∧ ∀ k, k ∈ order ↔ ∃ r, reps[k]? = some r ∧ chosen r

/-- The reports at these positions come in time order, and in the order of their positions when their times agree. -/
def InTime (reps : List Report) (order : List Nat) : Prop :=
  order.Pairwise fun i j => ∀ a b, reps[i]? = some a → reps[j]? = some b → NotLater a b ∧ (a.dt = b.dt → i < j)

/-- The voyage `v` consists of the reports at these positions, with the differences to the report before stored. -/
def VoyageOf (G : Geo) (reps : List Report) (order : List Nat) (v : List Report) : Prop :=
  v.length = order.length ∧ Linked G v ∧
  ∀ (n k : Nat), order[n]? = some k → ∃ r s, reps[k]? = some r ∧ v[n]? = some s ∧ OnlyFlags [] r s

/-- The reports of the checked voyage have replaced those at their positions; the others are untouched. -/
def Replaced (reps reps' : List Report) (order : List Nat) (v : List Report) : Prop :=
  reps'.length = reps.length ∧ v.length = order.length ∧ (∀ (n k : Nat), order[n]? = some k → reps'[k]? = v[n]?) ∧
  ∀ (k : Nat), k ∉ order → reps'[k]? = reps[k]?

end MarineQC.Spec
