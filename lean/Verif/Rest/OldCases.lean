import Verif.Rest.OldChecks
import Verif.Rest.Predict

/-!
# C140: cases
-/

namespace MarineQC

open Spec

/-- The limits that are written into `base_qc_report`; the others do not matter. -/
def oldParams : BaseParams :=
  { sampleParams with timeSince := 1, sstFreezingPoint := -(9 / 5), sstNSigma := 2, sstMaxAnomaly := 8, atMaxAnomaly := 10 }

example : OldParams oldParams := ⟨rfl, rfl, rfl, rfl, rfl⟩

/-- A sun that never rises. -/
def nightElev : Elev Int := fun _ _ _ _ _ _ => -1

/-- A flag after checks that completed. -/
def flagAfter (x : Except Err Report) (k : String) : Option Int :=
  match x with
  | .ok r => r.qc k
  | .error _ => none

/-- Both complete for an ordinary report. -/
example : flagAfter ((equatorReport 2 10).baseQcReport nightElev) "POSday" = some 0 ∧
    flagAfter ((equatorReport 2 10).performBaseQc nightElev oldParams) "POSday" = some 0 := by decide +kernel

/-- **C140 (violation).** A longitude of 370 passes the position check of `base_qc_report`, which is given the longitude less 360, and
fails that of `perform_base_qc`. -/
theorem C140_longitude_violation :
    flagAfter ((equatorReport 2 370).baseQcReport nightElev) "POSpos" = some 0 ∧
    flagAfter ((equatorReport 2 370).performBaseQc nightElev oldParams) "POSpos" = some 1 := by decide +kernel

/-- **C140 (violation).** A report of hour 24 is a night report for `base_qc_report` and a day report, for want of a good time, for
`perform_base_qc`. -/
theorem C140_hour_violation :
    flagAfter ((equatorReport 24 10).baseQcReport nightElev) "POSday" = some 0 ∧
    flagAfter ((equatorReport 24 10).performBaseQc nightElev oldParams) "POSday" = some 1 := by decide +kernel

theorem dayTest_no_hour {F : Type} [LinearOrder F] [Zero F] (elev : Elev F) (y m d : Option Int) (lat : Option Rat) (lon t : Rat) :
    dayTest elev y m d none lat lon t = .error .assertion := by
  unfold dayTest
  split
  · rename_i h; simp at h
  · rfl

/-- **C140 (violation).** `base_qc_report` completes for no report that has a good position and date and no hour:
`perform_base_qc` completes and flags its time (C34). -/
theorem C140_missing_hour_violation {F : Type} [LinearOrder F] [Zero F] (elev : Elev F) (r r' : Report)
    (hpos : positionCheck r.lat r.lon = .ok 0) (hdate : dateCheck (r.getint "YR") (r.getint "MO") (r.getint "DY") = .ok 0)
    (hhr : r.getvar "HR" = none) : r.baseQcReport elev ≠ .ok r' := by
  intro h
  obtain ⟨-, -, -, -, -, ⟨v, h1, -, h2⟩, ⟨w, h3, -, h4⟩, h5, -⟩ := C140_flags elev r r' h
  rw [hpos, Except.ok.injEq] at h1
  rw [hdate, Except.ok.injEq] at h3
  subst h1 h3
  obtain ⟨lon, -, u, hu, -⟩ := h5 ⟨h2, h4⟩
  rw [hhr, dayTest_no_hour] at hu
  cases hu

end MarineQC
