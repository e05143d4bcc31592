import Verif.Crash.Archive

/-! # Files written again by a run that is killed (C127) -/

namespace MarineQC

open Spec

/-- A report of a drifter. -/
def cutReport : Report :=
  { Report.empty (some "4400123  ") (some "A1") with
    data := fun k => if k = "YR" then some 1999 else if k = "MO" then some 1 else if k = "DY" then some 5
      else if k = "HR" then some 11 else if k = "SST" then some 18 else none }

/-- Writing the files of a drifter with this report, in whole degrees. -/
def cutProg : FileProg :=
  voyageProg (fun x => intText ⌊x⌋) voyageFlags "r1".toList (monthDir "out".toList 1999 1) 1999 1 [cutReport]

/-- What the tracking program reads of these files: the identifier of each report and its sea surface temperature. -/
def cutRead (fs : FileSys) : Option (List (Option String × Option Rat)) :=
  (readChunk (fun s => match parseInt s with
      | .ok n => some (n : Rat)
      | .error _ => none) (fun l => l) fs "out".toList "r1".toList "4400123".toList [(1999, 1)]).toOption.map
    fun R => R.map fun r => (r.uid, r.getvar "SST")

/-- C127 does not hold where the files exist already.  The files of a drifter are written; then the same is done again, and killed inside
the first file.  The number of lines of the three files agrees, and the tracking program reads the temperature 18 as 1, with no error. -/
theorem C127_again_violation :
    ∃ fs g, cutProg.run buoyFs = (fs, none) ∧ Interrupted cutProg fs g ∧
      cutRead fs = some [(some "A1", some 18)] ∧ cutRead g = some [(some "A1", some 1)] := by
  refine ⟨(cutProg.run buoyFs).1, (runOps (cutProg.ops.take 159) (cutProg.run buoyFs).1).1, Prod.ext rfl ?_, ⟨159, fun _ _ => rfl⟩, ?_, ?_⟩
  · decide +kernel
  · decide +kernel
  · decide +kernel

end MarineQC
