import Verif.Tracking.Model

/-!
# The tracking program with the original aground and speed checks

`tracking_qc.py` has a switch `oldqc` (line 139) for the original versions of the aground and speed checks.
-/

namespace MarineQC

/-- tracking_qc.py:317-324 with `oldqc` true. -/
def formerFilter : QcFilter := positionFilter.add "POS" "iquam_track" 0

/-- tracking_qc.py:327 with `oldqc` true. -/
def formerKept (r : Report) : Bool := decide (formerFilter.testReport r = 0)

/-- The parameters of the checks with `oldqc` true, from the parameter file. -/
structure FormerParams where
  /-- `buoy_aground_check`: `smooth_win` -/
  win : Int
  /-- `buoy_aground_check`: `min_win_period` -/
  groundMin : Int
  /-- `buoy_aground_check`: `max_win_period` -/
  groundMax : Int
  /-- `buoy_speed_check`: `speed_limit` -/
  speedLimit : Rat
  /-- `buoy_speed_check`: `min_win_period` -/
  speedMin : Rat
  /-- `buoy_speed_check`: `max_win_period` -/
  speedMax : Rat
  /-- `buoy_tail_check` -/
  tail : TailParams
  /-- `buoy_bias_noise_check` -/
  bias : BiasParams

/-- tracking_qc.py:289-387 with `oldqc` true. -/
noncomputable def formerChecks (G : Geo) (elev : Int → Int → Rat → Rat → Rat → Rat → ℝ) (P : FormerParams)
    (reps : List Report) : Except Err (List Report) := do
  let reps ← trackPass G positionKept (buoyAgroundCheck G P.win P.groundMin P.groundMax false) reps
  let reps ← trackPass G formerKept (buoySpeedCheck G P.speedLimit P.speedMin P.speedMax false) reps
  let reps ← trackPass G tailKept (buoyTailCheck G elev P.tail false) reps
  trackPass G biasKept (buoyBiasNoiseCheck G elev P.bias false) reps

/-- tracking_qc.py:68-419 `main` for one identifier with `oldqc` true: the run identifier in the names of the files
written ends with `oldqc` (lines 400, 407 and 414), in those of the files read it does not. -/
noncomputable def formerMain (fmt : Rat → List Char) (num : List Char → Option Rat)
    (order : List (List Char) → List (List Char)) (G : Geo) (elev : Int → Int → Rat → Rat → Rat → Rat → ℝ) (P : FormerParams)
    (out trackOut runid arg runmonthid : List Char) (months : List (Int × Int)) (year month : Int) (edge : List String)
    (fs : FileSys) : FileSys × Option Err :=
  match (do
    let reps ← readChunk num order fs out runid arg months
    let reps ← formerChecks G elev P reps
    wholeVoyage G reps : Except Err (List Report)) with
  | .error e => (fs, some e)
  | .ok v => trackingOutput fmt (runid ++ "oldqc".toList) trackOut year month edge runmonthid v fs

end MarineQC
