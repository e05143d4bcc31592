import Verif.Buoy.SstModel
import Verif.Drifter.Model

/-!
# Model of the checks and the output of the tracking program (`/repo/tracking_qc.py` 28-65 and 289-416) and of the buoy
checks of `Voyage` (`/repo/Extended_IMMA.py` 2283-2437)

The reports of `rep_list` are Python objects that the voyages share.  In the model an object is a report together with its
position in `rep_list`; what a check has done to the reports of a voyage is stored back at their positions.  When an
exception stops the program nothing has been written, so the state of the reports is not kept.
-/

namespace MarineQC

/-! ## The checks of a voyage -/

/-- Sorting a voyage, if asked for. -/
def sortIf (G : Geo) (sort : Bool) (v : List Report) : Except Err (List Report) :=
  if sort then sortVoyage G v else .ok v

/-- What the buoy checks of Extended_IMMA.py:2283-2437 have in common: a voyage without reports, or whose first report is
not of platform type 7, is left alone.  (AssertionError is raised again with a longer message.) -/
def buoyGuard (G : Geo) (check : List Report → Except Err (List Report)) (sort : Bool) (v : List Report) :
    Except Err (List Report) :=
  match v with
  | [] => .ok []
  | r :: _ =>
    if r.getvar "PT" ≠ some 7 then .ok v
    else do
      let w ← sortIf G sort v
      check w

/-- Extended_IMMA.py:2283-2306 `buoy_aground_check`. -/
def buoyAgroundCheck (G : Geo) (win minPeriod maxPeriod : Int) (sort : Bool) (v : List Report) : Except Err (List Report) :=
  buoyGuard G (agroundCheck G win minPeriod maxPeriod) sort v

/-- Extended_IMMA.py:2308-2330 `new_buoy_aground_check`. -/
def newBuoyAgroundCheck (G : Geo) (win minPeriod : Int) (sort : Bool) (v : List Report) : Except Err (List Report) :=
  buoyGuard G (newAgroundCheck G win minPeriod) sort v

/-- Extended_IMMA.py:2332-2355 `buoy_speed_check`. -/
def buoySpeedCheck (G : Geo) (limit minPeriod maxPeriod : Rat) (sort : Bool) (v : List Report) : Except Err (List Report) :=
  buoyGuard G (speedCheck G limit minPeriod maxPeriod) sort v

/-- Extended_IMMA.py:2357-2381 `new_buoy_speed_check`. -/
def newBuoySpeedCheck (G : Geo) (P : IquamParams) (limit minPeriod : Rat) (sort : Bool) (v : List Report) :
    Except Err (List Report) :=
  buoyGuard G (newSpeedCheck G P limit minPeriod) sort v

/-- Extended_IMMA.py:2383-2409 `buoy_tail_check`. -/
noncomputable def buoyTailCheck (G : Geo) (elev : Int → Int → Rat → Rat → Rat → Rat → ℝ) (P : TailParams) (sort : Bool)
    (v : List Report) : Except Err (List Report) :=
  buoyGuard G (sstTailCheck elev P) sort v

/-- Extended_IMMA.py:2411-2437 `buoy_bias_noise_check`. -/
noncomputable def buoyBiasNoiseCheck (G : Geo) (elev : Int → Int → Rat → Rat → Rat → Rat → ℝ) (P : BiasParams) (sort : Bool)
    (v : List Report) : Except Err (List Report) :=
  buoyGuard G (sstBiasedNoisyCheck elev P) sort v

/-! ## Voyages that share their reports -/

/-- A voyage built by adding the reports one after the other (Extended_IMMA.py:1563-1583 `add_report`). -/
def buildTagged (G : Geo) (l : List (Report × Nat)) : Except Err (List (Report × Nat)) := do
  let v ← (l.map (·.1)).foldlM (addReport G) []
  return v.zip (l.map (·.2))

/-- The differences of all reports after the first, Extended_IMMA.py:1590-1597. -/
def relinkAll (G : Geo) : List Report → Except Err (List Report)
  | [] => .ok []
  | r :: rs => do
    let rest ← relink G r rs
    return r :: rest

/-- Sorting a voyage (Extended_IMMA.py:1585-1597 `sort`). -/
def sortTagged (G : Geo) (v : List (Report × Nat)) : Except Err (List (Report × Nat)) := do
  let s := v.mergeSort fun a b => !(b.1.lt a.1)
  let w ← relinkAll G (s.map (·.1))
  return w.zip (s.map (·.2))

/-- The reports with the objects of a voyage stored at their positions. -/
def storeBack (reps : List Report) (v : List (Report × Nat)) : List Report := v.foldl (fun l p => l.set p.2 p.1) reps

/-- The voyage of the chosen reports in time order, e.g. tracking_qc.py:302-306. -/
def passVoyage (G : Geo) (keep : Report → Bool) (reps : List Report) : Except Err (List (Report × Nat)) := do
  let v ← buildTagged G (reps.zipIdx.filter fun p => keep p.1)
  sortTagged G v

/-- One of the four checks: tracking_qc.py:293-313, 315-336, 338-360 and 362-387. -/
def trackPass (G : Geo) (keep : Report → Bool) (check : List Report → Except Err (List Report)) (reps : List Report) :
    Except Err (List Report) := do
  let v ← passVoyage G keep reps
  let w ← check (v.map (·.1))
  return storeBack reps (w.zip (v.map (·.2)))

/-! ## The four checks -/

/-- tracking_qc.py:296-301 (also 317-322). -/
def positionFilter : QcFilter :=
  ((((QcFilter.add [] "POS" "isbuoy" 1).add "POS" "date" 0).add "POS" "time" 0).add "POS" "pos" 0).add "POS" "blklst" 0

/-- tracking_qc.py:340-353. -/
def tailFilter : QcFilter :=
  ((((((((positionFilter.add "SST" "clim" 0).add "SST" "nonorm" 0).add "SST" "freez" 0).add "SST" "noval" 0).add "SST" "rep" 0).add
    "SST" "hardlimit" 0).add "POS" "drf_agr" 0).add "POS" "drf_spd" 0)

/-- tracking_qc.py:364-379. -/
def biasFilter : QcFilter := (tailFilter.add "SST" "drf_tail1" 0).add "SST" "drf_tail2" 0

/-- tracking_qc.py:304 and 327. -/
def positionKept (r : Report) : Bool := decide (positionFilter.testReport r = 0)

/-- tracking_qc.py:356. -/
def tailKept (r : Report) : Bool := decide (tailFilter.testReport r = 0) && decide (r.getQc "SST" "bbud" < 4)

/-- tracking_qc.py:382. -/
def biasKept (r : Report) : Bool := decide (biasFilter.testReport r = 0) && decide (r.getQc "SST" "bbud" < 4)

/-- The parameters of the checks, from the parameter file. -/
structure DriftParams where
  /-- `new_buoy_aground_check`: `smooth_win` -/
  win : Int
  /-- `new_buoy_aground_check`: `min_win_period` -/
  groundPeriod : Int
  /-- `IQUAM_track_check` -/
  iquam : IquamParams
  /-- `new_buoy_speed_check`: `speed_limit` -/
  speedLimit : Rat
  /-- `new_buoy_speed_check`: `min_win_period` -/
  speedPeriod : Rat
  /-- `buoy_tail_check` -/
  tail : TailParams
  /-- `buoy_bias_noise_check` -/
  bias : BiasParams

/-- tracking_qc.py:289-387 with `oldqc` false. -/
noncomputable def trackingChecks (G : Geo) (elev : Int → Int → Rat → Rat → Rat → Rat → ℝ) (P : DriftParams)
    (reps : List Report) : Except Err (List Report) := do
  let reps ← trackPass G positionKept (newBuoyAgroundCheck G P.win P.groundPeriod false) reps
  let reps ← trackPass G positionKept (newBuoySpeedCheck G P.iquam P.speedLimit P.speedPeriod false) reps
  let reps ← trackPass G tailKept (buoyTailCheck G elev P.tail false) reps
  trackPass G biasKept (buoyBiasNoiseCheck G elev P.bias false) reps

/-- tracking_qc.py:389-393: the voyage of all reports in time order. -/
def wholeVoyage (G : Geo) (reps : List Report) : Except Err (List Report) := do
  let v ← passVoyage G (fun _ => true) reps
  return v.map (·.1)

/-! ## Output -/

/-- tracking_qc.py:28-44 `safe_make_tracking_dir`. -/
def safeMakeTrackingDir (fs : FileSys) (out : List Char) (year month : Int) : FileSys × Option (List Char) :=
  safeMakeDirGeneric fs out ["TrackingQC".toList, intText year, zeroPad 2 month]

/-- tracking_qc.py:47-65 `safe_make_edge_dir`. -/
def safeMakeEdgeDir (fs : FileSys) (out : List Char) (year month : Int) (edge runmonthid : List Char) :
    FileSys × Option (List Char) :=
  let d := safeMakeTrackingDir fs out year month
  match d.2 with
  | none => d
  | some p => safeMakeDirGeneric d.1 p [edge ++ '_' :: runmonthid]

/-- Writing the tracking file into a directory just made. -/
def writeInto (fmt : Rat → List Char) (runid : List Char) (year month : Int) (v : List Report)
    (d : FileSys × Option (List Char)) : FileSys × Option Err :=
  match d.2 with
  | none => (d.1, some .type)
  | some p => writeTracking fmt runid p year month v d.1

/-- An `if` without `else`. -/
def whenDo (b : Bool) (f : FileSys → FileSys × Option Err) (fs : FileSys) : FileSys × Option Err :=
  if b then f fs else (fs, none)

/-- tracking_qc.py:395-416: the output files.  `edge` is the list of words given with `-edge`. -/
def trackingOutput (fmt : Rat → List Char) (runid out : List Char) (year month : Int) (edge : List String)
    (runmonthid : List Char) (v : List Report) (fs : FileSys) : FileSys × Option Err :=
  thenDo (whenDo (edge.contains "new" || edge.contains "regular")
      (fun fs => writeInto fmt runid year month v (safeMakeTrackingDir fs out year month)) fs) fun fs =>
  thenDo (whenDo (edge.contains "start_edge_case")
      (fun fs => writeInto fmt runid year month v (safeMakeEdgeDir fs out year month "start_edge_case".toList runmonthid)) fs)
    fun fs =>
  whenDo (edge.contains "end_edge_case")
      (fun fs => writeInto fmt runid year month v (safeMakeEdgeDir fs out year month "end_edge_case".toList runmonthid)) fs

/-- tracking_qc.py:68-419 `main` for one identifier; `months` are the months from `yr1`, `mn1` to `yr2`, `mn2`. -/
noncomputable def trackingMain (fmt : Rat → List Char) (num : List Char → Option Rat)
    (order : List (List Char) → List (List Char)) (G : Geo) (elev : Int → Int → Rat → Rat → Rat → Rat → ℝ) (P : DriftParams)
    (out trackOut runid arg runmonthid : List Char) (months : List (Int × Int)) (year month : Int) (edge : List String)
    (fs : FileSys) : FileSys × Option Err :=
  match (do
    let reps ← readChunk num order fs out runid arg months
    let reps ← trackingChecks G elev P reps
    wholeVoyage G reps : Except Err (List Report)) with
  | .error e => (fs, some e)
  | .ok v => trackingOutput fmt runid trackOut year month edge runmonthid v fs

end MarineQC
