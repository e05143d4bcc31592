import Verif.Buoy.Model
import Verif.Checks.Model

/-!
# Model of the drifting buoy sea surface temperature checks (`/repo/trackqc.py` 680-1048)

Values and parameters are rational numbers; square roots are taken in the real numbers, so that the tests of a window
are parameters of the loops and the checks themselves are not computable.  The arrays `reps_ind`, `sst_anom` and
`bgerr` are one list of records.  When a check raises, flags already set stay set; the model does not keep them.
-/

namespace MarineQC

/-- An assessed report: its position in the record, difference to the background, background error variance. -/
structure SstObs where
  ind : Nat
  anom : Rat
  bgvar : Rat
deriving DecidableEq, Repr

/-- The call of `track_day_test` in trackqc.py:771-772 and 985-986. -/
def reportDaytime {F : Type} [LinearOrder F] (elev : Int → Int → Rat → Rat → Rat → Rat → F) (elevdlim : F)
    (r : Report) : Except Err Bool :=
  trackDayTest elev (r.getint "YR") (r.getint "MO") (r.getint "DY") (r.getvar "HR") (r.getvar "LAT") (r.getvar "LON")
    elevdlim

/-- trackqc.py:775-780 and 989-994: the time difference of a report after the first is there and not negative
(`None` is below 0 in Python 2). -/
def timeSorted (p : Report × Nat) : Except Err Unit :=
  if p.2 = 0 then .ok ()
  else do
    let t ← p.1.getext "time_diff"
    match t with
    | some t => pyAssert (decide (t ≥ 0))
    | none => .error .assertion

/-- trackqc.py:787-791 and 1004-1007: the record of a report that is assessed. -/
def sstObs (p : Report × Nat) (bg bgvar : Option Rat) : Except Err SstObs :=
  match bg, bgvar with
  | some bg, some q => do
    pyAssert (decide (-5 ≤ bg) && decide (bg ≤ 45))
    pyAssert (decide (0 ≤ q) && decide (q ≤ 10))
    match p.1.getvar "SST" with
    | some x => return ⟨p.2, x - bg, q⟩
    | none => .error .type
  | _, _ => .error .assertion

/-- The loop body of trackqc.py:758-791 (with `mask` false) and 972-1007 (with `mask` telling whether the background
error variance is above the limit): whether the variance is masked, and the record if the report is assessed.  `day`
is the day test. -/
def sstScreen (day : Report → Except Err Bool) (mask : Option Rat → Bool) (p : Report × Nat) :
    Except Err (Bool × Option SstObs) := do
  let bg ← p.1.getext "OSTIA"
  let ice ← p.1.getext "ICE"
  let bgvar ← p.1.getext "BGVAR"
  let ice := ice.getD 0
  pyAssert (decide (0 ≤ ice) && decide (ice ≤ 1))
  let daytime ← day p.1
  timeSorted p
  if daytime || bg.isNone || decide (ice > 15 / 100) || mask bgvar then return (mask bgvar, none)
  else do
    let o ← sstObs p bg bgvar
    return (mask bgvar, some o)

/-- trackqc.py:754-791 and 968-1007: the assessed reports, and whether a variance is masked. -/
def sstFilter (day : Report → Except Err Bool) (mask : Option Rat → Bool) (v : List Report) :
    Except Err (Bool × List SstObs) := do
  let l ← v.zipIdx.mapM (sstScreen day mask)
  return (l.any (·.1), l.filterMap (·.2))

/-! ## Tail check -/

/-- The parameters of trackqc.py:680-893 `sst_tail_check`. -/
structure TailParams where
  longLen : Int
  longStdN : Rat
  shortLen : Int
  shortStdN : Rat
  shortBad : Int
  inter : Rat
  intra : Rat
  errLim : Rat

/-- The tests of a window: trackqc.py:825, 831-832 and 866. -/
structure TailTests where
  unreliable : List SstObs → Bool
  longBad : List SstObs → Bool
  shortBad : List SstObs → Bool

/-- The inner loop of trackqc.py:822-838, over the window starts in the list; `set` gives the new index of the tail. -/
def longLoop (T : TailTests) (len : Nat) (temp : List SstObs) (set : Nat → Int) : List Nat → Int → Int
  | [], cur => cur
  | ix :: rest, cur =>
    let w := (temp.drop ix).take len
    if T.unreliable w then cur
    else if T.longBad w then longLoop T len temp set rest (set ix)
    else cur

/-- trackqc.py:809-838: the indices of the tails after the long check. -/
def longTails (T : TailTests) (len : Nat) (obs : List SstObs) : Int × Int :=
  let nrep := obs.length
  let mid := (len - 1) / 2
  if nrep < len then (-1, nrep)
  else
    let starts := List.range (nrep - len + 1)
    (longLoop T len obs (fun ix => ((ix + mid : Nat) : Int)) starts (-1),
     longLoop T len obs.reverse (fun ix => ((nrep : Int) - 1) - ix - mid) starts nrep)

/-- The inner loop of trackqc.py:859-878; `step ix` is added to the index of the tail. -/
def shortLoop (T : TailTests) (len : Nat) (temp : List SstObs) (step : Nat → Int) : List Nat → Int → Int
  | [], cur => cur
  | ix :: rest, cur =>
    let w := (temp.drop ix).take len
    if T.unreliable w then cur
    else if T.shortBad w then shortLoop T len temp step rest (cur + step ix)
    else cur

/-- trackqc.py:840-878: the indices of the tails after the short check. -/
def shortTails (T : TailTests) (len : Nat) (obs : List SstObs) (p : Int × Int) : Except Err (Int × Int) :=
  if p.1 ≥ p.2 then .ok p
  else do
    let first := p.1 + 1
    let last := p.2 - 1
    let npass := last - first + 1
    pyAssert (decide (npass > 0))
    if npass < len then return p
    else
      let temp := (obs.take (last + 1).toNat).drop first.toNat
      let starts := List.range (npass.toNat - len + 1)
      let step : Nat → Int := fun ix => if (ix : Int) = npass - len then len else 1
      return (shortLoop T len temp step starts p.1, shortLoop T len temp.reverse (fun ix => - step ix) starts p.2)

/-- trackqc.py:884-887: the flags of the start tail. -/
def startFlags (n : Nat) (obs : List SstObs) (start : Int) : Except Err (List Int) :=
  if start = -1 then .ok (List.replicate n 0)
  else do
    let o ← pyIndex obs start
    return (List.range n).map fun ind => if ind ≤ o.ind then 1 else 0

/-- trackqc.py:888-891: the flags of the end tail. -/
def endFlags (n : Nat) (obs : List SstObs) (stop : Int) : Except Err (List Int) :=
  if stop = obs.length then .ok (List.replicate n 0)
  else do
    let o ← pyIndex obs stop
    return (List.range n).map fun ind => if ind ≥ o.ind then 1 else 0

/-- trackqc.py:793-891: the flags of both tails, given the assessed reports of a record of `n` reports. -/
def tailFlags (T : TailTests) (longLen shortLen n : Nat) (obs : List SstObs) : Except Err (List Int × List Int) :=
  if obs.length = 0 then .ok (List.replicate n 0, List.replicate n 0)
  else do
    let p ← shortTails T shortLen obs (longTails T longLen obs)
    let p : Int × Int := if p.1 ≥ p.2 then (-1, obs.length) else p
    let a ← startFlags n obs p.1
    let b ← endFlags n obs p.2
    return (a, b)

/-- The assertions of trackqc.py:742-750. -/
def tailAssert (P : TailParams) : Except Err Unit := do
  pyAssert (decide (P.longLen ≥ 1))
  pyAssert (decide (P.longLen % 2 ≠ 0))
  pyAssert (decide (P.longStdN ≥ 0))
  pyAssert (decide (P.shortLen ≥ 1))
  pyAssert (decide (P.shortStdN ≥ 0))
  pyAssert (decide (P.shortBad ≥ 1))
  pyAssert (decide (P.inter ≥ 0))
  pyAssert (decide (P.intra ≥ 0))
  pyAssert (decide (P.errLim ≥ 0))

/-- trackqc.py:680-893 `sst_tail_check` with the tests of a window left open. -/
def tailCheck (T : TailTests) (day : Report → Except Err Bool) (P : TailParams) (v : List Report) :
    Except Err (List Report) := do
  tailAssert P
  let f ← sstFilter day (fun _ => false) v
  let fl ← tailFlags T P.longLen.toNat P.shortLen.toNat v.length f.2
  let v ← writeFlags v "SST" "drf_tail1" fl.1
  writeFlags v "SST" "drf_tail2" fl.2

/-! ## The tests of a window -/

/-- The standard deviation of the background error, trackqc.py:804 and 1020. -/
noncomputable def SstObs.bgerr (o : SstObs) : ℝ := Real.sqrt (o.bgvar : ℝ)

/-- `np.mean` of an array that is not empty. -/
noncomputable def realMean (l : List ℝ) : ℝ := l.sum / l.length

section
open Classical

/-- trackqc.py:825 and 862: a background error in the window is above the limit. -/
noncomputable def unreliableWindow (P : TailParams) (w : List SstObs) : Bool :=
  w.any fun o => decide (o.bgerr > Real.sqrt (P.errLim : ℝ))

/-- trackqc.py:827-832: the mean or the spread of the window is too large.  Comparisons with NaN, the mean of an empty
list, are false. -/
noncomputable def longWindowBad (P : TailParams) (w : List SstObs) : Bool :=
  match trimmedMean (w.map (·.anom)) 100, trimVar (w.map (·.anom)) 100 with
  | some avg, some var =>
    let bgerrAvg := realMean (w.map (·.bgerr))
    let bgerrRms := Real.sqrt (realMean (w.map fun o => o.bgerr ^ 2))
    decide (|(avg : ℝ)| > P.longStdN * Real.sqrt ((P.inter : ℝ) ^ 2 + bgerrAvg ^ 2))
      || decide (Real.sqrt (var : ℝ) > Real.sqrt ((P.intra : ℝ) ^ 2 + bgerrRms ^ 2))
  | _, _ => false

/-- trackqc.py:864-865 and 1042-1043: the difference is beyond the limit. -/
noncomputable def exceedsLimit (stdN inter intra : Rat) (o : SstObs) : Bool :=
  let limit : ℝ := stdN * Real.sqrt (o.bgerr ^ 2 + (inter : ℝ) ^ 2 + (intra : ℝ) ^ 2)
  decide ((o.anom : ℝ) > limit) || decide ((o.anom : ℝ) < - limit)

/-- trackqc.py:864-866: enough differences of the window are beyond the limit. -/
noncomputable def shortWindowBad (P : TailParams) (w : List SstObs) : Bool :=
  decide (((w.countP (exceedsLimit P.shortStdN P.inter P.intra) : Nat) : Int) ≥ P.shortBad)

end

/-- The tests of trackqc.py:680-893 `sst_tail_check`. -/
noncomputable def tailTests (P : TailParams) : TailTests := ⟨unreliableWindow P, longWindowBad P, shortWindowBad P⟩

/-- trackqc.py:680-893 `sst_tail_check`; `elev` is the elevation of the sun. -/
noncomputable def sstTailCheck (elev : Int → Int → Rat → Rat → Rat → Rat → ℝ) (P : TailParams) (v : List Report) :
    Except Err (List Report) :=
  tailCheck (tailTests P) (reportDaytime elev (-5 / 2)) P v

/-! ## Bias and noise check -/

/-- The parameters of trackqc.py:896-1048 `sst_biased_noisy_check`. -/
structure BiasParams where
  nEval : Int
  biasLim : Rat
  intra : Rat
  inter : Rat
  stdN : Rat
  nBad : Int
  errLim : Rat

/-- The tests of trackqc.py:1032, 1035 and 1044. -/
structure BiasTests where
  biased : List SstObs → Bool
  noisy : List SstObs → Bool
  short : List SstObs → Bool

/-- trackqc.py:1009-1046: whether the flags for bias, noise and short records are set. -/
def biasFlags (T : BiasTests) (nEval : Int) (masked : Bool) (obs : List SstObs) : Bool × Bool × Bool :=
  if obs.length = 0 then (false, false, false)
  else if (obs.length : Int) < nEval then
    if masked then (false, false, false) else (false, false, T.short obs)
  else (T.biased obs, T.noisy obs, false)

/-- The assertions of trackqc.py:958-964. -/
def biasAssert (P : BiasParams) : Except Err Unit := do
  pyAssert (decide (P.nEval > 0))
  pyAssert (decide (P.biasLim ≥ 0))
  pyAssert (decide (P.intra ≥ 0))
  pyAssert (decide (P.inter ≥ 0))
  pyAssert (decide (P.stdN ≥ 0))
  pyAssert (decide (P.nBad ≥ 1))
  pyAssert (decide (P.errLim ≥ 0))

/-- The mask of trackqc.py:998. -/
def varianceMasked (errLim : Rat) (q : Option Rat) : Bool :=
  match q with
  | some q => decide (q > errLim)
  | none => false

/-- One flag for all reports. -/
def flagAll (v : List Report) (b : Bool) : List Int := List.replicate v.length (if b then 1 else 0)

/-- trackqc.py:896-1048 `sst_biased_noisy_check` with the tests left open. -/
def biasCheck (T : BiasTests) (day : Report → Except Err Bool) (P : BiasParams) (v : List Report) :
    Except Err (List Report) := do
  biasAssert P
  let f ← sstFilter day (varianceMasked P.errLim) v
  let fl := biasFlags T P.nEval f.1 f.2
  let v ← writeFlags v "SST" "drf_bias" (flagAll v fl.1)
  let v ← writeFlags v "SST" "drf_noise" (flagAll v fl.2.1)
  writeFlags v "SST" "drf_short" (flagAll v fl.2.2)

section
open Classical

/-- trackqc.py:1029-1032: the mean difference of the record is beyond the limit. -/
def biasedRecord (P : BiasParams) (l : List SstObs) : Bool :=
  match npMean (l.map (·.anom)) with
  | some avg => decide (|avg| > P.biasLim)
  | none => false

/-- trackqc.py:1030-1035: the spread of the record is too large. -/
noncomputable def noisyRecord (P : BiasParams) (l : List SstObs) : Bool :=
  match npVar (l.map (·.anom)) with
  | some var =>
    let bgerrRms := Real.sqrt (realMean (l.map fun o => o.bgerr ^ 2))
    decide (Real.sqrt (var : ℝ) > Real.sqrt ((P.intra : ℝ) ^ 2 + bgerrRms ^ 2))
  | none => false

/-- trackqc.py:1042-1044. -/
noncomputable def shortRecordBad (P : BiasParams) (l : List SstObs) : Bool :=
  decide (((l.countP (exceedsLimit P.stdN P.inter P.intra) : Nat) : Int) ≥ P.nBad)

end

/-- The tests of trackqc.py:896-1048 `sst_biased_noisy_check`. -/
noncomputable def biasTests (P : BiasParams) : BiasTests := ⟨biasedRecord P, noisyRecord P, shortRecordBad P⟩

/-- trackqc.py:896-1048 `sst_biased_noisy_check`; `elev` is the elevation of the sun. -/
noncomputable def sstBiasedNoisyCheck (elev : Int → Int → Rat → Rat → Rat → Rat → ℝ) (P : BiasParams)
    (v : List Report) : Except Err (List Report) :=
  biasCheck (biasTests P) (reportDaytime elev (-5 / 2)) P v

end MarineQC
