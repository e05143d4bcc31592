import Verif.Base.BuddyModel
import Verif.Base.Spec
import Verif.Buddy.Check
import Verif.Report.BaseQc

/-!
# Specification of the buddy checks in the main program

Which reports of a month are each other's buddies, and what the flags mean.
-/

namespace MarineQC.Spec

/-- Place, time and track of the report are good. -/
def WellPlaced (r : Report) : Prop :=
  r.getQc "POS" "date" = 0 ∧ r.getQc "POS" "time" = 0 ∧ r.getQc "POS" "pos" = 0 ∧ r.getQc "POS" "blklst" = 0
    ∧ r.getQc "POS" "trk" = 0

/-- The reports whose sea temperatures are compared with one another: all but deck 780. -/
def SstBuddy (r : Report) : Prop :=
  WellPlaced r ∧ r.getQc "POS" "is780" = 0 ∧ r.getQc "SST" "noval" = 0 ∧ r.getQc "SST" "freez" = 0
    ∧ r.getQc "SST" "clim" = 0 ∧ r.getQc "SST" "nonorm" = 0

/-- The reports whose air temperatures are compared with one another: those of ships at night. -/
def AtBuddy (r : Report) : Prop :=
  WellPlaced r ∧ r.getQc "POS" "isship" = 1 ∧ r.getQc "POS" "day" = 0 ∧ r.getQc "AT" "mat_blacklist" = 0
    ∧ r.getQc "AT" "noval" = 0 ∧ r.getQc "AT" "clim" = 0 ∧ r.getQc "AT" "nonorm" = 0

/-- The reports whose dew points are compared with one another. -/
def DptBuddy (r : Report) : Prop :=
  WellPlaced r ∧ r.getQc "DPT" "hum_blacklist" = 0 ∧ r.getQc "DPT" "noval" = 0 ∧ r.getQc "DPT" "clim" = 0
    ∧ r.getQc "DPT" "nonorm" = 0

/-- The reports whose pressures are compared with one another. -/
def SlpBuddy (r : Report) : Prop :=
  WellPlaced r ∧ r.getQc "SLP" "noval" = 0 ∧ r.getQc "SLP" "clim" = 0 ∧ r.getQc "SLP" "nonorm" = 0

/-- The flags that the buddy checks set. -/
def buddyFlagNames : List (String × String) :=
  [("SST", "bbud"), ("SST", "bud"), ("AT", "bbud"), ("AT", "bud"), ("DPT", "bud"), ("SLP", "bud")]

open Classical in
/-- What the buddies among `l` observed. -/
noncomputable def buddyObs (l : List Report) (v : String) (E : Report → Prop) : List Obs :=
  (l.filter fun r => decide (E r)).map (obsOf v)

/-- `x` is the flag of the comparison of `r` with the buddies among `l`: 0 if `r` is not one of them, otherwise 1 exactly
when its anomaly is at least the deviation `s` of its cell away from the mean `m` of the neighbouring cells. -/
def MdsFlag (span : Int → Nat → Int) (field : StdevField) (P : BuddyParams) (v : String) (E : Report → Prop)
    (l : List Report) (r : Report) (x : Int) : Prop :=
  (x = 0 ∨ x = 1) ∧ (¬ E r → x = 0) ∧ (E r → ∃ g, IsMeanGrid (buddyObs l v E) g ∧ ∃ c stdev m s a,
    FallsIn c (obsOf v r) ∧ IsDeviation field c stdev ∧ IsLimits span g stdev P c m s ∧ r.getanom v = some a
      ∧ (x = 1 ↔ s ≤ |a - m|))

/-- `x` is the flag of the Bayesian comparison of `r` with the buddies among `l`: 0 if `r` is not one of them, otherwise
the tenths of the probability that its anomaly is a gross error, at most 9. -/
def BayesFlag (span : Int → Nat → Int) (f1 f2 f3 : StdevField) (P : BayesParams) (v : String)
    (E : Report → Prop) (l : List Report) (r : Report) (x : Int) : Prop :=
  (0 ≤ x ∧ x ≤ 9) ∧ (¬ E r → x = 0) ∧ (E r → ∃ g, IsMeanGrid (buddyObs l v E) g ∧ ∃ c s1 s2 s3 m s a p,
    FallsIn c (obsOf v r) ∧ IsDeviation f1 c s1 ∧ IsDeviation f2 c s2 ∧ IsDeviation f3 c s3
      ∧ IsBayesLimits span g P.limits P.sigmaM P.noise s1 s2 s3 c m s ∧ r.getanom v = some a
      ∧ pGross erf P.p0 P.q P.rHi (-P.rHi) a m s = .ok p ∧ (x : ℝ) ≤ 10 * p ∧ (10 * p < x + 1 ∨ (x = 9 ∧ p = 1)))

/-- The report `r`, one of `l`, became `r'`. -/
structure BuddyFlags (span : Int → Nat → Int) (B : BuddyInputs) (l : List Report) (r r' : Report) :
    Prop where
  same : r' = { r with qc := r'.qc }
  others : ∀ k, k ∉ stored buddyFlagNames → r'.qc k = r.qc k
  sstBayes : BayesFlag span B.sst1 B.sst2 B.sst3 B.sstBayes "SST" SstBuddy l r (r'.getQc "SST" "bbud")
  sst : MdsFlag span B.pentad B.mds "SST" SstBuddy l r (r'.getQc "SST" "bud")
  atBayes : BayesFlag span B.sst1 B.sst2 B.sst3 B.atBayes "AT" AtBuddy l r (r'.getQc "AT" "bbud")
  at' : MdsFlag span B.pentad B.mds "AT" AtBuddy l r (r'.getQc "AT" "bud")
  dpt : MdsFlag span B.dpt B.mds "DPT" DptBuddy l r (r'.getQc "DPT" "bud")
  slp : MdsFlag span B.slp B.slpMds "SLP" SlpBuddy l r (r'.getQc "SLP" "bud")

/-- Parameters with which the Bayesian buddy check does not refuse to run; `top` is the largest anomaly that passes the base
checks. -/
structure SoundBayes (P : BayesParams) (top : Rat) : Prop where
  prior : 0 ≤ P.p0 ∧ P.p0 ≤ 1
  quantum : 0 < P.q
  limit : P.rHi = top
  limit_pos : 0 < top
  sigma : P.sigmaM ≠ 0
  noise : 0 ≤ P.noise
  radius : P.limits.length = 3

/-- Sound inputs of the buddy checks; `p` are the parameters of the base checks. -/
structure SoundBuddies (p : BaseParams) (B : BuddyInputs) : Prop where
  sst1 : Readable B.sst1
  sst2 : Readable B.sst2
  sst3 : Readable B.sst3
  pentad : Readable B.pentad
  dpt : Readable B.dpt
  slp : Readable B.slp
  sstBayes : SoundBayes B.sstBayes p.sstMaxAnomaly
  atBayes : SoundBayes B.atBayes p.atMaxAnomaly
  mds : UsableParams B.mds
  slpMds : UsableParams B.slpMds

/-- The report has been through the base checks, and since then neither its data nor the flags of these checks have
changed. -/
def BaseChecked {F : Type} [LinearOrder F] [Zero F] (elev : Elev F) (p : BaseParams) (r : Report) : Prop :=
  ∃ r0 r1 : Report, r0.performBaseQc elev p = .ok r1 ∧ r.data = r1.data ∧ r.clim = r1.clim
    ∧ ∀ k ∈ baseKeys, r.qc k = r1.qc k

end MarineQC.Spec
