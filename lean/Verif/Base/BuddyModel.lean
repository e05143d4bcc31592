import Verif.Base.Model

/-!
# Model of the main program (`/repo/marine_qc.py`), part two: the buddy checks
-/

namespace MarineQC

/-- The fields and parameters of the buddy checks. -/
structure BuddyInputs where
  /-- `sst_stdev_1`, `sst_stdev_2` and `sst_stdev_3` -/
  sst1 : StdevField
  sst2 : StdevField
  sst3 : StdevField
  /-- `sst_pentad_stdev` -/
  pentad : StdevField
  /-- `climlib.get_field('DPT', 'stdev')` -/
  dpt : StdevField
  /-- `climlib.get_field('SLP', 'stdev')` -/
  slp : StdevField
  /-- `bayesian_buddy_check`, with the `maximum_anomaly` of `SST` (Extended_IMMA.py:3068-3076) -/
  sstBayes : BayesParams
  /-- `bayesian_buddy_check`, with the `maximum_anomaly` of `AT` -/
  atBayes : BayesParams
  /-- `mds_buddy_check` -/
  mds : BuddyParams
  /-- `slp_buddy_check` -/
  slpMds : BuddyParams

/-- marine_qc.py:265-275. -/
def sstBuddies : QcFilter :=
  (((((((((QcFilter.add [] "POS" "is780" 0).add "POS" "date" 0).add "POS" "time" 0).add "POS" "pos" 0).add
    "POS" "blklst" 0).add "POS" "trk" 0).add "SST" "noval" 0).add "SST" "freez" 0).add "SST" "clim" 0).add
    "SST" "nonorm" 0

/-- marine_qc.py:283-294. -/
def atBuddies : QcFilter :=
  ((((((((((QcFilter.add [] "POS" "isship" 1).add "AT" "mat_blacklist" 0).add "POS" "date" 0).add "POS" "time" 0).add
    "POS" "pos" 0).add "POS" "blklst" 0).add "POS" "trk" 0).add "POS" "day" 0).add "AT" "noval" 0).add "AT" "clim" 0).add
    "AT" "nonorm" 0

/-- marine_qc.py:302-311. -/
def dptBuddies : QcFilter :=
  ((((((((QcFilter.add [] "DPT" "hum_blacklist" 0).add "POS" "date" 0).add "POS" "time" 0).add "POS" "pos" 0).add
    "POS" "blklst" 0).add "POS" "trk" 0).add "DPT" "noval" 0).add "DPT" "clim" 0).add "DPT" "nonorm" 0

/-- marine_qc.py:318-326. -/
def slpBuddies : QcFilter :=
  (((((((QcFilter.add [] "POS" "date" 0).add "POS" "time" 0).add "POS" "pos" 0).add "POS" "blklst" 0).add
    "POS" "trk" 0).add "SLP" "noval" 0).add "SLP" "clim" 0).add "SLP" "nonorm" 0

/-- marine_qc.py:264-330, the buddy checks of the deck. -/
noncomputable def buddyStage (erf : ℝ → ℝ) (span : Int → Nat → Int) (B : BuddyInputs) (d : Deck) : Except Err Deck := do
  let d ← bayesianBuddyCheck erf span (d.addFilter sstBuddies) "SST" B.sst1 B.sst2 B.sst3 B.sstBayes
  let d ← mdsBuddyCheck span d "SST" B.pentad B.mds
  let d ← bayesianBuddyCheck erf span (d.addFilter atBuddies) "AT" B.sst1 B.sst2 B.sst3 B.atBayes
  let d ← mdsBuddyCheck span d "AT" B.pentad B.mds
  let d ← mdsBuddyCheck span (d.addFilter dptBuddies) "DPT" B.dpt B.mds
  mdsBuddyCheck span (d.addFilter slpBuddies) "SLP" B.slp B.slpMds

end MarineQC
