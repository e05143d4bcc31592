import Verif.Track.Model
import Verif.Tracking.Model
import Verif.Buddy.Model

/-!
# Model of the main program (`/repo/marine_qc.py`), part one: the checks of ships and the buddy checks

The reports of the deck are Python objects which the voyages of `get_one_platform_at_a_time` share.  As in the model of
the tracking program, an object is a report together with its position in the deck; what the checks have done to the
reports of a voyage is stored back at their positions.  When an exception stops the program the state of the reports is
not kept.
-/

namespace MarineQC

/-- The parameters of the checks of one ship, from the parameter file. -/
structure ShipParams where
  /-- `track_check` -/
  track : TrackParams
  /-- `IQUAM_track_check` -/
  iquam : IquamParams
  /-- `IQUAM_spike_check` -/
  spike : SpikeParams
  /-- `saturated_runs`: `min_time_threshold` -/
  satTime : Rat
  /-- `saturated_runs`: `shortest_run` -/
  satRun : Int
  /-- `multiple_rounded_values`: `min_count` -/
  roundCount : Int
  /-- `multiple_rounded_values`: `threshold` -/
  roundShare : Rat
  /-- `find_repeated_values`: `min_count` -/
  repCount : Int
  /-- `find_repeated_values`: `threshold` -/
  repShare : Rat

/-- marine_qc.py:256-258, the checks for repeated values of the listed variables. -/
def repeatedChecks (rnd : Rat → Rat) (P : ShipParams) : List String → List Report → Except Err (List Report)
  | [], v => .ok v
  | t :: ts, v => do
    let v ← findRepeated rnd P.repCount P.repShare t v
    repeatedChecks rnd P ts v

/-- marine_qc.py:250-258, the checks of one ship.  (The defaults of Extended_IMMA.py:2206 and 1704 are `SST` and
`DPT`.) -/
def shipChecks (G : Geo) (rnd : Rat → Rat) (P : ShipParams) (v : List Report) : Except Err (List Report) := do
  let v ← trackCheck G P.track v
  let v ← iquamTrackCheck G P.iquam v
  let v ← spikeCheck G P.spike "SST" v
  let v ← findSaturatedRuns G P.satTime P.satRun v
  let v ← findMultipleRounded rnd P.roundCount P.roundShare "DPT" v
  repeatedChecks rnd P ["SST", "AT", "AT2", "DPT", "SLP"] v

/-- One round of the loop of marine_qc.py:248-260: the voyage of Extended_IMMA.py:3127-3133 for the listed positions is
built and checked. -/
def shipRound (G : Geo) (check : List Report → Except Err (List Report)) (d : Deck) (l : List Nat) : Except Err Deck := do
  let chosen ← d.platform l
  let v ← buildTagged G chosen
  let w ← check (v.map (·.1))
  return { d with reps := storeBack d.reps (w.zip (v.map (·.2))) }

/-- The loop of marine_qc.py:248-260 over the entries of the index.  The generator `get_one_platform_at_a_time` builds a
voyage only after the one before has been checked. -/
def shipRounds (G : Geo) (check : List Report → Except Err (List Report)) :
    List (Option String × List Nat) → Deck → Except Err Deck
  | [], d => .ok d
  | e :: es, d => do
    let d ← shipRound G check d e.2
    shipRounds G check es d

/-- The loop of marine_qc.py:248-260. -/
def shipPass (G : Geo) (check : List Report → Except Err (List Report)) (d : Deck) : Except Err Deck :=
  shipRounds G check d.idtracker d

/-- marine_qc.py:238-242. -/
def shipFilter : QcFilter :=
  (((QcFilter.add [] "POS" "date" 0).add "POS" "time" 0).add "POS" "pos" 0).add "POS" "blklst" 0

end MarineQC
