import Verif.Base.Model
import Verif.Voyage.Sat
import Verif.Voyage.Values
import Verif.Voyage.Pairs
import Verif.Track.Props
import Verif.Tracking.Props

/-!
# Specification of the checks of ships in the main program

What the reports of one ship are, before and after, and what their flags mean.
-/

namespace MarineQC.Spec

/-- The reports of the platform that pass the filter, in order, each with what became of it. -/
def chosenPairs (q : QcFilter) (i : Option String) (before after : List Report) : List (Report × Report) :=
  (before.zip after).filter fun p => decide (p.1.id = i ∧ Passes q p.1)

/-- The flags that the checks of ships set. -/
def shipFlagNames : List (String × String) :=
  [("POS", "trk"), ("POS", "few"), ("POS", "iquam_track"), ("SST", "spike"), ("DPT", "repsat"), ("DPT", "round"),
    ("SST", "rep"), ("AT", "rep"), ("AT2", "rep"), ("DPT", "rep"), ("SLP", "rep")]

/-- `r'` is `r` except for the flags of the checks of ships and for the differences to neighbouring reports. -/
structure ShipChange (r r' : Report) : Prop where
  id : r'.id = r.id
  uid : r'.uid = r.uid
  data : r'.data = r.data
  clim : r'.clim = r.clim
  dt : r'.dt = r.dt
  ext : ∀ k, k ∉ linkNames ++ altNames → r'.ext k = r.ext k
  flags : ∀ k, k ∉ stored shipFlagNames → r'.qc k = r.qc k

/-- The flag is set on the reports at exactly these positions, and 0 on the others. -/
def SetExactly (w : List Report) (t f : String) (S : Nat → Prop) : Prop :=
  ∀ (n : Nat) (r' : Report), w[n]? = some r' → Decided r' t f ∧ (r'.getQc t f = 1 ↔ S n)

/-- More than `count` reports have a value of the variable, the report at position `n` has one, and more than `share` of
the values print like that one. -/
def OftenRepeated (rnd : Rat → Rat) (count : Int) (share : Rat) (t : String) (l : List Report) (n : Nat) : Prop :=
  ((valuesOf l t).length : Int) > count ∧ ∃ r x, l[n]? = some r ∧ r.getvar t = some x
    ∧ (sameCount rnd (valuesOf l t) x : Rat) / (valuesOf l t).length > share

/-- More than `count` reports have a value of the variable, that of the report at position `n` prints as a whole number,
and at least `share` of the values do. -/
def OftenWhole (rnd : Rat → Rat) (count : Int) (share : Rat) (t : String) (l : List Report) (n : Nat) : Prop :=
  ((valuesOf l t).length : Int) > count ∧ (∃ r x, l[n]? = some r ∧ r.getvar t = some x ∧ Whole (rnd x))
    ∧ (wholeCount rnd (valuesOf l t) : Rat) / (valuesOf l t).length ≥ share

open Classical in
/-- `removed` is what is left out, worst first, until no two of the reports are too far apart for their times.  Nothing
is when the identifier is generic. -/
def FastRemoved (G : Geo) (P : IquamParams) (l : List Report) (removed : List Nat) : Prop :=
  ∀ r0, l.head? = some r0 →
    if idIsGeneric r0.id (r0.getint "YR") = true then removed = []
    else Finished l.length
      (PairOf l P.neighbours (TooFast G P (if PlatformIsBuoy r0 then P.buoySpeedLimit else P.shipSpeedLimit))) removed

open Classical in
/-- `removed` is what is left out, worst first, until no two values are too different for their distance in space and
time. -/
def SteepRemoved (G : Geo) (P : SpikeParams) (t : String) (l : List Report) (removed : List Nat) : Prop :=
  ∀ r0, l.head? = some r0 →
    Finished l.length (PairOf l P.neighbours (TooSteep G P (if PlatformIsBuoy r0 then P.buoyDelta else P.shipDelta) t))
      removed

/-- The reports `l` of one ship became `w`. -/
structure ShipFlags (G : Geo) (rnd : Rat → Rat) (P : ShipParams) (l w : List Report) : Prop where
  length : w.length = l.length
  only : ∀ (n : Nat) (r r' : Report), l[n]? = some r → w[n]? = some r' → ShipChange r r'
  /-- the flag of the track check of `l` -/
  trk : ∃ v v', l.foldlM (addReport G) [] = .ok v ∧ trackCheck G P.track v = .ok v' ∧
    ∀ (n : Nat) (s r' : Report), v'[n]? = some s → w[n]? = some r' → r'.getQc "POS" "trk" = s.getQc "POS" "trk"
  trkDecided : ∀ r' ∈ w, Decided r' "POS" "trk"
  few : SetExactly w "POS" "few" fun _ => ¬ TrackExempt l ∧ l.length < 3 ∧ ¬ EarlyDeck720 l
  speed : ∃ removed, FastRemoved G P.iquam l removed ∧ SetExactly w "POS" "iquam_track" (· ∈ removed)
  spike : ∃ removed, SteepRemoved G P.spike "SST" l removed ∧ SetExactly w "SST" "spike" (· ∈ removed)
  saturated : SetExactly w "DPT" "repsat" (InLongSatRun G l P.satTime P.satRun)
  rounded : SetExactly w "DPT" "round" (OftenWhole rnd P.roundCount P.roundShare "DPT" l)
  repeated : ∀ t ∈ ["SST", "AT", "AT2", "DPT", "SLP"],
    SetExactly w t "rep" (OftenRepeated rnd P.repCount P.repShare t l)

end MarineQC.Spec
