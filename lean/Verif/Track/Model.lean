import Verif.Voyage.Model

/-!
# Model of the ship track check (`/repo/track_check.py` and `/repo/Extended_IMMA.py` 1799-2204)

The functions of track_check.py and the methods of `Voyage` with the same names do the same; one definition
models both.  Printing is left out.  A comparison `x > y` with `x` missing is false (Python 2 orders `None`
below all numbers).
-/

namespace MarineQC

/-- Python 2 `x > y` for a value that may be `None`. -/
def optGt (x : Option Rat) (y : Rat) : Bool :=
  match x with
  | some x => decide (x > y)
  | none => false

/-- The bin of a speed in km/h, track_check.py:58-63. -/
def speedBin (s : Rat) : Nat :=
  let index : Int := ⌊kmToNm * s / 3⌋
  if index < 0 then 0 else if index > 11 then 11 else index.toNat

/-- Adding one to the frequency of a bin, track_check.py:64. -/
def addFreq (freq : List Int) (b : Nat) : List Int := freq.set b (freq.getD b 0 + 1)

/-- One round of track_check.py:66-70; the state is (`ikmode`, `atmode`), `icmode` is always 1.  `atmode` is 0
before the first assignment (it is unbound in the code). -/
def modeStep (freq : List Int) (s : Int × Rat) (index : Nat) : Int × Rat :=
  if freq.getD index 0 > s.1 then (freq.getD index 0, ((index : Rat) + 1) * 3 - 3 / 2) else s

/-- The bin of a speed that may be `None` (arithmetic on `None` raises), track_check.py:57-63. -/
def speedBinOf (s : Option Rat) : Except Err Nat :=
  match s with
  | some s => .ok (speedBin s)
  | none => .error .type

/-- track_check.py:17-79 `modesp`. -/
def modesp (awork : List (Option Rat)) : Except Err (Option Rat) :=
  if awork.length > 1 then do
    let bins ← awork.tail.mapM speedBinOf
    let freq := bins.foldl addFreq (List.replicate 12 0)
    let mode := ((List.range 12).foldl (modeStep freq) (-32768, 0)).2
    let amode := if mode ≤ 17 / 2 then 17 / 2 else mode
    return some (amode / kmToNm)
  else return none

/-- track_check.py:82-107 `set_speed_limits`. -/
def setSpeedLimits (amode : Option Rat) : Rat × Rat × Rat :=
  match amode with
  | some m =>
    if m ≤ (851 / 100) / kmToNm then (15 / kmToNm, 20 / kmToNm, 0 / kmToNm)
    else (m * (5 / 4), 30 / kmToNm, m * (3 / 4))
  | none => (15 / kmToNm, 20 / kmToNm, 0 / kmToNm)

/-- track_check.py:110-137 `increment_position`.  A missing position raises in the projection. -/
def incrementPosition (G : Geo) (lat lon : Option Rat) (avs ads : Rat) (timdif : Option Rat) :
    Except Err (Option (Rat × Rat)) :=
  match timdif with
  | none => .ok none
  | some t =>
    match lat, lon with
    | some lat, some lon =>
      let distance := avs * t / 2
      let p := G.project lat lon ads distance
      .ok (some (p.1 - lat, p.2 - lon))
    | _, _ => .error .type

/-- `sph.sphere_distance` for arguments that may be `None`, spherical_geometry.py:12-59. -/
def sphereDistanceOf (G : Geo) (lat1 lon1 lat2 lon2 : Option Rat) : Except Err Rat :=
  match lat1, lon1, lat2, lon2 with
  | some a, some b, some c, some d => .ok (G.dist a b c d)
  | _, _, _, _ => .error .assertion

/-- Adding two increments to a position, track_check.py:190-191. -/
def shiftPosition (lat lon : Option Rat) (p q : Option (Rat × Rat)) : Except Err (Rat × Rat) :=
  match lat, lon, p, q with
  | some lat, some lon, some p, some q => .ok (lat + p.1 + q.1, lon + p.2 + q.2)
  | _, _, _, _ => .error .type

/-- The loop body of `distr1` (`turn = 0`, from `a` to the next report `b`), track_check.py:168-202, and of
`distr2` (`turn = 180`, from `b` to `a`), 237-271; Extended_IMMA.py:1857-1890 and 1918-1951.  `tdiff` is the
time difference of the later report. -/
def distrAt (G : Geo) (turn : Rat) (a b : Report) (tdiff : Option Rat) : Except Err (Option Rat) :=
  match b.getvar "vsi", a.getvar "vsi", b.getvar "dsi", a.getvar "dsi", tdiff with
  | some vb, some va, some db, some da, some t => do
    let p ← incrementPosition G (a.getvar "LAT") (a.getvar "LON") (va / kmToNm) (da - turn) (some t)
    let q ← incrementPosition G (b.getvar "LAT") (b.getvar "LON") (vb / kmToNm) (db - turn) (some t)
    let x ← shiftPosition (a.getvar "LAT") (a.getvar "LON") p q
    let d ← sphereDistanceOf G (b.getvar "LAT") (b.getvar "LON") (some x.1) (some x.2)
    return some d
  | _, _, _, _, _ => return none

/-- One round of the loop of `distr1`, track_check.py:168-202. -/
def distr1At (G : Geo) (v : List Report) (i : Nat) : Except Err (Option Rat) := do
  let a ← pyIndex v ((i : Int) - 1)
  let b ← pyIndex v i
  distrAt G 0 a b (b.getvar "time_diff")

/-- One round of the loop of `distr2`, track_check.py:237-271. -/
def distr2At (G : Geo) (v : List Report) (i : Nat) : Except Err (Option Rat) := do
  let a ← pyIndex v ((i : Int) - 1)
  let b ← pyIndex v i
  distrAt G 180 b a (b.getvar "time_diff")

/-- track_check.py:140-204 `distr1`, Extended_IMMA.py:1836-1892. -/
def distr1 (G : Geo) (v : List Report) : Except Err (List (Option Rat)) := do
  let rest ← (List.range' 1 (v.length - 1)).mapM (distr1At G v)
  return none :: rest

/-- track_check.py:207-274 `distr2`, Extended_IMMA.py:1894-1954. -/
def distr2 (G : Geo) (v : List Report) : Except Err (List (Option Rat)) := do
  let rest ← (List.range' 1 (v.length - 1)).reverse.mapM (distr2At G v)
  return (none :: rest).reverse

/-- `sph.intermediate_point` for arguments that may be `None`, spherical_geometry.py:173-195. -/
def intermediatePointOf (G : Geo) (lat1 lon1 lat2 lon2 : Option Rat) (f : Rat) : Except Err (Rat × Rat) := do
  pyAssert (decide (f ≤ 1))
  match lat1, lon1, lat2, lon2 with
  | some a, some b, some c, some d => .ok (G.along a b c d f)
  | _, _, _, _ => .error .assertion

/-- `fraction_of_time_diff`, track_check.py:302-311. -/
def timeFraction (t0 t1 : Option Rat) : Rat :=
  match t0, t1 with
  | some t0, some t1 => if t0 + t1 ≠ 0 then t0 / (t0 + t1) else 0
  | _, _ => 0

/-- The loop body of `midpt`, track_check.py:302-331, for three consecutive reports. -/
def midptAt (G : Geo) (a b c : Report) : Except Err Rat := do
  let p ← intermediatePointOf G (a.getvar "LAT") (a.getvar "LON") (c.getvar "LAT") (c.getvar "LON")
    (timeFraction (b.getvar "time_diff") (c.getvar "time_diff"))
  sphereDistanceOf G (b.getvar "LAT") (b.getvar "LON") (some p.1) (some p.2)

/-- One round of the loop of `midpt`, track_check.py:302-331. -/
def midptOf (G : Geo) (v : List Report) (i : Nat) : Except Err (Option Rat) := do
  let a ← pyIndex v ((i : Int) - 1)
  let b ← pyIndex v i
  let c ← pyIndex v ((i : Int) + 1)
  let d ← midptAt G a b c
  return some d

/-- track_check.py:277-335 `midpt`, Extended_IMMA.py:1956-2007. -/
def midpt (G : Geo) (v : List Report) : Except Err (List (Option Rat)) := do
  let mid ← (List.range' 1 (v.length - 2)).mapM (midptOf G v)
  return none :: mid ++ [none]

/-- track_check.py:338-369 `direction_continuity`. -/
def directionContinuity (dsi dsiPrevious course : Option Rat) (maxChange : Rat) : Except Err Rat := do
  pyAssert (decide (dsi ∈ dsConvert))
  pyAssert (decide (dsiPrevious ∈ dsConvert))
  match dsi, dsiPrevious, course with
  | some d, some p, some c =>
    if (maxChange < |d - c| ∧ |d - c| < 360 - maxChange) ∨ (maxChange < |p - c| ∧ |p - c| < 360 - maxChange)
    then return 10 else return 0
  | _, _, _ => return 0

/-- track_check.py:372-398 `speed_continuity`. -/
def speedContinuity (vsi vsiPrevious speeds : Option Rat) (maxChange : Rat) : Rat :=
  match vsi, vsiPrevious, speeds with
  | some v, some p, some s =>
    if |v / kmToNm - s| > maxChange / kmToNm ∧ |p / kmToNm - s| > maxChange / kmToNm then 10 else 0
  | _, _, _ => 0

/-- track_check.py:401-437 `check_distance_from_estimate`. -/
def checkDistance (vsi vsiPrevious tdiff fwd rev : Option Rat) : Rat :=
  match vsi, vsiPrevious, tdiff with
  | some v, some p, some t =>
    if v > 0 ∧ p > 0 ∧ t > 0 then
      let alwdis := t * ((v + p) / 2) / kmToNm
      if optGt fwd alwdis && optGt rev alwdis then 10 else 0
    else 0
  | _, _, _ => 0

/-- The parameters of `track_check`, Extended_IMMA.py:2095-2098. -/
structure TrackParams where
  maxDirection : Rat
  maxSpeedChange : Rat
  maxSpeed : Rat
  maxMidpoint : Rat

/-- `thisqc_a` > 0, Extended_IMMA.py:2162-2170, for three consecutive reports. -/
def speedTest (amax : Rat) (a b c : Report) : Bool :=
  if optGt (b.getvar "speed") amax && optGt (a.getvar "alt_speed") amax then true
  else if optGt (c.getvar "speed") amax && optGt (c.getvar "alt_speed") amax then true
  else if optGt (b.getvar "speed") amax && optGt (c.getvar "speed") amax then true
  else false

/-- `thisqc_b`, Extended_IMMA.py:2172-2192. -/
def otherTests (P : TrackParams) (a b : Report) (fwd rev : Option Rat) : Except Err Rat := do
  let x := checkDistance (b.getvar "vsi") (a.getvar "vsi") (b.getvar "time_diff") fwd rev
  let y ← directionContinuity (b.getvar "dsi") (a.getvar "dsi") (b.getvar "course") P.maxDirection
  let z := speedContinuity (b.getvar "vsi") (a.getvar "vsi") (b.getvar "speed") P.maxSpeedChange
  let w : Rat := if optGt (b.getvar "speed") (P.maxSpeed / kmToNm) then 10 else 0
  return x + y + z + w

/-- The loop body of Extended_IMMA.py:2156-2201 (and of track_check.py:500-545) for report `i`: the flag. -/
def trackFlag (P : TrackParams) (amax : Rat) (v : List Report) (fwd rev mid : List (Option Rat)) (i : Nat) :
    Except Err Int := do
  let a ← pyIndex v ((i : Int) - 1)
  let b ← pyIndex v i
  let c ← pyIndex v ((i : Int) + 1)
  let f ← pyIndex fwd i
  let r ← pyIndex rev i
  let m ← pyIndex mid i
  let qa := speedTest amax a b c
  let qb ← otherTests P a b f r
  if optGt m (P.maxMidpoint / kmToNm) && qa && decide (qb > 0) then return 1 else return 0

/-- The track flags of a voyage whose alternate speeds are known: Extended_IMMA.py:2139-2204 and
track_check.py:483-553. -/
def trackFlags (G : Geo) (P : TrackParams) (v : List Report) : Except Err (List Int) := do
  let _ ← meansp v
  let spd ← getSpeed v
  let mode ← modesp spd
  let amax := (setSpeedLimits mode).1
  let fwd ← distr1 G v
  let rev ← distr2 G v
  let mid ← midpt G v
  let inner ← (List.range' 1 (v.length - 2)).mapM (trackFlag P amax v fwd rev mid)
  return 0 :: inner ++ [0]

/-- `DCK == 720 and YR < 1891`, Extended_IMMA.py:2124.  A missing year is below 1891. -/
def earlyDeck720 (r : Report) : Bool :=
  decide (r.getint "DCK" = some 720) && (match r.getint "YR" with
    | some y => decide (y < 1891)
    | none => true)

/-- Set two flags of type `POS` on all reports. -/
def writeBoth (v : List Report) (f g : String) (fl gl : List Int) : Except Err (List Report) := do
  let v ← writeFlags v "POS" f fl
  writeFlags v "POS" g gl

/-- Extended_IMMA.py:2085-2204 `track_check`.  An exception in `midpt` becomes an assertion failure there; the
model keeps the original exception (in the model it is an assertion failure too). -/
def trackCheck (G : Geo) (P : TrackParams) (v : List Report) : Except Err (List Report) :=
  match v.head? with
  | none => .ok v
  | some r =>
    if idIsGeneric r.id (r.getint "YR") || decide (r.getint "PT" = some 6) || decide (r.getint "PT" = some 7) then
      writeBoth v "trk" "few" (v.map fun _ => 0) (v.map fun _ => 0)
    else if v.length < 3 then
      if earlyDeck720 r then writeBoth v "trk" "few" (v.map fun _ => 0) (v.map fun _ => 0)
      else writeBoth v "trk" "few" (v.map fun _ => 0) (v.map fun _ => 1)
    else do
      let v ← calcAlternate G v
      let fl ← trackFlags G P v
      writeBoth v "trk" "few" fl (v.map fun _ => 0)

/-- The limits in track_check.py:338-339, 372, 531 and 535. -/
def mdsParams : TrackParams := ⟨60, 10, 40, 150⟩

/-- track_check.py:440-553 `mds_track_check`: the flags returned and the voyage with its flags set.  With a
single report, deck 720 and a year before 1891, the flags 0 are set twice on the one report. -/
def mdsTrackCheck (G : Geo) (v : List Report) : Except Err (List Int × List Report) :=
  match v.head? with
  | none => .ok ([], v)
  | some r =>
    if idIsGeneric r.id (r.getint "YR") then do
      let v' ← writeFlags v "POS" "bad_track" (v.map fun _ => 0)
      return (v.map fun _ => 0, v')
    else if v.length < 3 ∧ ¬ earlyDeck720 r then do
      let v' ← writeFlags v "POS" "fewsome_check" (v.map fun _ => 1)
      return (v.map fun _ => 0, v')
    else do
      let v ← calcAlternate G v
      let fl ← trackFlags G mdsParams v
      let v' ← writeBoth v "bad_track" "fewsome_check" (fl.take v.length) (v.map fun _ => 0)
      return (fl, v')

/-- The positions whose flag is 0, track_check.py:583-587. -/
def unflagged (n : Nat) (master : List Int) : Except Err (List Nat) := do
  let fl ← (List.range n).mapM fun i : Nat => pyIndex master (i : Int)
  return (List.range n).filter fun i => decide (fl[i]? = some 0)

/-- The reports at the given positions, added one by one to a new voyage, track_check.py:578-587. -/
def rebuild (G : Geo) (v : List Report) (refs : List Nat) : Except Err (List Report) := do
  let reps ← refs.mapM fun i : Nat => pyIndex v (i : Int)
  reps.foldlM (addReport G) []

/-- The flag of a pass for a position and its place in the pass, track_check.py:592-593. -/
def flagAt (out : List Int) (p : Nat × Nat) : Except Err (Nat × Int) := do
  let x ← pyIndex out (p.2 : Int)
  return (p.1, x)

/-- One pass of the loop at track_check.py:577-595, returning the voyage, the flags of all reports and those of
the pass.  The new voyage shares its reports with the old one, so what the pass stores in them is stored in the
old one too. -/
def fullPass (G : Geo) (v : List Report) (master : List Int) :
    Except Err (List Report × List Int × List Int) := do
  let refs ← unflagged v.length master
  let temp ← rebuild G v refs
  let out ← mdsTrackCheck G temp
  let pairs ← refs.zipIdx.mapM (flagAt out.1)
  let master := pairs.foldl (fun m p => m.set p.1 p.2) master
  let v := (refs.zip out.2).foldl (fun v p => v.set p.1 p.2) v
  return (v, master, out.1)

/-- The loop at track_check.py:576-595 with at most the given number of passes.  `max` of an empty list
raises. -/
def fullLoop (G : Geo) : Nat → List Report → List Int → List Int → Except Err (List Report × List Int)
  | 0, v, master, qcs => if qcs = [] then .error .value else .ok (v, master)
  | k + 1, v, master, qcs =>
    if qcs = [] then .error .value
    else if qcs.any fun q => decide (q > 0) then do
      let s ← fullPass G v master
      fullLoop G k s.1 s.2.1 s.2.2
    else .ok (v, master)

/-- track_check.py:556-601 `mds_full_track_check`; the flags of the last step are the entries of the list of
flags (0 or 1, theorem) at the positions of the reports. -/
def mdsFullTrackCheck (G : Geo) (v : List Report) : Except Err (List Report) := do
  let first ← mdsTrackCheck G v
  let s ← if first.1.length > 0 then fullLoop G 4 first.2 first.1 first.1 else .ok (first.2, first.1)
  writeFlags s.1 "POS" "bad_track" (s.2.take s.1.length)

end MarineQC
