import Verif.Report.Model
import Verif.Deck.Model
import Verif.Checks.Model

/-!
# Model of `Voyage` (`/repo/Extended_IMMA.py` 1466-2281) and of `/repo/track_check.py`

A voyage is the list of its reports.  Checks that set one flag on every report are modelled by the list of
flag values, one for each report: it starts as the flags the reports have and the assignments of the code
are assignments to that list; `writeFlags` puts it back (setting flags changes nothing the checks read).

The functions of spherical_geometry.py are parameters: arbitrary functions on numbers (floats are rational
numbers).  Theorems that need a fact about them state it as a hypothesis.
-/

namespace MarineQC

/-- The functions of spherical_geometry.py used by voyages, for present arguments. -/
structure Geo where
  /-- `sphere_distance` -/
  dist : Rat → Rat → Rat → Rat → Rat
  /-- `course_between_points` -/
  course : Rat → Rat → Rat → Rat → Rat
  /-- `lat_lon_from_course_and_distance` -/
  project : Rat → Rat → Rat → Rat → Rat × Rat
  /-- `intermediate_point` -/
  along : Rat → Rat → Rat → Rat → Rat → Rat × Rat

/-- The constant `km_to_nm` of track_check.py and Extended_IMMA.py. -/
def kmToNm : Rat := 539957 / 1000000

/-- What `report_a - report_b` returns. -/
structure Diff where
  speed : Rat
  distance : Rat
  course : Rat
  tdiff : Rat
deriving DecidableEq, Repr

/-- The call of `time_difference` in Extended_IMMA.py:490-493, from `b` to `a`.  With an hour missing it is
`None`; with both hours and a year, month or day missing it raises (the model does not tell which
exception). -/
def Report.timeTo (b a : Report) : Except Err (Option Rat) :=
  match b.getvar "HR", a.getvar "HR" with
  | some hb, some ha =>
    match b.getint "YR", b.getint "MO", b.getint "DY", a.getint "YR", a.getint "MO", a.getint "DY" with
    | some yb, some mb, some db, some ya, some ma, some da =>
      timeDifference yb mb db (some hb) ya ma da (some ha)
    | _, _, _, _, _, _ => .error .type
  | _, _ => .ok none

/-- Extended_IMMA.py:480-503 `__sub__`. -/
def Report.sub (G : Geo) (a b : Report) : Except Err Diff :=
  match a.lat, a.lon, b.lat, b.lon with
  | some alat, some alon, some blat, some blon => do
    let distance := G.dist alat alon blat blon
    let t ← b.timeTo a
    let st : Rat × Rat := match t with
      | some t => if t ≠ 0 then (distance / t, t) else (distance, 0)
      | none => (distance, 0)
    return ⟨st.1, distance, G.course blat blon alat alon, st.2⟩
  | _, _, _, _ => .error .assertion

/-- Storing the four differences, Extended_IMMA.py:1575-1578 and 1594-1597. -/
def Report.setDiff (r : Report) (d : Diff) : Report :=
  (((r.setext "speed" (some d.speed)).setext "course" (some d.course)).setext "distance"
    (some d.distance)).setext "time_diff" (some d.tdiff)

/-- Extended_IMMA.py:1580-1583. -/
def Report.clearDiff (r : Report) : Report :=
  (((r.setext "speed" none).setext "course" none).setext "distance" none).setext "time_diff" none

/-- Extended_IMMA.py:1563-1583 `add_report`. -/
def addReport (G : Geo) (v : List Report) (r : Report) : Except Err (List Report) :=
  match v.getLast? with
  | some p => do
    let d ← r.sub G p
    return v ++ [r.setDiff d]
  | none => .ok [r.clearDiff]

/-- The loop of Extended_IMMA.py:1592-1597 over the reports after `p`. -/
def relink (G : Geo) : Report → List Report → Except Err (List Report)
  | _, [] => .ok []
  | p, r :: rs => do
    let d ← r.sub G p
    let rest ← relink G (r.setDiff d) rs
    return r.setDiff d :: rest

/-- Extended_IMMA.py:1585-1597 `sort` of a voyage. -/
def sortVoyage (G : Geo) (v : List Report) : Except Err (List Report) :=
  match sortReports v with
  | [] => .ok []
  | r :: rs => do
    let rest ← relink G r rs
    return r :: rest

/-- Extended_IMMA.py:1599-1611 `get_speed`. -/
def getSpeed (v : List Report) : Except Err (List (Option Rat)) := v.mapM fun r => r.getext "speed"

/-- Extended_IMMA.py:1613-1628 `meansp`.  `np.mean` of a list with a `None` in it raises. -/
def meansp (v : List Report) : Except Err (Option Rat) := do
  let spd ← getSpeed v
  if spd.length > 1 then do
    let l ← spd.tail.mapM fun s => match s with
      | some s => (.ok s : Except Err Rat)
      | none => .error .type
    return some (l.sum / l.length)
  else return none

/-- Extended_IMMA.py:1634-1638 and 1643-1646: the alternate differences of one report. -/
def Report.setAlt (r : Report) (d : Option Diff) : Report :=
  (((r.setext "alt_speed" (d.map (·.speed))).setext "alt_course" (d.map (·.course))).setext "alt_distance"
    (d.map (·.distance))).setext "alt_time_diff" (d.map (·.tdiff))

/-- Report `i` with the differences between its neighbours, Extended_IMMA.py:1633-1646. -/
def alternateAt (G : Geo) (v : List Report) (i : Nat) : Except Err Report := do
  let r ← pyIndex v i
  if 1 ≤ i ∧ i < v.length - 1 then do
    let a ← pyIndex v ((i : Int) + 1)
    let b ← pyIndex v ((i : Int) - 1)
    let d ← a.sub G b
    return r.setAlt (some d)
  else return r.setAlt none

/-- Extended_IMMA.py:1630-1646 `calc_alternate_speeds`. -/
def calcAlternate (G : Geo) (v : List Report) : Except Err (List Report) :=
  (List.range v.length).mapM (alternateAt G v)

/-- The flags of the reports of a voyage. -/
def readFlags (v : List Report) (t f : String) : List Int := v.map fun r => r.getQc t f

/-- Put a list of flags back onto the reports. -/
def writeFlags (v : List Report) (t f : String) (fl : List Int) : Except Err (List Report) :=
  (v.zip fl).mapM fun p => p.1.setQc t f p.2

/-! ## Saturated runs -/

/-- Extended_IMMA.py:1679-1688 and 1694-1701: what is done when a run of saturated reports has ended.  The
flag list is returned. -/
def closeRun (G : Geo) (minTime : Rat) (shortest : Int) (v : List Report) (sat : List Nat)
    (fl : List Int) : Except Err (List Int) :=
  if (sat.length : Int) > shortest then
    match sat.head?, sat.getLast? with
    | some a, some b => do
      let ra ← pyIndex v a
      let rb ← pyIndex v b
      let d ← rb.sub G ra
      return if d.tdiff ≥ minTime then sat.foldl (fun fl i => fl.set i 1) fl else fl
    | _, _ => .error .index
  else .ok fl

/-- One round of the loop of Extended_IMMA.py:1669-1692. -/
def satStep (G : Geo) (minTime : Rat) (shortest : Int) (v : List Report) (s : List Nat × List Int)
    (p : Report × Nat) : Except Err (List Nat × List Int) :=
  let fl := s.2.set p.2 0
  if p.1.saturated then .ok (s.1 ++ [p.2], fl)
  else do
    let fl ← closeRun G minTime shortest v s.1 fl
    return ([], fl)

/-- Extended_IMMA.py:1657-1702 `find_saturated_runs`: the flags `DPT`/`repsat`. -/
def saturatedFlags (G : Geo) (minTime : Rat) (shortest : Int) (v : List Report) :
    Except Err (List Int) := do
  let s ← v.zipIdx.foldlM (satStep G minTime shortest v) ([], readFlags v "DPT" "repsat")
  closeRun G minTime shortest v s.1 s.2

/-- Extended_IMMA.py:1657-1702 `find_saturated_runs`. -/
def findSaturatedRuns (G : Geo) (minTime : Rat) (shortest : Int) (v : List Report) :
    Except Err (List Report) := do
  let fl ← saturatedFlags G minTime shortest v
  writeFlags v "DPT" "repsat" fl

/-! ## Repeated and rounded values -/

/-- Extended_IMMA.py:1732-1738 and 1780-1786: the positions of the reports by value.  The code uses
`str(value)` as dictionary key and later `float(key)`; here the key is the number `rnd value` that the string
denotes (Python 2 prints twelve digits). -/
def valueIndex (rnd : Rat → Rat) (v : List Report) (t : String) : List (Rat × List Nat) :=
  v.zipIdx.foldl (fun d p =>
    match p.1.getvar t with
    | some x =>
      match dictGet d (rnd x) with
      | some l => dictSet d (rnd x) (l ++ [p.2])
      | none => dictSet d (rnd x) [p.2]
    | none => d) []

/-- Extended_IMMA.py:1730-1734 and 1778-1782 `allcount`. -/
def allCount (v : List Report) (t : String) : Nat :=
  v.foldl (fun n r => if (r.getvar t).isSome then n + 1 else n) 0

/-- `float.is_integer`. -/
def isInteger (x : Rat) : Bool := decide (x.den = 1)

/-- Extended_IMMA.py:1704-1750 `find_multiple_rounded_values`: the flags `round`. -/
def roundedFlags (rnd : Rat → Rat) (minCount : Int) (threshold : Rat) (t : String) (v : List Report) :
    Except Err (List Int) := do
  pyAssert (decide (t ∈ ["SST", "AT", "AT2", "DPT"]))
  pyAssert (decide (0 ≤ threshold) && decide (threshold ≤ 1))
  let fl := (readFlags v t "round").map fun _ => (0 : Int)
  let vals := valueIndex rnd v t
  let all := allCount v t
  if (all : Int) > minCount then
    let whole : Nat := vals.foldl (fun n e => if isInteger e.1 then n + e.2.length else n) 0
    if all = 0 then .error .zeroDiv
    else if (whole : Rat) / (all : Rat) ≥ threshold then
      return vals.foldl (fun fl e => if isInteger e.1 then e.2.foldl (fun fl i => fl.set i 1) fl else fl) fl
    else return fl
  else return fl

/-- Extended_IMMA.py:1704-1750 `find_multiple_rounded_values`. -/
def findMultipleRounded (rnd : Rat → Rat) (minCount : Int) (threshold : Rat) (t : String)
    (v : List Report) : Except Err (List Report) := do
  let fl ← roundedFlags rnd minCount threshold t v
  writeFlags v t "round" fl

/-- Extended_IMMA.py:1752-1797 `find_repeated_values`: the flags `rep`.  (With a value in the dictionary
`allcount` is not 0.) -/
def repeatedFlags (rnd : Rat → Rat) (minCount : Int) (threshold : Rat) (t : String) (v : List Report) :
    Except Err (List Int) := do
  pyAssert (decide (t ∈ ["SST", "AT", "AT2", "DPT", "SLP"]))
  pyAssert (decide (0 ≤ threshold) && decide (threshold ≤ 1))
  let fl := (readFlags v t "rep").map fun _ => (0 : Int)
  let vals := valueIndex rnd v t
  let all := allCount v t
  if (all : Int) > minCount then
    return vals.foldl (fun fl e =>
      if (e.2.length : Rat) / (all : Rat) > threshold then e.2.foldl (fun fl i => fl.set i 1) fl
      else e.2.foldl (fun fl i => fl.set i 0) fl) fl
  else return fl

/-- Extended_IMMA.py:1752-1797 `find_repeated_values`. -/
def findRepeated (rnd : Rat → Rat) (minCount : Int) (threshold : Rat) (t : String)
    (v : List Report) : Except Err (List Report) := do
  let fl ← repeatedFlags rnd minCount threshold t v
  writeFlags v t "rep" fl

/-! ## iQuam track check and spike check -/

/-- `np.argmax`: the first position of a largest entry. -/
def argmax (l : List Int) : Nat := l.findIdx fun x => l.all fun y => decide (y ≤ x)

/-- The state of the elimination loop: violations and their counts by report, flags. -/
structure Elim where
  viol : List (List Nat)
  count : List Int
  flags : List Int

/-- The inner loop body of Extended_IMMA.py:2076-2079 and 2272-2275. -/
def elimDrop (m : Nat) (s : Elim) (index : Nat) : Except Err Elim := do
  let l ← pyIndex s.viol index
  if m ∈ l then do
    let c ← pyIndex s.count index
    return { s with viol := s.viol.set index (l.erase m), count := s.count.set index (c - 1) }
  else return s

/-- One round of Extended_IMMA.py:2071-2082 and 2267-2278.  The list iterated over is the one at the start of
the round; the code iterates over the live list, which differs only if a report violates against itself. -/
def elimRound (s : Elim) : Except Err Elim := do
  let m := argmax s.count
  let s := { s with flags := s.flags.set m 1 }
  let l ← pyIndex s.viol m
  let s ← l.foldlM (elimDrop m) s
  return { s with count := s.count.set m 0 }

/-- The `while` loop of Extended_IMMA.py:2071-2082 and 2267-2278 with `fuel` rounds; `recursion` is returned
when they do not suffice (theorems show they always do). -/
def elimLoop : Nat → Elim → Except Err Elim
  | 0, s => if s.count.sum > 0 then .error .recursion else .ok s
  | fuel + 1, s => if s.count.sum > 0 then do
      let s ← elimRound s
      elimLoop fuel s
    else .ok s

/-- The positions `t2` from `lo` to `hi - 1` for which the test holds. -/
def violators (bad : Nat → Except Err Bool) : List Nat → Except Err (List Nat)
  | [] => .ok []
  | t :: ts => do
    let b ← bad t
    let rest ← violators bad ts
    return if b then t :: rest else rest

/-- `range(max(0, t1 - nn), min(n, t1 + nn + 1))`, Extended_IMMA.py:2053-2056 and 2245-2248. -/
def neighbours (n : Nat) (nn : Int) (t1 : Nat) : List Nat :=
  let lo : Int := max 0 (t1 - nn)
  let hi : Int := min n (t1 + nn + 1)
  List.range' lo.toNat (hi - lo).toNat

/-- Extended_IMMA.py:2043-2082 and 2235-2278, which differ only in the test `bad t1 t2`: build the table of
violations and eliminate. -/
def eliminate (n : Nat) (nn : Int) (bad : Nat → Nat → Except Err Bool) (fl : List Int) :
    Except Err (List Int) := do
  let viol ← (List.range n).mapM fun t1 => violators (bad t1) (neighbours n nn t1)
  let fl := (List.range n).foldl (fun fl t1 => fl.set t1 0) fl
  let s ← elimLoop n ⟨viol, viol.map fun l => (l.length : Int), fl⟩
  return s.flags

/-- The parameters of the iQuam track check, Extended_IMMA.py:2019-2025. -/
structure IquamParams where
  buoySpeedLimit : Rat
  shipSpeedLimit : Rat
  deltaD : Rat
  deltaT : Rat
  neighbours : Int

/-- Extended_IMMA.py:2058-2062: the speed test of two reports. -/
def iquamBad (G : Geo) (P : IquamParams) (limit : Rat) (v : List Report) (t1 t2 : Nat) :
    Except Err Bool := do
  let a ← pyIndex v t2
  let b ← pyIndex v t1
  let d ← a.sub G b
  let den := |d.tdiff| + P.deltaT
  if den = 0 then .error .zeroDiv
  else return decide (max (|d.distance| - P.deltaD) 0 / den > limit)

/-- Extended_IMMA.py:2009-2083 `iquam_track_check`: the flags `POS`/`iquam_track`. -/
def iquamFlags (G : Geo) (P : IquamParams) (v : List Report) : Except Err (List Int) :=
  match v.head? with
  | none => .ok []
  | some r =>
    let fl := readFlags v "POS" "iquam_track"
    if idIsGeneric r.id (r.getint "YR") then
      .ok ((List.range v.length).foldl (fun fl i => fl.set i 0) fl)
    else
      let limit := if r.getint "PT" = some 6 ∨ r.getint "PT" = some 7 then P.buoySpeedLimit
        else P.shipSpeedLimit
      eliminate v.length P.neighbours (iquamBad G P limit v) fl

/-- Extended_IMMA.py:2009-2083 `iquam_track_check`. -/
def iquamTrackCheck (G : Geo) (P : IquamParams) (v : List Report) : Except Err (List Report) := do
  let fl ← iquamFlags G P v
  writeFlags v "POS" "iquam_track" fl

/-- The parameters of the spike check, Extended_IMMA.py:2222-2228. -/
structure SpikeParams where
  gradSpace : Rat
  gradTime : Rat
  shipDelta : Rat
  buoyDelta : Rat
  neighbours : Int

/-- Extended_IMMA.py:2250-2262: the gradient test of two reports. -/
def spikeBad (G : Geo) (P : SpikeParams) (delta : Rat) (t : String) (v : List Report) (t1 t2 : Nat) :
    Except Err Bool := do
  let a ← pyIndex v t2
  let b ← pyIndex v t1
  match a.getvar t, b.getvar t with
  | some x, some y => do
    let d ← a.sub G b
    return decide (|x - y| > max (max delta (|d.distance| * P.gradSpace)) (|d.tdiff| * P.gradTime))
  | _, _ => return false

/-- Extended_IMMA.py:2206-2281 `spike_check`: the flags `spike`. -/
def spikeFlags (G : Geo) (P : SpikeParams) (t : String) (v : List Report) : Except Err (List Int) :=
  match v.head? with
  | none => .ok []
  | some r =>
    let delta := if r.getint "PT" = some 6 ∨ r.getint "PT" = some 7 then P.buoyDelta else P.shipDelta
    eliminate v.length P.neighbours (spikeBad G P delta t v) (readFlags v t "spike")

/-- Extended_IMMA.py:2206-2281 `spike_check`. -/
def spikeCheck (G : Geo) (P : SpikeParams) (t : String) (v : List Report) : Except Err (List Report) := do
  let fl ← spikeFlags G P t v
  writeFlags v t "spike" fl

end MarineQC
