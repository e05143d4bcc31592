import Verif.Voyage.Model
import Verif.Stats.Model
import Mathlib.Data.List.Sort

/-!
# Model of the drifting buoy checks (`/repo/trackqc.py` 143-1037 and `/repo/Extended_IMMA.py` 2283-2437)

Floats are rational numbers; NumPy's square root and the functions of spherical_geometry.py are parameters
(arbitrary functions).  The conversions `int(...)` and `float(...)` of the parameters are left out: parameters
are numbers of the right kind.  Printing is left out.  The checks are modelled by the lists of the flags they
give; `writeFlags` puts them onto the reports.
-/

namespace MarineQC

/-- A position at a time in hours after the first report. -/
structure Fix where
  lat : Rat
  lon : Rat
  hrs : Rat
deriving DecidableEq, Repr

/-- trackqc.py:211-214: 0 for the first report, otherwise the stored time difference. -/
def elapsedAt (p : Report × Nat) : Except Err (Option Rat) :=
  if p.2 = 0 then .ok (some 0) else p.1.getext "time_diff"

/-- The loop body of trackqc.py:208-214 (also 351-357, 496-502, 611-617) and the assertions of lines 215-218 on
its result: longitude, latitude and time since the report before; 0 for the first report.  A missing value is
NaN there and fails the assertions. -/
def driftAt (p : Report × Nat) : Except Err Fix := do
  let t ← elapsedAt p
  match p.1.getvar "LON", p.1.getvar "LAT", t with
  | some lon, some lat, some t => do
    pyAssert (decide (0 ≤ t))
    return ⟨lat, lon, t⟩
  | _, _, _ => .error .assertion

/-- `np.cumsum` of the times, trackqc.py:222, 365, 510 and 625. -/
def cumHours : Rat → List Fix → List Fix
  | _, [] => []
  | acc, f :: l => { f with hrs := acc + f.hrs } :: cumHours (acc + f.hrs) l

/-- trackqc.py:200-222 (also 343-365, 488-510, 603-625): the positions and times of the reports. -/
def driftFixes (v : List Report) : Except Err (List Fix) := do
  let l ← v.zipIdx.mapM driftAt
  return cumHours 0 l

/-- `np.median`. -/
def npMedian (l : List Rat) : Option Rat :=
  let s := l.insertionSort (· ≤ ·)
  if l = [] then none
  else if l.length % 2 = 1 then s[l.length / 2]?
  else match s[l.length / 2 - 1]?, s[l.length / 2]? with
    | some a, some b => some ((a + b) / 2)
    | _, _ => none

/-- The loop body of trackqc.py:233-236 and 376-379: medians over the window from `i`, time in its middle. -/
def smoothAt (w : Nat) (l : List Fix) (i : Nat) : Except Err Fix := do
  let win := (l.drop i).take w
  let h ← pyIndex l ((i + (w - 1) / 2 : Nat) : Int)
  match npMedian (win.map (·.lon)), npMedian (win.map (·.lat)) with
  | some lon, some lat => return ⟨lat, lon, h.hrs⟩
  | _, _ => .error .assertion

/-- trackqc.py:224-241 and 367-384: the smoothed track. -/
def smoothTrack (w : Nat) (l : List Fix) : Except Err (List Fix) :=
  (List.range (l.length - w + 1)).mapM (smoothAt w l)

/-- `sphere_distance(0, 0, 0.01, 0.01)`, trackqc.py:174 and 321. -/
def groundTolerance (G : Geo) : Rat := G.dist 0 0 (1 / 100) (1 / 100)

/-- The test of trackqc.py:249-258 at the smoothed position `a`: `none` when the window is too short, otherwise
whether the displacement is within the tolerance. -/
def agroundTest (G : Geo) (minH maxH : Rat) (s : List Fix) (a : Fix) : Except Err (Option Bool) := do
  let b ← pyIndex (s.filter fun f => decide (f.hrs ≤ a.hrs + maxH)) (-1)
  if b.hrs - a.hrs < minH then return none
  else return some (decide (G.dist a.lat a.lon b.lat b.lon ≤ groundTolerance G))

/-- The test of trackqc.py:393-395 at the smoothed position `a`. -/
def newAgroundTest (G : Geo) (s : List Fix) (a : Fix) : Except Err (Option Bool) := do
  let b ← pyIndex s (-1)
  return some (decide (G.dist a.lat a.lon b.lat b.lon ≤ groundTolerance G))

/-- The loop of trackqc.py:243-272 and 386-409 from position `i` on, with the given number of rounds at most
(`recursion` when they do not suffice; theorems show they do).  The state is `i_aground`, `none` when
`is_aground` is false. -/
def groundLoop (minH : Rat) (s : List Fix) (test : Fix → Except Err (Option Bool)) :
    Nat → Nat → Option Nat → Except Err (Option Nat)
  | 0, _, _ => .error .recursion
  | k + 1, i, g => do
    let e ← pyIndex s (-1)
    let a ← pyIndex s (i : Int)
    if e.hrs - a.hrs ≥ minH then do
      let t ← test a
      match t with
      | none => groundLoop minH s test k (i + 1) g
      | some true => groundLoop minH s test k (i + 1) (some (g.getD i))
      | some false => groundLoop minH s test k (i + 1) none
    else return g

/-- The flags of trackqc.py:274-287 and 411-424. -/
def groundFlags (n half : Nat) (g : Option Nat) : List Int :=
  match g with
  | none => List.replicate n 0
  | some g =>
    let g := if g > 0 then g + half else g
    (List.range n).map fun ind => if ind < g then 0 else 1

/-- trackqc.py:143-287 `aground_check`, the flags. -/
def agroundFlags (G : Geo) (smoothWin minPeriod maxPeriod : Int) (v : List Report) : Except Err (List Int) := do
  pyAssert (decide (smoothWin ≥ 1))
  pyAssert (decide (smoothWin % 2 ≠ 0))
  pyAssert (decide (minPeriod ≥ 1))
  pyAssert (decide (maxPeriod ≥ 1))
  pyAssert (decide (maxPeriod ≥ minPeriod))
  let w := smoothWin.toNat
  let minH : Rat := minPeriod * 24
  let maxH : Rat := maxPeriod * 24
  if v.length ≤ w then return List.replicate v.length 0
  else do
    let l ← driftFixes v
    let s ← smoothTrack w l
    let g ← groundLoop minH s (agroundTest G minH maxH s) s.length 0 none
    return groundFlags v.length ((w - 1) / 2) g

/-- trackqc.py:143-287 `aground_check`. -/
def agroundCheck (G : Geo) (smoothWin minPeriod maxPeriod : Int) (v : List Report) :
    Except Err (List Report) := do
  let fl ← agroundFlags G smoothWin minPeriod maxPeriod v
  writeFlags v "POS" "drf_agr" fl

/-- trackqc.py:290-424 `new_aground_check`, the flags. -/
def newAgroundFlags (G : Geo) (smoothWin minPeriod : Int) (v : List Report) : Except Err (List Int) := do
  pyAssert (decide (smoothWin ≥ 1))
  pyAssert (decide (smoothWin % 2 ≠ 0))
  pyAssert (decide (minPeriod ≥ 1))
  let w := smoothWin.toNat
  let minH : Rat := minPeriod * 24
  if v.length ≤ w then return List.replicate v.length 0
  else do
    let l ← driftFixes v
    let s ← smoothTrack w l
    let g ← groundLoop minH s (newAgroundTest G s) s.length 0 none
    return groundFlags v.length ((w - 1) / 2) g

/-- trackqc.py:290-424 `new_aground_check`. -/
def newAgroundCheck (G : Geo) (smoothWin minPeriod : Int) (v : List Report) : Except Err (List Report) := do
  let fl ← newAgroundFlags G smoothWin minPeriod v
  writeFlags v "POS" "drf_agr" fl

/-! ## Speed -/

/-- The test of trackqc.py:529-533 and 664-669.  The operands are NumPy floats: dividing by zero gives infinity,
which is above the limit, or NaN, which is not. -/
def driftTooFast (G : Geo) (limit : Rat) (a b : Fix) : Bool :=
  let displace := G.dist a.lat a.lon b.lat b.lon
  let winLen := b.hrs - a.hrs
  if winLen = 0 then decide (displace > 0)
  else decide (displace / winLen * 1000 / (60 * 60) > limit)

/-- Setting the flags of reports `i` to `j`, trackqc.py:534-536 and 670-672. -/
def flagRange (fl : List Int) (i j : Nat) : List Int :=
  (List.range' i (j + 1 - i)).foldl (fun fl ix => if fl[ix]? = some 0 then fl.set ix 1 else fl) fl

/-- The loop of trackqc.py:518-541 and 649-677 from report `i` on, with the given number of rounds at most.  `win`
gives the report at the other end of the window and its position, `none` if report `i` is passed over. -/
def speedLoop (G : Geo) (limit minH : Rat) (l : List Fix)
    (win : Nat → Fix → Except Err (Option (Fix × Nat))) : Nat → Nat → List Int → Except Err (List Int)
  | 0, _, _ => .error .recursion
  | k + 1, i, fl => do
    let e ← pyIndex l (-1)
    let a ← pyIndex l (i : Int)
    if e.hrs - a.hrs ≥ minH then do
      let b ← win i a
      match b with
      | none => speedLoop G limit minH l win k (i + 1) fl
      | some (b, j) =>
        if driftTooFast G limit a b then speedLoop G limit minH l win k (i + 1) (flagRange fl i j)
        else speedLoop G limit minH l win k (i + 1) fl
    else return fl

/-- The window of trackqc.py:522-527: to the last report at most `maxH` later. -/
def speedWindow (minH maxH : Rat) (l : List Fix) (_i : Nat) (a : Fix) : Except Err (Option (Fix × Nat)) := do
  let b ← pyIndex (l.zipIdx.filter fun p => decide (p.1.hrs ≤ a.hrs + maxH)) (-1)
  if b.1.hrs - a.hrs < minH then return none else return some b

/-- trackqc.py:427-541 `speed_check`, the flags. -/
def speedFlags (G : Geo) (limit minPeriod maxPeriod : Rat) (v : List Report) : Except Err (List Int) := do
  pyAssert (decide (limit ≥ 0))
  pyAssert (decide (minPeriod ≥ 0))
  pyAssert (decide (maxPeriod ≥ 0))
  pyAssert (decide (maxPeriod ≥ minPeriod))
  let minH := minPeriod * 24
  let maxH := maxPeriod * 24
  if v.length ≤ 1 then return List.replicate v.length 0
  else do
    let l ← driftFixes v
    speedLoop G limit minH l (speedWindow minH maxH l) (v.length + 1) 0 (List.replicate v.length 0)

/-- trackqc.py:427-541 `speed_check`.  When the loop raises, flags already set stay set; the model does not keep
them. -/
def speedCheck (G : Geo) (limit minPeriod maxPeriod : Rat) (v : List Report) : Except Err (List Report) := do
  let fl ← speedFlags G limit minPeriod maxPeriod v
  writeFlags v "POS" "drf_spd" fl

/-- The copies of trackqc.py:630-635: platform type 5 (ship), iQuam flag 0. -/
def shipCopy (r : Report) : Except Err Report :=
  match r.setvar "PT" (some 5) with
  | (r, none) => r.setQc "POS" "iquam_track" 0
  | (_, some e) => .error e

/-- trackqc.py:627-641: the iQuam flags of the record taken for a ship. -/
def shipScreen (G : Geo) (P : IquamParams) (v : List Report) : Except Err (List Int) := do
  let copies ← v.mapM shipCopy
  let w ← copies.foldlM (addReport G) []
  let w ← iquamTrackCheck G P w
  return readFlags w "POS" "iquam_track"

/-- The window of trackqc.py:653-664: to the first unscreened report at least `minH` later. -/
def newSpeedWindow (minH : Rat) (l : List Fix) (screen : List Int) (i : Nat) (a : Fix) :
    Except Err (Option (Fix × Nat)) := do
  let s ← pyIndex screen (i : Int)
  if s = 1 then return none
  else return ((l.zipIdx.filter fun p => decide (p.1.hrs ≥ a.hrs + minH) && decide (screen[p.2]? = some 0)).head?)

/-- trackqc.py:544-677 `new_speed_check`, the flags. -/
def newSpeedFlags (G : Geo) (P : IquamParams) (limit minPeriod : Rat) (v : List Report) :
    Except Err (List Int) := do
  pyAssert (decide (limit ≥ 0))
  pyAssert (decide (minPeriod ≥ 0))
  let minH := minPeriod * 24
  if v.length ≤ 1 then return List.replicate v.length 0
  else do
    let l ← driftFixes v
    let screen ← shipScreen G P v
    speedLoop G limit minH l (newSpeedWindow minH l screen) (v.length + 1) 0 (List.replicate v.length 0)

/-- trackqc.py:544-677 `new_speed_check`. -/
def newSpeedCheck (G : Geo) (P : IquamParams) (limit minPeriod : Rat) (v : List Report) :
    Except Err (List Report) := do
  let fl ← newSpeedFlags G P limit minPeriod v
  writeFlags v "POS" "drf_spd" fl

end MarineQC
