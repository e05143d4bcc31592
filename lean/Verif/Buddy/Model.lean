import Verif.Deck.Model
import Verif.Grid.Model
import Verif.Calendar.Model
import Verif.Stats.Model
import Mathlib.Analysis.SpecialFunctions.Trigonometric.Basic

/-!
# Model of the buddy checks (`/repo/Extended_IMMA.py` 94-136, 2551-2889 and 2991-3116)

Anomalies and fields are rational numbers, sums and means exact.  Where a square root or the error function is taken
the model uses real numbers.  The arrays over 360 x 180 x 73 cells are functions of the cell.  When a check raises,
flags already set stay set; the model does not keep them.
-/

namespace MarineQC

/-- The indices of longitude, latitude and pentad of a cell of the grid. -/
abbrev Cell := Nat × Nat × Nat

/-- `Np_Super_Ob` (Extended_IMMA.py:2551-2560): the arrays `grid` and `nobs`. -/
structure SuperOb where
  grid : Cell → Rat
  nobs : Cell → Nat

/-- Extended_IMMA.py:2556-2560 `__init__`. -/
def SuperOb.empty : SuperOb := ⟨fun _ => 0, fun _ => 0⟩

/-- Extended_IMMA.py:2566-2568, 2868-2870 and 2886-2888: the indices for a place and date.  Python 2: a missing
longitude or latitude raises TypeError in the division, a missing month or day fails the assertions of
`which_pentad`. -/
def cellIndex (lat lon : Option Rat) (month day : Option Int) : Except Err (Int × Int × Int) :=
  match lon, lat with
  | some lon, some lat =>
    match month, day with
    | some m, some d => do
      let p ← whichPentad m d
      return (mdsLonToXindex lon 1, mdsLatToYindex lat 1, p - 1)
    | _, _ => .error .assertion
  | _, _ => .error .type

/-- Extended_IMMA.py:2562-2576 `add_rep`. -/
def SuperOb.addRep (g : SuperOb) (lat lon : Option Rat) (month day : Option Int) (anom : Option Rat) :
    Except Err SuperOb := do
  let i ← cellIndex lat lon month day
  pyAssert (decide (0 ≤ i.1) && decide (i.1 < 360))
  pyAssert (decide (0 ≤ i.2.1) && decide (i.2.1 < 180))
  pyAssert (decide (0 ≤ i.2.2) && decide (i.2.2 < 73))
  let c : Cell := (i.1.toNat, i.2.1.toNat, i.2.2.toNat)
  match anom with
  | some a => return ⟨fun c' => if c' = c then g.grid c' + a else g.grid c',
      fun c' => if c' = c then g.nobs c' + 1 else g.nobs c'⟩
  | none => return g

/-- Extended_IMMA.py:2578-2583 `take_average`. -/
def SuperOb.takeAverage (g : SuperOb) : SuperOb :=
  { g with grid := fun c => if g.nobs c ≠ 0 then g.grid c / g.nobs c else g.grid c }

/-- Python 2 `range(-1 * n, n + 1)`. -/
def spanRange (n : Int) : List Int := (List.range (2 * n + 1).toNat).map fun (i : Nat) => (i : Int) - n

/-- The offsets of the loops of Extended_IMMA.py:2611-2616. -/
def spanOffsets (fx y p : Int) : List (Int × Int × Int) :=
  (spanRange fx).flatMap fun xpt => (spanRange y).flatMap fun ypt => (spanRange p).filterMap fun ppt =>
    if xpt = 0 ∧ ypt = 0 ∧ ppt = 0 then none else some (xpt, ypt, ppt)

/-- Extended_IMMA.py:2618-2620: the cell at an offset, wrapping around in all three directions. -/
def wrapCell (c : Cell) (o : Int × Int × Int) : Cell :=
  ((((c.1 : Int) + o.1) % 360).toNat, (((c.2.1 : Int) + o.2.1) % 180).toNat, (((c.2.2 : Int) + o.2.2) % 73).toNat)

/-- Extended_IMMA.py:2585-2626 `get_neighbour_anomalies`.  `span` is the number of columns for a radius and a row,
line 2603. -/
def SuperOb.neighbours (span : Int → Nat → Int) (g : SuperOb) (radius : List Int) (c : Cell) :
    Except Err (List Rat × List Nat) :=
  match radius with
  | [rx, ry, rp] =>
    let l := ((spanOffsets (span rx c.2.1) ry rp).map (wrapCell c)).filter fun c' => decide (g.nobs c' ≠ 0)
    .ok (l.map g.grid, l.map g.nobs)
  | _ => .error .assertion

/-- Extended_IMMA.py:2598-2603: `int(xspan / math.cos(latitude_approx * radcon))`. -/
noncomputable def fullXspan (xspan : Int) (yindex : Nat) : Int :=
  let radcon : ℝ := 3.1415928 / 180
  let q : ℝ := xspan / Real.cos ((89.5 - yindex) * radcon)
  if 0 ≤ q then ⌊q⌋ else ⌈q⌉

/-- The loop of Extended_IMMA.py:130-132. -/
def multiplierLoop (total : Int) : List (Int × Rat) → Rat → Rat
  | [], m => m
  | (n, v) :: l, m => multiplierLoop total l (if total > n then v else m)

/-- Extended_IMMA.py:94-136 `get_threshold_multiplier`. -/
def thresholdMultiplier (total : Int) (limits : List Int) (values : List Rat) : Except Err Rat := do
  pyAssert (decide (limits.length = values.length))
  match values.min?, limits.min? with
  | some mv, some ml => do
    pyAssert (decide (mv > 0))
    pyAssert (decide (ml = 0))
    pyAssert (decide (limits.head? = some 0))
    pyAssert ((List.range (limits.length - 1)).all fun i => decide (limits.getD (i + 1) 0 > limits.getD i 0))
    let m := multiplierLoop total (limits.zip values) (if total = 0 then 4 else -1)
    pyAssert (decide (m > 0))
    return m
  | _, _ => .error .value

/-- `np.mean` of a list that is not empty. -/
def ratMean (l : List Rat) : Rat := l.sum / l.length

/-- Extended_IMMA.py:2642-2643 and the like: a deviation that is missing or negative is replaced by 1. -/
def usableStdev (s : Option Rat) : Rat :=
  match s with
  | some s => if s < 0 then 1 else s
  | none => 1

/-- A field of deviations, `get_value_mds_style` or `get_value` of a climatology: latitude, longitude, month, day. -/
abbrev StdevField := Rat → Rat → Int → Int → Except Err (Option Rat)

/-- The parameters of the MDS buddy check. -/
structure BuddyParams where
  limits : List (List Int)
  thresholds : List (List Int)
  multipliers : List (List Rat)

/-- The loop body of Extended_IMMA.py:2647-2663; the state is `none` while `match_not_found`. -/
def levelStep (span : Int → Nat → Int) (g : SuperOb) (P : BuddyParams) (c : Cell) (stdev : Rat)
    (st : Option (Rat × Rat)) (p : List Int × Nat) : Except Err (Option (Rat × Rat)) := do
  let nb ← g.neighbours span p.1 c
  if nb.1.length > 0 ∧ st = none then do
    let t ← pyIndex P.thresholds (p.2 : Int)
    let v ← pyIndex P.multipliers (p.2 : Int)
    let k ← thresholdMultiplier (nb.2.sum : Nat) t v
    return some (ratMean nb.1, k * stdev)
  else return st

/-- Extended_IMMA.py:2640 and the like: the deviation of the field in a cell. -/
def stdevAt (field : StdevField) (c : Cell) : Except Err Rat := do
  let md ← pentadToMonthDay ((c.2.2 : Int) + 1)
  let s ← field (179 / 2 - c.2.1) (-359 / 2 + c.1) md.1 md.2
  return usableStdev s

/-- Extended_IMMA.py:2634-2667, the loop body of `get_buddy_limits_with_parameters`: mean and deviation of a cell. -/
def cellLimits (span : Int → Nat → Int) (g : SuperOb) (field : StdevField) (P : BuddyParams) (c : Cell) :
    Except Err (Rat × Rat) := do
  let stdev ← stdevAt field c
  let r ← P.limits.zipIdx.foldlM (levelStep span g P c stdev) none
  return r.getD (0, 500)

/-- All cells of the grid. -/
def allCells : List Cell :=
  (List.range 360).flatMap fun x => (List.range 180).flatMap fun y => (List.range 73).map fun p => (x, y, p)

/-- The cells of `np.nonzero(self.nobs)`, in NumPy's order. -/
def SuperOb.nonmiss (g : SuperOb) : List Cell := allCells.filter fun c => decide (g.nobs c ≠ 0)

/-- The loops over cells of Extended_IMMA.py:2632-2668 and 2788-2853: mean and deviation of the cells with
observations, 0 in the others. -/
def limitsOf {K : Type} [Zero K] (g : SuperOb) (f : Cell → Except Err (K × K)) : Except Err (Cell → K × K) := do
  let l ← g.nonmiss.mapM fun c => do
    let r ← f c
    return (c, r)
  return fun c => (dictGet l c).getD (0, 0)

/-- Extended_IMMA.py:2855-2871 `get_buddy_mean` and `get_buddy_stdev` together. -/
def limitsAt {K : Type} (f : Cell → K × K) (lat lon : Option Rat) (month day : Option Int) : Except Err (K × K) := do
  let i ← cellIndex lat lon month day
  let x ← npAxis 360 i.1
  let y ← npAxis 180 i.2.1
  let p ← npAxis 73 i.2.2
  return f (x, y, p)

/-- Extended_IMMA.py:3009-3016 and 3081-3087: the grid of the reports that pass the filter. -/
def gridReports (q : QcFilter) (v : String) (reps : List Report) : Except Err SuperOb := do
  let g ← reps.foldlM (fun g r =>
    if q.testReport r = 0 then g.addRep r.lat r.lon (r.getint "MO") (r.getint "DY") (r.getanom v) else .ok g)
    SuperOb.empty
  return g.takeAverage

/-- The loop body of Extended_IMMA.py:3022-3042. -/
def mdsBuddyFlag (q : QcFilter) (v : String) (lim : Cell → Rat × Rat) (r : Report) : Except Err Report :=
  if q.testReport r = 0 then do
    let l ← limitsAt lim r.lat r.lon (r.getint "MO") (r.getint "DY")
    match r.getanom v with
    | some x => r.setQc v "bud" (if |x - l.1| ≥ l.2 then 1 else 0)
    | none => .error .type
  else r.setQc v "bud" 0

/-- Extended_IMMA.py:2991-3046 `mds_buddy_check`. -/
def mdsBuddyCheck (span : Int → Nat → Int) (d : Deck) (v : String) (field : StdevField) (P : BuddyParams) :
    Except Err Deck := do
  pyAssert (decide (v ∈ ["SST", "AT", "DPT", "SLP"]))
  let g ← gridReports d.filter v d.reps
  let lim ← limitsOf g (cellLimits span g field P)
  let reps ← d.reps.mapM (mdsBuddyFlag d.filter v lim)
  return { d with reps := reps }

/-! ## The limits with fixed parameters -/

/-- One stage of Extended_IMMA.py:2693-2761: `none` while `match_not_found`. -/
def fixedStage (span : Int → Nat → Int) (g : SuperOb) (c : Cell) (stdev : Rat) (radius limits : List Int)
    (values : List Rat) (st : Option (Rat × Rat)) : Except Err (Option (Rat × Rat)) :=
  match st with
  | some r => .ok (some r)
  | none => do
    let nb ← g.neighbours span radius c
    if nb.1.length > 0 then do
      let k ← thresholdMultiplier (nb.2.sum : Nat) limits values
      pyAssert (decide (nb.2.sum ≠ 0))
      return some (ratMean nb.1, k * stdev)
    else return none

/-- Extended_IMMA.py:2670-2774 `get_buddy_limits`, the loop body. -/
def fixedLimits (span : Int → Nat → Int) (g : SuperOb) (field : StdevField) (c : Cell) : Except Err (Rat × Rat) := do
  let stdev ← stdevAt field c
  let r ← fixedStage span g c stdev [1, 1, 2] [0, 5, 15, 100] [4, 7 / 2, 3, 5 / 2] none
  let r ← fixedStage span g c stdev [2, 2, 2] [0] [4] r
  let r ← fixedStage span g c stdev [1, 1, 4] [0, 5, 15, 100] [4, 7 / 2, 3, 5 / 2] r
  let r ← fixedStage span g c stdev [2, 2, 4] [0] [4] r
  return r.getD (0, 500)

/-! ## Bayesian buddy check -/

/-- Extended_IMMA.py:2829-2842: the variance of the average of the neighbours. -/
def neighbourVariance (sigmaM noise s2 s3 : Rat) (nobs : List Nat) : Rat :=
  let tot := (nobs.map fun (n : Nat) => sigmaM ^ 2 / (n : Rat) + noise * (s2 ^ 2 / (n : Rat))).sum
  let ntot : Rat := nobs.length
  tot / ntot ^ 2 + s3 ^ 2 / ntot

/-- Extended_IMMA.py:2790-2851, the loop body of `get_new_buddy_limits`.  A negative variance raises ValueError in
`math.sqrt`. -/
noncomputable def newLimits (span : Int → Nat → Int) (g : SuperOb) (f1 f2 f3 : StdevField) (radius : List Int)
    (sigmaM noise : Rat) (c : Cell) : Except Err (ℝ × ℝ) := do
  let s1 ← stdevAt f1 c
  let s2 ← stdevAt f2 c
  let s3 ← stdevAt f3 c
  let nb ← g.neighbours span radius c
  if nb.1.length > 0 then
    let var := sigmaM ^ 2 + s1 ^ 2 + noise * s2 ^ 2 + neighbourVariance sigmaM noise s2 s3 nb.2
    if var < 0 then .error .value else return ((ratMean nb.1 : ℝ), Real.sqrt (var : ℝ))
  else return (0, 500)

/-- The parameters of the Bayesian buddy check. -/
structure BayesParams where
  p0 : Rat
  q : Rat
  sigmaM : Rat
  rHi : Rat
  limits : List Int
  noise : Rat

open Classical in
/-- Extended_IMMA.py:3106-3112: the flag of a probability. -/
noncomputable def bayesFlag (p : ℝ) : Int :=
  if p > 0 then if ⌊p * 10⌋ > 9 then 9 else ⌊p * 10⌋ else 0

/-- The loop body of Extended_IMMA.py:3091-3114.  Python 2: a missing anomaly is below the lower limit. -/
noncomputable def bayesBuddyFlag (erf : ℝ → ℝ) (q : QcFilter) (v : String) (P : BayesParams) (lim : Cell → ℝ × ℝ)
    (r : Report) : Except Err Report :=
  if q.testReport r = 0 then do
    let l ← limitsAt lim r.lat r.lon (r.getint "MO") (r.getint "DY")
    match r.getanom v with
    | some x => do
      let p ← pGross erf P.p0 P.q P.rHi (-1 * P.rHi) x l.1 l.2
      r.setQc v "bbud" (bayesFlag p)
    | none => .error .assertion
  else r.setQc v "bbud" 0

/-- Extended_IMMA.py:3048-3116 `bayesian_buddy_check`. -/
noncomputable def bayesianBuddyCheck (erf : ℝ → ℝ) (span : Int → Nat → Int) (d : Deck) (v : String)
    (f1 f2 f3 : StdevField) (P : BayesParams) : Except Err Deck := do
  pyAssert (decide (v ∈ ["SST", "AT"]))
  let g ← gridReports d.filter v d.reps
  let lim ← limitsOf g (newLimits span g f1 f2 f3 P.limits P.sigmaM P.noise)
  let reps ← d.reps.mapM (bayesBuddyFlag erf d.filter v P lim)
  return { d with reps := reps }

end MarineQC
