import Verif.Py
import Verif.Calendar.Model
import Mathlib.Data.Rat.Floor
import Mathlib.Tactic.Linarith
import Mathlib.Tactic.FieldSimp
import Mathlib.Tactic.Ring
import Mathlib.Tactic.NormNum

/-!
# Model of the grid functions of `/repo/qc.py` and of `/repo/Climatology.py`

Positions are exact rationals.  A resolution `res` is a positive rational (the code passes the integer 1 or
a float; Python 2 integer division `180 / res` for other integers is not modelled).
-/

namespace MarineQC

/-- Python `int(x)` of a float: truncation towards zero. -/
def pyInt (q : Rat) : Int := if 0 ≤ q then ⌊q⌋ else ⌈q⌉

/-- qc.py:1445-1449 `yindex_to_lat`. -/
def yindexToLat (yindex : Int) (res : Rat) : Except Err Rat := do
  pyAssert (decide (yindex ≥ 0))
  pyAssert (decide ((yindex : Rat) < 180 / res))
  return 90 - yindex * res - res / 2

/-- qc.py:1485-1513 `lat_to_yindex`. -/
def latToYindex (lat res : Rat) : Int :=
  if res = 1 then
    let yindex := pyInt (90 - lat)
    let yindex := if yindex ≥ 180 then 179 else yindex
    if yindex < 0 then 0 else yindex
  else
    let yindex := pyInt ((90 - lat) / res)
    let yindex := if (yindex : Rat) ≥ 180 / res then pyInt (180 / res - 1) else yindex
    if yindex < 0 then 0 else yindex

/-- qc.py:1452-1482 `mds_lat_to_yindex`. -/
def mdsLatToYindex (lat res : Rat) : Int :=
  let latLocal := if lat = -90 then lat + 1 / 1000 else lat
  let latLocal := if latLocal = 90 then latLocal - 1 / 1000 else latLocal
  if lat > 0 then pyInt (90 / res - 1 - pyInt (latLocal / res))
  else pyInt (90 / res - pyInt (latLocal / res))

/-- qc.py:1516-1520 `xindex_to_lon`. -/
def xindexToLon (xindex : Int) (res : Rat) : Except Err Rat := do
  pyAssert (decide (xindex ≥ 0))
  pyAssert (decide ((xindex : Rat) < 360 / res))
  return xindex * res - 180 + res / 2

/-- qc.py:1523-1547 `mds_lon_to_xindex`. -/
def mdsLonToXindex (lon res : Rat) : Int :=
  let lonLocal := if lon = -180 then lon + 1 / 1000 else lon
  let lonLocal := if lonLocal = 180 then lonLocal - 1 / 1000 else lonLocal
  if lonLocal > 0 then pyInt (pyInt (lonLocal / res) + 180 / res)
  else pyInt (pyInt (lonLocal / res) + 180 / res - 1)

/-- The `while` loops of qc.py:1573-1574 and 1583-1584 with modulus `m` (360 or 360/res).  For `m ≤ 0`
(`res < 0`) the Python loop could run forever; that case is cut off here. -/
def wrapIndex (m x : Rat) : Rat :=
  if 0 < m ∧ m ≤ x then wrapIndex m (x - m) else x
termination_by ⌊x / m⌋.toNat
decreasing_by
  rename_i h
  obtain ⟨hm, hx⟩ := h
  have e : (x - m) / m = x / m - 1 := by field_simp
  have h1 : 1 ≤ x / m := by rw [le_div_iff₀ hm]; linarith
  have h2 : 1 ≤ ⌊x / m⌋ := by rw [Int.le_floor]; exact_mod_cast h1
  rw [e, Int.floor_sub_one]
  omega

/-- qc.py:1550-1585 `lon_to_xindex`. -/
def lonToXindex (lon res : Rat) : Int :=
  let inlon := if lon ≥ 180 then -180 + (lon - 180) else lon
  let inlon := if inlon < -180 then inlon + 360 else inlon
  if res = 1 then pyInt (wrapIndex 360 (pyInt (inlon + 180)))
  else pyInt (wrapIndex (360 / res) (pyInt ((inlon + 180) / res)))

/-- qc.py:367-397 `get_four_surrounding_points`, returning `(x1, x2, y1, y2)`. -/
def getFourSurroundingPoints (lat lon : Rat) (max90 : Int) : Except Err (Rat × Rat × Rat × Rat) := do
  pyAssert (decide (-90 ≤ lat) && decide (lat ≤ 90))
  pyAssert (decide (-180 ≤ lon) && decide (lon ≤ 180))
  let x2 ← xindexToLon (lonToXindex (lon + 1 / 2) 1) 1
  let x2 := if x2 < lon then x2 + 360 else x2
  let x1 ← xindexToLon (lonToXindex (lon - 1 / 2) 1) 1
  let x1 := if x1 > lon then x1 - 360 else x1
  let y2 ← if lat + 1 / 2 ≤ 90 then yindexToLat (latToYindex (lat + 1 / 2) 1) 1
           else .ok (if max90 = 0 then 181 / 2 else 179 / 2)
  let y1 ← if lat - 1 / 2 ≥ -90 then yindexToLat (latToYindex (lat - 1 / 2) 1) 1
           else .ok (if max90 = 0 then -181 / 2 else -179 / 2)
  return (x1, x2, y1, y2)

/-- The arithmetic of qc.py:308-312. -/
def bilinearCore (x1 x2 y1 y2 x y q11 q12 q21 q22 : Rat) : Rat :=
  (q11 * (x2 - x) * (y2 - y) + q21 * (x - x1) * (y2 - y) + q12 * (x2 - x) * (y - y1)
    + q22 * (x - x1) * (y - y1)) / ((x2 - x1) * (y2 - y1))

/-- qc.py:295-318 `bilinear_interp`, with all its assertions. -/
def bilinearInterp (x1 x2 y1 y2 x y : Rat) (q11 q12 q21 q22 : Option Rat) : Except Err Rat := do
  pyAssert (decide (x1 ≤ x) && decide (x ≤ x2))
  pyAssert (decide (y1 ≤ y) && decide (y ≤ y2))
  pyAssert (decide (x2 > x1))
  pyAssert (decide (y2 > y1))
  match q11, q12, q21, q22 with
  | some a11, some a12, some a21, some a22 =>
    let val := bilinearCore x1 x2 y1 y2 x y a11 a12 a21 a22
    pyAssert (decide (val ≤ 1 / 10000 + max (max a11 a12) (max a21 a22)))
    pyAssert (decide (val ≥ -1 / 10000 + min (min a11 a12) (min a21 a22)))
    return val
  | _, _, _, _ => .error .assertion

/-- qc.py:321-331 `missing_mean`. -/
def missingMean (l : List (Option Rat)) : Option Rat :=
  let r := l.foldl (fun (acc : Rat × Rat) v => match v with
    | some v => (acc.1 + v, acc.2 + 1)
    | none => acc) (0, 0)
  if r.2 = 0 then none else some (r.1 / r.2)

/-- qc.py:334-364 `fill_missing_vals`. -/
def fillMissingVals (q11 q12 q21 q22 : Option Rat) :
    Option Rat × Option Rat × Option Rat × Option Rat :=
  let o11 := if q11.isNone then missingMean [q12, q21] else q11
  let o11 := if o11.isNone then q22 else o11
  let o22 := if q22.isNone then missingMean [q12, q21] else q22
  let o22 := if o22.isNone then q11 else o22
  let o12 := if q12.isNone then missingMean [q11, q22] else q12
  let o12 := if o12.isNone then q21 else o12
  let o21 := if q21.isNone then missingMean [q11, q22] else q21
  let o21 := if o21.isNone then q12 else o21
  (o11, o12, o21, o22)

/-! ## Climatology.py -/

/-- A three-dimensional (masked) numpy array; `none` is a masked entry. -/
structure Arr3 where
  nt : Nat
  ny : Nat
  nx : Nat
  val : Nat → Nat → Nat → Option Rat

/-- numpy index arithmetic along an axis of length `n`: negative indices count from the end, others out of
range raise IndexError. -/
def npAxis (n : Nat) (i : Int) : Except Err Nat :=
  let j := if i < 0 then i + n else i
  if 0 ≤ j ∧ j < n then .ok j.toNat else .error .index

/-- `field[t, y, x]`. -/
def Arr3.get (a : Arr3) (t y x : Int) : Except Err (Option Rat) := do
  let t ← npAxis a.nt t
  let y ← npAxis a.ny y
  let x ← npAxis a.nx x
  return a.val t y x

/-- Climatology.py:12-22 `__init__`: the object is the field; its resolution is `Climatology.res`. -/
def climInit (a : Arr3) : Except Err Arr3 := do
  pyAssert (decide (a.nt = 1) || decide (a.nt = 73) || decide (a.nt = 365))
  return a

/-- Climatology.py:22 `self.res`. -/
def Arr3.res (a : Arr3) : Rat := 180 / a.ny

/-- Climatology.py:80-101 `get_tindex` (the object exists, so `n` is 1, 73 or 365). -/
def Arr3.getTindex (a : Arr3) (month day : Int) : Except Err Int :=
  if a.nt = 1 then .ok 0
  else if a.nt = 73 then do
    let p ← whichPentad month day
    return p - 1
  else do
    let d ← dayInYear month day
    return d - 1

/-- The guard of Climatology.py:145-149 and 182-186.  Python 2 orders `None` below every number, so a
missing month or day takes the `return None` branch. -/
def badMonthDay (month day : Option Int) : Bool :=
  match month, day with
  | none, _ => true
  | some _, none => true
  | some m, some d =>
    if m < 1 ∨ m > 12 then true
    else match (getMonthLengths 2004)[(m - 1).toNat]? with
      | some l => decide (d < 1 ∨ d > l)
      | none => true

/-- Climatology.py:167-202 `get_value`.  The type tests of lines 194-200 only translate a masked entry to
`None`. -/
def Arr3.getValue (a : Arr3) (lat lon : Rat) (month day : Option Int) : Except Err (Option Rat) :=
  if badMonthDay month day then .ok none
  else do
    let yindex := latToYindex lat a.res
    let xindex := lonToXindex lon a.res
    let tindex ← a.getTindex (month.getD 0) (day.getD 0)
    a.get tindex yindex xindex

/-- Climatology.py:129-165 `get_value_mds_style`. -/
def Arr3.getValueMds (a : Arr3) (lat lon : Rat) (month day : Option Int) : Except Err (Option Rat) :=
  if badMonthDay month day then .ok none
  else do
    let yindex := mdsLatToYindex lat 1
    let xindex := mdsLonToXindex lon 1
    let tindex ← a.getTindex (month.getD 0) (day.getD 0)
    a.get tindex yindex xindex

/-- Climatology.py:103-127 `get_value_ostia`. -/
def Arr3.getValueOstia (a : Arr3) (lat lon : Rat) : Except Err (Option Rat) :=
  a.get 0 (mdsLatToYindex lat (1 / 20)) (mdsLonToXindex lon (1 / 20))

/-- `try: q = self.get_value(...) except: q = None` (Climatology.py:241-267). -/
def tryValue (e : Except Err (Option Rat)) : Option Rat :=
  match e with
  | .ok v => v
  | .error _ => none

/-- Climatology.py:204-275 `get_interpolated_value`. -/
def Arr3.getInterpolatedValue (a : Arr3) (lat lon : Rat) (mo dy : Option Int) :
    Except Err (Option Rat) := do
  let e : Rat := 1 / 1000
  let (pert1, pert2) ←
    if lat + e < 90 then do
      let p1 ← a.getValue (lat + e) (lon + e) mo dy
      let p2 ← a.getValue (lat + e) (lon - e) mo dy
      pure (p1, p2)
    else pure (none, none)
  let (pert3, pert4) ←
    if lat - e > -90 then do
      let p3 ← a.getValue (lat - e) (lon + e) mo dy
      let p4 ← a.getValue (lat - e) (lon - e) mo dy
      pure (p3, p4)
    else pure (none, none)
  if pert1.isNone && pert2.isNone && pert3.isNone && pert4.isNone then return none
  else do
    let (x1, x2, y1, y2) ← getFourSurroundingPoints lat lon 1
    let q11 := tryValue (a.getValue y1 x1 mo dy)
    let q22 := tryValue (a.getValue y2 x2 mo dy)
    let q12 := tryValue (a.getValue y2 x1 mo dy)
    let q21 := tryValue (a.getValue y1 x2 mo dy)
    let (q11, q12, q21, q22) := fillMissingVals q11 q12 q21 q22
    let (x1, x2, y1, y2) ← getFourSurroundingPoints lat lon 0
    let v ← bilinearInterp x1 x2 y1 y2 lon lat q11 q12 q21 q22
    return some v

/-! ### Loading a field from a file -/

/-- Transposition of the last two axes (Climatology.py:57-60). -/
def Arr3.transpose (a : Arr3) : Arr3 :=
  { nt := a.nt, ny := a.nx, nx := a.ny, val := fun t y x => a.val t x y }

/-- `np.flip(field, 1)` (Climatology.py:64-65). -/
def Arr3.flip1 (a : Arr3) : Arr3 := { a with val := fun t y x => a.val t (a.ny - 1 - y) x }

/-- `np.roll(field, k, axis=2)` (Climatology.py:70) for `k ≤ nx`: entry `x` comes from `x - k` modulo the
axis length. -/
def Arr3.roll2 (a : Arr3) (k : Nat) : Arr3 :=
  { a with val := fun t y x => a.val t y ((x + (a.nx - k)) % a.nx) }

/-- Climatology.py:25-78 `from_filename` for a three-dimensional variable: `a` is the stored array, `lat0`
and `lon0` the first stored latitude and longitude.  `lon_len / 2` is integer division. -/
def fromFile3 (a : Arr3) (lat0 lon0 : Rat) : Except Err Arr3 := do
  let f := if a.nt = 1 ∧ a.ny = 360 ∧ a.nx = 180 then a.transpose else a
  let f := if lat0 < 0 then f.flip1 else f
  let f := if lon0 > 0 ∧ lon0 < 1 then f.roll2 (f.nx / 2) else f
  climInit f

/-- A four-dimensional array (time, level, latitude, longitude). -/
structure Arr4 where
  nt : Nat
  nz : Nat
  ny : Nat
  nx : Nat
  val : Nat → Nat → Nat → Nat → Option Rat

/-- Climatology.py:57-78 for a four-dimensional variable: the axes flipped and rolled are still axes 1 and
2, which are now level and latitude.  (The transposition of line 60 needs three axes; it is excluded by the
shape test unless the level axis has length 360.) -/
def fromFile4 (a : Arr4) (lat0 lon0 : Rat) : Except Err Arr3 := do
  if a.nt = 1 ∧ a.nz = 360 ∧ a.ny = 180 then .error .value
  else
    let f := if lat0 < 0 then { a with val := fun t z y x => a.val t (a.nz - 1 - z) y x } else a
    let f := if lon0 > 0 ∧ lon0 < 1 then
        { f with val := fun t z y x => f.val t z ((y + (f.ny - f.ny / 2)) % f.ny) x } else f
    if f.nz = 0 then .error .index
    else climInit { nt := f.nt, ny := f.ny, nx := f.nx, val := fun t y x => f.val t 0 y x }

/-- Climatology.py:75-76: no file name gives an all-masked field. -/
def fromNoFile : Except Err Arr3 := climInit { nt := 1, ny := 3600, nx := 7200, val := fun _ _ _ => none }

end MarineQC
