import Verif.Grid.Model
import Verif.Report.Model

/-!
# Model of the look-up functions of `/repo/qc.py`

These read a value for a place and a day straight from an array (not from a `Climatology` object).  Python 2 orders `None`
below every number, so a missing argument fails the first assertion that bounds it from below.
-/

namespace MarineQC

/-- The assertions that bound a latitude, a longitude, a month and a day: qc.py:161-169, 187-195, 236-246.  `lo` and `hi` are
the bounds of the longitude. -/
def placeAndDay (lo hi : Rat) (lat lon : Option Rat) (month day : Option Int) : Except Err (Rat × Rat × Int × Int) :=
  match lat, lon, month, day with
  | some lat, some lon, some month, some day => do
    pyAssert (decide (lat ≥ -90))
    pyAssert (decide (lat ≤ 90))
    pyAssert (decide (lon ≥ lo))
    pyAssert (decide (lon ≤ hi))
    pyAssert (decide (month ≥ 1))
    pyAssert (decide (month ≤ 12))
    pyAssert (decide (day ≥ 1))
    match (getMonthLengths 2004)[(month - 1).toNat]? with
    | some l => pyAssert (decide (day ≤ l))
    | none => .error .index
    return (lat, lon, month, day)
  | _, _, _, _ => .error .assertion

/-- `field[t, 0, y, x]` of a four-dimensional array. -/
def Arr4.get0 (a : Arr4) (t y x : Int) : Except Err (Option Rat) := do
  let t ← npAxis a.nt t
  let z ← npAxis a.nz 0
  let y ← npAxis a.ny y
  let x ← npAxis a.nx x
  return a.val t z y x

/-- qc.py:145-180 `get_hires_sst`.  The field is a plain array: an entry −999 marks a missing value (an array without such
entries, but masked, is not modelled). -/
def getHiresSst (lat lon : Option Rat) (month day : Option Int) (field : Arr4) : Except Err (Option Rat) := do
  let (lat, lon, month, day) ← placeAndDay (-180) 360 lat lon month day
  let dindex ← dayInYear month day
  let result ← field.get0 (dindex - 1) (latToYindex lat (1 / 4)) (lonToXindex lon (1 / 4))
  return if result = some (-999) then none else result

/-- qc.py:183-211 `get_sst_daily`. -/
def getSstDaily (lat lon : Option Rat) (month day : Option Int) (sst : Arr3) : Except Err (Option Rat) := do
  let (lat, lon, month, day) ← placeAndDay (-185) 365 lat lon month day
  let dindex ← dayInYear month day
  sst.get (dindex - 1) (mdsLatToYindex lat 1) (mdsLonToXindex lon 1)

/-- qc.py:485-525 `get_sst_single_field`. -/
def getSstSingleField (lat lon : Rat) (sst : Arr3) : Except Err (Option Rat) := do
  pyAssert (decide (lat ≥ -90))
  pyAssert (decide (lat ≤ 90))
  pyAssert (decide (lon ≥ -180))
  pyAssert (decide (lon ≤ 360))
  sst.get 0 (latToYindex lat 1) (lonToXindex lon 1)

/-- qc.py:214-270 `get_sst`.  `len(sst[:, 0, 0])` needs a row and a column. -/
def getSst (lat lon : Option Rat) (month day : Option Int) (sst : Arr3) : Except Err (Option Rat) := do
  let (lat, lon, month, day) ← placeAndDay (-185) 365 lat lon month day
  if sst.ny = 0 ∨ sst.nx = 0 then .error .index
  else if sst.nt = 1 then getSstSingleField lat lon sst
  else do
    let pentad ← whichPentad month day
    sst.get (pentad - 1) (latToYindex lat 1) (lonToXindex lon 1)

/-- qc.py:464-482 `get_clim`: any exception, and the conversion of `None` to a float, give `None`. -/
def getClim (r : Report) (clim : Arr3) : Option Rat := tryValue (getSst r.lat r.lon (r.getint "MO") (r.getint "DY") clim)

/-- qc.py:273-292 `get_hires_clim`. -/
def getHiresClim (r : Report) (clim : Arr4) : Option Rat :=
  tryValue (getHiresSst r.lat r.lon (r.getint "MO") (r.getint "DY") clim)

/-- qc.py:400-461 `get_clim_interpolated`.  With a missing latitude or longitude the additions of lines 407-419 raise inside
the `try`. -/
def getClimInterpolated (r : Report) (clim : Arr3) : Except Err (Option Rat) :=
  let mo := r.getint "MO"
  let dy := r.getint "DY"
  match r.lat, r.lon with
  | some lat, some lon => do
    let e : Rat := 1 / 1000
    let at_ : Rat → Rat → Option Rat := fun la lo => tryValue (getSst (some la) (some lo) mo dy clim)
    let pert1 := at_ (lat + e) (lon + e)
    let pert2 := at_ (lat + e) (lon - e)
    let pert3 := at_ (lat - e) (lon + e)
    let pert4 := at_ (lat - e) (lon - e)
    if pert1.isNone && pert2.isNone && pert3.isNone && pert4.isNone then return none
    else do
      let (x1, x2, y1, y2) ← getFourSurroundingPoints lat lon 1
      let (q11, q12, q21, q22) := fillMissingVals (at_ y1 x1) (at_ y2 x1) (at_ y1 x2) (at_ y2 x2)
      let (x1, x2, y1, y2) ← getFourSurroundingPoints lat lon 0
      let v ← bilinearInterp x1 x2 y1 y2 lon lat q11 q12 q21 q22
      return some v
  | _, _ => .ok none

end MarineQC
