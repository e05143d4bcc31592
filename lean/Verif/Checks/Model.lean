import Verif.Py
import Verif.Calendar.Model
import Mathlib.Algebra.Order.Field.Rat
import Mathlib.Data.Rat.Floor
import Mathlib.Analysis.SpecialFunctions.Trigonometric.Basic

/-!
# Model of the single-report checks of `/repo/qc.py`

A value that may be missing is an `Option Rat`.  Flags are integers.
-/

namespace MarineQC

/-- qc.py:632-655 `climatology_plus_stdev_with_lowbar`.  Dividing by a zero deviation raises. -/
def climatologyPlusStdevWithLowbar (inval inclimav instdev : Option Rat) (limit lowbar : Rat) :
    Except Err Int := do
  pyAssert (decide (limit > 0))
  match inval, inclimav, instdev with
  | some v, some n, some s =>
    if s = 0 then .error .zeroDiv
    else if |v - n| / s > limit ∧ |v - n| > lowbar then return 1
    else return 0
  | _, _, _ => return 1

/-- qc.py:658-694 `climatology_plus_stdev_check`; `lo`, `hi` are the two members of `stdev_limits`. -/
def climatologyPlusStdevCheck (inval inclimav instdev : Option Rat) (lo hi limit : Rat) :
    Except Err Int := do
  pyAssert (decide (hi > lo))
  pyAssert (decide (limit > 0))
  match inval, inclimav, instdev with
  | some v, some n, some s =>
    let stdev := s
    let stdev := if stdev < lo then lo else stdev
    let stdev := if stdev > hi then hi else stdev
    if stdev = 0 then .error .zeroDiv
    else if |v - n| / stdev > limit then return 1
    else return 0
  | _, _, _ => return 1

/-- qc.py:697-723 `climatology_check`. -/
def climatologyCheck (inval inclimav limit : Option Rat) : Int :=
  match inval, inclimav, limit with
  | some v, some n, some l => if |v - n| > l then 1 else 0
  | _, _, _ => 1

/-- qc.py:726-738 `value_check`. -/
def valueCheck (inval : Option Rat) : Int := if inval.isNone then 1 else 0

/-- qc.py:741-753 `no_normal_check`. -/
def noNormalCheck (inclimav : Option Rat) : Int := if inclimav.isNone then 1 else 0

/-- qc.py:756-774 `hard_limit`; `lo`, `hi` are the two members of `limits`. -/
def hardLimit (val : Option Rat) (lo hi : Rat) : Except Err Int := do
  pyAssert (decide (hi > lo))
  match val with
  | none => return 1
  | some v => if lo ≤ v ∧ v ≤ hi then return 0 else return 1

/-- qc.py:777-797 `supersat_check`. -/
def supersatCheck (invaltd invalt : Option Rat) : Int :=
  match invaltd, invalt with
  | some td, some t => if td > t then 1 else 0
  | _, _ => 1

/-- qc.py:800-833 `sst_freeze_check`. -/
def sstFreezeCheck (insst sstUncertainty freezingPoint : Option Rat) (nSigma : Rat) : Except Err Int := do
  match sstUncertainty, freezingPoint with
  | some u, some f =>
    match insst with
    | some v => if v < f - nSigma * u then return 1 else return 0
    | none => return 0
  | _, _ => .error .assertion

/-- qc.py:836-857 `position_check`.  `none` stands for `None` and for NaN, which both fail the
assertions. -/
def positionCheck (inlat inlon : Option Rat) : Except Err Int := do
  match inlat, inlon with
  | some la, some lo =>
    let result : Int := 0
    let result := if la < -90 ∨ la > 90 then 1 else result
    let result := if lo < -180 ∨ lo > 360 then 1 else result
    return result
  | _, _ => .error .assertion

/-- qc.py:860-878 `time_check`. -/
def timeCheck (inhour : Option Rat) : Int :=
  let result : Int := 0
  let result := match inhour with
    | some h => if h ≥ 24 ∨ h < 0 then 1 else result
    | none => result
  if inhour.isNone then 1 else result

/-- qc.py:881-914 `date_check`.  The list index `inmonth - 1` may be negative or out of range. -/
def dateCheck (inyear inmonth inday : Option Int) : Except Err Int := do
  match inyear, inmonth with
  | some y, some m =>
    let result : Int := 0
    let result := if y > 2024 ∨ y < 1850 then 1 else result
    let result := if m < 1 ∨ m > 12 then 1 else result
    match inday with
    | none => return 1
    | some d =>
      if d < 1 then return 1
      else
        let l ← pyIndex (getMonthLengths y) (m - 1)
        if d > l then return 1 else return result
  | _, _ => .error .assertion

/-- qc.py:917-940 `wind_consistency`.  Python 2: a missing speed differs from 0 and is not above any
limit. -/
def windConsistency (windspeed : Option Rat) (winddirection : Option Rat) (variablelimit : Rat) : Int :=
  let result : Int := 0
  let result := if winddirection = some 361 ∧ windspeed ≠ some 0 then 1 else result
  let above : Bool := match windspeed with
    | some w => decide (w > variablelimit)
    | none => false
  if winddirection = some 362 ∧ above = true then 1 else result

/-- qc.py:564-580 the regions, each `[west, south, east, north]`. -/
def blacklistRegion (r : Nat) : Option (Int × Int × Int × Int) :=
  match r with
  | 1 => some (-175, 40, -170, 55)
  | 2 => some (-165, 40, -160, 60)
  | 3 => some (-145, 40, -140, 50)
  | 4 => some (-140, 30, -135, 40)
  | 5 => some (-140, 50, -130, 55)
  | 6 => some (-70, 35, -60, 40)
  | 7 => some (-50, 45, -40, 50)
  | 8 => some (5, 70, 10, 80)
  | 9 => some (0, -10, 10, 0)
  | 10 => some (-30, -25, -25, -20)
  | 11 => some (-60, -50, -55, -45)
  | 12 => some (75, -20, 80, -15)
  | 13 => some (50, -30, 60, -20)
  | 14 => some (30, -40, 40, -30)
  | 15 => some (20, 60, 25, 65)
  | 16 => some (0, -40, 10, -30)
  | 17 => some (-135, 30, -130, 40)
  | _ => none

/-- qc.py:583-599 the regions to be excluded in a year; `none` is a year not in the dictionary. -/
def yearToRegions (y : Int) : Option (List Nat) :=
  match y with
  | 1958 => some [1, 2, 3, 4, 5, 6, 14, 15]
  | 1959 => some [1, 2, 3, 4, 5, 6, 14, 15]
  | 1960 => some [1, 2, 3, 5, 6, 9, 14, 15]
  | 1961 => some [1, 2, 3, 5, 6, 14, 15, 16]
  | 1962 => some [1, 2, 3, 5, 12, 13, 14, 15, 16]
  | 1963 => some [1, 2, 3, 5, 6, 12, 13, 14, 15, 16]
  | 1964 => some [1, 2, 3, 5, 6, 12, 13, 14, 16]
  | 1965 => some [1, 2, 6, 10, 12, 13, 14, 15, 16]
  | 1966 => some [1, 2, 6, 9, 14, 15, 16]
  | 1967 => some [1, 2, 5, 6, 9, 14, 15]
  | 1968 => some [1, 2, 3, 5, 6, 9, 14, 15]
  | 1969 => some [1, 2, 3, 4, 5, 6, 7, 8, 9, 10, 13, 14, 15, 16]
  | 1970 => some [1, 2, 3, 4, 5, 6, 8, 9, 14, 15]
  | 1971 => some [1, 2, 3, 4, 5, 6, 7, 8, 9, 13, 14, 16]
  | 1972 => some [4, 7, 8, 9, 10, 11, 13, 16, 17]
  | 1973 => some [4, 7, 8, 10, 11, 13, 16, 17]
  | 1974 => some [4, 7, 8, 10, 11, 16, 17]
  | _ => none

/-- qc.py:616-622 the identifiers of the list. -/
def blacklistIds : List String :=
  ["53521    ", "53522    ", "53566    ", "53567    ",
   "53568    ", "53571    ", "53578    ", "53580    ",
   "53582    ", "53591    ", "53592    ", "53593    ",
   "53594    ", "53595    ", "53596    ", "53599    ",
   "53600    ", "53601    ", "53602    ", "53603    ",
   "53604    ", "53605    ", "53606    ", "53607    ",
   "53608    ", "53609    ", "53901    ", "53902    "]

/-- `thisreg[0] <= inlon <= thisreg[2] and thisreg[1] <= inlat <= thisreg[3]` (qc.py:606); a missing
coordinate compares below every number, so it is in no region. -/
def inRegion (reg : Int × Int × Int × Int) (lat lon : Option Rat) : Bool :=
  match lat, lon with
  | some la, some lo =>
    decide ((reg.1 : Rat) ≤ lo ∧ lo ≤ (reg.2.2.1 : Rat)) && decide ((reg.2.1 : Rat) ≤ la ∧ la ≤ (reg.2.2.2 : Rat))
  | _, _ => false

/-- The loop over regions, qc.py:604-607. -/
def regionLoop (lat lon : Option Rat) : List Nat → Int → Except Err Int
  | [], result => .ok result
  | r :: rest, result =>
    match blacklistRegion r with
    | none => .error .key
    | some reg => regionLoop lat lon rest (if inRegion reg lat lon then 1 else result)

/-- qc.py:554-555 longitudes above 180 are turned to western ones. -/
def blacklistLon (inlon : Option Rat) : Option Rat :=
  match inlon with
  | some lo => if lo > 180 then some (lo - 360) else some lo
  | none => none

/-- qc.py:601-607 the deck 732 clause. -/
def blacklistDeck732 (indeck inyear : Option Int) (inlat inlon : Option Rat) (result : Int) : Except Err Int :=
  if indeck = some 732 then
    match inyear with
    | some y => match yearToRegions y with
      | some regs => regionLoop inlat inlon regs result
      | none => .ok result
    | none => .ok result
  else .ok result

/-- qc.py:612-627 the clause for the listed identifiers. -/
def blacklistBuoys (inid : Option String) (inyear inmonth : Option Int) (result : Int) : Int :=
  if (inyear = some 2005 ∧ inmonth = some 11) ∨ (inyear = some 2005 ∧ inmonth = some 12) ∨
      (inyear = some 2006 ∧ inmonth = some 1) then
    (match inid with
      | some i => if i ∈ blacklistIds then 1 else result
      | none => result)
  else result

/-- qc.py:528-629 `blacklist`. -/
def blacklist (inid : Option String) (indeck inyear inmonth : Option Int) (inlat inlon : Option Rat)
    (inpt : Option Int) : Except Err Int := do
  let inlon := blacklistLon inlon
  let result : Int := 0
  let result := if inlat = some 0 ∧ inlon = some 0 then 1 else result
  let result := if inpt = some 13 then 1 else result
  let result := if inid = some "SUPERIGORINA" then 1 else result
  let result ← blacklistDeck732 indeck inyear inlat inlon result
  let result := if indeck = some 874 then 1 else result
  return blacklistBuoys inid inyear inmonth result

/-- qc.py:1604-1626 the identifiers generic in every year (besides `None`). -/
def genericIds : List String :=
  ["1        ", "58       ", "RIGG     ", "     RIGG", "SHIP     ", "ship     ", "     SHIP", "PLAT     ",
   "     PLAT", "         ", "0120     ", "0204     ", "0205     ", "0206     ", "0207     ", "0208     ",
   "0209     ", "MASKST   ", "MASKSTID ", "MASK     ", "XXXX     ", "/////    "]

/-- `lo <= inyear <= hi`; false for a missing year (Python 2). -/
def yearBetween (lo hi : Int) (y : Option Int) : Bool :=
  match y with
  | some y => decide (lo ≤ y ∧ y ≤ hi)
  | none => false

/-- qc.py:1588-1641 `id_is_generic`. -/
def idIsGeneric (inid : Option String) (inyear : Option Int) : Bool :=
  let ids : List (Option String) := none :: genericIds.map some
  let ids := if yearBetween 1921 1941 inyear then ids ++ [some "2        "] ++ [some "00002    "] else ids
  let ids := if yearBetween 1930 1937 inyear then ids ++ [some "3        "] else ids
  let ids := if yearBetween 1934 1954 inyear then ids ++ [some "7        "] ++ [some "00007    "] else ids
  decide (inid ∈ ids)

/-- qc.py:1096-1100 the assertions at the head of `sunangle` (`minute` is computed from the hour and `sec`
is 0 at every call modelled). -/
def sunangleGuard (day : Int) (hour minute lat : Rat) : Except Err Unit := do
  pyAssert (decide (0 < day) && decide (day ≤ 366))
  pyAssert (decide (0 ≤ hour) && decide (hour < 24))
  pyAssert (decide (0 ≤ minute) && decide (minute < 60))
  pyAssert (decide (90 ≥ lat) && decide (lat ≥ -90))

/-- qc.py:1246-1311 `day_test`.  The elevation part of `sunangle` is the parameter `elev year day hour
minute lat lon`; its assertions are `sunangleGuard`.  A missing hour fails the assertion of line 1273
(Python 2 orders `None` below 0), likewise a missing month, day or latitude; a missing year gives 0. -/
def dayTest {F : Type} [LinearOrder F] [Zero F] (elev : Int → Int → Rat → Rat → Rat → Rat → F)
    (year month day : Option Int) (hour lat : Option Rat) (lon : Rat) (timeSince : Rat) :
    Except Err Int := do
  match month, day, hour, lat with
  | some month, some day, some hour, some lat =>
    pyAssert (decide (1 ≤ month) && decide (month ≤ 12))
    pyAssert (decide (1 ≤ day) && decide (day ≤ 31))
    pyAssert (decide (0 ≤ hour) && decide (hour ≤ 24))
    pyAssert (decide (90 ≥ lat) && decide (lat ≥ -90))
    match year with
    | none => return 0
    | some year =>
      let day2 ← dayinyear year month day
      let hour2 : Rat := (⌊hour⌋ : Int)
      let minute2 : Rat := (hour - (⌊hour⌋ : Int)) * 60
      let hour2 := hour2 - timeSince
      let (year2, day2, hour2) ←
        if hour2 < 0 then
          if day2 - 1 ≤ 0 then do
            let last ← dayinyear (year - 1) 12 31
            pure (year - 1, last, hour2 + 24)
          else pure (year, day2 - 1, hour2 + 24)
        else pure (year, day2, hour2)
      let lat2 : Rat := if lat = 0 then 1 / 10000 else lat
      let lon2 : Rat := if lon = 0 then 1 / 10000 else lon
      sunangleGuard day2 hour2 minute2 lat2
      if elev year2 day2 hour2 minute2 lat2 lon2 > 0 then return 1 else return 0
  | _, _, _, _ => .error .assertion

/-- trackqc.py:31-89 `track_day_test`. -/
def trackDayTest {F : Type} [LinearOrder F] (elev : Int → Int → Rat → Rat → Rat → Rat → F)
    (year month day : Option Int) (hour lat lon : Option Rat) (elevdlim : F) : Except Err Bool := do
  match year, month, day, hour, lat, lon with
  | some year, some month, some day, some hour, some lat, some lon =>
    pyAssert (decide (1 ≤ month) && decide (month ≤ 12))
    pyAssert (decide (1 ≤ day) && decide (day ≤ 31))
    pyAssert (decide (0 ≤ hour) && decide (hour ≤ 24))
    pyAssert (decide (90 ≥ lat) && decide (lat ≥ -90))
    let day2 ← dayinyear year month day
    let hour2 : Rat := (⌊hour⌋ : Int)
    let minute2 : Rat := (hour - (⌊hour⌋ : Int)) * 60
    let lat2 : Rat := if lat = 0 then 1 / 10000 else lat
    let lon2 : Rat := if lon = 0 then 1 / 10000 else lon
    sunangleGuard day2 hour2 minute2 lat2
    return decide (elev year day2 hour2 minute2 lat2 lon2 > elevdlim)
  | _, _, _, _, _, _ => .error .assertion

/-- qc.py:1040-1056 `angle_diff` (arguments present). -/
noncomputable def angleDiff (a b : ℝ) : ℝ :=
  let diff := |a - b|
  if diff > Real.pi then 2 * Real.pi - diff else diff

end MarineQC
