import Verif.Py

/-!
# Model of the calendar functions of `/repo/qc.py`
-/

namespace MarineQC

/-- `calendar.isleap` from the Python standard library, used by `get_month_lengths`
(qc.py:1722). -/
def isleap (y : Int) : Bool := y % 4 == 0 && (y % 100 != 0 || y % 400 == 0)

/-- qc.py:1713-1727 `get_month_lengths`. -/
def getMonthLengths (year : Int) : List Int :=
  if isleap year then [31, 29, 31, 30, 31, 30, 31, 31, 30, 31, 30, 31]
  else [31, 28, 31, 30, 31, 30, 31, 31, 30, 31, 30, 31]

/-- qc.py:14-18 `month_match`. -/
def monthMatch (y1 m1 y2 m2 : Int) : Int := if y1 = y2 ∧ m1 = m2 then 1 else 0

/-- The constructor `datetime(year, month, day)` of the standard library (qc.py:36): `none` when it
raises.  `datetime.MINYEAR = 1`, `datetime.MAXYEAR = 9999`. -/
def datetimeOk (year month day : Int) : Bool :=
  decide (1 ≤ year) && decide (year ≤ 9999) && decide (1 ≤ month) && decide (month ≤ 12) &&
  decide (1 ≤ day) &&
  (match (getMonthLengths year)[(month - 1).toNat]? with
   | some n => decide (day ≤ n)
   | none => false)

/-- qc.py:21-41 `yesterday`.  `datetime(..) + timedelta(-1)` is rendered as the previous calendar day,
raising (hence `none` through the bare `except`) when the date is invalid or the result is before
year 1.  The tuple `(None, None, None)` is `none`. -/
def yesterday (year month day : Int) : Option (Int × Int × Int) :=
  if datetimeOk year month day then
    if 1 < day then some (year, month, day - 1)
    else if 1 < month then
      match (getMonthLengths year)[(month - 2).toNat]? with
      | some n => some (year, month - 1, n)
      | none => none
    else if 1 < year then some (year - 1, 12, 31)
    else none
  else none

/-- The table of qc.py:56-60. -/
def ssnlist : List String :=
  ["DJF", "DJF", "MAM", "MAM", "MAM", "JJA", "JJA", "JJA", "SON", "SON", "SON", "DJF"]

/-- qc.py:44-61 `season`. -/
def season (month : Int) : Except Err (Option String) :=
  if month < 0 ∨ month > 12 then .ok none
  else do
    let s ← pyIndex ssnlist (month - 1)
    return some s

/-- The month table of qc.py:75-80. -/
def pentadMonths : List Int :=
  [1, 1, 1, 1, 1, 1, 1, 2, 2, 2, 2, 2,
   3, 3, 3, 3, 3, 3, 4, 4, 4, 4, 4, 4,
   5, 5, 5, 5, 5, 5, 5, 6, 6, 6, 6, 6, 6,
   7, 7, 7, 7, 7, 7, 8, 8, 8, 8, 8, 8,
   9, 9, 9, 9, 9, 9, 10, 10, 10, 10, 10, 10,
   11, 11, 11, 11, 11, 11, 12, 12, 12, 12, 12, 12]

/-- The day table of qc.py:81-84. -/
def pentadDays : List Int :=
  [1, 6, 11, 16, 21, 26, 31, 5, 10, 15, 20, 25, 2, 7, 12, 17, 22,
   27, 1, 6, 11, 16, 21, 26, 1, 6, 11, 16, 21, 26, 31, 5, 10, 15, 20,
   25, 30, 5, 10, 15, 20, 25, 30, 4, 9, 14, 19, 24, 29, 3, 8, 13, 18,
   23, 28, 3, 8, 13, 18, 23, 28, 2, 7, 12, 17, 22, 27, 2, 7, 12, 17, 22, 27]

/-- qc.py:64-85 `pentad_to_month_day`. -/
def pentadToMonthDay (p : Int) : Except Err (Int × Int) := do
  pyAssert (decide (0 < p) && decide (p < 74))
  let m ← pyIndex pentadMonths (p - 1)
  let d ← pyIndex pentadDays (p - 1)
  return (m, d)

/-- One call of qc.py:115-142 `day_in_year`; `self` is the function called recursively on line 138. -/
def dayInYearStep (self : Int → Int → Except Err Int) (month day : Int) : Except Err Int := do
  pyAssert (decide (1 ≤ month))
  pyAssert (decide (month ≤ 12))
  pyAssert (decide (1 ≤ day))
  let n ← pyIndex (getMonthLengths 2004) (month - 1)
  pyAssert (decide (day ≤ n))
  if month = 1 then return day
  else if month = 2 ∧ day = 29 then self 3 1
  else return ((getMonthLengths 2003).take (month - 1).toNat).sum + day

/-- qc.py:115-142 `day_in_year`.  The recursion of line 138 is followed one level deep, which is all
there is (`dayInYear_no_recursion`). -/
def dayInYear (month day : Int) : Except Err Int :=
  dayInYearStep (dayInYearStep fun _ _ => .error .recursion) month day

/-- qc.py:88-112 `which_pentad` (`/` on line 106 is Python 2 integer division). -/
def whichPentad (inmonth inday : Int) : Except Err Int := do
  pyAssert (decide (12 ≥ inmonth) && decide (inmonth ≥ 1))
  pyAssert (decide (31 ≥ inday) && decide (inday ≥ 1))
  let d ← dayInYear inmonth inday
  let pentad := (d - 1) / 5 + 1
  pyAssert (decide (pentad ≥ 1))
  pyAssert (decide (pentad ≤ 73))
  return pentad

/-- qc.py:1218-1243 `dayinyear`. -/
def dayinyear (year month day : Int) : Except Err Int := do
  pyAssert (decide (1 ≤ month) && decide (month ≤ 12))
  pyAssert (decide (day ≥ 1))
  let n ← pyIndex (getMonthLengths year) (month - 1)
  pyAssert (decide (day ≤ n))
  let result :=
    if month > 1 then day + ((getMonthLengths year).take (month - 1).toNat).sum else day
  pyAssert (decide (1 ≤ result) && decide (result ≤ 366))
  return result

/-- The arithmetic of qc.py:1332-1335 (`//` is floor division; `Int./` in Lean agrees with it for
positive divisors). -/
def julDayCore (year month day : Int) : Int :=
  let a := (14 - month) / 12
  let y := year + 4800 - a
  let m := month + 12 * a - 3
  day + ((153 * m + 2) / 5) + 365 * y + y / 4 - y / 100 + y / 400 - 32045

/-- qc.py:1314-1335 `jul_day`. -/
def julDay (year month day : Int) : Except Err Int := do
  pyAssert (decide (1 ≤ month) && decide (month ≤ 12))
  pyAssert (decide (1 ≤ day) && decide (day ≤ 31))
  return julDayCore year month day

/-- The ordering test of qc.py:1367-1371. -/
def timeAfter (year1 month1 day1 : Int) (hour1 : Rat) (year2 month2 day2 : Int) (hour2 : Rat) : Bool :=
  decide (year1 > year2) ||
  (decide (year1 = year2) && decide (month1 > month2)) ||
  (decide (year1 = year2) && decide (month1 = month2) && decide (day1 > day2)) ||
  (decide (year1 = year2) && decide (month1 = month2) && decide (day1 = day2) && decide (hour1 > hour2))

/-- One call of qc.py:1338-1380 `time_difference` with both hours present; `self` is the recursive call
of line 1372.  Hours are exact rationals instead of floats. -/
def timeDifferenceStep
    (self : Int → Int → Int → Rat → Int → Int → Int → Rat → Except Err Rat)
    (year1 month1 day1 : Int) (hour1 : Rat) (year2 month2 day2 : Int) (hour2 : Rat) :
    Except Err Rat := do
  pyAssert (decide (0 ≤ hour1) && decide (hour1 < 24) && (decide (0 ≤ hour2) && decide (hour2 < 24)))
  if timeAfter year1 month1 day1 hour1 year2 month2 day2 hour2 then
    let r ← self year2 month2 day2 hour2 year1 month1 day1 hour1
    return -1 * r
  else
    let j1 ← julDay year1 month1 day1
    let j2 ← julDay year2 month2 day2
    let firstDay : Rat := j1 + hour1 / 24
    let lastDay : Rat := j2 + hour2 / 24
    return 24 * (lastDay - firstDay)

/-- qc.py:1338-1380 `time_difference`.  A missing hour gives `None`; the recursion of line 1372 is
followed one level deep, which is all there is. -/
def timeDifference (year1 month1 day1 : Int) (hour1 : Option Rat)
    (year2 month2 day2 : Int) (hour2 : Option Rat) : Except Err (Option Rat) :=
  match hour1, hour2 with
  | some h1, some h2 => do
    let r ← timeDifferenceStep
      (timeDifferenceStep fun _ _ _ _ _ _ _ _ => .error .recursion)
      year1 month1 day1 h1 year2 month2 day2 h2
    return some r
  | _, _ => .ok none

/-- qc.py:1644-1659 `last_month_was`. -/
def lastMonthWas (year month : Int) : Int × Int :=
  let lastMonth := month - 1
  if lastMonth = 0 then (year - 1, 12) else (year, lastMonth)

/-- qc.py:1662-1677 `next_month_is`. -/
def nextMonthIs (year month : Int) : Int × Int :=
  let nextMonth := month + 1
  if nextMonth > 12 then (year + 1, 1) else (year, nextMonth)

/-- The `while` loop of qc.py:1703-1710, run for at most `fuel` rounds.  `none` means the loop has not
finished within `fuel` rounds; `some l` that it finished having yielded exactly `l`. -/
def yearMonthLoop (year2 month2 : Int) : Nat → Int → Int → Option (List (Int × Int))
  | 0, _, _ => none
  | fuel + 1, year, month =>
    if year = year2 ∧ month = month2 then some [(year, month)]
    else
      let month' := month + 1
      let next := if month' > 12 then (year + 1, 1) else (year, month')
      match yearMonthLoop year2 month2 fuel next.1 next.2 with
      | some l => some ((year, month) :: l)
      | none => none

/-- qc.py:1680-1710 `year_month_gen`, run for at most `fuel` rounds of its loop. -/
def yearMonthGen (fuel : Nat) (year1 month1 year2 month2 : Int) :
    Except Err (Option (List (Int × Int))) := do
  pyAssert (decide (year2 ≥ year1))
  pyAssert (decide (0 < month1) && decide (month1 ≤ 12))
  return yearMonthLoop year2 month2 fuel year1 month1

/-- marine_qc.py:133-140: the months read when quality controlling `year`, `month`. -/
def monthsRead (fuel : Nat) (year month : Int) : Except Err (Option (List (Int × Int))) :=
  let last := lastMonthWas year month
  let next := nextMonthIs year month
  yearMonthGen fuel last.1 last.2 next.1 next.2

end MarineQC
