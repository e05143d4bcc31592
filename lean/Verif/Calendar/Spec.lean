/-!
# Specification of the Gregorian calendar, independent of the model
-/

namespace MarineQC.Spec

/-- The Gregorian leap-year rule. -/
def LeapYear (y : Int) : Prop := (4 ∣ y ∧ ¬ 100 ∣ y) ∨ 400 ∣ y

instance (y : Int) : Decidable (LeapYear y) := by unfold LeapYear; infer_instance

/-- Days in month `m` of year `y`. -/
def monthLength (y m : Int) : Int :=
  if m = 2 then (if LeapYear y then 29 else 28)
  else if m = 4 ∨ m = 6 ∨ m = 9 ∨ m = 11 then 30
  else 31

/-- A date exists. -/
def IsDate (y m d : Int) : Prop := 1 ≤ m ∧ m ≤ 12 ∧ 1 ≤ d ∧ d ≤ monthLength y m

instance (y m d : Int) : Decidable (IsDate y m d) := by unfold IsDate; infer_instance

/-- The calendar day after a date. -/
def nextDay : Int × Int × Int → Int × Int × Int
  | (y, m, d) =>
    if d < monthLength y m then (y, m, d + 1)
    else if m < 12 then (y, m + 1, 1)
    else (y + 1, 1, 1)

/-- `n` days after a date. -/
def daysLater : Nat → Int × Int × Int → Int × Int × Int
  | 0, t => t
  | n + 1, t => nextDay (daysLater n t)

/-- Chronological (lexicographic) order of dates. -/
def Before (a b : Int × Int × Int) : Prop :=
  a.1 < b.1 ∨ (a.1 = b.1 ∧ (a.2.1 < b.2.1 ∨ (a.2.1 = b.2.1 ∧ a.2.2 < b.2.2)))

instance (a b : Int × Int × Int) : Decidable (Before a b) := by unfold Before; infer_instance

/-- The calendar month after a month. -/
def succMonth : Int × Int → Int × Int
  | (y, m) => if m = 12 then (y + 1, 1) else (y, m + 1)

/-- `n` months after a month. -/
def monthsLater : Nat → Int × Int → Int × Int
  | 0, t => t
  | n + 1, t => succMonth (monthsLater n t)

/-- The meteorological season of a calendar month. -/
def seasonOf (m : Int) : Option String :=
  if m = 12 ∨ m = 1 ∨ m = 2 then some "DJF"
  else if m = 3 ∨ m = 4 ∨ m = 5 then some "MAM"
  else if m = 6 ∨ m = 7 ∨ m = 8 then some "JJA"
  else if m = 9 ∨ m = 10 ∨ m = 11 then some "SON"
  else none

end MarineQC.Spec
