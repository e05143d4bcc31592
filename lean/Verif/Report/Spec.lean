import Verif.Report.Model
import Verif.Calendar.Spec

/-!
# Specification of report flags, variables and timestamps, independent of the model
-/

namespace MarineQC.Spec

/-- A call `set_qc(type, flag, value)`. -/
structure FlagWrite where
  type : String
  flag : String
  value : Int

/-- The documented conditions on a flag write: the type is `POS` or the name of a report variable, the value
a digit. -/
def FlagWrite.Acceptable (w : FlagWrite) : Prop :=
  (w.type = "POS" ∨ w.type ∈ VARLIST) ∧ 0 ≤ w.value ∧ w.value ≤ 9

instance (w : FlagWrite) : Decidable w.Acceptable := by unfold FlagWrite.Acceptable; infer_instance

/-- The value of the last acceptable write to a type and flag, if there is one. -/
def lastFlagWrite (ws : List FlagWrite) (t f : String) : Option Int :=
  ((ws.filter fun w => decide (w.type = t ∧ w.flag = f ∧ w.Acceptable)).getLast?).map (·.value)

/-- Flag names that do not begin with a capital letter or a digit; all flag names used by the program are
such. -/
def PlainFlag (f : String) : Prop :=
  match f.toList with
  | [] => True
  | c :: _ => ¬ (c.isUpper = true ∨ c.isDigit = true)

instance (f : String) : Decidable (PlainFlag f) := by unfold PlainFlag; split <;> infer_instance

/-- The last value written to a variable in a list of writes, if there is one. -/
def lastWrite (ws : List (String × Option Rat)) (v : String) : Option (Option Rat) :=
  ((ws.filter fun w => decide (w.1 = v)).getLast?).map (·.2)

/-- The timestamp of a report with the given year, month, day and hour: missing unless all four are present
and form an existing date; to the minute. -/
def timestamp (yr mo dy : Option Int) (hr : Option Rat) : Option Dt :=
  match yr, mo, dy, hr with
  | some y, some m, some d, some h =>
    if IsDate y m d then some ⟨y, m, d, ⌊h⌋, ⌊(h - ⌊h⌋) * 60⌋⟩ else none
  | _, _, _, _ => none

/-- Minutes on an absolute clock, given a day number. -/
def minutes (day : Int) (d : Dt) : Int := (day * 24 + d.hour) * 60 + d.minute

/-- The flag stored under `key` is the outcome of a check: the check ran, its outcome is 0 or 1, and that is
the value stored. -/
def FlagIs (r : Report) (key : String) (check : Except Err Int) : Prop :=
  ∃ v, check = .ok v ∧ (v = 0 ∨ v = 1) ∧ r.qc key = some v

/-- The same for a flag that records a condition. -/
def FlagIff (r : Report) (key : String) (c : Prop) : Prop :=
  (c → r.qc key = some 1) ∧ (¬ c → r.qc key = some 0)

/-- The areas excluded from the air-temperature processing: west, east, south, north. -/
def matBoxes : List (Rat × Rat × Rat × Rat) :=
  [(-80, 0, 40, 55), (-10, 30, 35, 45), (15, 45, -10, 40), (15, 95, -10, 15), (95, 105, -10, 5)]

/-- Reports excluded from the air-temperature processing: platform 5 of deck 780, and deck 193 from 1880 to
1892 in one of the areas. -/
def MatBlacklisted (pt dck : Option Int) (yr : Option Rat) (lat lon : Option Rat) : Prop :=
  (pt = some 5 ∧ dck = some 780) ∨
  (dck = some 193 ∧ (∃ y, yr = some y ∧ 1880 ≤ y ∧ y ≤ 1892) ∧
    ∃ la lo, lat = some la ∧ lon = some lo ∧
      ∃ b ∈ matBoxes, b.1 ≤ lo ∧ lo ≤ b.2.1 ∧ b.2.2.1 ≤ la ∧ la ≤ b.2.2.2)

end MarineQC.Spec
