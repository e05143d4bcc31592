import Mathlib.Analysis.SpecialFunctions.Log.Basic
import Mathlib.Analysis.SpecialFunctions.Pow.Real
import Verif.Py

/-!
# Model of CalcHums.py

Floating-point numbers are real numbers and the functions of NumPy the exact functions; a missing value (None) is `none`.
Temperatures are scalars above absolute zero of the formulae (-237.3 degrees), where no denominator vanishes; below that
the model divides by zero as Lean does, and the theorems exclude it.
-/

namespace MarineQC.Hums

noncomputable section

/-- `round(x * 10) / 10.` with `round` of Python 2, which rounds halves away from zero. -/
def roundTenth (x : ℝ) : ℝ := if 0 ≤ x then (⌊x * 10 + 1 / 2⌋ : ℝ) / 10 else (⌈x * 10 - 1 / 2⌉ : ℝ) / 10

/-- The rounding at the end of every routine. -/
def roundIf (roundit : Bool) (x : ℝ) : ℝ := if roundit then roundTenth x else x

/-- CalcHums.py:84-85: vapour pressure over water. -/
def overWater (td p : ℝ) : ℝ :=
  let f := 1 + 7 / 10 ^ 4 + 346 / 100 / 10 ^ 6 * p
  61121 / 10000 * f * Real.exp (((18729 / 1000 - td / (2273 / 10)) * td) / (25787 / 100 + td))

/-- CalcHums.py:95-96: vapour pressure over ice. -/
def overIce (td p : ℝ) : ℝ :=
  let f := 1 + 3 / 10 ^ 4 + 418 / 100 / 10 ^ 6 * p
  61115 / 10000 * f * Real.exp (((23036 / 1000 - td / (3337 / 10)) * td) / (27982 / 100 + td))

/-- CalcHums.py:87-89: wet-bulb temperature for a vapour pressure. -/
def wetBulb (e td t p : ℝ) : ℝ :=
  let a := 66 / 1000000 * p
  let b := 4098 / 10 * e / (td + 2373 / 10) ^ 2
  (a * t + b * td) / (a + b)

/-- CalcHums.py:82-96: vapour pressure over ice or water, depending on the wet-bulb temperature. -/
def pressureOf (td t p : ℝ) : ℝ := if wetBulb (overWater td p) td t p ≤ 0 then overIce td p else overWater td p

/-- CalcHums.py:37-101 `vap`. -/
def vap (td t p : Option ℝ) (roundit : Bool) : Option ℝ :=
  match td, t, p with
  | some td, some t, some p => some (roundIf roundit (pressureOf td t p))
  | _, _, _ => none

/-- CalcHums.py:104-143 `vap_from_sh`.  A missing value raises TypeError. -/
def vapFromSh (sh p : Option ℝ) (roundit : Bool) : Except Err ℝ :=
  match sh, p with
  | some sh, some p => .ok (roundIf roundit (sh / 1000 * p / (622 / 1000 + 378 / 1000 * (sh / 1000))))
  | _, _ => .error .type

/-- CalcHums.py:206 and 250: specific humidity of a vapour pressure. -/
def shOf (e p : ℝ) : ℝ := 1000 * (622 / 1000 * e / (p - (1 - 622 / 1000) * e))

/-- CalcHums.py:146-211 `sh`. -/
def sh (td t p : Option ℝ) (roundit : Bool) : Option ℝ :=
  match td, t, p with
  | some td, some t, some p => some (roundIf roundit (shOf (pressureOf td t p) p))
  | _, _, _ => none

/-- CalcHums.py:214-255 `sh_from_vap`.  A missing value raises TypeError. -/
def shFromVap (e p : Option ℝ) (roundit : Bool) : Except Err ℝ :=
  match e, p with
  | some e, some p => .ok (roundIf roundit (shOf e p))
  | _, _ => .error .type

/-- CalcHums.py:316-334: saturated vapour pressure. -/
def saturation (t p : ℝ) : ℝ :=
  let es := overWater t p
  let a := 66 / 1000000 * p
  let b := 4098 / 10 * es / (t + 2373 / 10) ^ 2
  let w := (a * t + b * t) / (a + b)
  if w ≤ 0 then overIce t p else es

/-- CalcHums.py:258-341 `rh`. -/
def rh (td t p : Option ℝ) (roundit : Bool) : Option ℝ :=
  match td, t, p with
  | some td, some t, some p => some (roundIf roundit (pressureOf td t p / saturation t p * 100))
  | _, _, _ => none

/-- CalcHums.py:344-414 `wb`. -/
def wb (td t p : Option ℝ) (roundit : Bool) : Option ℝ :=
  match td, t, p with
  | some td, some t, some p => some (roundIf roundit (wetBulb (pressureOf td t p) td t p))
  | _, _, _ => none

/-- CalcHums.py:417-456 `dpd`. -/
def dpd (td t : Option ℝ) (roundit : Bool) : Option ℝ :=
  match td, t with
  | some td, some t => some (roundIf roundit (t - td))
  | _, _ => none

/-- CalcHums.py:500-506 and 518-522: dew point of a vapour pressure, from the solution of a quadratic equation.  The
square root of a negative number is 0 here; the theorems exclude it. -/
def dewPoint (k l m n e p : ℝ) (g : ℝ → ℝ) : ℝ :=
  let b := m * Real.log (e / (k * g p)) - l * m
  let c := n * m * Real.log (e / (k * g p))
  (-b - Real.sqrt (b ^ 2 - 4 * 1 * c)) / (2 * 1)

/-- CalcHums.py:459-530 `td_from_vap`.  A missing value raises TypeError. -/
def tdFromVap (e p t : Option ℝ) (roundit : Bool) : Except Err ℝ :=
  match e, p, t with
  | some e, some p, some t =>
    let td := dewPoint (61121 / 10000) (18729 / 1000) (2273 / 10) (25787 / 100) e p
      fun p => 1 + 7 / 10 ^ 4 + 346 / 100 / 10 ^ 6 * p
    let td := if wetBulb e td t p ≤ 0 then
        dewPoint (61115 / 10000) (23036 / 1000) (3337 / 10) (27982 / 100) e p
          fun p => 1 + 3 / 10 ^ 4 + 418 / 100 / 10 ^ 6 * p
      else td
    .ok (roundIf roundit td)
  | _, _, _ => .error .type

end

end MarineQC.Hums
