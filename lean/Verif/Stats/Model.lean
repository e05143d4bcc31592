import Verif.Py
import Mathlib.Algebra.Order.Field.Rat
import Mathlib.Analysis.Real.Sqrt
import Mathlib.Data.Real.Basic
import Mathlib.MeasureTheory.Integral.IntervalIntegral.FundThmCalculus
import Mathlib.Analysis.SpecialFunctions.Exp

/-!
# Model of the resistant means and of the Bayesian gross-error probability
(`/repo/qc.py` 943-1037, 1383-1442 and `/repo/trackqc.py` 92-140)
-/

namespace MarineQC

/-- `list.sort()`: ascending. -/
def pySort (l : List Rat) : List Rat := l.mergeSort (fun a b => decide (a ≤ b))

/-- `l[i:j]` for `0 ≤ i`, `0 ≤ j`. -/
def slice (l : List Rat) (i j : Nat) : List Rat := (l.take j).drop i

/-- `np.mean`; `none` is the NaN of an empty list. -/
def npMean (l : List Rat) : Option Rat := if l = [] then none else some (l.sum / l.length)

/-- qc.py:1383-1416 `winsorised_mean` of a list of floats (on a list of Python 2 integers the last division
would truncate; not modelled).  `upper + 1 - lower` is computed as `length - lower` etc. in naturals; the
empty list divides by zero. -/
def winsorisedMean (inarr : List Rat) : Except Err Rat :=
  let length := inarr.length
  let s := pySort inarr
  if length ≥ 4 then
    let lower := length / 4
    let upper := length - 1 - lower
    match s[lower]?, s[upper]? with
    | some a, some b =>
      let total := (a + b) * lower
      let total := total + (slice s lower (upper + 1)).sum
      .ok (total / length)
    | _, _ => .error .index
  else
    let total := (slice s 0 length).sum
    if length = 0 then .error .zeroDiv else .ok (total / length)

/-- qc.py:1419-1442 `trimmed_mean` for a non-negative `trim`; also trackqc.py:92-114 `trim_mean`, which
sorts a copy. -/
def trimmedMean (inarr : List Rat) (trim : Nat) : Option Rat :=
  if trim = 0 then npMean inarr
  else
    let length := inarr.length
    let s := pySort inarr
    let index1 := length / trim
    npMean (slice s index1 (length - index1))

/-- `np.std` squared (population variance). -/
def npVar (l : List Rat) : Option Rat :=
  match npMean l with
  | none => none
  | some m => npMean (l.map (fun x => (x - m) ^ 2))

/-- trackqc.py:117-140 `trim_std`, squared. -/
def trimVar (inarr : List Rat) (trim : Nat) : Option Rat :=
  if trim = 0 then npVar inarr
  else
    let length := inarr.length
    let s := pySort inarr
    let index1 := length / trim
    npVar (slice s index1 (length - index1))

/-- The error function, `math.erf`. -/
noncomputable def erf (x : ℝ) : ℝ := 2 / Real.sqrt Real.pi * ∫ t in (0 : ℝ)..x, Real.exp (-t ^ 2)

section
open Classical

/-- qc.py:943-977 `p_data_given_good`; the error function is the parameter `erf`. -/
noncomputable def pDataGivenGood (erf : ℝ → ℝ) (x q rHi rLo mu sigma : ℝ) : Except Err ℝ := do
  pyAssert (decide (q > 0))
  pyAssert (decide (sigma > 0))
  pyAssert (decide (rHi > rLo))
  pyAssert (decide (x ≥ rLo))
  pyAssert (decide (x ≤ rHi))
  let upperX := min (x + 0.5 * q) (rHi + 0.5 * q)
  let lowerX := max (x - 0.5 * q) (rLo - 0.5 * q)
  let normalizer := 0.5 * (erf ((rHi + 0.5 * q - mu) / (sigma * Real.sqrt 2)) -
                           erf ((rLo - 0.5 * q - mu) / (sigma * Real.sqrt 2)))
  if normalizer = 0 then .error .zeroDiv
  else return 0.5 * (erf ((upperX - mu) / (sigma * Real.sqrt 2)) -
                     erf ((lowerX - mu) / (sigma * Real.sqrt 2))) / normalizer

/-- qc.py:980-999 `p_data_given_gross`. -/
noncomputable def pDataGivenGross (q rHi rLo : ℝ) : Except Err ℝ := do
  pyAssert (decide (rHi > rLo))
  pyAssert (decide (q > 0))
  let r := rHi - rLo
  if 1 + r / q = 0 then .error .zeroDiv
  else return 1 / (1 + r / q)

/-- qc.py:1002-1037 `p_gross`. -/
noncomputable def pGross (erf : ℝ → ℝ) (p0 q rHi rLo x mu sigma : ℝ) : Except Err ℝ := do
  pyAssert (decide (p0 ≥ 0))
  pyAssert (decide (p0 ≤ 1))
  pyAssert (decide (q > 0))
  pyAssert (decide (rHi > rLo))
  pyAssert (decide (x ≥ rLo))
  pyAssert (decide (x ≤ rHi))
  pyAssert (decide (sigma > 0))
  let a ← pDataGivenGross q rHi rLo
  let b ← pDataGivenGood erf x q rHi rLo mu sigma
  if p0 * a + (1 - p0) * b = 0 then .error .zeroDiv
  else
    let pgross := p0 * a / (p0 * a + (1 - p0) * b)
    pyAssert (decide (pgross ≥ 0))
    pyAssert (decide (pgross ≤ 1))
    return pgross

end

end MarineQC
