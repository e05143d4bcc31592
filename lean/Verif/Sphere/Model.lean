import Mathlib.Analysis.SpecialFunctions.Complex.Arg
import Mathlib.Analysis.SpecialFunctions.Trigonometric.Inverse
import Verif.Py

/-!
# Model of spherical_geometry.py

Floating-point numbers are real numbers and the functions of NumPy the exact functions.  `none` stands for NaN, or for
None where None is possible.  Zero has no sign.
-/

namespace MarineQC

noncomputable section

/-- spherical_geometry.py:8 `earths_radius`. -/
def earthsRadius : ℝ := 63710088 / 10000

/-- spherical_geometry.py:9 `radians_per_degree`. -/
def radiansPerDegree : ℝ := Real.pi / 180

/-- `np.arctan2(y, x)`. -/
def arctan2 (y x : ℝ) : ℝ := Complex.arg ⟨x, y⟩

/-- `math.fmod(x, y)` for `y` other than 0: the quotient is rounded towards zero. -/
def fmod (x y : ℝ) : ℝ := x - y * (if 0 ≤ x / y then (⌊x / y⌋ : ℝ) else (⌈x / y⌉ : ℝ))

/-- spherical_geometry.py:62-76, in radians. -/
def arcLength (lat1 lon1 lat2 lon2 : ℝ) : ℝ :=
  let dl := |lon1 - lon2|
  let bit1 := Real.cos lat2 * Real.sin dl
  let bit2 := Real.cos lat1 * Real.sin lat2 - Real.sin lat1 * Real.cos lat2 * Real.cos dl
  let topbit := Real.sqrt (bit1 * bit1 + bit2 * bit2)
  let bottombit := Real.sin lat1 * Real.sin lat2 + Real.cos lat1 * Real.cos lat2 * Real.cos dl
  arctan2 topbit bottombit

/-- spherical_geometry.py:38-77 `angular_distance`, for arguments that are numbers. -/
def angularDistance (lat1 lon1 lat2 lon2 : ℝ) : ℝ :=
  arcLength (lat1 * radiansPerDegree) (lon1 * radiansPerDegree) (lat2 * radiansPerDegree) (lon2 * radiansPerDegree)

/-- spherical_geometry.py:12-35 `sphere_distance`, for arguments that are numbers. -/
def sphereDistance (lat1 lon1 lat2 lon2 : ℝ) : ℝ := angularDistance lat1 lon1 lat2 lon2 * earthsRadius

/-- spherical_geometry.py:12-77 `sphere_distance` with the assertions of 55-58; `none` is None or NaN. -/
def sphereDistanceChecked (lat1 lon1 lat2 lon2 : Option ℝ) : Except Err ℝ := do
  pyAssert lat1.isSome
  pyAssert lon1.isSome
  pyAssert lat2.isSome
  pyAssert lon2.isSome
  return sphereDistance (lat1.getD 0) (lon1.getD 0) (lat2.getD 0) (lon2.getD 0)

/-- spherical_geometry.py:80-108 `lat_lon_from_course_and_distance`. -/
def latLonFromCourseAndDistance (lat1 lon1 tc d : ℝ) : ℝ × ℝ :=
  let lat1 := lat1 * radiansPerDegree
  let lon1 := lon1 * radiansPerDegree
  let tcr := tc * radiansPerDegree
  let dr := d / earthsRadius
  let lat := Real.arcsin (Real.sin lat1 * Real.cos dr + Real.cos lat1 * Real.sin dr * Real.cos tcr)
  let dlon := arctan2 (Real.sin tcr * Real.sin dr * Real.cos lat1) (Real.cos dr - Real.sin lat1 * Real.sin lat)
  let lon := fmod (lon1 + dlon + Real.pi) (2 * Real.pi) - Real.pi
  (lat / radiansPerDegree, lon / radiansPerDegree)

/-- `a / b` in NumPy where a division of zero by zero gives NaN.  Another division by zero would give an infinity; both
fail every comparison with 1 and -1 made here. -/
def npRatio (a b : ℝ) : Option ℝ := if b = 0 then none else some (a / b)

/-- spherical_geometry.py:151-154 and 159-162: the inverse cosine, or NaN outside its domain. -/
def safeArccos (r : Option ℝ) : Option ℝ :=
  match r with
  | some r => if 1 ≥ r ∧ r ≥ -1 then some (Real.arccos r) else none
  | none => none

/-- spherical_geometry.py:143-165, in radians; `none` is NaN. -/
def courseAngle (lat1 lon1 lat2 lon2 d : ℝ) : Option ℝ :=
  if Real.cos lat1 < 1 / 10000000 then
    if lat1 > 0 then some Real.pi else some (2 * Real.pi)
  else
    let r := safeArccos (npRatio (Real.sin lat2 - Real.sin lat1 * Real.cos d) (Real.sin d * Real.cos lat1))
    if Real.sin (lon2 - lon1) > 0 then r
    else r.map fun c => 2 * Real.pi - c

/-- spherical_geometry.py:111-170 `course_between_points`. -/
def courseBetweenPoints (lat1 lon1 lat2 lon2 : ℝ) : ℝ :=
  let d := angularDistance lat1 lon1 lat2 lon2
  let tc :=
    if d ≠ 0 then
      let lat1 := lat1 * radiansPerDegree
      let lon1 := lon1 * radiansPerDegree
      let lat2 := lat2 * radiansPerDegree
      let lon2 := lon2 * radiansPerDegree
      match courseAngle lat1 lon1 lat2 lon2 d with
      | some c => c
      | none => fmod (arctan2 (Real.sin (lon1 - lon2) * Real.cos lat2)
          (Real.cos lat1 * Real.sin lat2 - Real.sin lat1 * Real.cos lat2 * Real.cos (lon1 - lon2))) (2 * Real.pi)
    else 0
  tc / radiansPerDegree

/-- spherical_geometry.py:173-215 `intermediate_point`; `none` is NaN in both coordinates. -/
def intermediatePoint (lat1 lon1 lat2 lon2 f : ℝ) : Except Err (Option (ℝ × ℝ)) :=
  if f ≤ 1 then
    let d := angularDistance lat1 lon1 lat2 lon2
    if d ≠ 0 then
      let lat1 := lat1 * radiansPerDegree
      let lon1 := lon1 * radiansPerDegree
      let lat2 := lat2 * radiansPerDegree
      let lon2 := lon2 * radiansPerDegree
      if Real.sin d = 0 then .ok none
      else
        let a := Real.sin ((1 - f) * d) / Real.sin d
        let b := Real.sin (f * d) / Real.sin d
        let x := a * Real.cos lat1 * Real.cos lon1 + b * Real.cos lat2 * Real.cos lon2
        let y := a * Real.cos lat1 * Real.sin lon1 + b * Real.cos lat2 * Real.sin lon2
        let z := a * Real.sin lat1 + b * Real.sin lat2
        .ok (some (arctan2 z (Real.sqrt (x * x + y * y)) / radiansPerDegree, arctan2 y x / radiansPerDegree))
    else .ok (some (lat1, lon1))
  else .error .assertion

end

end MarineQC
