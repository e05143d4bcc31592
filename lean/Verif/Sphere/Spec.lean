import Mathlib.Geometry.Euclidean.Angle.Unoriented.TriangleInequality
import Mathlib.Analysis.InnerProductSpace.PiL2

/-!
# Specification: points and great circles on the unit sphere
-/

namespace MarineQC.Spec

noncomputable section

/-- Space. -/
abbrev Space := EuclideanSpace ℝ (Fin 3)

/-- Degrees to radians. -/
def rad (x : ℝ) : ℝ := x * Real.pi / 180

/-- The point of the unit sphere with given latitude and longitude in degrees. -/
def place (lat lon : ℝ) : Space :=
  !₂[Real.cos (rad lat) * Real.cos (rad lon), Real.cos (rad lat) * Real.sin (rad lon), Real.sin (rad lat)]

/-- The direction of north at a place. -/
def north (lat lon : ℝ) : Space :=
  !₂[-(Real.sin (rad lat) * Real.cos (rad lon)), -(Real.sin (rad lat) * Real.sin (rad lon)), Real.cos (rad lat)]

/-- The direction of east at a place. -/
def east (lon : ℝ) : Space := !₂[-Real.sin (rad lon), Real.cos (rad lon), 0]

/-- The place reached from a place by going a number of kilometres along the great circle that starts with a course,
measured clockwise from north in degrees, on a sphere of a given radius. -/
def travel (radius lat lon course distance : ℝ) : Space :=
  Real.cos (distance / radius) • place lat lon +
    Real.sin (distance / radius) • (Real.cos (rad course) • north lat lon + Real.sin (rad course) • east lon)

/-- The great-circle distance of two places: the angle between them seen from the centre times the radius. -/
def greatCircle (radius lat1 lon1 lat2 lon2 : ℝ) : ℝ :=
  radius * InnerProductGeometry.angle (place lat1 lon1) (place lat2 lon2)

end

end MarineQC.Spec
