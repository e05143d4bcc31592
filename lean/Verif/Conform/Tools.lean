import Verif.Track.Model

/-!
# Tools for the tests of the model

Rational approximations of the functions of spherical_geometry.py, good to much less than the differences that the tests
turn on, and the reading of flags.
-/

namespace MarineQC.Conform

/-- The integer square root of `n`, by bisection in `[lo, lo + 2 ^ fuel)`. -/
def rootIn (n : Nat) : Nat → Nat → Nat
  | 0, lo => lo
  | fuel + 1, lo => if (lo + 2 ^ fuel) * (lo + 2 ^ fuel) ≤ n then rootIn n fuel (lo + 2 ^ fuel) else rootIn n fuel lo

/-- The cosine of an angle in degrees, to ten terms, after rounding the angle to 1e-4 degrees. -/
def cosDeg (a : Rat) : Rat :=
  let x := ((a * 10000).floor : Rat) / 10000 * (31415926536 / 1800000000000)
  let s := x * x
  1 - s / 2 * (1 - s / 12 * (1 - s / 30 * (1 - s / 56 * (1 - s / 90 * (1 - s / 132)))))

/-- Approximate distances in kilometres and points in between, for places not far from each other.  Courses and dead
reckoning are not used by the tests. -/
def testGeo : Geo where
  dist a b c d :=
    let y := a - c
    let x := (b - d) * cosDeg ((a + c) / 2)
    11119508 / 100000 * ((rootIn ((x * x + y * y) * 1000000000000).floor.toNat 32 0 : Nat) : Rat) / 1000000
  course _ _ _ _ := 0
  project lat lon _ _ := (lat, lon)
  along a b c d f := (a + f * (c - a), b + f * (d - b))

/-- The reports added to a `Voyage` one after the other. -/
def drifterOf (l : List (Except Err Report)) : Except Err (List Report) := do
  let l ← l.mapM id
  l.foldlM (addReport testGeo) []

/-- `setvar(i, v, None)`. -/
def lacking (i : Nat) (v : String) (l : List Report) : List Report :=
  l.modify i fun r => (r.setvar v none).1

/-- The flags that the tests look at. -/
def flagList (t f : String) (l : List Report) : List Int := l.map fun r => r.getQc t f

end MarineQC.Conform
