import Mathlib.Data.Rat.Floor

/-!
# The global grid, independent of the model

A grid of `n` rows counts from the north pole, a grid of `n` columns from longitude -180 eastwards.
-/

namespace MarineQC.Spec

/-- Northern edge of row `i` on a grid of `n` rows. -/
def rowNorth (n : Nat) (i : Nat) : Rat := 90 - i * (180 / n)
/-- Southern edge of row `i`. -/
def rowSouth (n : Nat) (i : Nat) : Rat := 90 - (i + 1) * (180 / n)
/-- Western edge of column `j` on a grid of `n` columns. -/
def colWest (n : Nat) (j : Nat) : Rat := -180 + j * (360 / n)
/-- Eastern edge of column `j`. -/
def colEast (n : Nat) (j : Nat) : Rat := -180 + (j + 1) * (360 / n)

/-- Two longitudes are the same meridian. -/
def SameMeridian (a b : Rat) : Prop := ∃ k : Int, a = b + 360 * k

end MarineQC.Spec
