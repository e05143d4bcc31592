import Mathlib.Algebra.Order.Field.Rat

/-!
# Specification of the exclusion list and of generic identifiers, independent of the model

The deck 732 exclusions are written region by region (the program has them year by year).
-/

namespace MarineQC.Spec

/-- A region of deck 732 reports to be excluded, with the years in which it is excluded. -/
structure Exclusion where
  west : Int
  east : Int
  south : Int
  north : Int
  years : List Int
  deriving DecidableEq

/-- The excluded regions of deck 732. -/
def deck732 : List Exclusion :=
  [ ⟨-175, -170, 40, 55, [1958, 1959, 1960, 1961, 1962, 1963, 1964, 1965, 1966, 1967, 1968, 1969, 1970, 1971]⟩,
    ⟨-165, -160, 40, 60, [1958, 1959, 1960, 1961, 1962, 1963, 1964, 1965, 1966, 1967, 1968, 1969, 1970, 1971]⟩,
    ⟨-145, -140, 40, 50, [1958, 1959, 1960, 1961, 1962, 1963, 1964, 1968, 1969, 1970, 1971]⟩,
    ⟨-140, -135, 30, 40, [1958, 1959, 1969, 1970, 1971, 1972, 1973, 1974]⟩,
    ⟨-140, -130, 50, 55, [1958, 1959, 1960, 1961, 1962, 1963, 1964, 1967, 1968, 1969, 1970, 1971]⟩,
    ⟨-70, -60, 35, 40, [1958, 1959, 1960, 1961, 1963, 1964, 1965, 1966, 1967, 1968, 1969, 1970, 1971]⟩,
    ⟨-50, -40, 45, 50, [1969, 1971, 1972, 1973, 1974]⟩,
    ⟨5, 10, 70, 80, [1969, 1970, 1971, 1972, 1973, 1974]⟩,
    ⟨0, 10, -10, 0, [1960, 1966, 1967, 1968, 1969, 1970, 1971, 1972]⟩,
    ⟨-30, -25, -25, -20, [1965, 1969, 1972, 1973, 1974]⟩,
    ⟨-60, -55, -50, -45, [1972, 1973, 1974]⟩,
    ⟨75, 80, -20, -15, [1962, 1963, 1964, 1965]⟩,
    ⟨50, 60, -30, -20, [1962, 1963, 1964, 1965, 1969, 1971, 1972, 1973]⟩,
    ⟨30, 40, -40, -30, [1958, 1959, 1960, 1961, 1962, 1963, 1964, 1965, 1966, 1967, 1968, 1969, 1970, 1971]⟩,
    ⟨20, 25, 60, 65, [1958, 1959, 1960, 1961, 1962, 1963, 1965, 1966, 1967, 1968, 1969, 1970]⟩,
    ⟨0, 10, -40, -30, [1961, 1962, 1963, 1964, 1965, 1966, 1969, 1971, 1972, 1973, 1974]⟩,
    ⟨-135, -130, 30, 40, [1972, 1973, 1974]⟩ ]

/-- A longitude expressed in the range up to 180. -/
def westLon (lon : Rat) : Rat := if 180 < lon then lon - 360 else lon

/-- The position is inside the closed box of an exclusion. -/
def Exclusion.Contains (e : Exclusion) (lat lon : Rat) : Prop :=
  (e.west : Rat) ≤ lon ∧ lon ≤ e.east ∧ (e.south : Rat) ≤ lat ∧ lat ≤ e.north

/-- Drifting buoys excluded from November 2005 to January 2006: the numbers of the identifiers, which are
five digits padded with four blanks. -/
def badBuoys : List Nat :=
  [53521, 53522, 53566, 53567, 53568, 53571, 53578, 53580, 53582, 53591, 53592, 53593, 53594, 53595, 53596,
   53599, 53600, 53601, 53602, 53603, 53604, 53605, 53606, 53607, 53608, 53609, 53901, 53902]

/-- A number padded with four blanks. -/
def padId (n : Nat) : String := toString n ++ "    "

/-- The report is on the exclusion list. -/
def Blacklisted (id : Option String) (deck year month : Option Int) (lat lon : Option Rat)
    (pt : Option Int) : Prop :=
  (∃ lo, lat = some 0 ∧ lon = some lo ∧ westLon lo = 0) ∨
  pt = some 13 ∨
  id = some "SUPERIGORINA" ∨
  (deck = some 732 ∧ ∃ y la lo, year = some y ∧ lat = some la ∧ lon = some lo ∧
    ∃ e ∈ deck732, y ∈ e.years ∧ e.Contains la (westLon lo)) ∨
  deck = some 874 ∨
  (((year = some 2005 ∧ (month = some 11 ∨ month = some 12)) ∨ (year = some 2006 ∧ month = some 1)) ∧
    ∃ n ∈ badBuoys, id = some (padId n))

/-- Blank-padding to nine characters on the right. -/
def pad9 (s : String) : String := s ++ String.ofList (List.replicate (9 - s.length) ' ')

/-- Identifiers that never name one ship, left-justified in nine characters. -/
def alwaysGenericLeft : List String :=
  ["1", "58", "RIGG", "SHIP", "ship", "PLAT", "", "0120", "0204", "0205", "0206", "0207", "0208", "0209",
   "MASKST", "MASKSTID", "MASK", "XXXX", "/////"]

/-- The same, right-justified. -/
def alwaysGenericRight : List String := ["     RIGG", "     SHIP", "     PLAT"]

/-- Identifiers generic in some years only: name and first and last year. -/
def sometimesGeneric : List (String × Int × Int) :=
  [("2", 1921, 1941), ("00002", 1921, 1941), ("3", 1930, 1937), ("7", 1934, 1954), ("00007", 1934, 1954)]

end MarineQC.Spec
