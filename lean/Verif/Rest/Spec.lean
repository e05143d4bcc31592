import Verif.Rest.Model

/-!
# Specification of the fixed-width lines

A line is cut at fixed columns; what is in each piece is said here without the code that prints.
-/

namespace MarineQC.Spec

/-- A line cut into pieces of the given widths, with what is left at the end, if anything. -/
def cut : List Nat → List Char → List (List Char)
  | [], l => if l = [] then [] else [l]
  | w :: ws, l => l.take w :: cut ws (l.drop w)

/-- What a piece of the line is about. -/
inductive Meaning where
  /-- the first characters of a name, and blanks -/
  | name (width total : Nat) (s : List Char)
  /-- a quantity in units of `1 / scale`, with the number that stands for a missing one -/
  | number (x : Option Rat) (scale : Rat) (missing : Int)
  /-- flags, one digit each, and what comes after them -/
  | flags (l : List Int) (e : Char)

/-- Does a text show what it is about?  A number is read with Python's `int`; it is the quantity to the nearest unit. -/
def Shows : Meaning → List Char → Prop
  | .name w n s, t => t = (s.take w) ++ List.replicate (n - (s.take w).length) ' '
  | .number x scale missing, t => ∃ n : Int, parseInt t = .ok n ∧ (x = none → n = missing) ∧
      ∀ q, x = some q → |(n : Rat) - q * scale| ≤ 1 / 2
  | .flags l e, t => t.length = l.length + 1 ∧ t.getLast? = some e ∧
      ∀ (i : Nat) (f : Int), l[i]? = some f → ∃ c, t[i]? = some c ∧ parseInt [c] = .ok f

/-- A piece has room for what it is about: seven digits for a number, one for a flag. -/
def Room : Meaning → Prop
  | .name _ _ _ => True
  | .number x scale _ => ∀ q, x = some q → |q * scale| < 9999999
  | .flags l _ => ∀ f ∈ l, 0 ≤ f ∧ f ≤ 9

/-- A variable of a report as a quantity. -/
def quantity (r : Report) (v : String) (scale : Rat) : Meaning := .number (r.getvar v) scale (-32768)

/-- An anomaly as a quantity. -/
def anomalyOf (r : Report) (v : String) : Meaning := .number (r.getanom v) 100 (-32768)

/-- Flags of one kind. -/
def flagsOf (r : Report) (t : String) (l : List String) : List Int := l.map (r.getQc t)

/-- What comes first on both lines. -/
def beginning (r : Report) : List Meaning :=
  [.name 9 10 ((r.id.map String.toList).getD []), .name 8 8 ((r.uid.map String.toList).getD "None".toList),
   .number r.lat 100 (-32768), .number r.lon 100 (-32768), quantity r "YR" 1, quantity r "MO" 1, quantity r "DY" 1,
   quantity r "HR" 100, quantity r "AT" 10, anomalyOf r "AT", quantity r "SST" 10, anomalyOf r "SST"]

/-- Course times 100 plus speed; deck; platform type; and the flags of position. -/
def middle (r : Report) (last : String) : List Meaning :=
  [.number (match r.getvar "DS", r.getvar "VS" with
      | some d, some v => some (d * 100 + v)
      | _, _ => none) 1 9999,
   quantity r "DCK" 1, quantity r "PT" 1, .flags [] ' ',
   .flags (flagsOf r "POS" ["day", "land", "trk", "date", "time", "pos", "blklst", last]) ' ']

/-- The flags of air temperature. -/
def airFlags (r : Report) : Meaning :=
  .flags (flagsOf r "AT" ["bud", "clim", "nonorm"] ++ [9] ++ flagsOf r "AT" ["noval", "nbud", "bbud", "rep"]) ' '

/-- The last flags of both lines. -/
def lastFlags (r : Report) : Meaning := .flags (flagsOf r "POS" ["few", "ntrk"] ++ List.replicate 6 9) '\n'

/-- The line of `print_report`. -/
def shortLine (r : Report) : List Meaning :=
  beginning r ++ middle r "dup" ++
  [.flags (flagsOf r "SST" ["bud", "clim", "nonorm", "freez", "noval", "nbud", "bbud", "rep"]) ' ', airFlags r,
   .flags (List.replicate 8 9) ' ', lastFlags r]

/-- The columns of the line of `print_report`. -/
def shortWidths : List Nat := 10 :: List.replicate 14 8 ++ 1 :: List.replicate 5 9

/-- The line of `print_longform_report`. -/
def longLine (r : Report) : List Meaning :=
  beginning r ++ quantity r "SLP" 10 ::
  ["DPT", "SHU", "VAP", "CRH", "CWB", "DPD"].flatMap (fun v => [quantity r v 10, anomalyOf r v]) ++
  middle r "iquam_track" ++
  [.flags (flagsOf r "SST" ["bud", "clim", "nonorm", "freez", "noval", "spike", "bbud", "rep"]) ' ', airFlags r,
   .flags (flagsOf r "DPT" ["bud", "clim", "nonorm", "ssat", "noval", "round", "bbud", "rep", "repsat"]) ' ', lastFlags r]

/-- The columns of the line of `print_longform_report`. -/
def longWidths : List Nat := 10 :: List.replicate 27 8 ++ [1, 9, 9, 9, 10, 9]

end MarineQC.Spec
