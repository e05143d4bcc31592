import Verif.Output.Model

/-!
# Specification of the output files

A reader of comma-separated files, written without reference to the code, and what it is expected to find.
-/

namespace MarineQC.Spec

/-- A reader of comma-separated values: `q` says whether we are between quotation marks, `f` is the field and `r` the record
read so far.  Quotation marks are dropped; a comma or newline between them is part of the field. -/
def csvFrom : Bool → List Char → List (List Char) → List Char → List (List (List Char))
  | _, f, r, [] => if f = [] ∧ r = [] then [] else [r ++ [f]]
  | q, f, r, c :: s =>
    if c = '"' then csvFrom (!q) f r s
    else if q then csvFrom q (f ++ [c]) r s
    else if c = ',' then csvFrom q [] (r ++ [f]) s
    else if c = '\n' then (r ++ [f]) :: csvFrom q [] [] s
    else csvFrom q (f ++ [c]) r s

/-- The records of a comma-separated text. -/
def csv (s : List Char) : List (List (List Char)) := csvFrom false [] [] s

/-- Text that needs no quotation marks. -/
def Plain (s : List Char) : Prop := ∀ c ∈ s, c ≠ ',' ∧ c ≠ '"' ∧ c ≠ '\n'

/-- A missing value. -/
def missing : List Char := ['\\', 'N']

/-- What a reader finds in the column of a variable: the identifier, the anomaly or the value. -/
def entry (fmt : Rat → List Char) (r : Report) (v : VarName) : List Char :=
  if v.1 = "ID" then (r.id.map String.toList).getD missing
  else if v.2 ≠ [] then ((r.getanom v.1).map fmt).getD missing
  else if v.1 = "UID" then (r.uid.map String.toList).getD missing
  else if v.1 ∈ intVars then ((r.getint v.1).map intText).getD missing
  else ((r.getvar v.1).map fmt).getD missing

/-- The name of a column: the parts joined with underscores. -/
def heading (v : VarName) : List Char := ['_'].intercalate ((v.1 :: v.2).map String.toList)

/-- The pentad of a report as in `C05`, or 0. -/
def pentad (r : Report) : Int :=
  match r.getint "MO", r.getint "DY" with
  | some m, some d => (whichPentad m d).toOption.getD 0
  | _, _ => 0

/-- The date of a report as in `C82`, or zeros. -/
def date (r : Report) : List Char :=
  match r.getint "YR", r.getint "MO", r.getint "DY" with
  | some y, some m, some d => datestring y m d
  | _, _, _ => "0000-00-00".toList

/-- A report that can be written: it has a UID without special characters, and no quotation mark in its identifier. -/
structure Writable (r : Report) : Prop where
  uid : ∃ u, r.uid = some u ∧ Plain u.toList
  ident : ∀ i, r.id = some i → '"' ∉ i.toList

end MarineQC.Spec
