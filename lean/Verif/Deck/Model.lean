import Verif.Report.Model

/-!
# Model of the climatology library, the QC filter and the deck (`/repo/Extended_IMMA.py` 139-282, 2892-2990,
3118-3133)

Dictionaries are association lists whose keys are distinct.  Python's iteration order over a dictionary is
unspecified; the model iterates in order of first insertion and the theorems do not depend on that order.
-/

namespace MarineQC

/-- Assignment `d[k] = v` to a dictionary. -/
def dictSet {κ υ : Type} [DecidableEq κ] : List (κ × υ) → κ → υ → List (κ × υ)
  | [], k, v => [(k, v)]
  | (k', v') :: t, k, v => if k' = k then (k', v) :: t else (k', v') :: dictSet t k v

/-- Lookup `d[k]`; `none` when `k` is not in the dictionary. -/
def dictGet {κ υ : Type} [DecidableEq κ] : List (κ × υ) → κ → Option υ
  | [], _ => none
  | (k', v') :: t, k => if k' = k then some v' else dictGet t k

/-- `MultivariableClimatology` (Extended_IMMA.py:139-170): the dictionary of fields by statistic. -/
abbrev MultiClim (φ : Type) := List (String × φ)

/-- Extended_IMMA.py:149-158 `add_statistic`. -/
def MultiClim.addStatistic {φ : Type} (m : MultiClim φ) (stat : String) (f : φ) : MultiClim φ :=
  dictSet m stat f

/-- Extended_IMMA.py:160-170 `get_statistic`. -/
def MultiClim.getStatistic {φ : Type} (m : MultiClim φ) (stat : String) : Except Err φ :=
  match dictGet m stat with
  | none => .error .assertion
  | some f => .ok f

/-- `ClimatologyLibrary` (Extended_IMMA.py:173-215). -/
abbrev ClimLib (φ : Type) := List (String × MultiClim φ)

/-- Extended_IMMA.py:182-200 `add_field`. -/
def ClimLib.addField {φ : Type} (c : ClimLib φ) (var stat : String) (f : φ) : ClimLib φ :=
  match dictGet c var with
  | some m => dictSet c var (MultiClim.addStatistic m stat f)
  | none => dictSet c var (MultiClim.addStatistic [] stat f)

/-- Extended_IMMA.py:202-215 `get_field`. -/
def ClimLib.getField {φ : Type} (c : ClimLib φ) (var stat : String) : Except Err φ :=
  match dictGet c var with
  | none => .error .assertion
  | some m => MultiClim.getStatistic m stat

/-- `QC_filter` (Extended_IMMA.py:218-282): the list of type, flag and wanted value. -/
abbrev QcFilter := List (String × String × Int)

/-- Extended_IMMA.py:226-237 `add_qc_filter`. -/
def QcFilter.add (q : QcFilter) (t f : String) (v : Int) : QcFilter := q ++ [(t, f, v)]

/-- Extended_IMMA.py:239-252 `test_report`. -/
def QcFilter.testReport (q : QcFilter) (r : Report) : Int :=
  q.foldl (fun result t => if r.getQc t.1 t.2.1 ≠ t.2.2 then 1 else result) 0

/-- `Deck` (Extended_IMMA.py:2892-2911). -/
structure Deck where
  reps : List Report
  idtracker : List (Option String × List Nat)
  filter : QcFilter

/-- Extended_IMMA.py:2908-2911 `__init__`. -/
def Deck.empty : Deck := ⟨[], [], []⟩

/-- Extended_IMMA.py:2928-2931 and 2948-2951: add position `i` to the index entry of `k`. -/
def trackAdd (t : List (Option String × List Nat)) (k : Option String) (i : Nat) :
    List (Option String × List Nat) :=
  match dictGet t k with
  | some l => dictSet t k (l ++ [i])
  | none => dictSet t k [i]

/-- Extended_IMMA.py:2916-2931 `append`. -/
def Deck.append (d : Deck) (r : Report) : Deck :=
  let reps := d.reps ++ [r]
  { d with reps := reps, idtracker := trackAdd d.idtracker r.id (reps.length - 1) }

/-- Extended_IMMA.py:2941-2951 `index_by_id`. -/
def Deck.indexById (d : Deck) : Deck :=
  { d with idtracker := d.reps.zipIdx.foldl (fun t p => trackAdd t p.1.id p.2) d.idtracker }

/-- Extended_IMMA.py:2933-2939 `sort`. -/
def Deck.sort (d : Deck) : Deck :=
  { d with reps := sortReports d.reps }.indexById

/-- Extended_IMMA.py:2953-2960 `pop`: the report removed and the deck left. -/
def Deck.pop (d : Deck) (pos : Int) : Except Err (Report × Deck) := do
  let r ← pyIndex d.reps pos
  let j := if pos < 0 then pos + d.reps.length else pos
  return (r, { d with reps := d.reps.eraseIdx j.toNat })

/-- Extended_IMMA.py:2962-2979 `set_qc`. -/
def Deck.setQc (d : Deck) (t f : String) (v : Int) : Except Err Deck := do
  let reps ← d.reps.mapM fun r => r.setQc t f v
  return { d with reps := reps }

/-- Extended_IMMA.py:2981-2989 `add_filter`. -/
def Deck.addFilter (d : Deck) (q : QcFilter) : Deck := { d with filter := q }

/-- Extended_IMMA.py:3128-3131: the reports of one platform that pass the filter, each with its position in
the deck (which stands for the identity of the Python object).  Simplification: what `add_report` computes
for the voyage (speeds, distances) is not part of the result here; it changes neither flags nor IDs. -/
def Deck.platform (d : Deck) (l : List Nat) : Except Err (List (Report × Nat)) :=
  l.foldlM (fun v (i : Nat) => do
    let r ← pyIndex d.reps i
    return if d.filter.testReport r = 0 then v ++ [(r, i)] else v) []

/-- Extended_IMMA.py:3118-3133 `get_one_platform_at_a_time`: the list of all voyages yielded. -/
def Deck.platforms (d : Deck) : Except Err (List (List (Report × Nat))) :=
  d.idtracker.mapM fun e => d.platform e.2

/-- The loop of Extended_IMMA.py:271-280, `n` rounds left: passes, fails and what is left of the deck. -/
def QcFilter.splitLoop (q : QcFilter) : Nat → Deck → Deck → Deck → Except Err (Deck × Deck × Deck)
  | 0, d, p, f => .ok (p, f, d)
  | n + 1, d, p, f => do
    let (rep, d) ← d.pop 0
    if q.testReport rep = 0 then q.splitLoop n d (p.append rep) f
    else q.splitLoop n d p (f.append rep)

/-- Extended_IMMA.py:254-282 `split_reports`: passes, fails and the deck passed in, which is emptied. -/
def QcFilter.split (q : QcFilter) (d : Deck) : Except Err (Deck × Deck × Deck) :=
  q.splitLoop d.reps.length d .empty .empty

end MarineQC
