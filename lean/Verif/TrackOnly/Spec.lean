import Verif.TrackOnly.Model
import Verif.Base.OutSpec
import Verif.Tracking.Model

/-!
# Specification of the program that only prepares the tracking of drifters

What a report and what a file have to have in common with those of the main program.
-/

namespace MarineQC.Spec

/-- The variables that only the main program computes. -/
def mainOnly : List String := ["AT2", "SHU", "VAP", "CRH", "CWB", "DPD"]

/-- The two reports have the same identity, time, data, background values, climatology of sea-surface temperature, and the
same flags of position and sea-surface temperature, those that are set and those that are not. -/
structure SameForTracking (r s : Report) : Prop where
  id : s.id = r.id
  uid : s.uid = r.uid
  dt : s.dt = r.dt
  ext : s.ext = r.ext
  data : ∀ k, k ∉ mainOnly → s.data k = r.data k
  clim : s.clim "SST" = r.clim "SST"
  pos : ∀ f, s.qc ("POS" ++ f) = r.qc ("POS" ++ f)
  sst : ∀ f, s.qc ("SST" ++ f) = r.qc ("SST" ++ f)

/-- The text of a table. -/
def tableText (rows : List (List (List Char))) : List Char := rows.flatMap fun r => [','].intercalate r ++ ['\n']

/-- The row without the entries in the columns 11, 15 and 17 (counted from 0). -/
def withoutAnomalies (r : List (List Char)) : List (List Char) := ((r.set 11 missing).set 15 missing).set 17 missing

/-- Two tables with the same header of 21 columns, of which the columns 11, 15 and 17 are the anomalies of air
temperature, dew point and pressure.  The second has the rows of the first with these entries marked as missing. -/
def LacksAnomalies (s t : List Char) : Prop :=
  ∃ head rows, s = tableText (head :: rows) ∧ t = tableText (head :: rows.map withoutAnomalies) ∧
    (∀ r ∈ head :: rows, r.length = 21) ∧ head[11]? = some "AT_anom".toList ∧ head[15]? = some "DPT_anom".toList ∧
    head[17]? = some "SLP_anom".toList

/-- The files of the whole deck that the main program leaves for a month. -/
def DeckFile (runid out : List Char) (months : List (Int × Int)) (p : List Char) : Prop :=
  ∃ m ∈ months, p = deckPath runid (monthDir out m.1 m.2) m.1 m.2 false "Variables_".toList ∨
    ∃ b ∈ deckFlags, p = deckPath runid (monthDir out m.1 m.2) m.1 m.2 false (b.1.toList ++ "_qc_".toList)

/-- The variables of a drifter for a month. -/
def DrifterVariables (runid out : List Char) (months : List (Int × Int)) (p : List Char) : Prop :=
  ∃ m ∈ months, ∃ ident, p = voyagePath runid (monthDir out m.1 m.2) m.1 m.2 "Variables_".toList ident

/-- A call of the tracking program: the identifier, the label, the months read, the month and the words given with `-edge`. -/
structure TrackJob where
  arg : List Char
  runmonthid : List Char
  chunk : List (Int × Int)
  year : Int
  month : Int
  edge : List String

/-- The tracking program is called once for each job, one after the other, whether or not it stops with an exception: what is
in the file system at the end, and the exceptions. -/
noncomputable def trackAll (fmt : Rat → List Char) (num : List Char → Option Rat) (order : List (List Char) → List (List Char))
    (G : Geo) (elev : Int → Int → Rat → Rat → Rat → Rat → ℝ) (P : DriftParams) (out trackOut runid : List Char) :
    List TrackJob → FileSys → FileSys × List (Option Err)
  | [], fs => (fs, [])
  | j :: l, fs =>
    let a := trackingMain fmt num order G elev P out trackOut runid j.arg j.runmonthid j.chunk j.year j.month j.edge fs
    let b := trackAll fmt num order G elev P out trackOut runid l a.1
    (b.1, a.2 :: b.2)

end MarineQC.Spec
