import Verif.Base.ReadLine
import Verif.Grid.Clim
import Verif.Report.BaseQc
import Verif.Deck.Props
import Verif.Calendar.Props

/-!
# Specification of the reading of a month (C104-C106)
-/

namespace MarineQC.Spec

/-- The value of a field at the place and on the day of a report, on the grid of the field: missing when the report has
no valid month and day. -/
def ValueAt (f : Arr3) (r : Report) (x : Option Rat) : Prop :=
  ((¬ ∃ m d, r.getint "MO" = some m ∧ r.getint "DY" = some d ∧ IsDate 2004 m d) ∧ x = none) ∨
  ∃ m d la lo, r.getint "MO" = some m ∧ r.getint "DY" = some d ∧ IsDate 2004 m d ∧ r.lat = some la ∧ r.lon = some lo ∧
    f.getValue la lo (some m) (some d) = .ok x

/-- The same on the grid of one degree used for sea-surface and air temperature. -/
def ValueMds (f : Arr3) (r : Report) (x : Option Rat) : Prop :=
  ((¬ ∃ m d, r.getint "MO" = some m ∧ r.getint "DY" = some d ∧ IsDate 2004 m d) ∧ x = none) ∨
  ∃ m d la lo, r.getint "MO" = some m ∧ r.getint "DY" = some d ∧ IsDate 2004 m d ∧ r.lat = some la ∧ r.lon = some lo ∧
    f.getValueMds la lo (some m) (some d) = .ok x

/-- The normals of a report come from the fields of the library. -/
structure Normals (lib : ClimLib Arr3) (r : Report) : Prop where
  mds : ∀ v ∈ ["SST", "AT"], ∃ f x, lib.getField v "mean" = .ok f ∧ ValueMds f r x ∧ r.clim v = some ⟨x, none⟩
  mean : ∀ v ∈ ["SLP2", "SHU", "CRH", "CWB", "DPD"],
    ∃ f x, lib.getField v "mean" = .ok f ∧ ValueAt f r x ∧ r.clim v = some ⟨x, none⟩
  spread : ∀ v ∈ ["DPT", "AT2", "SLP"], ∃ f g x s, lib.getField v "mean" = .ok f ∧ lib.getField v "stdev" = .ok g ∧
    ValueAt f r x ∧ ValueAt g r s ∧ r.clim v = some ⟨x, s⟩
  others : ∀ v ∉ ["SST", "AT", "SLP2", "SHU", "CRH", "CWB", "DPD", "DPT", "AT2", "SLP"], r.clim v = none

/-- The humidity variables of a report: worked out from dew point, temperature and the normal pressure when the relative
humidity comes out between 0 and 150, otherwise all missing. -/
def HumidityOf (H : HumFns) (r : Report) : Prop :=
  (∃ td t p q, r.getvar "DPT" = some td ∧ r.getvar "AT" = some t ∧ r.getnorm "SLP" = some p ∧
    r.getvar "CRH" = some q ∧ 0 ≤ q ∧ q ≤ 150 ∧ H.rh td t p = some q ∧ r.getvar "VAP" = H.vap td t p ∧
    r.getvar "SHU" = H.sh td t p ∧ r.getvar "CWB" = H.wb td t p ∧ r.getvar "DPD" = H.dpd td t) ∨
  ∀ v ∈ ["SHU", "VAP", "CRH", "CWB", "DPD"], r.getvar v = none

/-- The report made from a record, before it is checked. -/
structure Prepared (H : HumFns) (lib : ClimLib Arr3) (rec : Imma) (r : Report) : Prop where
  id : r.id = textOf (rec.data "ID")
  uid : r.uid = textOf (rec.data "UID")
  data : ∀ v ∈ VARLIST, v ∉ ["AT2", "SHU", "VAP", "CRH", "CWB", "DPD"] → r.data v = numericOf (rec.data v)
  at2 : r.data "AT2" = numericOf (rec.data "AT")
  humidity : HumidityOf H r
  time : r.Consistent
  flags : ∀ k, r.qc k = none
  normals : Normals lib r
  course : ∃ x ∈ dsConvert, r.ext "dsi" = some x
  ext : ∀ k, k ∉ ["dsi", "vsi", "OSTIA", "ICE", "BGVAR"] → r.ext k = none

/-- The report of a record read for the month `ym`: it was prepared, checked, and has a flag that tells whether that is
the month in hand. -/
def ReadAs {F : Type} [LinearOrder F] [Zero F] (H : HumFns) (elev : Elev F) (p : BaseParams) (lib : ClimLib Arr3)
    (year month : Int) (ym : Int × Int) (rec : Imma) (r : Report) : Prop :=
  ∃ raw checked, Prepared H lib rec raw ∧ raw.performBaseQc elev p = .ok checked ∧
    r = { checked with qc := fun k =>
      if k = "POSmonth_match" then some (if ym = (year, month) then 1 else 0) else checked.qc k }

/-- The record of a line that is used for the month. -/
def recordIn (excl : List (List Char)) (ym : Int × Int) (line : List Char) : Option Imma :=
  match Imma.empty.readstr line with
  | .ok rec =>
    if rec.data "YR" = some (some (.num ym.1)) ∧ rec.data "MO" = some (some (.num ym.2)) ∧
      ∀ t ∈ excl, rec.data "ID" ≠ some (some (.str t)) then some rec else none
  | .error _ => none

/-- The records used for a month, in the order of the lines of its file. -/
def recordsIn (excl : List (List Char)) (ym : Int × Int) (lines : List (List Char)) : List Imma :=
  lines.filterMap (recordIn excl ym)

/-- The lines of the file found for a month; none when it cannot be opened. -/
def linesOfFile {F : Type} [LinearOrder F] [Zero F] (E : ReadEnv F) (ym : Int × Int) : List (List Char) :=
  match icoadsFilenameFromStub E.fs E.dirs E.files (some ym.1) (some ym.2) with
  | .ok (some p) => (E.lines p).getD []
  | _ => []

/-- The records used for these months, in order, each with its month. -/
def recordsFor {F : Type} [LinearOrder F] [Zero F] (E : ReadEnv F) (months : List (Int × Int)) :
    List ((Int × Int) × Imma) :=
  months.flatMap fun ym => (recordsIn E.excl ym (linesOfFile E ym)).map fun rec => (ym, rec)

/-- The day of the month in a record. -/
def dayOf (rec : Imma) : Option Int := (numericOf (rec.data "DY")).map pyInt

/-- The background values of a report come from these fields: sea-surface temperature in degrees Celsius, ice, and
variance. -/
def BackgroundFrom (b : Arr3 × Arr3) (bg : Arr3) (r : Report) : Prop :=
  ∃ la lo x i v, r.lat = some la ∧ r.lon = some lo ∧ b.1.getValueOstia la lo = .ok x ∧
    b.2.getValueOstia la lo = .ok i ∧ ValueMds bg r v ∧
    r.ext "OSTIA" = some (x.map fun q => q - 27315 / 100) ∧ r.ext "ICE" = some i ∧ r.ext "BGVAR" = some v

/-- A report has no background values. -/
def NoBackground (r : Report) : Prop := ∀ k ∈ ["OSTIA", "ICE", "BGVAR"], r.ext k = none

/-- The fields of sea-surface temperature and ice of the day before: those the program finds for that day, or fields
without any value when there is no such day. -/
def FieldsBefore {F : Type} [LinearOrder F] [Zero F] (E : ReadEnv F) (y m d : Int) (b : Arr3 × Arr3) : Prop :=
  ((1 ≤ y ∧ y ≤ 9999 ∧ IsDate y m d ∧ (y, m, d) ≠ (1, 1, 1)) →
    ∃ y' m' d', IsDate y' m' d' ∧ nextDay (y', m', d') = (y, m, d) ∧ E.background (y', m', d') = .ok b) ∧
  (¬ (1 ≤ y ∧ y ≤ 9999 ∧ IsDate y m d ∧ (y, m, d) ≠ (1, 1, 1)) →
    ∀ t i j, b.1.val t i j = none ∧ b.2.val t i j = none)

/-- Whether the report of a record gets background values: only for tracking, from 1985 on, and with a day. -/
def Dated (tracking : Bool) (p : (Int × Int) × Imma) : Prop :=
  tracking = true ∧ 1985 ≤ p.1.1 ∧ (dayOf p.2).isSome = true

instance (t : Bool) (p : (Int × Int) × Imma) : Decidable (Dated t p) := by unfold Dated; infer_instance

end MarineQC.Spec
