import Verif.Py
import Verif.Calendar.Model
import Verif.Grid.Model
import Verif.Checks.Model

/-!
# Model of `MarineReport` and `MarineReportQC` (`/repo/Extended_IMMA.py` 20-21, 340-744)

Python's mutable object is a structure; a method that changes it returns the new one.  Numbers are exact
rationals, NaN in the data array is `none`.
-/

namespace MarineQC

/-- Extended_IMMA.py:20-21 `VARLIST`. -/
def VARLIST : List String :=
  ["YR", "MO", "DY", "HR", "LAT", "LON", "DS", "VS", "SLP", "AT", "AT2", "SST", "DCK", "PT", "SID", "DPT",
   "SHU", "VAP", "CRH", "CWB", "DPD", "W", "WI", "D", "DI", "WW"]

/-- Extended_IMMA.py:372 `special_qc_types`. -/
def specialQcTypes : List String := ["POS", "SST", "AT", "DPT", "SLP", "W", "D"]

/-- Extended_IMMA.py:685 the variables returned as integers. -/
def intVars : List String := ["YR", "MO", "DY", "DS", "VS", "DCK", "PT", "SID"]

/-- A `datetime` as built in Extended_IMMA.py:470-474. -/
structure Dt where
  year : Int
  month : Int
  day : Int
  hour : Int
  minute : Int
deriving DecidableEq, Repr

/-- The `datetime` constructor: it raises ValueError unless the date exists (years 1 to 9999) and the time
is on the clock. -/
def mkDatetime (y mo d h mi : Int) : Except Err Dt :=
  if datetimeOk y mo d = true ∧ 0 ≤ h ∧ h ≤ 23 ∧ 0 ≤ mi ∧ mi ≤ 59 then .ok ⟨y, mo, d, h, mi⟩
  else .error .value

/-- The object `ClimVariable` (Extended_IMMA.py:285-337). -/
structure ClimVar where
  clim : Option Rat
  stdev : Option Rat
deriving DecidableEq, Repr

/-- The fields of a `MarineReport` (Extended_IMMA.py:347-372).  The numpy array `self.data` is a function of
the variable name (only names of `VARLIST` are ever stored); the dictionaries are functions to `Option`.
The extended data hold numbers or `None`. -/
structure Report where
  id : Option String
  uid : Option String
  data : String → Option Rat
  qc : String → Option Int
  clim : String → Option ClimVar
  ext : String → Option (Option Rat)
  dt : Option Dt

/-- `getvar` (Extended_IMMA.py:665-690) for any name but `ID` and `UID`, which are the fields `id` and
`uid`. -/
def Report.getvar (r : Report) (v : String) : Option Rat :=
  if ¬ (v ∈ VARLIST ∨ (r.ext v).isSome) then none
  else if v ∈ VARLIST then
    match r.data v with
    | none => none
    | some q => if v ∈ intVars then some (pyInt q : Int) else some q
  else (r.ext v).getD none

/-- The same for the variables that are integers: `int(self.data[i])`. -/
def Report.getint (r : Report) (v : String) : Option Int :=
  match r.data v with
  | none => none
  | some q => some (pyInt q)

/-- Extended_IMMA.py:456-478 `calculate_dt`.  `mlen[MO - 1]` may be an index from the end or out of
range; it is looked up only when the day is positive. -/
def Report.computeDt (r : Report) : Except Err (Option Dt) :=
  match r.getint "YR" with
  | none => .ok none
  | some y =>
    match r.getint "MO", r.getvar "HR", r.getint "DY" with
    | some mo, some hr, some dy =>
      if 0 < dy then do
        let l ← pyIndex (getMonthLengths y) (mo - 1)
        if dy ≤ l then do
          let h : Int := ⌊hr⌋
          let mi : Int := ⌊60 * (hr - h)⌋
          let d ← mkDatetime y mo dy h mi
          return some d
        else return none
      else return none
    | _, _, _ => .ok none

/-- Extended_IMMA.py:645-663 `setvar` for a variable other than `ID` and `UID`: the state left behind and
the exception raised, if any.  The value is stored before the time is recalculated, so it stays stored when
`calculate_dt` raises. -/
def Report.setvar (r : Report) (v : String) (x : Option Rat) : Report × Option Err :=
  if v ∈ VARLIST then
    let r := { r with data := fun k => if k = v then x else r.data k }
    if v = "YR" ∨ v = "DY" ∨ v = "HR" then
      match r.computeDt with
      | .ok d => ({ r with dt := d }, none)
      | .error e => (r, some e)
    else (r, none)
  else (r, some .value)

/-- Extended_IMMA.py:645-663 `setvar('ID', …)`. -/
def Report.setId (r : Report) (x : Option String) : Report := { r with id := x }

/-- Extended_IMMA.py:645-663 `setvar('UID', …)`. -/
def Report.setUid (r : Report) (x : Option String) : Report := { r with uid := x }

/-- A caller that does not catch exceptions. -/
def raising (p : Report × Option Err) : Except Err Report :=
  match p.2 with
  | none => .ok p.1
  | some e => .error e

/-- Extended_IMMA.py:393 `ds_convert`. -/
def dsConvert : List (Option Rat) :=
  [some 0, some 45, some 90, some 135, some 180, some 225, some 270, some 315, some 360, none]

/-- Extended_IMMA.py:395-397: the course. -/
def Report.dsi (r : Report) : Except Err (Option Rat) :=
  match r.getint "DS" with
  | none => .ok none
  | some ds => pyIndex dsConvert ds

/-- Extended_IMMA.py:399-406: the speed.  Python 2: a missing year is not `>= 1968`. -/
def Report.vsi (r : Report) : Option Rat :=
  match r.getint "VS" with
  | none => none
  | some vs =>
    let late : Bool := match r.getint "YR" with
      | some y => decide (y ≥ 1968)
      | none => false
    let s : Rat := if late then vs * 5 - 2 else vs * 3 - 1
    if vs = 0 then some 0 else some s

/-- Extended_IMMA.py:389-406 `calculate_dsi_vsi`. -/
def Report.calculateDsiVsi (r : Report) : Except Err Report := do
  let d ← r.dsi
  return { r with ext := fun k => if k = "vsi" then some r.vsi else if k = "dsi" then some d else r.ext k }

/-- The empty report of Extended_IMMA.py:350-369 before the record is copied.  (In the code `qc`, `ext` and
`climate_variables` appear only after the copying; nothing reads them before.) -/
def Report.empty (id uid : Option String) : Report :=
  { id := id, uid := uid, data := fun _ => none, qc := fun _ => none, clim := fun _ => none,
    ext := fun _ => none, dt := none }

/-- Extended_IMMA.py:347-372 `__init__`.  The record is the list of its items in the dictionary's iteration
order, with its `ID` and `UID` entries given apart; missing entries are skipped, so are names not in
`VARLIST`. -/
def Report.init (id uid : Option String) (rec : List (String × Option Rat)) : Except Err Report := do
  let r ← rec.foldlM (fun (r : Report) t =>
    if t.2.isSome ∧ t.1 ∈ VARLIST then raising (r.setvar t.1 t.2) else .ok r) (Report.empty id uid)
  let d ← r.computeDt
  let r := { r with dt := d }
  r.calculateDsiVsi

/-- Extended_IMMA.py:449-454 `reset_ext`. -/
def Report.resetExt (r : Report) : Except Err Report :=
  { r with ext := fun _ => none }.calculateDsiVsi

/-- Extended_IMMA.py:634-643 `setext`. -/
def Report.setext (r : Report) (v : String) (x : Option Rat) : Report :=
  { r with ext := fun k => if k = v then some x else r.ext k }

/-- Extended_IMMA.py:622-632 `getext`. -/
def Report.getext (r : Report) (v : String) : Except Err (Option Rat) :=
  match r.ext v with
  | none => .error .assertion
  | some x => .ok x

/-- Extended_IMMA.py:374-378 `lat`. -/
def Report.lat (r : Report) : Option Rat := r.getvar "LAT"

/-- Extended_IMMA.py:380-387 `lon`.  Python 2: a missing longitude is not above 180. -/
def Report.lon (r : Report) : Option Rat :=
  match r.getvar "LON" with
  | none => none
  | some l => if l > 180 then some (l - 360) else some l

/-- Extended_IMMA.py:555-566 `add_climate_variable`. -/
def Report.addClim (r : Report) (name : String) (clim stdev : Option Rat) : Report :=
  { r with clim := fun k => if k = name then some ⟨clim, stdev⟩ else r.clim k }

/-- Extended_IMMA.py:568-583 `getnorm(varname)`. -/
def Report.getnorm (r : Report) (v : String) : Option Rat :=
  match r.clim v with
  | some c => c.clim
  | none => none

/-- Extended_IMMA.py:568-583 `getnorm(varname, 'stdev')`. -/
def Report.getstdev (r : Report) (v : String) : Option Rat :=
  match r.clim v with
  | some c => c.stdev
  | none => none

/-- Extended_IMMA.py:585-601 `getanom`. -/
def Report.getanom (r : Report) (v : String) : Option Rat :=
  match r.clim v with
  | some c =>
    match r.getvar v, c.clim with
    | some x, some n => some (x - n)
    | _, _ => none
  | none => none

/-- Extended_IMMA.py:603-620 `get_normalised_anom`.  The variable is a numpy float, so dividing by a zero
deviation gives inf or NaN with a warning and does not raise; that result is cut off as `zeroDiv` here. -/
def Report.getNormalisedAnom (r : Report) (v : String) : Except Err (Option Rat) :=
  match r.clim v with
  | some c =>
    match r.getvar v, c.clim, c.stdev with
    | some x, some n, some s => if s = 0 then .error .zeroDiv else .ok (some ((x - n) / s))
    | _, _, _ => .ok none
  | none => .ok none

/-- Extended_IMMA.py:692-711 `set_qc`. -/
def Report.setQc (r : Report) (t f : String) (v : Int) : Except Err Report := do
  pyAssert (decide (v ∈ [0, 1, 2, 3, 4, 5, 6, 7, 8, 9]))
  pyAssert (decide (t ∈ specialQcTypes) || decide (t ∈ VARLIST))
  return { r with qc := fun k => if k = t ++ f then some v else r.qc k }

/-- Extended_IMMA.py:713-729 `get_qc`. -/
def Report.getQc (r : Report) (t f : String) : Int :=
  match r.qc (t ++ f) with
  | some v => v
  | none => 9

/-- Extended_IMMA.py:731-744 `saturated`. -/
def Report.saturated (r : Report) : Bool :=
  decide (r.getvar "DPT" = r.getvar "AT" ∧ r.getvar "AT" ≠ none ∧ r.getvar "DPT" ≠ none)

/-! ## Comparison -/

/-- Order of `datetime` objects: field by field. -/
def dtLt (a b : Dt) : Bool :=
  decide (a.year < b.year ∨ (a.year = b.year ∧ (a.month < b.month ∨ (a.month = b.month ∧
    (a.day < b.day ∨ (a.day = b.day ∧ (a.hour < b.hour ∨ (a.hour = b.hour ∧ a.minute < b.minute))))))))

/-- Python 2 order of identifiers, `None` below every string. -/
def idLt (a b : Option String) : Bool :=
  match a, b with
  | none, none => false
  | none, some _ => true
  | some _, none => false
  | some a, some b => decide (a < b)

/-- Python 2 `a >= b` of two timestamps: a missing one can be compared only with a missing one. -/
def dtGe (a b : Option Dt) : Except Err Bool :=
  match a, b with
  | none, none => .ok true
  | some a, some b => .ok (!dtLt a b)
  | _, _ => .error .type

/-- Extended_IMMA.py:505-512 `__eq__`. -/
def Report.eq (a b : Report) : Bool := decide (a.id = b.id ∧ a.dt = b.dt)

/-- Extended_IMMA.py:514-527 `__gt__`. -/
def Report.gt (a b : Report) : Bool :=
  if idLt b.id a.id then true
  else match a.dt, b.dt with
    | some da, some db => if a.id = b.id ∧ dtLt db da then true else false
    | _, _ => false

/-- Extended_IMMA.py:529-540 `__ge__`. -/
def Report.ge (a b : Report) : Except Err Bool :=
  if idLt b.id a.id then .ok true
  else if a.id = b.id then dtGe a.dt b.dt
  else .ok false

/-- Extended_IMMA.py:542-553 `__le__`; `a <= b` of timestamps is `b >= a`. -/
def Report.le (a b : Report) : Except Err Bool :=
  if idLt a.id b.id then .ok true
  else if a.id = b.id then dtGe b.dt a.dt
  else .ok false

/-- `a < b`: the class defines no `__lt__`, Python falls back to `b.__gt__(a)`. -/
def Report.lt (a b : Report) : Bool := b.gt a

/-- `list.sort()` of reports: a stable sort by `<` (trusted: Python's sort returns what a stable merge sort
returns when `<` is a strict weak order). -/
def sortReports (l : List Report) : List Report := l.mergeSort (fun a b => !(b.lt a))

/-! ## Humidity -/

/-- The five functions of CalcHums.py called on a report, for present arguments (dew point, temperature,
pressure); `none` is NaN. -/
structure HumFns where
  vap : Rat → Rat → Rat → Option Rat
  sh : Rat → Rat → Rat → Option Rat
  rh : Rat → Rat → Rat → Option Rat
  wb : Rat → Rat → Rat → Option Rat
  dpd : Rat → Rat → Option Rat

/-- The `None` test at the head of the functions of CalcHums.py. -/
def humCall (f : Rat → Rat → Rat → Option Rat) (td t : Option Rat) (p : Rat) : Option Rat :=
  match td, t with
  | some td, some t => f td t p
  | _, _ => none

/-- The names of the humidity variables. -/
def humNames : List String := ["SHU", "VAP", "CRH", "CWB", "DPD"]

/-- `setvar` of the humidity variables (none of them touches the time). -/
def Report.put (r : Report) (v : String) (x : Option Rat) : Report := (r.setvar v x).1

/-- Extended_IMMA.py:444-445.  Python 2: a missing relative humidity is below 0. -/
def sillyHumidity (h : Option Rat) : Bool :=
  match h with
  | none => true
  | some h => decide (h < 0 ∨ h > 150)

/-- Extended_IMMA.py:408-447 `calculate_humidity_variables`. -/
def Report.calculateHumidity (F : HumFns) (r : Report) (vars : List String) : Except Err Report := do
  pyAssert (vars.all fun v => decide (v ∈ humNames))
  match r.clim "SLP" with
  | none => .error .key
  | some c =>
    match c.clim with
    | none => return vars.foldl (fun r v => r.put v none) r
    | some p =>
      let r := r.put "VAP" (humCall F.vap (r.getvar "DPT") (r.getvar "AT") p)
      let r := r.put "SHU" (humCall F.sh (r.getvar "DPT") (r.getvar "AT") p)
      let r := r.put "CRH" (humCall F.rh (r.getvar "DPT") (r.getvar "AT") p)
      let r := r.put "CWB" (humCall F.wb (r.getvar "DPT") (r.getvar "AT") p)
      let r := r.put "DPD" (humCall (fun td t _ => F.dpd td t) (r.getvar "DPT") (r.getvar "AT") p)
      if sillyHumidity (r.getvar "CRH") then return vars.foldl (fun r v => r.put v none) r else return r

end MarineQC
