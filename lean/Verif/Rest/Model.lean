import Verif.Voyage.Model
import Verif.Imma.Model
import Verif.Report.QcModel

/-!
# Model of the fixed-width lines of `MarineReport`, of the prediction of a voyage's next place, of the reader of
`/repo/SimpleIMMA.py` and of `base_qc_report` of `/repo/qc.py`

Parts of the library that the programs do not call: they are for people who use the classes by themselves.
-/

namespace MarineQC

/-! ## Fixed-width lines -/

/-- Python 2's `round(x)`: halves go away from zero. -/
def roundAway (x : Rat) : Int := if 0 ≤ x then ⌊x + 1 / 2⌋ else -⌊-x + 1 / 2⌋

/-- Extended_IMMA.py:76-91 `pvar`, followed by `int` as in all its uses. -/
def pvar (x : Option Rat) (mdi : Int) (scale : Rat) : Int :=
  match x with
  | none => mdi
  | some q => roundAway (q * scale)

/-- Extended_IMMA.py:746-751 `printvar`. -/
def Report.printvar (r : Report) (v : String) : Int :=
  if v ∈ VARLIST then pvar (r.getvar v) (-32768) 1 else pvar (some (-32768)) (-32768) 1

/-- `"{:8d}".format(n)`. -/
def numberCell (n : Int) : List Char := padLeft 8 (intText n)

/-- `"{:w.w}".format(s)`: no more than `w` characters and no fewer. -/
def nameCell (w : Nat) (s : List Char) : List Char := padRight w (s.take w)

/-- `"{:d}…{:d}" ` of some flags, with what comes after them. -/
def flagsCell (l : List Int) (e : List Char) : List Char := l.flatMap intText ++ e

/-- A value that the code uses without looking whether it is there: the exception if not. -/
def needed {α : Type} (e : Err) : Option α → Except Err α
  | some x => .ok x
  | none => .error e

/-- Extended_IMMA.py:793-795 and 904-906: course and speed as one number. -/
def Report.dsvs (r : Report) : Int :=
  match r.getint "DS", r.getint "VS" with
  | some d, some v => d * 100 + v
  | _, _ => 9999

/-- The identifier as in Extended_IMMA.py:799-801, 806 and 910-912, 917. -/
def Report.idCell (r : Report) : List Char := nameCell 9 ((r.id.map String.toList).getD "         ".toList) ++ [' ']

/-- The UID as in Extended_IMMA.py:807 and 918.  Python 2.7 formats `None` as its name. -/
def Report.uidCell (r : Report) : List Char := nameCell 8 ((r.uid.map String.toList).getD "None".toList)

/-- Extended_IMMA.py:890-970 `print_report`.  The cells are listed in order; the year, month and deck must be there for
`"{:8d}"` (ValueError), latitude and longitude for the multiplication (TypeError). -/
def Report.printReport (r : Report) : Except Err (List Char) := do
  let lon ← needed .type r.lon
  let lat ← needed .type r.lat
  let yr ← needed .value (r.getint "YR")
  let mo ← needed .value (r.getint "MO")
  let dck ← needed .value (r.getint "DCK")
  return ([r.idCell, r.uidCell,
    numberCell (roundAway (lat * 100)), numberCell (roundAway (lon * 100)), numberCell yr, numberCell mo,
    numberCell (pvar (r.getvar "DY") (-32768) 1), numberCell (pvar (r.getvar "HR") (-32768) 100),
    numberCell (pvar (r.getvar "AT") (-32768) 10), numberCell (pvar (r.getanom "AT") (-32768) 100),
    numberCell (pvar (r.getvar "SST") (-32768) 10), numberCell (pvar (r.getanom "SST") (-32768) 100),
    numberCell r.dsvs, numberCell dck, numberCell (r.printvar "PT"), [' '],
    flagsCell [r.getQc "POS" "day", r.getQc "POS" "land", r.getQc "POS" "trk", r.getQc "POS" "date",
      r.getQc "POS" "time", r.getQc "POS" "pos", r.getQc "POS" "blklst", r.getQc "POS" "dup"] [' '],
    flagsCell [r.getQc "SST" "bud", r.getQc "SST" "clim", r.getQc "SST" "nonorm", r.getQc "SST" "freez",
      r.getQc "SST" "noval", r.getQc "SST" "nbud", r.getQc "SST" "bbud", r.getQc "SST" "rep"] [' '],
    flagsCell [r.getQc "AT" "bud", r.getQc "AT" "clim", r.getQc "AT" "nonorm", 9,
      r.getQc "AT" "noval", r.getQc "AT" "nbud", r.getQc "AT" "bbud", r.getQc "AT" "rep"] [' '],
    flagsCell [9, 9, 9, 9, 9, 9, 9, 9] [' '],
    flagsCell [r.getQc "POS" "few", r.getQc "POS" "ntrk", 9, 9, 9, 9, 9, 9] ['\n']] : List (List Char)).flatten

/-- Extended_IMMA.py:763-888 `print_longform_report`: the same with the pressure and the humidities. -/
def Report.printLongform (r : Report) : Except Err (List Char) := do
  let lon ← needed .type r.lon
  let lat ← needed .type r.lat
  let yr ← needed .value (r.getint "YR")
  let mo ← needed .value (r.getint "MO")
  let dck ← needed .value (r.getint "DCK")
  return ([r.idCell, r.uidCell,
    numberCell (roundAway (lat * 100)), numberCell (roundAway (lon * 100)), numberCell yr, numberCell mo,
    numberCell (pvar (r.getvar "DY") (-32768) 1), numberCell (pvar (r.getvar "HR") (-32768) 100),
    numberCell (pvar (r.getvar "AT") (-32768) 10), numberCell (pvar (r.getanom "AT") (-32768) 100),
    numberCell (pvar (r.getvar "SST") (-32768) 10), numberCell (pvar (r.getanom "SST") (-32768) 100),
    numberCell (pvar (r.getvar "SLP") (-32768) 10),
    numberCell (pvar (r.getvar "DPT") (-32768) 10), numberCell (pvar (r.getanom "DPT") (-32768) 100),
    numberCell (pvar (r.getvar "SHU") (-32768) 10), numberCell (pvar (r.getanom "SHU") (-32768) 100),
    numberCell (pvar (r.getvar "VAP") (-32768) 10), numberCell (pvar (r.getanom "VAP") (-32768) 100),
    numberCell (pvar (r.getvar "CRH") (-32768) 10), numberCell (pvar (r.getanom "CRH") (-32768) 100),
    numberCell (pvar (r.getvar "CWB") (-32768) 10), numberCell (pvar (r.getanom "CWB") (-32768) 100),
    numberCell (pvar (r.getvar "DPD") (-32768) 10), numberCell (pvar (r.getanom "DPD") (-32768) 100),
    numberCell r.dsvs, numberCell dck, numberCell (r.printvar "PT"), [' '],
    flagsCell [r.getQc "POS" "day", r.getQc "POS" "land", r.getQc "POS" "trk", r.getQc "POS" "date",
      r.getQc "POS" "time", r.getQc "POS" "pos", r.getQc "POS" "blklst", r.getQc "POS" "iquam_track"] [' '],
    flagsCell [r.getQc "SST" "bud", r.getQc "SST" "clim", r.getQc "SST" "nonorm", r.getQc "SST" "freez",
      r.getQc "SST" "noval", r.getQc "SST" "spike", r.getQc "SST" "bbud", r.getQc "SST" "rep"] [' '],
    flagsCell [r.getQc "AT" "bud", r.getQc "AT" "clim", r.getQc "AT" "nonorm", 9,
      r.getQc "AT" "noval", r.getQc "AT" "nbud", r.getQc "AT" "bbud", r.getQc "AT" "rep"] [' '],
    flagsCell [r.getQc "DPT" "bud", r.getQc "DPT" "clim", r.getQc "DPT" "nonorm", r.getQc "DPT" "ssat",
      r.getQc "DPT" "noval", r.getQc "DPT" "round", r.getQc "DPT" "bbud", r.getQc "DPT" "rep",
      r.getQc "DPT" "repsat"] [' '],
    flagsCell [r.getQc "POS" "few", r.getQc "POS" "ntrk", 9, 9, 9, 9, 9, 9] ['\n']] : List (List Char)).flatten

/-! ## The next place of a voyage -/

/-- Extended_IMMA.py:1799-1834 `predict_next_point`.  `abs(None)` and arithmetic with `None` raise TypeError. -/
def predictNext (G : Geo) (v : List Report) (timediff : Rat) : Except Err (Option Rat × Option Rat) := do
  pyAssert (decide (timediff ≥ 0))
  pyAssert (decide (v.length > 0))
  if v.length = 1 then do
    let r ← pyIndex v 0
    return (r.lat, r.lon)
  else do
    let r ← pyIndex v ((v.length : Int) - 1)
    let td ← needed .type (r.getvar "time_diff")
    if |td| < 1 / 100000 then return (r.lat, r.lon)
    else do
      let course := r.getvar "course"
      let speed ← needed .type (r.getvar "speed")
      let distance := speed * (td + timediff)
      let p ← pyIndex v ((v.length : Int) - 2)
      match p.lat, p.lon, course with
      | some lat1, some lon1, some c =>
        let q := G.project lat1 lon1 c distance
        return (some q.1, some q.2)
      | _, _, _ => .error .type

/-! ## The reader of simple records -/

/-- SimpleIMMA.py:1-12 `trint`. -/
def trint (s : List Char) : Option Int := (parseInt s).toOption

/-- SimpleIMMA.py:15-27 `trfloat`.  Python's `float` of a text is the parameter `num`; NaN counts as missing, as it does once
it is in a report. -/
def trfloat (num : List Char → Option Rat) (s : List Char) (scale : Rat) : Option Rat := (num s).map (· * scale)

/-- `s[a:b]` for indices that are not negative. -/
def sliceOf (s : List Char) (a b : Nat) : List Char := (s.drop a).take (b - a)

/-- The entries that SimpleIMMA.py:35-60 puts in the dictionary. -/
structure SimpleRecord where
  yr : Option Int
  mo : Option Int
  dy : Option Int
  hr : Option Rat
  lat : Option Rat
  lon : Option Rat
  ds : Option Int
  vs : Option Int
  id : List Char
  at' : Option Rat
  sst : Option Rat
  dpt : Option Rat
  dck : Option Int
  sid : Option Int
  pt : Option Int
  uid : List Char

/-- SimpleIMMA.py:35-59 `readstr`. -/
def simpleRead (num : List Char → Option Rat) (line : List Char) : SimpleRecord :=
  let line := stripNewlines line
  { yr := trint (sliceOf line 0 4)
    mo := trint (sliceOf line 4 6)
    dy := trint (sliceOf line 6 8)
    hr := trfloat num (sliceOf line 8 12) (1 / 100)
    lat := trfloat num (sliceOf line 12 17) (1 / 100)
    lon := trfloat num (sliceOf line 17 23) (1 / 100)
    ds := trint (sliceOf line 23 24)
    vs := trint (sliceOf line 24 25)
    id := sliceOf line 25 34
    at' := trfloat num (sliceOf line 34 38) (1 / 10)
    sst := trfloat num (sliceOf line 38 42) (1 / 10)
    dpt := trfloat num (sliceOf line 42 46) (1 / 10)
    dck := trint (sliceOf line 46 49)
    sid := trint (sliceOf line 49 52)
    pt := trint (sliceOf line 52 54)
    uid := sliceOf line 54 60 }

/-! ## The base checks of qc.py -/

/-- The condition of qc.py:1800-1807. -/
def Report.matExcludedOld (r : Report) : Bool :=
  decide (r.getint "DCK" = some 193) && Report.btw 1880 (r.getvar "YR") 1893 &&
    ((Report.btw (-80) r.lon 0 && Report.btw 40 r.lat 55) ||
     (Report.btw (-10) r.lon 30 && Report.btw 35 r.lat 45) ||
     (Report.btw 15 r.lon 45 && Report.btw (-10) r.lat 40) ||
     (Report.btw 15 r.lon 95 && Report.geOpt (-10) r.lat && Report.leOpt r.lat 15) ||
     (Report.btw 95 r.lon 105 && Report.btw (-10) r.lat 5))

/-- qc.py:1791-1808: the flag for air temperatures to leave out. -/
def Report.matBlacklistOld (r : Report) : Except Err Report := do
  let r ← r.setQc "POS" "mat_blacklist" 0
  let r ← if r.getint "PT" = some 5 ∧ r.getint "DCK" = some 780 then r.setQc "POS" "mat_blacklist" 1 else .ok r
  if r.matExcludedOld then r.setQc "POS" "mat_blacklist" 1 else return r

/-- qc.py:1781-1784: buoys. -/
def Report.isBuoyOld (r : Report) : Except Err Report :=
  if r.getint "PT" ∈ [some 6, some 7] then r.setQc "POS" "isbuoy" 1 else r.setQc "POS" "isbuoy" 0

/-- qc.py:1822-1831: the day/night flag.  (The longitude is present when the position flag is 0.) -/
def Report.dayFlagOld {F : Type} [LinearOrder F] [Zero F] (elev : Elev F) (r : Report) : Except Err Report :=
  if r.getQc "POS" "pos" = 0 ∧ r.getQc "POS" "date" = 0 then
    match r.lon with
    | none => .error .type
    | some lon => do
      let v ← dayTest elev (r.getint "YR") (r.getint "MO") (r.getint "DY") (r.getvar "HR") r.lat lon 1
      r.setQc "POS" "day" v
  else r.setQc "POS" "day" 1

/-- qc.py:1776-1852 `base_qc_report`.  Lines 1786-1789, 1810-1813, 1818-1820 and 1833-1837 are the same as methods of
Extended_IMMA.py, whose models are used here. -/
def Report.baseQcReport {F : Type} [LinearOrder F] [Zero F] (elev : Elev F) (r : Report) : Except Err Report := do
  let r ← r.isBuoyOld
  let r ← r.isShip
  let r ← r.matBlacklistOld
  let r ← r.isDeck780
  let pos ← positionCheck r.lat r.lon
  let r ← r.setQc "POS" "pos" pos
  let r ← r.doDateCheck
  let r ← r.dayFlagOld elev
  let r ← r.doBlacklist
  let r ← r.setQc "SST" "noval" (valueCheck (r.getvar "SST"))
  let freez ← sstFreezeCheck (r.getvar "SST") (some 0) (some (-(9 / 5))) 2
  let r ← r.setQc "SST" "freez" freez
  let r ← r.setQc "SST" "clim" (climatologyCheck (r.getvar "SST") (r.getnorm "SST") (some 8))
  let r ← r.setQc "SST" "nonorm" (noNormalCheck (r.getnorm "SST"))
  let r ← r.setQc "AT" "noval" (valueCheck (r.getvar "AT"))
  let r ← r.setQc "AT" "clim" (climatologyCheck (r.getvar "AT") (r.getnorm "AT") (some 10))
  r.setQc "AT" "nonorm" (noNormalCheck (r.getnorm "AT"))

end MarineQC
