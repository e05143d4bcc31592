import Verif.Drifter.Csv
import Verif.Report.QcModel

/-!
# Model of the readers `/repo/NRT.py` and `/repo/TestIMMA.py` and of the accessors of `Voyage`
-/

namespace MarineQC

/-! ## Near-real-time lines -/

/-- The entries of NRT.py:42-61 that are not the same for all records. -/
structure NrtRecord where
  uid : List Char
  id : List Char
  yr : Int
  mo : Int
  dy : Int
  hr : Rat
  lat : Rat
  lon : Rat
  sst : Option Rat
deriving DecidableEq, Repr

/-- NRT.py:34 and 36: a number above `top` is replaced by it. -/
def capAt (top x : Rat) : Rat := if x > top then top else x

/-- A text for which Python's `float` raises ValueError, or for which the date parser does. -/
def parsed {α : Type} : Option α → Except Err α
  | some x => .ok x
  | none => .error .value

/-- NRT.py:37-40: the temperature, or None. -/
def nrtTemp (num : List Char → Option Rat) (s : List Char) : Except Err (Option Rat) :=
  if s = "nan".toList then .ok none else (parsed (num s)).map some

/-- NRT.py:17-61 `readstr`; nothing is read from an empty line.  Python's `float` of a text is the parameter `num` and
`dateutil.parser.parse` the parameter `date`, to the minute; `none` means ValueError.  Simplification: the text `nan` as
latitude or longitude and infinite numbers count as texts that are not numbers. -/
def nrtRead (num : List Char → Option Rat) (date : List Char → Option Dt) (line : List Char) :
    Except Err (Option NrtRecord) :=
  if line = [] then .ok none
  else
    match splitCommas [] (line.reverse.dropWhile (· == '\n')).reverse with
    | [id, _, isodate, lat, lon, sst] => do
      let d ← parsed (date isodate)
      let lat ← parsed (num lat)
      let lon ← parsed (num lon)
      let sst ← nrtTemp num sst
      return some { uid := "NRT".toList ++ id ++ isodate, id := id, yr := d.year, mo := d.month, dy := d.day,
                    hr := d.hour + d.minute / 60, lat := capAt 200 lat, lon := capAt 400 lon, sst := sst }
    | _ => .error .value

/-- The dictionary of NRT.py:42-61 without `ID` and `UID`. -/
def NrtRecord.items (r : NrtRecord) : List (String × Option Rat) :=
  [("YR", some r.yr), ("MO", some r.mo), ("DY", some r.dy), ("HR", some r.hr), ("LAT", some r.lat), ("LON", some r.lon),
   ("SST", r.sst), ("AT", none), ("DCK", some 9999), ("PT", some 7), ("SIM", none), ("DS", none), ("VS", none),
   ("DPT", none), ("SID", some 9999), ("C1", none), ("SI", none)]

/-- `MarineReport` of such a record, Extended_IMMA.py:347-372.  The order of the dictionary does not matter
(`C31_init_order_independent`). -/
def NrtRecord.report (r : NrtRecord) : Except Err Report :=
  Report.init (some (String.ofList r.id)) (some (String.ofList r.uid)) r.items

/-! ## Test records -/

/-- The entries of TestIMMA.py:25-39. -/
structure TestRecord where
  id : List Char
  uid : List Char
  lat : Rat
  lon : Rat
  yr : Int
  mo : Int
  dy : Int
  hr : Option Rat
  sst : Option Rat
deriving DecidableEq, Repr

/-- TestIMMA.py:33-34 and 37-38: the number for a missing value. -/
def missing32768 (x : Rat) : Option Rat := if x = -32768 then none else some x

/-- TestIMMA.py:23-39 `readstr`, of a list of texts; `float` is the parameter `num`. -/
def testRead (num : List Char → Option Rat) (line : List (List Char)) : Except Err TestRecord := do
  let id ← pyIndex line 0
  let uid ← pyIndex line 1
  let lat ← (pyIndex line 2).bind fun s => parsed (num s)
  let lon ← (pyIndex line 3).bind fun s => parsed (num s)
  let yr ← (pyIndex line 4).bind fun s => parsed (num s)
  let mo ← (pyIndex line 5).bind fun s => parsed (num s)
  let dy ← (pyIndex line 6).bind fun s => parsed (num s)
  let hr ← (pyIndex line 7).bind fun s => parsed (num s)
  let sst ← (pyIndex line 11).bind fun s => parsed (num s)
  return { id := id, uid := uid, lat := lat, lon := lon, yr := pyInt yr, mo := pyInt mo, dy := pyInt dy,
           hr := missing32768 hr, sst := missing32768 sst }

/-! ## The accessors of a voyage

The reports of a voyage are a list. -/

/-- Extended_IMMA.py:1486-1495 `getrep`. -/
def voyageRep (v : List Report) (i : Int) : Except Err Report := pyIndex v i

/-- Extended_IMMA.py:1497-1505 `last_rep`. -/
def lastRep (v : List Report) : Except Err Report := pyIndex v ((v.length : Int) - 1)

/-- The place in the list that an index means: negative ones count from the end. -/
def placeAt (n : Nat) (i : Int) : Nat := (if i < 0 then i + n else i).toNat

/-- Extended_IMMA.py:1507-1518 `setvar`: the voyage left behind and the exception, if any.  The speeds and times
between reports are not calculated again. -/
def voyageSetvar (v : List Report) (i : Int) (name : String) (x : Option Rat) : List Report × Option Err :=
  match pyIndex v i with
  | .error e => (v, some e)
  | .ok r => (v.set (placeAt v.length i) (r.setvar name x).1, (r.setvar name x).2)

/-- Extended_IMMA.py:1520-1531 `getvar`. -/
def voyageGetvar (v : List Report) (i : Int) (name : String) : Except Err (Option Rat) := do
  let r ← pyIndex v i
  return r.getvar name

/-- Extended_IMMA.py:1533-1546 `set_qc`. -/
def voyageSetQc (v : List Report) (i : Int) (t f : String) (x : Int) : Except Err (List Report) := do
  let r ← pyIndex v i
  let r ← r.setQc t f x
  return v.set (placeAt v.length i) r

/-- Extended_IMMA.py:1548-1561 `get_qc`. -/
def voyageGetQc (v : List Report) (i : Int) (t f : String) : Except Err Int := do
  let r ← pyIndex v i
  return r.getQc t f

end MarineQC
