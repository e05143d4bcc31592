import Verif.Base.ReadModel
import Verif.Base.BuddyModel
import Verif.Base.OutModel

/-!
# Model of the main program (`/repo/marine_qc.py`), part four: a month from its files to its output, and a run over months

The files of reports and of fields are taken as given for the whole run: the program writes only to the directory of its
output.
-/

namespace MarineQC

/-- What a run uses besides the library of climatologies. -/
structure RunEnv (F : Type) [LinearOrder F] [Zero F] where
  read : ReadEnv F
  geo : Geo
  rnd : Rat → Rat
  ships : ShipParams
  span : Int → Nat → Int
  /-- The inputs of the buddy checks.  The fields `dpt` and `slp` are not used: they come from the library. -/
  buddy : BuddyInputs
  fmt : Rat → List Char
  /-- the orders in which the dictionaries of flags are iterated -/
  dflags : List (String × List String)
  vflags : List (String × List String)
  /-- the order in which the dictionary of identifiers is iterated -/
  order : List (Option String × List Nat) → List (Option String × List Nat)
  /-- `parameters['runid']` -/
  runid : List Char
  /-- `out_dir` -/
  out : List Char

variable {F : Type} [LinearOrder F] [Zero F]

/-- A field of the library as the buddy check looks values up in it (Extended_IMMA.py:2682). -/
def Arr3.stdev (a : Arr3) : StdevField := fun lat lon m d => a.getValueMds lat lon (some m) (some d)

/-- marine_qc.py:264-329: the buddy checks with the fields of the library. -/
noncomputable def buddyFromLib (E : RunEnv F) (lib : ClimLib Arr3) (d : Deck) : Except Err Deck := do
  let dpt ← lib.getField "DPT" "stdev"
  let slp ← lib.getField "SLP" "stdev"
  buddyStage erf E.span { E.buddy with dpt := dpt.stdev, slp := slp.stdev } d

/-- marine_qc.py:134-329: the reports of a month, read and checked, and the library afterwards. -/
noncomputable def checkedMonth (E : RunEnv F) (lib : ClimLib Arr3) (ym : Int × Int) : Except Err (Deck × ClimLib Arr3) := do
  let s ← readReports E.read lib ym.1 ym.2
  let d ← shipPass E.geo (shipChecks E.geo E.rnd E.ships) (s.deck.addFilter shipFilter)
  let d ← buddyFromLib E s.lib d
  return (d, s.lib)

/-- marine_qc.py:132-352, the loop over months.  The file system afterwards, and the exception that stopped the run. -/
noncomputable def runMonths (E : RunEnv F) : List (Int × Int) → ClimLib Arr3 → FileSys → FileSys × Option Err
  | [], _, fs => (fs, none)
  | ym :: l, lib, fs =>
    match checkedMonth E lib ym with
    | .error e => (fs, some e)
    | .ok (d, lib) =>
      thenDo (outputStage E.fmt E.dflags E.vflags E.geo E.runid E.out E.order E.read.tracking ym.1 ym.2 d fs) fun fs =>
        runMonths E l lib fs

end MarineQC
