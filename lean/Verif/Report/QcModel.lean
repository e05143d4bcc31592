import Verif.Report.Model

/-!
# Model of `MarineReportQC` (`/repo/Extended_IMMA.py` 1084-1463)
-/

namespace MarineQC

/-- Two limits `[low, high]`. -/
structure Lim where
  lo : Rat
  hi : Rat

/-- The entries of the parameter dictionary read by the base checks.  (An absent entry raises KeyError or
fails an assertion; that is not modelled.) -/
structure BaseParams where
  timeSince : Rat
  sstFreezingPoint : Rat
  sstNSigma : Rat
  sstMaxAnomaly : Rat
  sstHard : Lim
  atMaxAnomaly : Rat
  atHard : Lim
  atStdev : Lim
  atMaxStdAnomaly : Rat
  dptHard : Lim
  dptStdev : Lim
  dptMaxStdAnomaly : Rat
  slpMaxStdAnomaly : Rat
  slpLowbar : Rat
  wHard : Lim
  wVariableLimit : Rat
  shuHard : Lim
  rhHard : Lim

/-- Type of the part of `sunangle` that gives the elevation: year, day of year, hour, minute, latitude,
longitude. -/
abbrev Elev (F : Type) := Int → Int → Rat → Rat → Rat → Rat → F

namespace Report

/-- Extended_IMMA.py:1214-1222 `do_fix_missing_hour`.  Python 2: a missing year is below 1860. -/
def doFixMissingHour (r : Report) : Except Err Report :=
  let early : Bool := match r.getint "YR" with
    | some y => decide (y < 1860)
    | none => true
  if r.getint "DCK" = some 701 ∧ early = true ∧ r.getvar "HR" = none then do
    let r ← raising (r.setvar "HR" (some 0))
    let d ← r.computeDt
    return { r with dt := d }
  else .ok r

/-- Extended_IMMA.py:1224-1230 `do_position_check`. -/
def doPositionCheck (r : Report) : Except Err Report := do
  let v ← positionCheck (r.getvar "LAT") (r.getvar "LON")
  r.setQc "POS" "pos" v

/-- Extended_IMMA.py:1232-1239 `do_date_check`. -/
def doDateCheck (r : Report) : Except Err Report := do
  let v ← dateCheck (r.getint "YR") (r.getint "MO") (r.getint "DY")
  r.setQc "POS" "date" v

/-- Extended_IMMA.py:1241-1246 `do_time_check`. -/
def doTimeCheck (r : Report) : Except Err Report := r.setQc "POS" "time" (timeCheck (r.getvar "HR"))

/-- Extended_IMMA.py:1248-1263 `do_day_check`.  (The longitude is present when the position flag is 0.) -/
def doDayCheck {F : Type} [LinearOrder F] [Zero F] (elev : Elev F) (timeSince : Rat) (r : Report) :
    Except Err Report :=
  if r.getQc "POS" "pos" = 0 ∧ r.getQc "POS" "date" = 0 ∧ r.getQc "POS" "time" = 0 then
    match r.lon with
    | none => .error .type
    | some lon => do
      let v ← dayTest elev (r.getint "YR") (r.getint "MO") (r.getint "DY") (r.getvar "HR") r.lat lon timeSince
      r.setQc "POS" "day" v
  else r.setQc "POS" "day" 1

/-- Extended_IMMA.py:1265-1276 `do_blacklist`. -/
def doBlacklist (r : Report) : Except Err Report := do
  let v ← blacklist r.id (r.getint "DCK") (r.getint "YR") (r.getint "MO") r.lat r.lon (r.getint "PT")
  r.setQc "POS" "blklst" v

/-- Extended_IMMA.py:1278-1285 `do_base_wind_qc`. -/
def doBaseWindQc (p : BaseParams) (r : Report) : Except Err Report := do
  let r ← r.setQc "W" "noval" (valueCheck (r.getvar "W"))
  let v ← hardLimit (r.getvar "W") p.wHard.lo p.wHard.hi
  let r ← r.setQc "W" "hardlimit" v
  r.setQc "W" "consistency" (windConsistency (r.getvar "W") (r.getvar "D") p.wVariableLimit)

/-- Extended_IMMA.py:1287-1300 `do_base_slp_qc`. -/
def doBaseSlpQc (p : BaseParams) (r : Report) : Except Err Report := do
  let r ← r.setQc "SLP" "noval" (valueCheck (r.getvar "SLP"))
  let v ← climatologyPlusStdevWithLowbar (r.getvar "SLP") (r.getnorm "SLP") (r.getstdev "SLP")
    p.slpMaxStdAnomaly p.slpLowbar
  let r ← r.setQc "SLP" "clim" v
  r.setQc "SLP" "nonorm" (noNormalCheck (r.getnorm "SLP"))

/-- Extended_IMMA.py:1302-1322 `do_base_sst_qc`. -/
def doBaseSstQc (p : BaseParams) (r : Report) : Except Err Report := do
  let r ← r.setQc "SST" "noval" (valueCheck (r.getvar "SST"))
  let v ← sstFreezeCheck (r.getvar "SST") (some 0) (some p.sstFreezingPoint) p.sstNSigma
  let r ← r.setQc "SST" "freez" v
  let r ← r.setQc "SST" "clim" (climatologyCheck (r.getvar "SST") (r.getnorm "SST") (some p.sstMaxAnomaly))
  let r ← r.setQc "SST" "nonorm" (noNormalCheck (r.getnorm "SST"))
  let v ← hardLimit (r.getvar "SST") p.sstHard.lo p.sstHard.hi
  r.setQc "SST" "hardlimit" v

/-- Extended_IMMA.py:1324-1335 `do_base_mat_qc`. -/
def doBaseMatQc (p : BaseParams) (r : Report) : Except Err Report := do
  let r ← r.setQc "AT" "noval" (valueCheck (r.getvar "AT"))
  let r ← r.setQc "AT" "clim" (climatologyCheck (r.getvar "AT") (r.getnorm "AT") (some p.atMaxAnomaly))
  let r ← r.setQc "AT" "nonorm" (noNormalCheck (r.getnorm "AT"))
  let v ← hardLimit (r.getvar "AT") p.atHard.lo p.atHard.hi
  r.setQc "AT" "hardlimit" v

/-- Extended_IMMA.py:1337-1348 `do_base_dat_qc` (with the air temperature's parameters standing for
`parameters['DAT']`). -/
def doBaseDatQc (p : BaseParams) (r : Report) : Except Err Report := do
  let r ← r.setQc "DAT" "noval" (valueCheck (r.getvar "DAT"))
  let r ← r.setQc "DAT" "clim" (climatologyCheck (r.getvar "DAT") (r.getnorm "DAT") (some p.atMaxAnomaly))
  let r ← r.setQc "DAT" "nonorm" (noNormalCheck (r.getnorm "DAT"))
  let v ← hardLimit (r.getvar "DAT") p.atHard.lo p.atHard.hi
  r.setQc "DAT" "hardlimit" v

/-- Extended_IMMA.py:1350-1365 `do_kate_mat_qc`.  The hard limit is applied to `AT`. -/
def doKateMatQc (p : BaseParams) (r : Report) : Except Err Report := do
  let v ← climatologyPlusStdevCheck (r.getvar "AT2") (r.getnorm "AT2") (r.getstdev "AT2")
    p.atStdev.lo p.atStdev.hi p.atMaxStdAnomaly
  let r ← r.setQc "AT2" "clim" v
  let r ← r.setQc "AT2" "noval" (valueCheck (r.getvar "AT2"))
  let r ← r.setQc "AT2" "nonorm" (noNormalCheck (r.getnorm "AT2"))
  let v ← hardLimit (r.getvar "AT") p.atHard.lo p.atHard.hi
  r.setQc "AT2" "hardlimit" v

/-- Extended_IMMA.py:1367-1381 `do_base_dpt_qc`. -/
def doBaseDptQc (p : BaseParams) (r : Report) : Except Err Report := do
  let v ← climatologyPlusStdevCheck (r.getvar "DPT") (r.getnorm "DPT") (r.getstdev "DPT")
    p.dptStdev.lo p.dptStdev.hi p.dptMaxStdAnomaly
  let r ← r.setQc "DPT" "clim" v
  let r ← r.setQc "DPT" "noval" (valueCheck (r.getvar "DPT"))
  let r ← r.setQc "DPT" "nonorm" (noNormalCheck (r.getnorm "DPT"))
  r.setQc "DPT" "ssat" (supersatCheck (r.getvar "DPT") (r.getvar "AT2"))

/-- Extended_IMMA.py:1383-1390 `is_deck_780`. -/
def isDeck780 (r : Report) : Except Err Report :=
  if r.getint "DCK" = some 780 then r.setQc "POS" "is780" 1 else r.setQc "POS" "is780" 0

/-- Extended_IMMA.py:1392-1401 `wind_blacklist`. -/
def windBlacklist (r : Report) : Except Err Report := do
  let r ← r.setQc "W" "wind_blacklist" 0
  if r.getint "DCK" ∈ [some 708, some 780] then r.setQc "W" "wind_blacklist" 1 else return r

/-- Extended_IMMA.py:1403-1411 `humidity_blacklist`. -/
def humidityBlacklist (r : Report) : Except Err Report := do
  let r ← r.setQc "DPT" "hum_blacklist" 0
  if r.getint "PT" ∈ [some 0, some 1, some 2, some 3, some 4, some 5, some 6, some 8, some 9, some 10, some 15]
  then r.setQc "DPT" "hum_blacklist" 0 else r.setQc "DPT" "hum_blacklist" 1

/-- `a <= x` in Python 2 for an `x` that may be missing. -/
def geOpt (a : Rat) (x : Option Rat) : Bool :=
  match x with
  | some x => decide (a ≤ x)
  | none => false

/-- `x <= b` in Python 2 for an `x` that may be missing. -/
def leOpt (x : Option Rat) (b : Rat) : Bool :=
  match x with
  | some x => decide (x ≤ b)
  | none => true

/-- `a <= x <= b`. -/
def btw (a : Rat) (x : Option Rat) (b : Rat) : Bool := geOpt a x && leOpt x b

/-- The condition of Extended_IMMA.py:1430-1437. -/
def matExcluded (r : Report) : Bool :=
  decide (r.getint "DCK" = some 193) && btw 1880 (r.getvar "YR") 1892 &&
    ((btw (-80) r.lon 0 && btw 40 r.lat 55) ||
     (btw (-10) r.lon 30 && btw 35 r.lat 45) ||
     (btw 15 r.lon 45 && btw (-10) r.lat 40) ||
     (btw 15 r.lon 95 && geOpt (-10) r.lat && leOpt r.lat 15) ||
     (btw 95 r.lon 105 && btw (-10) r.lat 5))

/-- Extended_IMMA.py:1413-1438 `mat_blacklist`. -/
def matBlacklist (r : Report) : Except Err Report := do
  let r ← r.setQc "AT" "mat_blacklist" 0
  let r ← if r.getint "PT" = some 5 ∧ r.getint "DCK" = some 780 then r.setQc "AT" "mat_blacklist" 1 else .ok r
  if r.matExcluded then r.setQc "AT" "mat_blacklist" 1 else return r

/-- Extended_IMMA.py:1440-1453 `is_buoy`. -/
def isBuoy (r : Report) : Except Err Report := do
  let r ← if r.getint "PT" ∈ [some 6, some 7] then r.setQc "POS" "isbuoy" 1 else r.setQc "POS" "isbuoy" 0
  if r.getint "PT" = some 7 then r.setQc "POS" "isdrifter" 1 else r.setQc "POS" "isdrifter" 0

/-- Extended_IMMA.py:1455-1463 `is_ship`. -/
def isShip (r : Report) : Except Err Report :=
  if r.getint "PT" ∈ [some 0, some 1, some 2, some 3, some 4, some 5, some 10, some 11, some 12, some 17]
  then r.setQc "POS" "isship" 1 else r.setQc "POS" "isship" 0

/-- One round of the loop Extended_IMMA.py:1119-1121. -/
def dptHardStep (r : Report) (t : String × Lim) : Except Err Report := do
  let v ← hardLimit (r.getvar t.1) t.2.lo t.2.hi
  if v = 1 then r.setQc "DPT" "hardlimit" 1 else return r

/-- Extended_IMMA.py:1118-1121. -/
def dptHard (p : BaseParams) (r : Report) : Except Err Report := do
  let r ← r.setQc "DPT" "hardlimit" 0
  let r ← r.dptHardStep ("AT", p.atHard)
  let r ← r.dptHardStep ("DPT", p.dptHard)
  let r ← r.dptHardStep ("SHU", p.shuHard)
  r.dptHardStep ("RH", p.rhHard)

/-- Extended_IMMA.py:1090-1123 `perform_base_qc`. -/
def performBaseQc {F : Type} [LinearOrder F] [Zero F] (elev : Elev F) (p : BaseParams) (r : Report) :
    Except Err Report := do
  let r ← r.doFixMissingHour
  let r ← r.isBuoy
  let r ← r.isShip
  let r ← r.isDeck780
  let r ← r.doPositionCheck
  let r ← r.doDateCheck
  let r ← r.doTimeCheck
  let r ← r.doBlacklist
  let r ← r.doDayCheck elev p.timeSince
  let r ← r.humidityBlacklist
  let r ← r.matBlacklist
  let r ← r.windBlacklist
  let r ← r.doBaseSstQc p
  let r ← r.doBaseMatQc p
  let r ← r.doBaseDptQc p
  let r ← r.doBaseSlpQc p
  let r ← r.doBaseWindQc p
  let r ← r.dptHard p
  r.doKateMatQc p

/-- Extended_IMMA.py:1125-1144 `perform_base_wind_qc`. -/
def performBaseWindQc (p : BaseParams) (r : Report) : Except Err Report := do
  let r ← r.doFixMissingHour
  let r ← r.isBuoy
  let r ← r.isShip
  let r ← r.windBlacklist
  let r ← r.doPositionCheck
  let r ← r.doDateCheck
  let r ← r.doTimeCheck
  let r ← r.doBlacklist
  r.doBaseWindQc p

/-- Extended_IMMA.py:1146-1163 `perform_base_dat_qc`. -/
def performBaseDatQc {F : Type} [LinearOrder F] [Zero F] (elev : Elev F) (p : BaseParams) (r : Report) :
    Except Err Report := do
  let r ← r.doFixMissingHour
  let r ← r.isBuoy
  let r ← r.isShip
  let r ← r.matBlacklist
  let r ← r.doPositionCheck
  let r ← r.doDateCheck
  let r ← r.doTimeCheck
  let r ← r.doBlacklist
  let r ← r.doDayCheck elev p.timeSince
  r.doBaseDatQc p

/-- Extended_IMMA.py:1165-1181 `perform_base_slp_qc`. -/
def performBaseSlpQc {F : Type} [LinearOrder F] [Zero F] (elev : Elev F) (p : BaseParams) (r : Report) :
    Except Err Report := do
  let r ← r.doFixMissingHour
  let r ← r.isBuoy
  let r ← r.isShip
  let r ← r.isDeck780
  let r ← r.doPositionCheck
  let r ← r.doDateCheck
  let r ← r.doTimeCheck
  let r ← r.doBlacklist
  let r ← r.doDayCheck elev p.timeSince
  r.doBaseSlpQc p

/-- Extended_IMMA.py:1183-1199 `perform_base_sst_qc`. -/
def performBaseSstQc {F : Type} [LinearOrder F] [Zero F] (elev : Elev F) (p : BaseParams) (r : Report) :
    Except Err Report := do
  let r ← r.doFixMissingHour
  let r ← r.isBuoy
  let r ← r.isShip
  let r ← r.isDeck780
  let r ← r.doPositionCheck
  let r ← r.doDateCheck
  let r ← r.doTimeCheck
  let r ← r.doBlacklist
  let r ← r.doDayCheck elev p.timeSince
  r.doBaseSstQc p

end Report

end MarineQC
