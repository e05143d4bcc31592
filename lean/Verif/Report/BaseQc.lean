import Verif.Report.QcModel
import Verif.Report.Props
import Verif.Checks.Props
import Verif.Checks.DayTest

/-!
# C34: the base checks of a report
-/

namespace MarineQC

open Spec

/-! ## Writing flags -/

/-- The report after the writes `ws` (key, value), in order. -/
def Report.writes (r : Report) (ws : List (String × Int)) : Report :=
  { r with qc := ws.foldl (fun q w k => if k = w.1 then some w.2 else q k) r.qc }

theorem setQc_writes {r : Report} {t f : String} {v : Int}
    (ht : t ∈ specialQcTypes ∨ t ∈ VARLIST) (hv : v = 0 ∨ v = 1) :
    r.setQc t f v = .ok (r.writes [(t ++ f, v)]) := by
  rw [setQc_ok ht (by omega) (by omega)]
  rfl

theorem writes_writes (r : Report) (a b : List (String × Int)) :
    (r.writes a).writes b = r.writes (a ++ b) := by
  unfold Report.writes
  rw [List.foldl_append]

@[simp] theorem getvar_writes (r : Report) (ws : List (String × Int)) (v : String) :
    (r.writes ws).getvar v = r.getvar v := rfl
@[simp] theorem getint_writes (r : Report) (ws : List (String × Int)) (v : String) :
    (r.writes ws).getint v = r.getint v := rfl
@[simp] theorem getnorm_writes (r : Report) (ws : List (String × Int)) (v : String) :
    (r.writes ws).getnorm v = r.getnorm v := rfl
@[simp] theorem getstdev_writes (r : Report) (ws : List (String × Int)) (v : String) :
    (r.writes ws).getstdev v = r.getstdev v := rfl
@[simp] theorem lat_writes (r : Report) (ws : List (String × Int)) : (r.writes ws).lat = r.lat := rfl
@[simp] theorem lon_writes (r : Report) (ws : List (String × Int)) : (r.writes ws).lon = r.lon := rfl
@[simp] theorem id_writes (r : Report) (ws : List (String × Int)) : (r.writes ws).id = r.id := rfl
@[simp] theorem matExcluded_writes (r : Report) (ws : List (String × Int)) :
    (r.writes ws).matExcluded = r.matExcluded := rfl

/-- Extraction of a step of a sequence. -/
theorem bind_ok_iff {α β : Type} {x : Except Err α} {f : α → Except Err β} {y : β} :
    (x >>= f) = .ok y ↔ ∃ a, x = .ok a ∧ f a = .ok y := by
  cases x with
  | error e => simp
  | ok a => simp

/-! ## Outcomes of checks are 0 or 1 -/

theorem valueCheck_flag (v : Option Rat) : valueCheck v = 0 ∨ valueCheck v = 1 := by
  unfold valueCheck; split <;> simp
theorem noNormalCheck_flag (v : Option Rat) : noNormalCheck v = 0 ∨ noNormalCheck v = 1 := by
  unfold noNormalCheck; split <;> simp
theorem timeCheck_flag (v : Option Rat) : timeCheck v = 0 ∨ timeCheck v = 1 := by
  unfold timeCheck
  cases v with
  | none => simp
  | some h => simp only [Option.isNone_some, Bool.false_eq_true, if_false]; split <;> simp
theorem supersatCheck_flag (a b : Option Rat) : supersatCheck a b = 0 ∨ supersatCheck a b = 1 := by
  unfold supersatCheck; split
  · split <;> simp
  · simp
theorem windConsistency_flag (a b : Option Rat) (c : Rat) :
    windConsistency a b c = 0 ∨ windConsistency a b c = 1 := by
  rw [C21_wind]; split <;> simp
theorem climatologyCheck_flag (a b c : Option Rat) : climatologyCheck a b c = 0 ∨ climatologyCheck a b c = 1 := by
  unfold climatologyCheck; split
  · split <;> simp
  · simp
theorem hardLimit_flag {a : Option Rat} {lo hi : Rat} {v : Int} (h : hardLimit a lo hi = .ok v) :
    v = 0 ∨ v = 1 := by
  unfold hardLimit at h
  rw [pyAssert_bind] at h
  split at h
  · split at h
    · injection h with h; omega
    · split at h <;> · injection h with h; omega
  · cases h
theorem positionCheck_flag {a b : Option Rat} {v : Int} (h : positionCheck a b = .ok v) : v = 0 ∨ v = 1 := by
  unfold positionCheck at h
  split at h
  · simp only [except_pure] at h
    injection h with h
    subst h
    split
    · simp
    · split <;> simp
  · cases h
theorem dateCheck_flag {a b c : Option Int} {v : Int} (h : dateCheck a b c = .ok v) : v = 0 ∨ v = 1 := by
  unfold dateCheck at h
  split at h
  · simp only at h
    split at h
    · injection h with h; omega
    · split at h
      · injection h with h; omega
      · rw [bind_ok_iff] at h
        obtain ⟨l, -, h⟩ := h
        split at h
        · injection h with h; omega
        · injection h with h
          subst h
          split
          · simp
          · split <;> simp
  · cases h
theorem freeze_flag {a b c : Option Rat} {n : Rat} {v : Int} (h : sstFreezeCheck a b c n = .ok v) :
    v = 0 ∨ v = 1 := by
  unfold sstFreezeCheck at h
  split at h
  · split at h
    · split at h <;> · injection h with h; omega
    · injection h with h; omega
  · cases h
theorem lowbar_flag {a b c : Option Rat} {l m : Rat} {v : Int}
    (h : climatologyPlusStdevWithLowbar a b c l m = .ok v) : v = 0 ∨ v = 1 := by
  unfold climatologyPlusStdevWithLowbar at h
  rw [pyAssert_bind] at h
  split at h
  · split at h
    · split at h
      · cases h
      · split at h <;> · injection h with h; omega
    · injection h with h; omega
  · cases h
theorem ite_flag {c d : Prop} [Decidable c] [Decidable d] {e : Err} {v : Int}
    (h : (if c then .error e else if d then pure 1 else pure 0 : Except Err Int) = .ok v) : v = 0 ∨ v = 1 := by
  split at h
  · cases h
  · split at h <;> · injection h with h; omega
theorem ite_flag2 {d : Prop} [Decidable d] {v : Int}
    (h : (if d then pure 1 else pure 0 : Except Err Int) = .ok v) : v = 0 ∨ v = 1 := by
  split at h <;> · injection h with h; omega
theorem stdev_flag {a b c : Option Rat} {lo hi l : Rat} {v : Int}
    (h : climatologyPlusStdevCheck a b c lo hi l = .ok v) : v = 0 ∨ v = 1 := by
  unfold climatologyPlusStdevCheck at h
  rw [pyAssert_bind] at h
  split at h
  · rw [pyAssert_bind] at h
    split at h
    · split at h
      · exact ite_flag h
      · injection h with h; omega
    · cases h
  · cases h
theorem regionLoop_flag {la lo : Option Rat} {l : List Nat} {v w : Int} (hv : v = 0 ∨ v = 1)
    (h : regionLoop la lo l v = .ok w) : w = 0 ∨ w = 1 := by
  induction l generalizing v with
  | nil => injection h with h; omega
  | cons r l ih =>
    unfold regionLoop at h
    split at h
    · cases h
    · refine ih ?_ h
      split
      · simp
      · exact hv
theorem blacklist_flag {a : Option String} {b c d : Option Int} {e f : Option Rat} {g : Option Int} {v : Int}
    (h : blacklist a b c d e f g = .ok v) : v = 0 ∨ v = 1 := by
  unfold blacklist at h
  simp only at h
  rw [bind_ok_iff] at h
  obtain ⟨w, hw, h⟩ := h
  have hw' : w = 0 ∨ w = 1 := by
    unfold blacklistDeck732 at hw
    have hv : ∀ (p q s : Prop) [Decidable p] [Decidable q] [Decidable s],
        (if s then (1 : Int) else if q then 1 else if p then 1 else 0) = 0 ∨
        (if s then (1 : Int) else if q then 1 else if p then 1 else 0) = 1 := by
      intro p q s _ _ _
      split
      · simp
      · split
        · simp
        · split <;> simp
    split at hw
    · split at hw
      · split at hw
        · exact regionLoop_flag (hv _ _ _) hw
        · injection hw with hw; rw [← hw]; exact hv _ _ _
      · injection hw with hw; rw [← hw]; exact hv _ _ _
    · injection hw with hw; rw [← hw]; exact hv _ _ _
  injection h with h
  subst h
  unfold blacklistBuoys
  split
  · split
    · split
      · simp
      · split
        · simp
        · exact hw'
    · split
      · simp
      · exact hw'
  · split
    · simp
    · exact hw'

/-- A computation whose result, if any, is 0 or 1. -/
def Flaggy (x : Except Err Int) : Prop := ∀ v, x = .ok v → v = 0 ∨ v = 1

theorem Flaggy.bind {α : Type} (x : Except Err α) (f : α → Except Err Int) (h : ∀ a, Flaggy (f a)) :
    Flaggy (x >>= f) := by
  intro v hv
  rw [bind_ok_iff] at hv
  obtain ⟨a, -, hv⟩ := hv
  exact h a v hv

theorem Flaggy.ite (c : Prop) [Decidable c] (a b : Except Err Int) (ha : Flaggy a) (hb : Flaggy b) :
    Flaggy (if c then a else b) := by
  split <;> assumption

theorem Flaggy.zero : Flaggy (pure 0) := by intro v hv; injection hv with hv; omega
theorem Flaggy.one : Flaggy (pure 1) := by intro v hv; injection hv with hv; omega
theorem Flaggy.error (e : Err) : Flaggy (.error e) := by intro v hv; cases hv

theorem dayTest_flag {F : Type} [LinearOrder F] [Zero F] {elev : Elev F} {y m d : Option Int}
    {h la : Option Rat} {lo t : Rat} {v : Int} (hv : dayTest elev y m d h la lo t = .ok v) :
    v = 0 ∨ v = 1 := by
  refine (?_ : Flaggy (dayTest elev y m d h la lo t)) v hv
  unfold dayTest
  have key : ∀ (c : Prop) [Decidable c], Flaggy (if c then pure 1 else pure 0) :=
    fun c _ => Flaggy.ite _ _ _ Flaggy.one Flaggy.zero
  split
  · refine Flaggy.bind _ _ fun _ => Flaggy.bind _ _ fun _ => Flaggy.bind _ _ fun _ => Flaggy.bind _ _ fun _ => ?_
    cases y with
    | none => exact Flaggy.zero
    | some y =>
      refine Flaggy.bind _ _ fun _ => ?_
      refine Flaggy.ite _ _ _ (Flaggy.ite _ _ _ ?_ ?_) ?_
      · exact Flaggy.bind _ _ fun _ => Flaggy.bind _ _ fun _ => Flaggy.bind _ _ fun _ => key _
      · exact Flaggy.bind _ _ fun _ => Flaggy.bind _ _ fun _ => key _
      · exact Flaggy.bind _ _ fun _ => Flaggy.bind _ _ fun _ => key _
  · exact Flaggy.error _

/-! ## Each step -/

theorem doPositionCheck_ok {r r' : Report} (h : r.doPositionCheck = .ok r') :
    ∃ v, positionCheck (r.getvar "LAT") (r.getvar "LON") = .ok v ∧ r' = r.writes [("POSpos", v)] := by
  unfold Report.doPositionCheck at h
  rw [bind_ok_iff] at h
  obtain ⟨v, hv, h⟩ := h
  rw [setQc_writes (by decide) (positionCheck_flag hv)] at h
  injection h with h
  exact ⟨v, hv, h.symm⟩

theorem doDateCheck_ok {r r' : Report} (h : r.doDateCheck = .ok r') :
    ∃ v, dateCheck (r.getint "YR") (r.getint "MO") (r.getint "DY") = .ok v ∧
      r' = r.writes [("POSdate", v)] := by
  unfold Report.doDateCheck at h
  rw [bind_ok_iff] at h
  obtain ⟨v, hv, h⟩ := h
  rw [setQc_writes (by decide) (dateCheck_flag hv)] at h
  injection h with h
  exact ⟨v, hv, h.symm⟩

theorem doTimeCheck_eq (r : Report) :
    r.doTimeCheck = .ok (r.writes [("POStime", timeCheck (r.getvar "HR"))]) :=
  setQc_writes (by decide) (timeCheck_flag _)

theorem doBlacklist_ok {r r' : Report} (h : r.doBlacklist = .ok r') :
    ∃ v, blacklist r.id (r.getint "DCK") (r.getint "YR") (r.getint "MO") r.lat r.lon (r.getint "PT") = .ok v ∧
      r' = r.writes [("POSblklst", v)] := by
  unfold Report.doBlacklist at h
  rw [bind_ok_iff] at h
  obtain ⟨v, hv, h⟩ := h
  rw [setQc_writes (by decide) (blacklist_flag hv)] at h
  injection h with h
  exact ⟨v, hv, h.symm⟩

theorem doDayCheck_ok {F : Type} [LinearOrder F] [Zero F] {elev : Elev F} {t : Rat} {r r' : Report}
    (h : r.doDayCheck elev t = .ok r') :
    ∃ v, r' = r.writes [("POSday", v)] ∧
      ((r.getQc "POS" "pos" = 0 ∧ r.getQc "POS" "date" = 0 ∧ r.getQc "POS" "time" = 0) →
        ∃ lon, r.lon = some lon ∧ dayTest elev (r.getint "YR") (r.getint "MO") (r.getint "DY") (r.getvar "HR")
          r.lat lon t = .ok v) ∧
      (¬ (r.getQc "POS" "pos" = 0 ∧ r.getQc "POS" "date" = 0 ∧ r.getQc "POS" "time" = 0) → v = 1) := by
  unfold Report.doDayCheck at h
  split at h
  · rename_i hc
    split at h
    · cases h
    · rename_i lon hlon
      rw [bind_ok_iff] at h
      obtain ⟨v, hv, h⟩ := h
      rw [setQc_writes (by decide) (dayTest_flag hv)] at h
      injection h with h
      exact ⟨v, h.symm, fun _ => ⟨lon, hlon, hv⟩, fun hn => absurd hc hn⟩
  · rename_i hc
    rw [setQc_writes (by decide) (Or.inr rfl)] at h
    injection h with h
    exact ⟨1, h.symm, fun hn => absurd hn hc, fun _ => rfl⟩

theorem doBaseWindQc_ok {p : BaseParams} {r r' : Report} (h : r.doBaseWindQc p = .ok r') :
    ∃ v, hardLimit (r.getvar "W") p.wHard.lo p.wHard.hi = .ok v ∧
      r' = r.writes [("Wnoval", valueCheck (r.getvar "W")), ("Whardlimit", v),
        ("Wconsistency", windConsistency (r.getvar "W") (r.getvar "D") p.wVariableLimit)] := by
  unfold Report.doBaseWindQc at h
  rw [setQc_writes (by decide) (valueCheck_flag _), except_bind_ok, bind_ok_iff] at h
  obtain ⟨v, hv, h⟩ := h
  rw [setQc_writes (by decide) (hardLimit_flag hv), except_bind_ok,
    setQc_writes (by decide) (windConsistency_flag _ _ _), writes_writes, writes_writes] at h
  injection h with h
  exact ⟨v, hv, h.symm⟩

theorem doBaseSlpQc_ok {p : BaseParams} {r r' : Report} (h : r.doBaseSlpQc p = .ok r') :
    ∃ v, climatologyPlusStdevWithLowbar (r.getvar "SLP") (r.getnorm "SLP") (r.getstdev "SLP")
        p.slpMaxStdAnomaly p.slpLowbar = .ok v ∧
      r' = r.writes [("SLPnoval", valueCheck (r.getvar "SLP")), ("SLPclim", v),
        ("SLPnonorm", noNormalCheck (r.getnorm "SLP"))] := by
  unfold Report.doBaseSlpQc at h
  rw [setQc_writes (by decide) (valueCheck_flag _), except_bind_ok, bind_ok_iff] at h
  obtain ⟨v, hv, h⟩ := h
  rw [setQc_writes (by decide) (lowbar_flag hv), except_bind_ok,
    setQc_writes (by decide) (noNormalCheck_flag _), writes_writes, writes_writes] at h
  injection h with h
  exact ⟨v, hv, h.symm⟩

theorem doBaseSstQc_ok {p : BaseParams} {r r' : Report} (h : r.doBaseSstQc p = .ok r') :
    ∃ u v, sstFreezeCheck (r.getvar "SST") (some 0) (some p.sstFreezingPoint) p.sstNSigma = .ok u ∧
      hardLimit (r.getvar "SST") p.sstHard.lo p.sstHard.hi = .ok v ∧
      r' = r.writes [("SSTnoval", valueCheck (r.getvar "SST")), ("SSTfreez", u),
        ("SSTclim", climatologyCheck (r.getvar "SST") (r.getnorm "SST") (some p.sstMaxAnomaly)),
        ("SSTnonorm", noNormalCheck (r.getnorm "SST")), ("SSThardlimit", v)] := by
  unfold Report.doBaseSstQc at h
  rw [setQc_writes (by decide) (valueCheck_flag _), except_bind_ok, bind_ok_iff] at h
  obtain ⟨u, hu, h⟩ := h
  rw [setQc_writes (by decide) (freeze_flag hu), except_bind_ok,
    setQc_writes (by decide) (climatologyCheck_flag _ _ _), except_bind_ok,
    setQc_writes (by decide) (noNormalCheck_flag _), except_bind_ok, bind_ok_iff] at h
  obtain ⟨v, hv, h⟩ := h
  rw [setQc_writes (by decide) (hardLimit_flag hv)] at h
  simp only [writes_writes] at h
  injection h with h
  exact ⟨u, v, hu, hv, h.symm⟩

theorem doBaseMatQc_ok {p : BaseParams} {r r' : Report} (h : r.doBaseMatQc p = .ok r') :
    ∃ v, hardLimit (r.getvar "AT") p.atHard.lo p.atHard.hi = .ok v ∧
      r' = r.writes [("ATnoval", valueCheck (r.getvar "AT")),
        ("ATclim", climatologyCheck (r.getvar "AT") (r.getnorm "AT") (some p.atMaxAnomaly)),
        ("ATnonorm", noNormalCheck (r.getnorm "AT")), ("AThardlimit", v)] := by
  unfold Report.doBaseMatQc at h
  rw [setQc_writes (by decide) (valueCheck_flag _), except_bind_ok,
    setQc_writes (by decide) (climatologyCheck_flag _ _ _), except_bind_ok,
    setQc_writes (by decide) (noNormalCheck_flag _), except_bind_ok, bind_ok_iff] at h
  obtain ⟨v, hv, h⟩ := h
  rw [setQc_writes (by decide) (hardLimit_flag hv)] at h
  simp only [writes_writes] at h
  injection h with h
  exact ⟨v, hv, h.symm⟩

theorem doKateMatQc_ok {p : BaseParams} {r r' : Report} (h : r.doKateMatQc p = .ok r') :
    ∃ u v, climatologyPlusStdevCheck (r.getvar "AT2") (r.getnorm "AT2") (r.getstdev "AT2")
        p.atStdev.lo p.atStdev.hi p.atMaxStdAnomaly = .ok u ∧
      hardLimit (r.getvar "AT") p.atHard.lo p.atHard.hi = .ok v ∧
      r' = r.writes [("AT2clim", u), ("AT2noval", valueCheck (r.getvar "AT2")),
        ("AT2nonorm", noNormalCheck (r.getnorm "AT2")), ("AT2hardlimit", v)] := by
  unfold Report.doKateMatQc at h
  rw [bind_ok_iff] at h
  obtain ⟨u, hu, h⟩ := h
  rw [setQc_writes (by decide) (stdev_flag hu), except_bind_ok,
    setQc_writes (by decide) (valueCheck_flag _), except_bind_ok,
    setQc_writes (by decide) (noNormalCheck_flag _), except_bind_ok, bind_ok_iff] at h
  obtain ⟨v, hv, h⟩ := h
  rw [setQc_writes (by decide) (hardLimit_flag hv)] at h
  simp only [writes_writes] at h
  injection h with h
  exact ⟨u, v, hu, hv, h.symm⟩

theorem doBaseDptQc_ok {p : BaseParams} {r r' : Report} (h : r.doBaseDptQc p = .ok r') :
    ∃ u, climatologyPlusStdevCheck (r.getvar "DPT") (r.getnorm "DPT") (r.getstdev "DPT")
        p.dptStdev.lo p.dptStdev.hi p.dptMaxStdAnomaly = .ok u ∧
      r' = r.writes [("DPTclim", u), ("DPTnoval", valueCheck (r.getvar "DPT")),
        ("DPTnonorm", noNormalCheck (r.getnorm "DPT")),
        ("DPTssat", supersatCheck (r.getvar "DPT") (r.getvar "AT2"))] := by
  unfold Report.doBaseDptQc at h
  rw [bind_ok_iff] at h
  obtain ⟨u, hu, h⟩ := h
  rw [setQc_writes (by decide) (stdev_flag hu), except_bind_ok,
    setQc_writes (by decide) (valueCheck_flag _), except_bind_ok,
    setQc_writes (by decide) (noNormalCheck_flag _), except_bind_ok,
    setQc_writes (by decide) (supersatCheck_flag _ _)] at h
  simp only [writes_writes] at h
  injection h with h
  exact ⟨u, hu, h.symm⟩

theorem isDeck780_eq (r : Report) :
    r.isDeck780 = .ok (r.writes [("POSis780", if r.getint "DCK" = some 780 then 1 else 0)]) := by
  unfold Report.isDeck780
  split <;> exact setQc_writes (by decide) (by simp)

theorem isShip_eq (r : Report) :
    r.isShip = .ok (r.writes [("POSisship",
      if r.getint "PT" ∈ [some 0, some 1, some 2, some 3, some 4, some 5, some 10, some 11, some 12, some 17]
      then 1 else 0)]) := by
  unfold Report.isShip
  split <;> exact setQc_writes (by decide) (by simp)

theorem isBuoy_eq (r : Report) :
    r.isBuoy = .ok (r.writes [("POSisbuoy", if r.getint "PT" ∈ [some 6, some 7] then 1 else 0),
      ("POSisdrifter", if r.getint "PT" = some 7 then 1 else 0)]) := by
  unfold Report.isBuoy
  have key : ∀ a : Int, (if (r.writes [("POSisbuoy", a)]).getint "PT" = some 7
      then (r.writes [("POSisbuoy", a)]).setQc "POS" "isdrifter" 1
      else (r.writes [("POSisbuoy", a)]).setQc "POS" "isdrifter" 0) =
      .ok (r.writes [("POSisbuoy", a), ("POSisdrifter", if r.getint "PT" = some 7 then 1 else 0)]) := by
    intro a
    by_cases h2 : r.getint "PT" = some 7
    · rw [if_pos (by exact h2), if_pos h2, setQc_writes (by decide) (by simp), writes_writes]; rfl
    · rw [if_neg (by exact h2), if_neg h2, setQc_writes (by decide) (by simp), writes_writes]; rfl
  by_cases h1 : r.getint "PT" ∈ [some 6, some 7]
  · rw [if_pos h1, if_pos h1, setQc_writes (by decide) (by simp), except_bind_ok]
    exact key 1
  · rw [if_neg h1, if_neg h1, setQc_writes (by decide) (by simp), except_bind_ok]
    exact key 0

theorem writes_overwrite (r : Report) (k : String) (a b : Int) (l : List (String × Int)) :
    r.writes ((k, a) :: (k, b) :: l) = r.writes ((k, b) :: l) := by
  unfold Report.writes
  simp only [List.foldl_cons]
  congr 2
  funext x
  by_cases h : x = k <;> simp [h]

theorem windBlacklist_eq (r : Report) :
    r.windBlacklist = .ok (r.writes [("Wwind_blacklist",
      if r.getint "DCK" ∈ [some 708, some 780] then 1 else 0)]) := by
  unfold Report.windBlacklist
  rw [setQc_writes (by decide) (by simp), except_bind_ok, getint_writes]
  split
  · rw [setQc_writes (by decide) (by simp), writes_writes]
    exact congrArg _ (writes_overwrite r "Wwind_blacklist" 0 1 [])
  · rfl

theorem humidityBlacklist_eq (r : Report) :
    r.humidityBlacklist = .ok (r.writes [("DPThum_blacklist",
      if r.getint "PT" ∈ [some 0, some 1, some 2, some 3, some 4, some 5, some 6, some 8, some 9,
        some 10, some 15] then 0 else 1)]) := by
  unfold Report.humidityBlacklist
  rw [setQc_writes (by decide) (by simp), except_bind_ok, getint_writes]
  split
  · rw [setQc_writes (by decide) (by simp), writes_writes]
    exact congrArg _ (writes_overwrite r "DPThum_blacklist" 0 0 [])
  · rw [setQc_writes (by decide) (by simp), writes_writes]
    exact congrArg _ (writes_overwrite r "DPThum_blacklist" 0 1 [])

theorem matBlacklist_eq (r : Report) :
    r.matBlacklist = .ok (r.writes [("ATmat_blacklist",
      if (r.getint "PT" = some 5 ∧ r.getint "DCK" = some 780) ∨ r.matExcluded = true then 1 else 0)]) := by
  unfold Report.matBlacklist
  have key : ∀ a, (if (r.writes [("ATmat_blacklist", a)]).matExcluded
      then (r.writes [("ATmat_blacklist", a)]).setQc "AT" "mat_blacklist" 1
      else pure (r.writes [("ATmat_blacklist", a)])) =
      .ok (r.writes [("ATmat_blacklist", if r.matExcluded then 1 else a)]) := by
    intro a
    by_cases h2 : r.matExcluded
    · rw [if_pos (by exact h2), if_pos h2, setQc_writes (by decide) (by simp), writes_writes]
      exact congrArg _ (writes_overwrite r "ATmat_blacklist" a 1 [])
    · rw [if_neg (by exact h2), if_neg h2]; rfl
  rw [setQc_writes (by decide) (by simp), except_bind_ok, getint_writes, getint_writes]
  by_cases h1 : r.getint "PT" = some 5 ∧ r.getint "DCK" = some 780
  · rw [if_pos h1, if_pos (Or.inl h1), setQc_writes (by decide) (by simp), except_bind_ok, writes_writes]
    have := writes_overwrite r "ATmat_blacklist" 0 1 []
    refine Eq.trans ?_ ((key 1).trans ?_)
    · show (if (r.writes [("ATmat_blacklist", 0), ("ATmat_blacklist", 1)]).matExcluded = true then _ else _) = _
      simp only [List.cons_append, List.nil_append]
      rw [show ("AT" ++ "mat_blacklist") = "ATmat_blacklist" from by decide, this]
    · split <;> rfl
  · rw [if_neg h1]
    refine (key 0).trans ?_
    by_cases h2 : r.matExcluded = true
    · rw [if_pos h2, if_pos (Or.inr h2)]
    · rw [if_neg h2, if_neg (by tauto)]

theorem btw_iff (a b : Rat) (x : Option Rat) : Report.btw a x b = true ↔ ∃ v, x = some v ∧ a ≤ v ∧ v ≤ b := by
  cases x <;> simp [Report.btw, Report.geOpt, Report.leOpt]

theorem matExcluded_iff (r : Report) :
    (r.getint "PT" = some 5 ∧ r.getint "DCK" = some 780) ∨ r.matExcluded = true ↔
      MatBlacklisted (r.getint "PT") (r.getint "DCK") (r.getvar "YR") r.lat r.lon := by
  unfold MatBlacklisted
  refine or_congr Iff.rfl ?_
  unfold Report.matExcluded
  rw [Bool.and_assoc (Report.btw 15 r.lon 95), show (Report.geOpt (-10) r.lat && Report.leOpt r.lat 15) = Report.btw (-10) r.lat 15 from rfl]
  simp only [Bool.and_eq_true, Bool.or_eq_true, btw_iff, decide_eq_true_eq]
  rw [and_assoc]
  refine and_congr Iff.rfl (and_congr Iff.rfl ?_)
  unfold matBoxes
  simp only [List.mem_cons, List.not_mem_nil, or_false, exists_eq_or_imp, exists_eq_left]
  generalize r.lat = la
  generalize r.lon = lo
  cases la with
  | none => simp
  | some la =>
    cases lo with
    | none => simp
    | some lo =>
      simp only [Option.some.injEq, exists_eq_left', and_assoc, or_assoc]
      constructor
      · intro h
        exact ⟨_, _, rfl, rfl, h⟩
      · rintro ⟨_, _, rfl, rfl, h⟩
        exact h

theorem dptHardStep_ok {r r' : Report} {t : String × Lim} (h : r.dptHardStep t = .ok r') :
    ∃ v, hardLimit (r.getvar t.1) t.2.lo t.2.hi = .ok v ∧
      r' = r.writes (if v = 1 then [("DPThardlimit", 1)] else []) := by
  unfold Report.dptHardStep at h
  rw [bind_ok_iff] at h
  obtain ⟨v, hv, h⟩ := h
  refine ⟨v, hv, ?_⟩
  split at h
  · rename_i h1
    rw [setQc_writes (by decide) (by simp)] at h
    injection h with h
    rw [if_pos h1, ← h]; rfl
  · rename_i h1
    injection h with h
    rw [if_neg h1, ← h]; rfl

theorem dptHard_ok {p : BaseParams} {r r' : Report} (h : r.dptHard p = .ok r') :
    ∃ a b c d, hardLimit (r.getvar "AT") p.atHard.lo p.atHard.hi = .ok a ∧
      hardLimit (r.getvar "DPT") p.dptHard.lo p.dptHard.hi = .ok b ∧
      hardLimit (r.getvar "SHU") p.shuHard.lo p.shuHard.hi = .ok c ∧
      hardLimit (r.getvar "RH") p.rhHard.lo p.rhHard.hi = .ok d ∧
      r' = r.writes [("DPThardlimit", if a = 1 ∨ b = 1 ∨ c = 1 ∨ d = 1 then 1 else 0)] := by
  unfold Report.dptHard at h
  rw [setQc_writes (by decide) (by simp), except_bind_ok] at h
  simp only [bind_ok_iff] at h
  obtain ⟨r1, h1, r2, h2, r3, h3, h4⟩ := h
  obtain ⟨a, ha, rfl⟩ := dptHardStep_ok h1
  obtain ⟨b, hb, rfl⟩ := dptHardStep_ok h2
  obtain ⟨c, hc, rfl⟩ := dptHardStep_ok h3
  obtain ⟨d, hd, rfl⟩ := dptHardStep_ok h4
  refine ⟨a, b, c, d, ha, hb, hc, hd, ?_⟩
  simp only [writes_writes]
  rw [show ("DPT" ++ "hardlimit") = "DPThardlimit" from by decide]
  have e := writes_overwrite r "DPThardlimit"
  by_cases h1 : a = 1 <;> by_cases h2 : b = 1 <;> by_cases h3 : c = 1 <;> by_cases h4 : d = 1 <;>
    simp [h1, h2, h3, h4, e]

/-! ## The whole sequence -/

/-- The keys written by `perform_base_qc`. -/
def baseKeys : List String :=
  ["POSisbuoy", "POSisdrifter", "POSisship", "POSis780", "POSpos", "POSdate", "POStime", "POSblklst", "POSday",
   "DPThum_blacklist", "ATmat_blacklist", "Wwind_blacklist", "SSTnoval", "SSTfreez", "SSTclim", "SSTnonorm",
   "SSThardlimit", "ATnoval", "ATclim", "ATnonorm", "AThardlimit", "DPTclim", "DPTnoval", "DPTnonorm",
   "DPTssat", "SLPnoval", "SLPclim", "SLPnonorm", "Wnoval", "Whardlimit", "Wconsistency", "DPThardlimit",
   "AT2clim", "AT2noval", "AT2nonorm", "AT2hardlimit"]

/-- The value under a key after writes. -/
def lookupW (ws : List (String × Int)) (k : String) (d : Option Int) : Option Int :=
  ws.foldl (fun o w => if k = w.1 then some w.2 else o) d

theorem writes_qc (r : Report) (ws : List (String × Int)) (k : String) :
    (r.writes ws).qc k = lookupW ws k (r.qc k) := by
  unfold Report.writes lookupW
  simp only
  induction ws using List.reverseRecOn with
  | nil => rfl
  | append_singleton ws w ih =>
    rw [List.foldl_append, List.foldl_append]
    simp only [List.foldl_cons, List.foldl_nil]
    rw [ih]

/-- `do_fix_missing_hour`: a report of deck 701 from before 1860 (or without a year) and without an hour gets
hour 0, and its timestamp is recalculated; any other report is unchanged.  Nothing else changes. -/
theorem C34_missing_hour (r s : Report) (h : r.doFixMissingHour = .ok s) :
    (¬ (r.getint "DCK" = some 701 ∧ (∀ y, r.getint "YR" = some y → y < 1860) ∧ r.getvar "HR" = none) → s = r) ∧
    ((r.getint "DCK" = some 701 ∧ (∀ y, r.getint "YR" = some y → y < 1860) ∧ r.getvar "HR" = none) →
      s.getvar "HR" = some 0 ∧
      s.dt = timestamp (r.getint "YR") (r.getint "MO") (r.getint "DY") (some 0)) ∧
    (∀ v, v ≠ "HR" → s.getvar v = r.getvar v) ∧ s.qc = r.qc ∧ s.id = r.id ∧ s.clim = r.clim ∧ s.ext = r.ext := by
  have hearly : (match r.getint "YR" with | some y => decide (y < 1860) | none => true : Bool) = true ↔
      ∀ y, r.getint "YR" = some y → y < 1860 := by
    cases r.getint "YR" with
    | none => simp
    | some y => simp
  have h' : (if r.getint "DCK" = some 701 ∧
      (match r.getint "YR" with | some y => decide (y < 1860) | none => true : Bool) = true ∧ r.getvar "HR" = none
      then (do
        let r ← raising (r.setvar "HR" (some 0))
        let d ← r.computeDt
        return { r with dt := d })
      else .ok r) = .ok s := h
  clear h
  rename' h' => h
  simp only [hearly] at h
  by_cases hc : r.getint "DCK" = some 701 ∧ (∀ y, r.getint "YR" = some y → y < 1860) ∧ r.getvar "HR" = none
  · rw [if_pos hc, bind_ok_iff] at h
    obtain ⟨t, ht, h⟩ := h
    rw [bind_ok_iff] at h
    obtain ⟨d, hd, h⟩ := h
    injection h with h
    have hds := C31_timestamp_value t d hd
    have hdata : ∀ k ∈ VARLIST, t.data k = if k = "HR" then some 0 else r.data k := by
      intro k hk
      have h1 := setvar_data r "HR" (some 0) k hk
      have h2 : (r.setvar "HR" (some 0)).1 = t := by
        unfold raising at ht
        split at ht
        · injection ht
        · cases ht
      rw [h2] at h1
      exact h1
    have hoth := setvar_other r "HR" (some 0)
    have h2 : (r.setvar "HR" (some 0)).1 = t := by
      unfold raising at ht
      split at ht
      · injection ht
      · cases ht
    rw [h2] at hoth
    subst h
    have hgi : ∀ k, k ≠ "HR" → k ∈ VARLIST → t.getint k = r.getint k := by
      intro k hk hv
      unfold Report.getint
      rw [hdata k hv, if_neg hk]
    have hhr : t.getvar "HR" = some 0 := by rw [getvar_HR, hdata _ (by decide)]; rfl
    refine ⟨fun hn => absurd hc hn, fun _ => ⟨hhr, ?_⟩, ?_, hoth.2.2.1, hoth.1, hoth.2.2.2.1, hoth.2.2.2.2⟩
    · show d = _
      rw [hds, hhr, hgi "YR" (by decide) (by decide), hgi "MO" (by decide) (by decide),
        hgi "DY" (by decide) (by decide)]
    · intro v hv
      show t.getvar v = r.getvar v
      unfold Report.getvar
      rw [hoth.2.2.2.2]
      by_cases hm : v ∈ VARLIST
      · rw [hdata v hm, if_neg hv]
      · simp only [if_neg hm]
  · rw [if_neg hc] at h
    injection h with h
    subst h
    exact ⟨fun _ => rfl, fun h => absurd h hc, fun _ _ => rfl, rfl, rfl, rfl, rfl⟩

/-! ### The same on a report already written to -/

theorem isDeck780_eq' (r : Report) (ws : List (String × Int)) :
    (r.writes ws).isDeck780 = .ok (r.writes (ws ++ [("POSis780", if r.getint "DCK" = some 780 then 1 else 0)])) :=
  (isDeck780_eq (r.writes ws)).trans (by rw [writes_writes]; try rfl)

theorem isShip_eq' (r : Report) (ws : List (String × Int)) :
    (r.writes ws).isShip = .ok (r.writes (ws ++ [("POSisship",
      if r.getint "PT" ∈ [some 0, some 1, some 2, some 3, some 4, some 5, some 10, some 11, some 12, some 17]
      then 1 else 0)])) :=
  (isShip_eq (r.writes ws)).trans (by rw [writes_writes]; try rfl)

theorem isBuoy_eq' (r : Report) (ws : List (String × Int)) :
    (r.writes ws).isBuoy = .ok (r.writes (ws ++ [("POSisbuoy", if r.getint "PT" ∈ [some 6, some 7] then 1 else 0),
      ("POSisdrifter", if r.getint "PT" = some 7 then 1 else 0)])) :=
  (isBuoy_eq (r.writes ws)).trans (by rw [writes_writes]; try rfl)

theorem windBlacklist_eq' (r : Report) (ws : List (String × Int)) :
    (r.writes ws).windBlacklist = .ok (r.writes (ws ++ [("Wwind_blacklist",
      if r.getint "DCK" ∈ [some 708, some 780] then 1 else 0)])) :=
  (windBlacklist_eq (r.writes ws)).trans (by rw [writes_writes]; try rfl)

theorem humidityBlacklist_eq' (r : Report) (ws : List (String × Int)) :
    (r.writes ws).humidityBlacklist = .ok (r.writes (ws ++ [("DPThum_blacklist",
      if r.getint "PT" ∈ [some 0, some 1, some 2, some 3, some 4, some 5, some 6, some 8, some 9,
        some 10, some 15] then 0 else 1)])) :=
  (humidityBlacklist_eq (r.writes ws)).trans (by rw [writes_writes]; try rfl)

theorem matBlacklist_eq' (r : Report) (ws : List (String × Int)) :
    (r.writes ws).matBlacklist = .ok (r.writes (ws ++ [("ATmat_blacklist",
      if (r.getint "PT" = some 5 ∧ r.getint "DCK" = some 780) ∨ r.matExcluded = true then 1 else 0)])) :=
  (matBlacklist_eq (r.writes ws)).trans (by rw [writes_writes]; try rfl)

theorem doTimeCheck_eq' (r : Report) (ws : List (String × Int)) :
    (r.writes ws).doTimeCheck = .ok (r.writes (ws ++ [("POStime", timeCheck (r.getvar "HR"))])) :=
  (doTimeCheck_eq (r.writes ws)).trans (by rw [writes_writes]; try rfl)

theorem doPositionCheck_ok' {r r' : Report} {ws : List (String × Int)}
    (h : (r.writes ws).doPositionCheck = .ok r') :
    ∃ v, positionCheck (r.getvar "LAT") (r.getvar "LON") = .ok v ∧ r' = r.writes (ws ++ [("POSpos", v)]) := by
  obtain ⟨v, h0, h'⟩ := doPositionCheck_ok h
  exact ⟨v, h0, by rw [h', writes_writes]; try rfl⟩

theorem doDateCheck_ok' {r r' : Report} {ws : List (String × Int)}
    (h : (r.writes ws).doDateCheck = .ok r') :
    ∃ v, dateCheck (r.getint "YR") (r.getint "MO") (r.getint "DY") = .ok v ∧
      r' = r.writes (ws ++ [("POSdate", v)]) := by
  obtain ⟨v, h0, h'⟩ := doDateCheck_ok h
  exact ⟨v, h0, by rw [h', writes_writes]; try rfl⟩

theorem doBlacklist_ok' {r r' : Report} {ws : List (String × Int)}
    (h : (r.writes ws).doBlacklist = .ok r') :
    ∃ v, blacklist r.id (r.getint "DCK") (r.getint "YR") (r.getint "MO") r.lat r.lon (r.getint "PT") = .ok v ∧
      r' = r.writes (ws ++ [("POSblklst", v)]) := by
  obtain ⟨v, h0, h'⟩ := doBlacklist_ok h
  exact ⟨v, h0, by rw [h', writes_writes]; try rfl⟩

theorem doBaseWindQc_ok' {p : BaseParams} {r r' : Report} {ws : List (String × Int)}
    (h : (r.writes ws).doBaseWindQc p = .ok r') :
    ∃ v, hardLimit (r.getvar "W") p.wHard.lo p.wHard.hi = .ok v ∧
      r' = r.writes (ws ++ [("Wnoval", valueCheck (r.getvar "W")), ("Whardlimit", v),
        ("Wconsistency", windConsistency (r.getvar "W") (r.getvar "D") p.wVariableLimit)]) := by
  obtain ⟨v, h0, h'⟩ := doBaseWindQc_ok h
  exact ⟨v, h0, by rw [h', writes_writes]; try rfl⟩

theorem doBaseSlpQc_ok' {p : BaseParams} {r r' : Report} {ws : List (String × Int)}
    (h : (r.writes ws).doBaseSlpQc p = .ok r') :
    ∃ v, climatologyPlusStdevWithLowbar (r.getvar "SLP") (r.getnorm "SLP") (r.getstdev "SLP")
        p.slpMaxStdAnomaly p.slpLowbar = .ok v ∧
      r' = r.writes (ws ++ [("SLPnoval", valueCheck (r.getvar "SLP")), ("SLPclim", v),
        ("SLPnonorm", noNormalCheck (r.getnorm "SLP"))]) := by
  obtain ⟨v, h0, h'⟩ := doBaseSlpQc_ok h
  exact ⟨v, h0, by rw [h', writes_writes]; try rfl⟩

theorem doBaseSstQc_ok' {p : BaseParams} {r r' : Report} {ws : List (String × Int)}
    (h : (r.writes ws).doBaseSstQc p = .ok r') :
    ∃ u v, sstFreezeCheck (r.getvar "SST") (some 0) (some p.sstFreezingPoint) p.sstNSigma = .ok u ∧
      hardLimit (r.getvar "SST") p.sstHard.lo p.sstHard.hi = .ok v ∧
      r' = r.writes (ws ++ [("SSTnoval", valueCheck (r.getvar "SST")), ("SSTfreez", u),
        ("SSTclim", climatologyCheck (r.getvar "SST") (r.getnorm "SST") (some p.sstMaxAnomaly)),
        ("SSTnonorm", noNormalCheck (r.getnorm "SST")), ("SSThardlimit", v)]) := by
  obtain ⟨u, v, h0, h1, h'⟩ := doBaseSstQc_ok h
  exact ⟨u, v, h0, h1, by rw [h', writes_writes]; try rfl⟩

theorem doBaseMatQc_ok' {p : BaseParams} {r r' : Report} {ws : List (String × Int)}
    (h : (r.writes ws).doBaseMatQc p = .ok r') :
    ∃ v, hardLimit (r.getvar "AT") p.atHard.lo p.atHard.hi = .ok v ∧
      r' = r.writes (ws ++ [("ATnoval", valueCheck (r.getvar "AT")),
        ("ATclim", climatologyCheck (r.getvar "AT") (r.getnorm "AT") (some p.atMaxAnomaly)),
        ("ATnonorm", noNormalCheck (r.getnorm "AT")), ("AThardlimit", v)]) := by
  obtain ⟨v, h0, h'⟩ := doBaseMatQc_ok h
  exact ⟨v, h0, by rw [h', writes_writes]; try rfl⟩

theorem doKateMatQc_ok' {p : BaseParams} {r r' : Report} {ws : List (String × Int)}
    (h : (r.writes ws).doKateMatQc p = .ok r') :
    ∃ u v, climatologyPlusStdevCheck (r.getvar "AT2") (r.getnorm "AT2") (r.getstdev "AT2")
        p.atStdev.lo p.atStdev.hi p.atMaxStdAnomaly = .ok u ∧
      hardLimit (r.getvar "AT") p.atHard.lo p.atHard.hi = .ok v ∧
      r' = r.writes (ws ++ [("AT2clim", u), ("AT2noval", valueCheck (r.getvar "AT2")),
        ("AT2nonorm", noNormalCheck (r.getnorm "AT2")), ("AT2hardlimit", v)]) := by
  obtain ⟨u, v, h0, h1, h'⟩ := doKateMatQc_ok h
  exact ⟨u, v, h0, h1, by rw [h', writes_writes]; try rfl⟩

theorem doBaseDptQc_ok' {p : BaseParams} {r r' : Report} {ws : List (String × Int)}
    (h : (r.writes ws).doBaseDptQc p = .ok r') :
    ∃ u, climatologyPlusStdevCheck (r.getvar "DPT") (r.getnorm "DPT") (r.getstdev "DPT")
        p.dptStdev.lo p.dptStdev.hi p.dptMaxStdAnomaly = .ok u ∧
      r' = r.writes (ws ++ [("DPTclim", u), ("DPTnoval", valueCheck (r.getvar "DPT")),
        ("DPTnonorm", noNormalCheck (r.getnorm "DPT")),
        ("DPTssat", supersatCheck (r.getvar "DPT") (r.getvar "AT2"))]) := by
  obtain ⟨u, h0, h'⟩ := doBaseDptQc_ok h
  exact ⟨u, h0, by rw [h', writes_writes]; try rfl⟩

theorem dptHard_ok' {p : BaseParams} {r r' : Report} {ws : List (String × Int)}
    (h : (r.writes ws).dptHard p = .ok r') :
    ∃ a b c d, hardLimit (r.getvar "AT") p.atHard.lo p.atHard.hi = .ok a ∧
      hardLimit (r.getvar "DPT") p.dptHard.lo p.dptHard.hi = .ok b ∧
      hardLimit (r.getvar "SHU") p.shuHard.lo p.shuHard.hi = .ok c ∧
      hardLimit (r.getvar "RH") p.rhHard.lo p.rhHard.hi = .ok d ∧
      r' = r.writes (ws ++ [("DPThardlimit", if a = 1 ∨ b = 1 ∨ c = 1 ∨ d = 1 then 1 else 0)]) := by
  obtain ⟨a, b, c, d, h0, h1, h2, h3, h'⟩ := dptHard_ok h
  exact ⟨a, b, c, d, h0, h1, h2, h3, by rw [h', writes_writes]; try rfl⟩

theorem lookupW_nil (k : String) (d : Option Int) : lookupW [] k d = d := rfl

theorem lookupW_hit {k k' : String} (h : k = k') (v : Int) (d : Option Int) :
    lookupW [(k', v)] k d = some v := by
  simp [lookupW, h]

theorem lookupW_cons (k k' : String) (v : Int) (l : List (String × Int)) (d : Option Int) :
    lookupW ((k', v) :: l) k d = lookupW l k (if k = k' then some v else d) := rfl

theorem flagIff_of {r : Report} {k : String} {c : Prop} [Decidable c]
    (h : r.qc k = some (if c then 1 else 0)) : FlagIff r k c :=
  ⟨fun hc => by rw [h, if_pos hc], fun hc => by rw [h, if_neg hc]⟩

/-- C34: after `perform_base_qc` has run on a report, every flag it sets has the value of its check applied to
the report's variables, whatever the flags were before; no other flag and no variable changes, apart from the
missing hour of deck 701 (`C34_missing_hour`).  `s` is the report with that hour filled in.

Partial: the property says more of the dew-point hard-limit flag, see `C34_hardlimit_violation`, and the
statement is about runs that do not raise, see `C34_completes`. -/
theorem C34_base_flags_partial {F : Type} [LinearOrder F] [Zero F] (elev : Elev F) (p : BaseParams)
    (r r' : Report) (h : r.performBaseQc elev p = .ok r') :
    ∃ s, r.doFixMissingHour = .ok s ∧ (∃ q, r' = { s with qc := q }) ∧
      -- platform and deck
      FlagIff r' "POSisbuoy" (s.getint "PT" ∈ [some 6, some 7]) ∧
      FlagIff r' "POSisdrifter" (s.getint "PT" = some 7) ∧
      FlagIff r' "POSisship" (s.getint "PT" ∈ [some 0, some 1, some 2, some 3, some 4, some 5, some 10, some 11,
        some 12, some 17]) ∧
      FlagIff r' "POSis780" (s.getint "DCK" = some 780) ∧
      -- position and time
      FlagIs r' "POSpos" (positionCheck (s.getvar "LAT") (s.getvar "LON")) ∧
      FlagIs r' "POSdate" (dateCheck (s.getint "YR") (s.getint "MO") (s.getint "DY")) ∧
      FlagIs r' "POStime" (.ok (timeCheck (s.getvar "HR"))) ∧
      FlagIs r' "POSblklst" (blacklist s.id (s.getint "DCK") (s.getint "YR") (s.getint "MO") s.lat s.lon
        (s.getint "PT")) ∧
      ((r'.qc "POSpos" = some 0 ∧ r'.qc "POSdate" = some 0 ∧ r'.qc "POStime" = some 0) →
        ∃ lon, s.lon = some lon ∧
          FlagIs r' "POSday" (dayTest elev (s.getint "YR") (s.getint "MO") (s.getint "DY") (s.getvar "HR") s.lat
            lon p.timeSince)) ∧
      ((r'.qc "POSpos" = some 1 ∨ r'.qc "POSdate" = some 1 ∨ r'.qc "POStime" = some 1) →
        r'.qc "POSday" = some 1) ∧
      -- blacklists
      FlagIff r' "DPThum_blacklist" (s.getint "PT" ∉ [some 0, some 1, some 2, some 3, some 4, some 5, some 6,
        some 8, some 9, some 10, some 15]) ∧
      FlagIff r' "ATmat_blacklist" (MatBlacklisted (s.getint "PT") (s.getint "DCK") (s.getvar "YR") s.lat s.lon) ∧
      FlagIff r' "Wwind_blacklist" (s.getint "DCK" ∈ [some 708, some 780]) ∧
      -- sea-surface temperature
      FlagIs r' "SSTnoval" (.ok (valueCheck (s.getvar "SST"))) ∧
      FlagIs r' "SSTfreez" (sstFreezeCheck (s.getvar "SST") (some 0) (some p.sstFreezingPoint) p.sstNSigma) ∧
      FlagIs r' "SSTclim" (.ok (climatologyCheck (s.getvar "SST") (s.getnorm "SST") (some p.sstMaxAnomaly))) ∧
      FlagIs r' "SSTnonorm" (.ok (noNormalCheck (s.getnorm "SST"))) ∧
      FlagIs r' "SSThardlimit" (hardLimit (s.getvar "SST") p.sstHard.lo p.sstHard.hi) ∧
      -- air temperature
      FlagIs r' "ATnoval" (.ok (valueCheck (s.getvar "AT"))) ∧
      FlagIs r' "ATclim" (.ok (climatologyCheck (s.getvar "AT") (s.getnorm "AT") (some p.atMaxAnomaly))) ∧
      FlagIs r' "ATnonorm" (.ok (noNormalCheck (s.getnorm "AT"))) ∧
      FlagIs r' "AThardlimit" (hardLimit (s.getvar "AT") p.atHard.lo p.atHard.hi) ∧
      -- dew point
      FlagIs r' "DPTclim" (climatologyPlusStdevCheck (s.getvar "DPT") (s.getnorm "DPT") (s.getstdev "DPT")
        p.dptStdev.lo p.dptStdev.hi p.dptMaxStdAnomaly) ∧
      FlagIs r' "DPTnoval" (.ok (valueCheck (s.getvar "DPT"))) ∧
      FlagIs r' "DPTnonorm" (.ok (noNormalCheck (s.getnorm "DPT"))) ∧
      FlagIs r' "DPTssat" (.ok (supersatCheck (s.getvar "DPT") (s.getvar "AT2"))) ∧
      FlagIff r' "DPThardlimit" (hardLimit (s.getvar "AT") p.atHard.lo p.atHard.hi = .ok 1 ∨
        hardLimit (s.getvar "DPT") p.dptHard.lo p.dptHard.hi = .ok 1 ∨
        hardLimit (s.getvar "SHU") p.shuHard.lo p.shuHard.hi = .ok 1 ∨
        hardLimit (s.getvar "RH") p.rhHard.lo p.rhHard.hi = .ok 1) ∧
      -- pressure
      FlagIs r' "SLPnoval" (.ok (valueCheck (s.getvar "SLP"))) ∧
      FlagIs r' "SLPclim" (climatologyPlusStdevWithLowbar (s.getvar "SLP") (s.getnorm "SLP") (s.getstdev "SLP")
        p.slpMaxStdAnomaly p.slpLowbar) ∧
      FlagIs r' "SLPnonorm" (.ok (noNormalCheck (s.getnorm "SLP"))) ∧
      -- wind
      FlagIs r' "Wnoval" (.ok (valueCheck (s.getvar "W"))) ∧
      FlagIs r' "Whardlimit" (hardLimit (s.getvar "W") p.wHard.lo p.wHard.hi) ∧
      FlagIs r' "Wconsistency" (.ok (windConsistency (s.getvar "W") (s.getvar "D") p.wVariableLimit)) ∧
      -- second air temperature
      FlagIs r' "AT2clim" (climatologyPlusStdevCheck (s.getvar "AT2") (s.getnorm "AT2") (s.getstdev "AT2")
        p.atStdev.lo p.atStdev.hi p.atMaxStdAnomaly) ∧
      FlagIs r' "AT2noval" (.ok (valueCheck (s.getvar "AT2"))) ∧
      FlagIs r' "AT2nonorm" (.ok (noNormalCheck (s.getnorm "AT2"))) ∧
      FlagIs r' "AT2hardlimit" (hardLimit (s.getvar "AT") p.atHard.lo p.atHard.hi) ∧
      -- everything else
      (∀ k, k ∉ baseKeys → r'.qc k = r.qc k) := by
  have hq : ∀ s, r.doFixMissingHour = .ok s → s.qc = r.qc := fun s hs => (C34_missing_hour r s hs).2.2.2.1
  unfold Report.performBaseQc at h
  simp only [bind_ok_iff, isBuoy_eq, isShip_eq', isDeck780_eq', Except.ok.injEq, exists_eq_left', List.cons_append,
    List.nil_append] at h
  obtain ⟨s, hs, r1, h1, r2, h2, h⟩ := h
  obtain ⟨pos, hpos, rfl⟩ := doPositionCheck_ok' h1
  obtain ⟨date, hdate, rfl⟩ := doDateCheck_ok' h2
  simp only [doTimeCheck_eq', Except.ok.injEq, exists_eq_left', List.cons_append, List.nil_append] at h
  obtain ⟨r3, h3, r4, h4, h⟩ := h
  obtain ⟨blk, hblk, rfl⟩ := doBlacklist_ok' h3
  obtain ⟨day, rfl, hday1, hday2⟩ := doDayCheck_ok h4
  simp only [writes_writes, humidityBlacklist_eq', matBlacklist_eq', windBlacklist_eq', Except.ok.injEq,
    exists_eq_left', List.cons_append, List.nil_append] at h
  obtain ⟨r5, h5, r6, h6, r7, h7, r8, h8, r9, h9, r10, h10, h11⟩ := h
  obtain ⟨fr, sst, hfr, hsst, rfl⟩ := doBaseSstQc_ok' h5
  obtain ⟨at', hat, rfl⟩ := doBaseMatQc_ok' h6
  obtain ⟨dptc, hdptc, rfl⟩ := doBaseDptQc_ok' h7
  obtain ⟨slp, hslp, rfl⟩ := doBaseSlpQc_ok' h8
  obtain ⟨w, hw, rfl⟩ := doBaseWindQc_ok' h9
  obtain ⟨ha, hb, hc, hd, hha, hhb, hhc, hhd, rfl⟩ := dptHard_ok' h10
  obtain ⟨kc, kh, hkc, hkh, rfl⟩ := doKateMatQc_ok' h11
  replace hq := hq s hs
  clear h1 h2 h3 h4 h5 h6 h7 h8 h9 h10 h11
  simp only [getvar_writes, getint_writes, lat_writes, lon_writes, List.cons_append, List.nil_append] at hday1 hday2
  have g : ∀ (R : Report) (t f : String) (v : Int), R.qc (t ++ f) = some v → R.getQc t f = v := by
    intro R t f v h
    unfold Report.getQc
    rw [h]
  rw [g _ "POS" "pos" pos (by rw [writes_qc]; simp [lookupW_cons, lookupW_nil]),
    g _ "POS" "date" date (by rw [writes_qc]; simp [lookupW_cons, lookupW_nil]),
    g _ "POS" "time" (timeCheck (s.getvar "HR")) (by rw [writes_qc]; simp [lookupW_cons, lookupW_nil])]
    at hday1 hday2
  simp only [List.cons_append, List.nil_append]
  have hpos' := positionCheck_flag hpos
  have hdate' := dateCheck_flag hdate
  have htime' := timeCheck_flag (s.getvar "HR")
  refine ⟨s, hs, ⟨_, rfl⟩, ?_⟩
  refine ⟨flagIff_of ?_, flagIff_of ?_, flagIff_of ?_, flagIff_of ?_, ⟨pos, hpos, hpos', ?_⟩,
    ⟨date, hdate, hdate', ?_⟩, ⟨_, rfl, htime', ?_⟩, ⟨blk, hblk, blacklist_flag hblk, ?_⟩, ?_, ?_, flagIff_of ?_,
    ?_, flagIff_of ?_,
    ⟨_, rfl, valueCheck_flag _, ?_⟩, ⟨fr, hfr, freeze_flag hfr, ?_⟩, ⟨_, rfl, climatologyCheck_flag _ _ _, ?_⟩,
    ⟨_, rfl, noNormalCheck_flag _, ?_⟩, ⟨sst, hsst, hardLimit_flag hsst, ?_⟩,
    ⟨_, rfl, valueCheck_flag _, ?_⟩, ⟨_, rfl, climatologyCheck_flag _ _ _, ?_⟩,
    ⟨_, rfl, noNormalCheck_flag _, ?_⟩, ⟨at', hat, hardLimit_flag hat, ?_⟩,
    ⟨dptc, hdptc, stdev_flag hdptc, ?_⟩, ⟨_, rfl, valueCheck_flag _, ?_⟩, ⟨_, rfl, noNormalCheck_flag _, ?_⟩,
    ⟨_, rfl, supersatCheck_flag _ _, ?_⟩, ?_,
    ⟨_, rfl, valueCheck_flag _, ?_⟩, ⟨slp, hslp, lowbar_flag hslp, ?_⟩, ⟨_, rfl, noNormalCheck_flag _, ?_⟩,
    ⟨_, rfl, valueCheck_flag _, ?_⟩, ⟨w, hw, hardLimit_flag hw, ?_⟩, ⟨_, rfl, windConsistency_flag _ _ _, ?_⟩,
    ⟨kc, hkc, stdev_flag hkc, ?_⟩, ⟨_, rfl, valueCheck_flag _, ?_⟩, ⟨_, rfl, noNormalCheck_flag _, ?_⟩,
    ⟨kh, hkh, hardLimit_flag hkh, ?_⟩, ?_⟩
  all_goals try (rw [writes_qc]; simp [lookupW_cons, lookupW_nil]; done)
  · rintro ⟨e1, e2, e3⟩
    rw [writes_qc] at e1 e2 e3
    simp [lookupW_cons, lookupW_nil] at e1 e2 e3
    obtain ⟨lon, hlon, hd⟩ := hday1 ⟨e1, e2, e3⟩
    exact ⟨lon, hlon, day, hd, dayTest_flag hd, by rw [writes_qc]; simp [lookupW_cons, lookupW_nil]⟩
  · intro e
    rw [writes_qc, writes_qc, writes_qc] at e
    simp [lookupW_cons, lookupW_nil] at e
    rw [writes_qc]
    simp [lookupW_cons, lookupW_nil]
    exact hday2 (by omega)
  · rw [writes_qc]
    simp only [lookupW_cons, lookupW_nil, String.reduceEq, if_true, if_false, Option.some.injEq, ite_not]
  · constructor
    · intro hc
      rw [← matExcluded_iff] at hc
      rw [writes_qc]; simp only [lookupW_cons, lookupW_nil, String.reduceEq, if_true, if_false, if_pos hc]
    · intro hc
      rw [← matExcluded_iff] at hc
      rw [writes_qc]; simp only [lookupW_cons, lookupW_nil, String.reduceEq, if_true, if_false, if_neg hc]
  · have hval : ∀ R : Report, R.qc "DPThardlimit" =
        some (if ha = 1 ∨ hb = 1 ∨ hc = 1 ∨ hd = 1 then 1 else 0) → FlagIff R "DPThardlimit"
        (hardLimit (s.getvar "AT") p.atHard.lo p.atHard.hi = .ok 1 ∨
        hardLimit (s.getvar "DPT") p.dptHard.lo p.dptHard.hi = .ok 1 ∨
        hardLimit (s.getvar "SHU") p.shuHard.lo p.shuHard.hi = .ok 1 ∨
        hardLimit (s.getvar "RH") p.rhHard.lo p.rhHard.hi = .ok 1) := by
      intro R h
      rw [hha, hhb, hhc, hhd]
      simp only [Except.ok.injEq]
      exact flagIff_of h
    apply hval
    rw [writes_qc]
    simp only [lookupW_cons, lookupW_nil, String.reduceEq, if_true, if_false]
  · intro k hk
    rw [← hq, writes_qc]
    unfold baseKeys at hk
    simp only [List.mem_cons, List.not_mem_nil, or_false, not_or] at hk
    simp only [lookupW_cons, lookupW_nil, hk, if_false]

/-- C34 (violation): the dew-point hard-limit flag does not depend on the dew point.  The routine also tests
the variable `RH`, which no report has (the report's relative humidity is `CRH`), and a missing value fails the
limit check, so the flag is 1 for every report. -/
theorem C34_hardlimit_violation {F : Type} [LinearOrder F] [Zero F] (elev : Elev F) (p : BaseParams)
    (r r' : Report) (hr : r.ext "RH" = none) (hp : p.rhHard.lo < p.rhHard.hi) (h : r.performBaseQc elev p = .ok r') :
    r'.qc "DPThardlimit" = some 1 := by
  obtain ⟨s, hs, -, h⟩ := C34_base_flags_partial elev p r r' h
  have h1 := (C34_missing_hour r s hs).2.2.2.2.2.2
  have hrh : s.getvar "RH" = none := by
    unfold Report.getvar
    rw [h1, hr]
    rfl
  obtain ⟨-, -, -, -, -, -, -, -, -, -, -, -, -, -, -, -, -, -, -, -, -, -, -, -, -, -, hd, -⟩ := h
  apply hd.1
  right; right; right
  rw [hrh, C21_hard_limit _ _ _ hp]
  simp

/-- C34 (violation): `perform_base_dat_qc` never completes: it sets flags of type `DAT`, which is not the name
of a report variable. -/
theorem C34_dat_violation {F : Type} [LinearOrder F] [Zero F] (elev : Elev F) (p : BaseParams) (r r' : Report) :
    r.performBaseDatQc elev p ≠ .ok r' := by
  intro h
  unfold Report.performBaseDatQc at h
  simp only [bind_ok_iff] at h
  obtain ⟨-, -, -, -, -, -, -, -, -, -, -, -, -, -, -, -, r1, -, h⟩ := h
  unfold Report.doBaseDatQc at h
  rw [bind_ok_iff] at h
  obtain ⟨r2, h, -⟩ := h
  unfold Report.setQc at h
  rw [show (decide ("DAT" ∈ specialQcTypes) || decide ("DAT" ∈ VARLIST)) = false from by decide] at h
  rw [bind_ok_iff] at h
  obtain ⟨-, -, h⟩ := h
  cases h

/-- Parameters with which no check refuses to run. -/
structure Spec.GoodParams (p : BaseParams) : Prop where
  hours : ∃ T : Nat, T ≤ 24 ∧ p.timeSince = T
  sst : p.sstHard.lo < p.sstHard.hi
  air : p.atHard.lo < p.atHard.hi
  dpt : p.dptHard.lo < p.dptHard.hi
  shu : p.shuHard.lo < p.shuHard.hi
  rh : p.rhHard.lo < p.rhHard.hi
  wind : p.wHard.lo < p.wHard.hi
  airDev : 0 < p.atStdev.lo ∧ p.atStdev.lo < p.atStdev.hi ∧ 0 < p.atMaxStdAnomaly
  dptDev : 0 < p.dptStdev.lo ∧ p.dptStdev.lo < p.dptStdev.hi ∧ 0 < p.dptMaxStdAnomaly
  slp : 0 < p.slpMaxStdAnomaly

theorem bind_ok_of {α β : Type} {x : Except Err α} {f : α → Except Err β} {a : α} {y : β} (hx : x = .ok a)
    (hf : f a = .ok y) : (x >>= f) = .ok y := by
  rw [hx]; exact hf

/-- A step that, on the report `s` with any flags, completes and only writes flags. -/
def Runs (s : Report) (f : Report → Except Err Report) : Prop := ∀ ws, ∃ ws', f (s.writes ws) = .ok (s.writes ws')

theorem Runs.bind {s : Report} {f g : Report → Except Err Report} (hf : Runs s f) (hg : Runs s g) :
    Runs s (fun r => f r >>= g) := by
  intro ws
  obtain ⟨a, ha⟩ := hf ws
  obtain ⟨b, hb⟩ := hg a
  exact ⟨b, bind_ok_of ha hb⟩

theorem Runs.pure (s : Report) : Runs s (fun r => .ok r) := fun ws => ⟨ws, rfl⟩

/-- A check whose outcome depends on the variables only, followed by the writing of its flag. -/
theorem Runs.flag {s : Report} {c : Report → Except Err Int} {t f : String} {v : Int}
    (hc : ∀ ws, c (s.writes ws) = .ok v) (ht : t ∈ specialQcTypes ∨ t ∈ VARLIST) (hv : v = 0 ∨ v = 1) :
    Runs s (fun r => c r >>= fun v => r.setQc t f v) := by
  intro ws
  refine ⟨ws ++ [(t ++ f, v)], bind_ok_of (hc ws) ?_⟩
  rw [setQc_writes ht hv, writes_writes]

theorem Runs.set {s : Report} {c : Report → Int} {t f : String}
    (ht : t ∈ specialQcTypes ∨ t ∈ VARLIST) (hv : ∀ r, c r = 0 ∨ c r = 1) :
    Runs s (fun r => r.setQc t f (c r)) := by
  intro ws
  refine ⟨ws ++ [(t ++ f, c (s.writes ws))], ?_⟩
  dsimp only
  rw [setQc_writes ht (hv _), writes_writes]

/-- C34: with sensible parameters `perform_base_qc` completes for every report that has a latitude, a
longitude, a year and a month 1 to 12, whatever its other variables, present or missing (only a
pressure deviation, if there is one, has to be positive). -/
theorem C34_completes {F : Type} [LinearOrder F] [Zero F] (elev : Elev F) (p : BaseParams) (hp : GoodParams p)
    (r s : Report) (hs : r.doFixMissingHour = .ok s) (la lo : Rat) (hla : s.getvar "LAT" = some la)
    (hlo : s.getvar "LON" = some lo) (y m : Int) (hy : s.getint "YR" = some y) (hm : s.getint "MO" = some m)
    (hm1 : 1 ≤ m) (hm2 : m ≤ 12) (hslp : ∀ d, s.getstdev "SLP" = some d → 0 < d) :
    ∃ r', r.performBaseQc elev p = .ok r' := by
  obtain ⟨T, hT, hTp⟩ := hp.hours
  have ok_of : ∀ x : Except Err Int, (x = .ok 1 ∨ x = .ok 0) → ∃ v, x = .ok v := by
    rintro x (h | h)
    exacts [⟨_, h⟩, ⟨_, h⟩]
  have hlat : s.lat = some la := hla
  obtain ⟨lon, hlon⟩ : ∃ l, s.lon = some l := by
    unfold Report.lon
    rw [hlo]
    simp only
    split <;> exact ⟨_, rfl⟩
  have hpos := C22_position la lo
  rw [← hla, ← hlo] at hpos
  have hdate := C22_date y m (s.getint "DY") ⟨hm1, hm2⟩
  rw [← hy, ← hm] at hdate
  have hblk := C23_blacklist s.id (s.getint "DCK") (s.getint "YR") (s.getint "MO") s.lat s.lon (s.getint "PT")
  have hfr := C21_freeze (s.getvar "SST") 0 p.sstFreezingPoint p.sstNSigma
  have hsst := C21_hard_limit (s.getvar "SST") _ _ hp.sst
  have hat := C21_hard_limit (s.getvar "AT") _ _ hp.air
  have hdpt := C21_hard_limit (s.getvar "DPT") _ _ hp.dpt
  have hshu := C21_hard_limit (s.getvar "SHU") _ _ hp.shu
  have hrh := C21_hard_limit (s.getvar "RH") _ _ hp.rh
  have hw := C21_hard_limit (s.getvar "W") _ _ hp.wind
  obtain ⟨dptc, hdptc⟩ := ok_of _ (C20_stdev_check (s.getvar "DPT") (s.getnorm "DPT") (s.getstdev "DPT") _ _ _
    hp.dptDev.1 hp.dptDev.2.1 hp.dptDev.2.2).2
  obtain ⟨kc, hkc⟩ := ok_of _ (C20_stdev_check (s.getvar "AT2") (s.getnorm "AT2") (s.getstdev "AT2") _ _ _
    hp.airDev.1 hp.airDev.2.1 hp.airDev.2.2).2
  obtain ⟨slp, hslpc⟩ := ok_of _ (C20_lowbar_check (s.getvar "SLP") (s.getnorm "SLP") (s.getstdev "SLP") _
    p.slpLowbar hp.slp hslp).2
  have r1 : Runs s Report.humidityBlacklist := fun ws => ⟨_, humidityBlacklist_eq' s ws⟩
  have r2 : Runs s Report.matBlacklist := fun ws => ⟨_, matBlacklist_eq' s ws⟩
  have r3 : Runs s Report.windBlacklist := fun ws => ⟨_, windBlacklist_eq' s ws⟩
  have r4 : Runs s (Report.doBaseSstQc p) := by
    intro ws
    unfold Report.doBaseSstQc
    rw [setQc_writes (by decide) (valueCheck_flag _), except_bind_ok]
    simp only [writes_writes, getvar_writes]
    rw [hfr, except_bind_ok, setQc_writes (by decide) (freeze_flag hfr), except_bind_ok,
      setQc_writes (by decide) (climatologyCheck_flag _ _ _), except_bind_ok,
      setQc_writes (by decide) (noNormalCheck_flag _), except_bind_ok]
    simp only [writes_writes, getvar_writes, getnorm_writes]
    rw [hsst, except_bind_ok, setQc_writes (by decide) (hardLimit_flag hsst)]
    simp only [writes_writes]
    exact ⟨_, rfl⟩
  have r5 : Runs s (Report.doBaseMatQc p) := by
    intro ws
    unfold Report.doBaseMatQc
    rw [setQc_writes (by decide) (valueCheck_flag _), except_bind_ok,
      setQc_writes (by decide) (climatologyCheck_flag _ _ _), except_bind_ok,
      setQc_writes (by decide) (noNormalCheck_flag _), except_bind_ok]
    simp only [writes_writes, getvar_writes, getnorm_writes]
    rw [hat, except_bind_ok, setQc_writes (by decide) (hardLimit_flag hat)]
    simp only [writes_writes]
    exact ⟨_, rfl⟩
  have r6 : Runs s (Report.doBaseDptQc p) := by
    intro ws
    unfold Report.doBaseDptQc
    simp only [getvar_writes, getnorm_writes, getstdev_writes]
    rw [hdptc, except_bind_ok, setQc_writes (by decide) (stdev_flag hdptc), except_bind_ok,
      setQc_writes (by decide) (valueCheck_flag _), except_bind_ok,
      setQc_writes (by decide) (noNormalCheck_flag _), except_bind_ok,
      setQc_writes (by decide) (supersatCheck_flag _ _)]
    simp only [writes_writes]
    exact ⟨_, rfl⟩
  have r7 : Runs s (Report.doBaseSlpQc p) := by
    intro ws
    unfold Report.doBaseSlpQc
    rw [setQc_writes (by decide) (valueCheck_flag _), except_bind_ok]
    simp only [writes_writes, getvar_writes, getnorm_writes, getstdev_writes]
    rw [hslpc, except_bind_ok, setQc_writes (by decide) (lowbar_flag hslpc), except_bind_ok,
      setQc_writes (by decide) (noNormalCheck_flag _)]
    simp only [writes_writes]
    exact ⟨_, rfl⟩
  have r8 : Runs s (Report.doBaseWindQc p) := by
    intro ws
    unfold Report.doBaseWindQc
    rw [setQc_writes (by decide) (valueCheck_flag _), except_bind_ok]
    simp only [writes_writes, getvar_writes]
    rw [hw, except_bind_ok, setQc_writes (by decide) (hardLimit_flag hw), except_bind_ok,
      setQc_writes (by decide) (windConsistency_flag _ _ _)]
    simp only [writes_writes]
    exact ⟨_, rfl⟩
  have hstep : ∀ t : String × Lim, t.2.lo < t.2.hi → Runs s (fun r => r.dptHardStep t) := by
    intro t ht ws
    unfold Report.dptHardStep
    obtain ⟨v, e⟩ : ∃ v, hardLimit (s.getvar t.1) t.2.lo t.2.hi = .ok v := ⟨_, C21_hard_limit _ _ _ ht⟩
    simp only [getvar_writes]
    rw [e, except_bind_ok]
    by_cases h1 : v = 1
    · rw [if_pos h1]
      rw [setQc_writes (by decide) (by simp), writes_writes]
      exact ⟨_, rfl⟩
    · rw [if_neg h1]
      exact ⟨_, rfl⟩
  have r9 : Runs s (Report.dptHard p) := by
    unfold Report.dptHard
    exact Runs.bind (Runs.set (c := fun _ => 0) (by decide) (by simp)) (Runs.bind (hstep _ hp.air)
      (Runs.bind (hstep _ hp.dpt) (Runs.bind (hstep _ hp.shu) (hstep _ hp.rh))))
  have r10 : Runs s (Report.doKateMatQc p) := by
    intro ws
    unfold Report.doKateMatQc
    simp only [getvar_writes, getnorm_writes, getstdev_writes]
    rw [hkc, except_bind_ok, setQc_writes (by decide) (stdev_flag hkc), except_bind_ok,
      setQc_writes (by decide) (valueCheck_flag _), except_bind_ok,
      setQc_writes (by decide) (noNormalCheck_flag _), except_bind_ok]
    simp only [writes_writes, getvar_writes]
    rw [hat, except_bind_ok, setQc_writes (by decide) (hardLimit_flag hat)]
    simp only [writes_writes]
    exact ⟨_, rfl⟩
  have rest := Runs.bind r1 (Runs.bind r2 (Runs.bind r3 (Runs.bind r4 (Runs.bind r5 (Runs.bind r6 (Runs.bind r7
    (Runs.bind r8 (Runs.bind r9 r10))))))))
  generalize hposv : (if (-90 ≤ la ∧ la ≤ 90) ∧ (-180 ≤ lo ∧ lo ≤ 360) then (0 : Int) else 1) = pos at hpos
  generalize hdatev : (if (1850 ≤ y ∧ y ≤ 2024) ∧ ∃ d', s.getint "DY" = some d' ∧ IsDate y m d' then (0 : Int)
    else 1) = date at hdate
  have s1 : ∀ ws, (s.writes ws).doPositionCheck = .ok (s.writes (ws ++ [("POSpos", pos)])) := by
    intro ws
    unfold Report.doPositionCheck
    simp only [getvar_writes]
    rw [hpos, except_bind_ok, setQc_writes (by decide) (positionCheck_flag hpos), writes_writes]
    rfl
  have s2 : ∀ ws, (s.writes ws).doDateCheck = .ok (s.writes (ws ++ [("POSdate", date)])) := by
    intro ws
    unfold Report.doDateCheck
    simp only [getint_writes]
    rw [hdate, except_bind_ok, setQc_writes (by decide) (dateCheck_flag hdate), writes_writes]
    rfl
  obtain ⟨blk, hblk'⟩ : ∃ b, blacklist s.id (s.getint "DCK") (s.getint "YR") (s.getint "MO") s.lat s.lon
    (s.getint "PT") = .ok b := ⟨_, hblk⟩
  have s3 : ∀ ws, (s.writes ws).doBlacklist = .ok (s.writes (ws ++ [("POSblklst", blk)])) := by
    intro ws
    unfold Report.doBlacklist
    simp only [getint_writes, lat_writes, lon_writes, id_writes]
    rw [hblk', except_bind_ok, setQc_writes (by decide) (blacklist_flag hblk'), writes_writes]
    rfl
  have hday : ∀ W, (s.writes W).getQc "POS" "pos" = pos → (s.writes W).getQc "POS" "date" = date →
      (s.writes W).getQc "POS" "time" = timeCheck (s.getvar "HR") →
      ∃ ws', (s.writes W).doDayCheck elev p.timeSince = .ok (s.writes ws') := by
    intro W q1 q2 q3
    unfold Report.doDayCheck
    split
    · rename_i hc
      rw [q1, q2, q3] at hc
      obtain ⟨c1, c2, c3⟩ := hc
      rw [C22_time] at c3
      have c3' : ∃ x, s.getvar "HR" = some x ∧ 0 ≤ x ∧ x < 24 := by
        by_contra hn; rw [if_neg hn] at c3; omega
      have c1' : (-90 ≤ la ∧ la ≤ 90) ∧ (-180 ≤ lo ∧ lo ≤ 360) := by
        by_contra hn; rw [if_neg hn] at hposv; omega
      have c2' : (1850 ≤ y ∧ y ≤ 2024) ∧ ∃ d', s.getint "DY" = some d' ∧ IsDate y m d' := by
        by_contra hn; rw [if_neg hn] at hdatev; omega
      obtain ⟨hr, hhr, h0, h24⟩ := c3'
      obtain ⟨-, d, hdy, hD⟩ := c2'
      obtain ⟨_, _, _, _, _, _, -, -, -, -, -, -, -, hdt⟩ :=
        C25_day_test elev y m d hr la lon T hD h0 h24 hT c1'.1.1 c1'.1.2
      simp only [lon_writes, hlon, getint_writes, getvar_writes, lat_writes, hy, hm, hdy, hhr, hlat, hTp]
      rw [hdt, except_bind_ok, setQc_writes (by decide) (dayTest_flag hdt), writes_writes]
      exact ⟨_, rfl⟩
    · rw [setQc_writes (by decide) (by simp), writes_writes]
      exact ⟨_, rfl⟩
  have q : ∀ W f v, lookupW W ("POS" ++ f) (s.qc ("POS" ++ f)) = some v → (s.writes W).getQc "POS" f = v := by
    intro W f v h
    unfold Report.getQc
    rw [writes_qc, h]
  have e1 := isBuoy_eq s
  have e2 := isShip_eq' s [("POSisbuoy", if s.getint "PT" ∈ [some 6, some 7] then 1 else 0),
    ("POSisdrifter", if s.getint "PT" = some 7 then 1 else 0)]
  generalize ([("POSisbuoy", _), ("POSisdrifter", _)] : List (String × Int)) = W1 at e1 e2
  have e3 := isDeck780_eq' s (W1 ++ [("POSisship", if s.getint "PT" ∈ [some 0, some 1, some 2, some 3, some 4,
    some 5, some 10, some 11, some 12, some 17] then 1 else 0)])
  generalize W1 ++ _ = W2 at e2 e3
  have e4 := s1 (W2 ++ [("POSis780", if s.getint "DCK" = some 780 then 1 else 0)])
  generalize W2 ++ _ = W3 at e3 e4
  have e5 := s2 (W3 ++ [("POSpos", pos)])
  have e6 := doTimeCheck_eq' s (W3 ++ [("POSpos", pos)] ++ [("POSdate", date)])
  have e7 := s3 (W3 ++ [("POSpos", pos)] ++ [("POSdate", date)] ++ [("POStime", timeCheck (s.getvar "HR"))])
  have app : ∀ (a b : List (String × Int)) k d, lookupW (a ++ b) k d = lookupW b k (lookupW a k d) := by
    intro a b k d
    unfold lookupW
    rw [List.foldl_append]
  obtain ⟨w1, hw1⟩ := hday _ (q _ "pos" pos (by simp [app, lookupW_cons, lookupW_nil]))
    (q _ "date" date (by simp [app, lookupW_cons, lookupW_nil]))
    (q (W3 ++ [("POSpos", pos)] ++ [("POSdate", date)] ++ [("POStime", timeCheck (s.getvar "HR"))] ++
      [("POSblklst", blk)]) "time" (timeCheck (s.getvar "HR")) (by simp [app, lookupW_cons, lookupW_nil]))
  obtain ⟨w2, hw2⟩ := rest w1
  exact ⟨_, bind_ok_of hs (bind_ok_of e1 (bind_ok_of e2 (bind_ok_of e3 (bind_ok_of e4 (bind_ok_of e5
    (bind_ok_of e6 (bind_ok_of e7 (bind_ok_of hw1 hw2))))))))⟩

/-- A report with position, date and hour. -/
def sampleReport : Report :=
  { id := some "ABCD     ", uid := some "X", qc := fun _ => none, clim := fun _ => none, ext := fun _ => none,
    dt := none
    data := fun k => if k = "LAT" then some 10 else if k = "LON" then some 200 else if k = "YR" then some 1990
      else if k = "MO" then some 2 else if k = "DY" then some 28 else if k = "HR" then some 12 else none }

/-- Parameters like those of the program's parameter file. -/
def sampleParams : BaseParams :=
  { timeSince := 1, sstFreezingPoint := -9 / 5, sstNSigma := 2, sstMaxAnomaly := 8, sstHard := ⟨-5, 65⟩,
    atMaxAnomaly := 10, atHard := ⟨-80, 65⟩, atStdev := ⟨1, 4⟩, atMaxStdAnomaly := 11 / 2, dptHard := ⟨-80, 65⟩,
    dptStdev := ⟨1, 4⟩, dptMaxStdAnomaly := 11 / 2, slpMaxStdAnomaly := 3, slpLowbar := 10, wHard := ⟨0, 50⟩,
    wVariableLimit := 3, shuHard := ⟨0, 40⟩, rhHard := ⟨0, 150⟩ }

/-- Non-vacuity of C34: the sample parameters are good, the sample report is complete, so base QC of it
completes, and its dew-point hard-limit flag is 1. -/
example : ∃ r', sampleReport.performBaseQc (fun _ _ _ _ _ _ => (1 : Rat)) sampleParams = .ok r' ∧
    r'.qc "DPThardlimit" = some 1 := by
  have hp : GoodParams sampleParams := by
    constructor <;> unfold sampleParams <;> first | exact ⟨1, by norm_num, by norm_num⟩ | norm_num
  have hs : sampleReport.doFixMissingHour = .ok sampleReport := by
    unfold Report.doFixMissingHour
    rw [if_neg]
    rintro ⟨h, -⟩
    revert h
    decide +kernel
  obtain ⟨r', h⟩ := C34_completes (fun _ _ _ _ _ _ => (1 : Rat)) sampleParams hp sampleReport sampleReport hs
    10 200 (by decide +kernel) (by decide +kernel) 1990 2 (by decide +kernel) (by decide +kernel) (by norm_num)
    (by norm_num) (by intro d hd; cases hd)
  exact ⟨r', h, C34_hardlimit_violation _ _ _ _ rfl (by unfold sampleParams; norm_num) h⟩

end MarineQC
