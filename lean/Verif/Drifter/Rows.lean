import Verif.Drifter.Spec
import Verif.Calendar.Lemmas

/-! # A row of the variables file read back -/

namespace MarineQC

open Spec

/-- The columns of the variables file. -/
def varColumns : List String :=
  ["UID", "DATE", "PENTAD", "ID", "YR", "MO", "DY", "HR", "LAT", "LON", "AT", "AT_anom", "SST", "SST_anom", "DPT", "DPT_anom",
   "SLP", "SLP_anom", "OSTIA", "ICE", "BGVAR"]

/-- The entry of a column. -/
def varCell (fmt : Rat → List Char) (q : Report) (k : String) : List Char :=
  if k = "UID" then (q.uid.getD "").toList
  else if k = "DATE" then Spec.date q
  else if k = "PENTAD" then intText (Spec.pentad q)
  else if k = "AT_anom" then Spec.entry fmt q ("AT", ["anom"])
  else if k = "SST_anom" then Spec.entry fmt q ("SST", ["anom"])
  else if k = "DPT_anom" then Spec.entry fmt q ("DPT", ["anom"])
  else if k = "SLP_anom" then Spec.entry fmt q ("SLP", ["anom"])
  else Spec.entry fmt q (k, [])

theorem varRow_cells (fmt : Rat → List Char) (q : Report) :
    (varRow fmt q voyageVars).map Prod.snd = varColumns.map (varCell fmt q) := by
  simp [varRow, voyageVars, varColumns, varCell]

theorem varHead_columns : (varHead voyageVars).map Prod.fst = varColumns.map String.toList := by decide

/-- The entry after the missing values have been replaced. -/
def varVal (fmt : Rat → List Char) (q : Report) (k : String) : Option (List Char) :=
  if some (varCell fmt q k) = some ['\\', 'N'] then none else some (varCell fmt q k)

theorem easyImma_row (fmt : Rat → List Char) (q : Report) :
    easyImma (varColumns.map fun k => (k.toList, some (varCell fmt q k))) =
      varColumns.map fun k => (k.toList, varVal fmt q k) := by
  unfold easyImma
  rw [List.map_map]
  rfl

theorem intText_not_missing (n : Int) : intText n ≠ ['\\', 'N'] := by
  intro h
  have := parseSigned_intText n
  rw [h] at this
  revert this
  simp only [parseSigned, parseDigits]
  intro h
  cases h

theorem val_int (fmt : Rat → List Char) (q : Report) (k : String) (hk : k ∈ ["YR", "MO", "DY"]) :
    varVal fmt q k = (q.getint k).map intText := by
  have e : varCell fmt q k = ((q.getint k).map intText).getD missing := by
    simp only [List.mem_cons, List.not_mem_nil, or_false] at hk
    rcases hk with rfl | rfl | rfl <;> simp [varCell, Spec.entry, intVars]
  unfold varVal
  rw [e]
  cases q.getint k with
  | none => rfl
  | some n => simp [intText_not_missing]

theorem val_num (fmt : Rat → List Char) (hf : ∀ x, fmt x ≠ missing) (q : Report) (k : String)
    (hk : k ∈ ["HR", "LAT", "LON", "AT", "SST", "DPT", "SLP", "OSTIA", "ICE", "BGVAR"]) :
    varVal fmt q k = (q.getvar k).map fmt := by
  have e : varCell fmt q k = ((q.getvar k).map fmt).getD missing := by
    simp only [List.mem_cons, List.not_mem_nil, or_false] at hk
    rcases hk with rfl | rfl | rfl | rfl | rfl | rfl | rfl | rfl | rfl | rfl <;> simp [varCell, Spec.entry, intVars]
  unfold varVal
  rw [e]
  cases q.getvar k with
  | none => rfl
  | some x =>
    have := hf x
    simp only [missing] at this
    simp [this]

/-- The values of the record. -/
def recVal (rnd : Rat → Rat) (q : Report) (k : String) : Option Rat :=
  if k ∈ ["YR", "MO", "DY"] then (q.getint k).map fun n => (n : Rat)
  else if k ∈ ["HR", "LAT", "LON", "AT", "SST", "DPT", "SLP"] then (q.getvar k).map rnd
  else none

theorem recordEntry_ok (fmt : Rat → List Char) (num : List Char → Option Rat) (rnd : Rat → Rat) (h : Numerals fmt num rnd)
    (q : Report) (k : String) (hk : k ∈ varColumns) :
    recordEntry num (varColumns.map fun k => (k.toList, varVal fmt q k)) k.toList = .ok (k, recVal rnd q k) := by
  unfold recordEntry recVal
  rw [String.ofList_toList, rowGet_named, if_pos hk]
  by_cases h1 : k ∈ ["YR", "MO", "DY"]
  · have hv : k ∈ VARLIST := by
      have : ∀ k ∈ ["YR", "MO", "DY"], k ∈ VARLIST := by decide
      exact this k h1
    rw [if_pos hv, if_pos h1, val_int fmt q k h1]
    cases q.getint k with
    | none => rfl
    | some n => simp [numberOf, h.int, except_bind_ok, except_pure]
  · rw [if_neg h1]
    by_cases h2 : k ∈ ["HR", "LAT", "LON", "AT", "SST", "DPT", "SLP"]
    · have hv : k ∈ VARLIST ∧ k ∈ ["HR", "LAT", "LON", "AT", "SST", "DPT", "SLP", "OSTIA", "ICE", "BGVAR"] := by
        have : ∀ k ∈ ["HR", "LAT", "LON", "AT", "SST", "DPT", "SLP"], k ∈ VARLIST ∧
          k ∈ ["HR", "LAT", "LON", "AT", "SST", "DPT", "SLP", "OSTIA", "ICE", "BGVAR"] := by decide
        exact this k h2
      rw [if_pos hv.1, if_pos h2, val_num fmt (fun x => (h.plain x).2.2) q k hv.2]
      cases q.getvar k with
      | none => rfl
      | some x => simp [numberOf, h.read, except_bind_ok, except_pure]
    · have hv : k ∉ VARLIST := by
        have : ∀ k ∈ varColumns, k ∉ ["YR", "MO", "DY"] → k ∉ ["HR", "LAT", "LON", "AT", "SST", "DPT", "SLP"] →
          k ∉ VARLIST := by decide
        exact this k hk h1 h2
      rw [if_neg hv, if_neg h2]

theorem extEntry_ok (fmt : Rat → List Char) (num : List Char → Option Rat) (rnd : Rat → Rat) (h : Numerals fmt num rnd)
    (q : Report) (k : String) (hk : k ∈ ["OSTIA", "ICE", "BGVAR"]) :
    extEntry num (varColumns.map fun k => (k.toList, varVal fmt q k)) k = .ok ((q.getvar k).map rnd) := by
  have hv : k ∈ varColumns ∧ k ∈ ["HR", "LAT", "LON", "AT", "SST", "DPT", "SLP", "OSTIA", "ICE", "BGVAR"] := by
    have : ∀ k ∈ ["OSTIA", "ICE", "BGVAR"], k ∈ varColumns ∧
      k ∈ ["HR", "LAT", "LON", "AT", "SST", "DPT", "SLP", "OSTIA", "ICE", "BGVAR"] := by decide
    exact this k hk
  unfold extEntry
  rw [rowGet_named, if_pos hv.1, val_num fmt (fun x => (h.plain x).2.2) q k hv.2]
  cases q.getvar k with
  | none => rfl
  | some x => simp [numberOf, h.read, except_bind_ok, except_pure]

/-- The record, in the order of the columns. -/
def recList (rnd : Rat → Rat) (q : Report) : List (String × Option Rat) :=
  (varColumns.map fun k => (k, recVal rnd q k)) ++ [("PT", some 7)]

theorem recList_nodup (rnd : Rat → Rat) (q : Report) : ((recList rnd q).map Prod.fst).Nodup := by
  unfold recList
  rw [List.map_append, List.map_map]
  have : (Prod.fst ∘ fun k => (k, recVal rnd q k)) = (id : String → String) := rfl
  rw [this, List.map_id]
  show (varColumns ++ ["PT"]).Nodup
  decide

theorem recList_value (rnd : Rat → Rat) (q : Report) (v : String) (hv : v ∈ VARLIST) :
    recordValue (recList rnd q) v = if v = "PT" then some 7 else recVal rnd q v := by
  unfold recordValue
  rw [if_pos hv]
  unfold recList
  rw [List.find?_append]
  have e : (varColumns.map fun k => (k, recVal rnd q k)).find? (fun t => decide (t.1 = v)) =
      if v ∈ varColumns then some (v, recVal rnd q v) else none := by
    induction varColumns with
    | nil => rfl
    | cons h H ih =>
      rw [List.map_cons, List.find?_cons]
      by_cases he : h = v
      · subst he; simp
      · simp only [he, decide_false, List.mem_cons]
        rw [ih]
        simp [Ne.symm he]
  rw [e]
  by_cases h1 : v ∈ varColumns
  · rw [if_pos h1, if_neg]
    · rfl
    · rintro rfl
      revert h1; decide
  · rw [if_neg h1]
    by_cases h2 : v = "PT"
    · subst h2
      rfl
    · rw [if_neg h2]
      have : recVal rnd q v = none := by
        unfold recVal
        have key : v ∉ ["YR", "MO", "DY"] ∧ v ∉ ["HR", "LAT", "LON", "AT", "SST", "DPT", "SLP"] := by
          have : ∀ v ∈ VARLIST, v ∉ varColumns → v ∉ ["YR", "MO", "DY"] ∧
            v ∉ ["HR", "LAT", "LON", "AT", "SST", "DPT", "SLP"] := by decide
          exact this v hv h1
        rw [if_neg key.1, if_neg key.2]
      rw [this]
      simp [Ne.symm h2]

/-- The time of the report read back can be computed. -/
theorem reread_time (rnd : Rat → Rat) (q : Report) (hq : Storable rnd q) (r : Report)
    (h1 : ∀ v ∈ ["YR", "MO", "DY"], r.getint v = q.getint v) (h2 : r.getvar "HR" = (q.getvar "HR").map rnd) :
    ∃ d, r.computeDt = .ok d := by
  unfold Report.computeDt
  rw [h1 "YR" (by decide), h1 "MO" (by decide), h1 "DY" (by decide), h2]
  cases hy : q.getint "YR" with
  | none => exact ⟨_, rfl⟩
  | some y =>
    cases hm : q.getint "MO" with
    | none => exact ⟨_, rfl⟩
    | some mo =>
      cases hh : q.getvar "HR" with
      | none => exact ⟨_, rfl⟩
      | some hr =>
        cases hd : q.getint "DY" with
        | none => exact ⟨_, rfl⟩
        | some dy =>
          obtain ⟨a1, a2, a3, a4, a5, a6⟩ := hq.dated y mo dy hr hy hm hd hh
          simp only [Option.map_some]
          by_cases hdy : 0 < dy
          · rw [if_pos hdy, pyIndex_monthLengths y mo a3 a4, except_bind_ok]
            by_cases hl : dy ≤ monthLength y mo
            · rw [if_pos hl]
              have b1 : 0 ≤ ⌊rnd hr⌋ := Int.floor_nonneg.mpr a5
              have b2 : ⌊rnd hr⌋ ≤ 23 := by
                have : ⌊rnd hr⌋ < 24 := Int.floor_lt.mpr (by exact_mod_cast a6)
                omega
              have b3 : (0 : Rat) ≤ rnd hr - ⌊rnd hr⌋ := by
                have := Int.floor_le (rnd hr)
                linarith
              have b4 : rnd hr - ⌊rnd hr⌋ < 1 := by
                have := Int.lt_floor_add_one (rnd hr)
                linarith
              have b5 : 0 ≤ ⌊60 * (rnd hr - ⌊rnd hr⌋)⌋ := Int.floor_nonneg.mpr (by linarith)
              have b6 : ⌊60 * (rnd hr - ⌊rnd hr⌋)⌋ ≤ 59 := by
                have : ⌊60 * (rnd hr - ⌊rnd hr⌋)⌋ < 60 := Int.floor_lt.mpr (by push_cast; linarith)
                omega
              have ok : datetimeOk y mo dy = true := by
                unfold datetimeOk
                rw [getElem_monthLengths y mo a3 a4]
                simp [a1, a2, a3, a4, hl]
                omega
              refine ⟨some ⟨y, mo, dy, ⌊rnd hr⌋, ⌊60 * (rnd hr - ⌊rnd hr⌋)⌋⟩, ?_⟩
              unfold mkDatetime
              rw [if_pos ⟨ok, b1, b2, b5, b6⟩]
              rfl
            · rw [if_neg hl]; exact ⟨_, rfl⟩
          · rw [if_neg hdy]; exact ⟨_, rfl⟩

/-- A report read from the variables file, before its flags are set. -/
structure ReadVars (rnd : Rat → Rat) (q q' : Report) : Prop where
  ident : q'.id = q.id
  uid : q'.uid = q.uid
  date : ∀ v ∈ ["YR", "MO", "DY"], q'.getint v = q.getint v
  vars : ∀ v ∈ ["HR", "LAT", "LON", "AT", "SST", "DPT", "SLP"], q'.getvar v = (q.getvar v).map rnd
  platform : q'.getint "PT" = some 7
  lost : ∀ v ∈ ["DS", "VS", "AT2", "DCK", "SID", "SHU", "VAP", "CRH", "CWB", "DPD", "W", "WI", "D", "DI", "WW"],
    q'.getvar v = none
  ext : ∀ v ∈ ["OSTIA", "ICE", "BGVAR"], q'.getext v = .ok ((q.getvar v).map rnd)
  qc : ∀ k, q'.qc k = none
  time : q'.dt = timestamp (q'.getint "YR") (q'.getint "MO") (q'.getint "DY") (q'.getvar "HR")

theorem rowReport_ok (fmt : Rat → List Char) (num : List Char → Option Rat) (rnd : Rat → Rat) (h : Numerals fmt num rnd)
    (order : List (List Char) → List (List Char)) (ho : ∀ l, (order l).Perm l) (q : Report) (hq : Storable rnd q) :
    ∃ q', rowReport num order (varColumns.map fun k => (k.toList, some (varCell fmt q k))) = .ok q' ∧ ReadVars rnd q q' := by
  obtain ⟨u, hu, _, _, hu3⟩ := hq.uid
  obtain ⟨i, hi, _, _, hi3⟩ := hq.ident
  unfold rowReport
  rw [easyImma_row]
  dsimp only
  have ek : (varColumns.map fun k => (k.toList, varVal fmt q k)).map Prod.fst = varColumns.map String.toList := by
    rw [List.map_map]; rfl
  rw [ek]
  have hperm : (order (varColumns.map String.toList)).Perm (varColumns.map String.toList) := ho _
  rw [mapM_ok _ (fun k => (String.ofList k, recVal rnd q (String.ofList k))), except_bind_ok]
  swap
  · intro k hk
    obtain ⟨s, hs, rfl⟩ := List.mem_map.mp (hperm.mem_iff.mp hk)
    rw [recordEntry_ok fmt num rnd h q s hs, String.ofList_toList]
  rw [rowGet_named, rowGet_named, rowGet_named, if_neg (show "PT" ∉ varColumns by decide),
    if_pos (show "ID" ∈ varColumns by decide), if_pos (show "UID" ∈ varColumns by decide)]
  have vi : varVal fmt q "ID" = some i.toList := by
    have e : varCell fmt q "ID" = i.toList := by simp [varCell, Spec.entry, hi]
    unfold varVal
    rw [e, if_neg]
    simpa [missing] using hi3
  have vu : varVal fmt q "UID" = some u.toList := by
    have e : varCell fmt q "UID" = u.toList := by simp [varCell, hu]
    unfold varVal
    rw [e, if_neg]
    simpa [missing] using hu3
  rw [vi, vu]
  simp only [Option.isSome_none, Bool.false_eq_true, if_false, Option.getD_some, Option.map_some, String.ofList_toList]
  have hp2 : ((order (varColumns.map String.toList)).map (fun k => (String.ofList k, recVal rnd q (String.ofList k))) ++
      [("PT", some 7)]).Perm (recList rnd q) := by
    unfold recList
    apply List.Perm.append_right
    have := hperm.map fun k => (String.ofList k, recVal rnd q (String.ofList k))
    rw [List.map_map] at this
    have e : ((fun k => (String.ofList k, recVal rnd q (String.ofList k))) ∘ String.toList) = fun k => (k, recVal rnd q k) := by
      funext k; simp
    rw [e] at this
    exact this
  rw [C31_init_order_independent (some i) (some u) _ _ hp2
    ((hp2.map Prod.fst).nodup_iff.mpr (recList_nodup rnd q)), init_eq _ _ _ (recList_nodup rnd q)]
  have hdata : ∀ v ∈ VARLIST, (rawReport (some i) (some u) (recList rnd q)).data v =
      if v = "PT" then some 7 else recVal rnd q v := fun v hv => recList_value rnd q v hv
  have gint : ∀ v ∈ ["YR", "MO", "DY"], (rawReport (some i) (some u) (recList rnd q)).getint v = q.getint v := by
    intro v hv
    have h1 : v ∈ VARLIST ∧ v ≠ "PT" := by
      have : ∀ v ∈ ["YR", "MO", "DY"], v ∈ VARLIST ∧ v ≠ "PT" := by decide
      exact this v hv
    have h2 : (rawReport (some i) (some u) (recList rnd q)).data v = (q.getint v).map fun n => (n : Rat) := by
      rw [hdata v h1.1, if_neg h1.2, recVal, if_pos hv]
    unfold Report.getint at h2 ⊢
    rw [h2]
    cases q.data v with
    | none => rfl
    | some x => simp [pyInt_intCast]
  have gvar : ∀ v ∈ ["HR", "LAT", "LON", "AT", "SST", "DPT", "SLP"],
      (rawReport (some i) (some u) (recList rnd q)).getvar v = (q.getvar v).map rnd := by
    intro v hv
    have h1 : v ∈ VARLIST ∧ v ≠ "PT" ∧ v ∉ intVars ∧ v ∉ ["YR", "MO", "DY"] := by
      have : ∀ v ∈ ["HR", "LAT", "LON", "AT", "SST", "DPT", "SLP"],
        v ∈ VARLIST ∧ v ≠ "PT" ∧ v ∉ intVars ∧ v ∉ ["YR", "MO", "DY"] := by decide
      exact this v hv
    have h2 : (rawReport (some i) (some u) (recList rnd q)).data v = (q.getvar v).map rnd := by
      rw [hdata v h1.1, if_neg h1.2.1, recVal, if_neg h1.2.2.2, if_pos hv]
    conv_lhs => unfold Report.getvar
    rw [if_neg (by simp [h1.1]), if_pos h1.1, h2]
    cases q.getvar v with
    | none => rfl
    | some x => simp [h1.2.2.1]
  have glost : ∀ v ∈ ["DS", "VS", "AT2", "DCK", "SID", "SHU", "VAP", "CRH", "CWB", "DPD", "W", "WI", "D", "DI", "WW"],
      v ∈ VARLIST ∧ (rawReport (some i) (some u) (recList rnd q)).data v = none := by
    intro v hv
    have h1 : v ∈ VARLIST ∧ v ≠ "PT" ∧ v ∉ ["YR", "MO", "DY"] ∧ v ∉ ["HR", "LAT", "LON", "AT", "SST", "DPT", "SLP"] := by
      have : ∀ v ∈ ["DS", "VS", "AT2", "DCK", "SID", "SHU", "VAP", "CRH", "CWB", "DPD", "W", "WI", "D", "DI", "WW"],
        v ∈ VARLIST ∧ v ≠ "PT" ∧ v ∉ ["YR", "MO", "DY"] ∧ v ∉ ["HR", "LAT", "LON", "AT", "SST", "DPT", "SLP"] := by decide
      exact this v hv
    refine ⟨h1.1, ?_⟩
    rw [hdata v h1.1, if_neg h1.2.1, recVal, if_neg h1.2.2.1, if_neg h1.2.2.2]
  have gpt : (rawReport (some i) (some u) (recList rnd q)).data "PT" = some 7 := by
    rw [hdata "PT" (by decide), if_pos rfl]
  obtain ⟨d, hd⟩ := reread_time rnd q hq _ gint (gvar "HR" (by decide))
  rw [hd, except_bind_ok, Report.calculateDsiVsi]
  have hdsi : ({ rawReport (some i) (some u) (recList rnd q) with dt := d } : Report).dsi = .ok none := by
    unfold Report.dsi Report.getint
    rw [show ({ rawReport (some i) (some u) (recList rnd q) with dt := d } : Report).data "DS" = none from
      (glost "DS" (by decide)).2]
  rw [hdsi, except_bind_ok, except_pure, except_bind_ok, extEntry_ok fmt num rnd h q "OSTIA" (by decide), except_bind_ok,
    extEntry_ok fmt num rnd h q "ICE" (by decide), except_bind_ok, extEntry_ok fmt num rnd h q "BGVAR" (by decide),
    except_bind_ok]
  have ht := C31_timestamp_value _ _ hd
  generalize hR : rawReport (some i) (some u) (recList rnd q) = R at *
  have hRi : R.id = some i := by rw [← hR]; rfl
  have hRu : R.uid = some u := by rw [← hR]; rfl
  have hRq : ∀ k, R.qc k = none := by intro k; rw [← hR]; rfl
  have getv : ∀ (R' : Report) v, v ∈ VARLIST → R'.data = R.data → R'.getvar v = R.getvar v := by
    intro R' v hv hd
    have key : ∀ S : Report, S.getvar v = match S.data v with
        | none => none
        | some q => if v ∈ intVars then some (pyInt q : Int) else some q := by
      intro S
      unfold Report.getvar
      cases S.data v <;> simp [hv]
    rw [key, key, hd]
  have varl : ∀ v ∈ ["HR", "LAT", "LON", "AT", "SST", "DPT", "SLP"], v ∈ VARLIST := by decide
  refine ⟨_, rfl, ?_⟩
  constructor
  · rw [hi, ← hRi]; rfl
  · rw [hu, ← hRu]; rfl
  · exact gint
  · intro v hv
    refine (getv _ v (varl v hv) ?_).trans (gvar v hv)
    rfl
  · show (match R.data "PT" with | none => none | some q => some (pyInt q)) = some 7
    rw [gpt]
    rfl
  · intro v hv
    obtain ⟨k1, k2⟩ := glost v hv
    refine (getv _ v k1 ?_).trans ?_
    · rfl
    unfold Report.getvar
    rw [if_neg (by simp [k1]), if_pos k1, k2]
  · intro v hv
    simp only [List.mem_cons, List.not_mem_nil, or_false] at hv
    rcases hv with rfl | rfl | rfl <;> simp [Report.getext, Report.setext]
  · exact hRq
  · show d = _
    rw [ht, ← getv _ "HR" (by decide)]
    · rfl
    · rfl

end MarineQC
