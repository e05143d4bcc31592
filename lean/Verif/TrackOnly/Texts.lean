import Verif.TrackOnly.Bare
import Verif.Base.OutProps

/-! # What is written of reports that have the same shadow -/

namespace MarineQC

open Spec

theorem var_row (fmt : Rat → List Char) (r : Report) (vars : List VarName) {u : String} (hu : r.uid = some u) :
    printVariableBlock fmt r vars false true = .ok (lineOf ((varRow fmt r vars).map Prod.fst)) := by
  unfold printVariableBlock variablePieces
  rw [if_neg (by simp), if_pos rfl, hu]
  have e : ([(some u).map String.toList, some [','], some (rowDate r), some [','], some (intText (rowPentad r)), some [',']] :
      List (Option (List Char))) ++ withCommas (vars.map (columnText fmt r)) =
      withCommas (u.toList :: rowDate r :: intText (rowPentad r) :: vars.map (columnText fmt r)) := by
    simp [withCommas]
  rw [e, join_fields _ (by simp)]
  congr 2
  unfold varRow
  rw [hu, rowDate_eq, rowPentad_eq]
  simp [Function.comp_def]

theorem lineOf_text : ∀ {l : List (List Char)}, l ≠ [] → lineOf l = [','].intercalate l ++ ['\n']
  | [], h => absurd rfl h
  | [w], _ => by simp [lineOf]
  | w :: x :: l, _ => by
    have e : [','].intercalate (w :: x :: l) = w ++ ',' :: [','].intercalate (x :: l) := by simp [List.intercalate]
    rw [lineOf, lineOf_text (l := x :: l) (by simp), e, List.append_assoc, List.cons_append]
    simp

theorem writeLines_all {L : List (Except Err (List Char))} (h : (writeLines L).2 = none) : ∀ x ∈ L, ∃ s, x = .ok s := by
  induction L with
  | nil => simp
  | cons a L ih =>
    cases a with
    | error e => cases h
    | ok s =>
      intro x hx
      rcases List.mem_cons.mp hx with rfl | hx
      · exact ⟨s, rfl⟩
      · exact ih h x hx

theorem writeLines_map {α : Type} {f : α → Except Err (List Char)} {g : α → List Char} :
    ∀ {l : List α}, (∀ a ∈ l, f a = .ok (g a)) → writeLines (l.map f) = ((l.map g).flatten, none)
  | [], _ => rfl
  | a :: l, h => by
    rw [List.map_cons, h a (by simp), writeLines, writeLines_map fun b hb => h b (by simp [hb])]
    rfl

theorem inMonth_shadow (y m : Int) (r : Report) : inMonth y m (shadow r) = inMonth y m r := by
  unfold inMonth
  rw [shadow_getint r (by decide), shadow_getint r (by decide)]

theorem filter_shadow (y m : Int) (l : List Report) : (l.map shadow).filter (inMonth y m) = (l.filter (inMonth y m)).map shadow := by
  rw [List.filter_map]
  congr 2

theorem filter_alike (y m : Int) {v v' : List Report} (h : v.map shadow = v'.map shadow) :
    (v.filter (inMonth y m)).map shadow = (v'.filter (inMonth y m)).map shadow := by
  rw [← filter_shadow, h, filter_shadow]

/-- A table of variables that is written to the end, and that of reports with the same shadows. -/
theorem variables_alike (fmt : Rat → List Char) (y m : Int) {v v' : List Report} (h : v.map shadow = v'.map shadow)
    (hw : (writeLines (tableLines v (v.filter (inMonth y m)) (fun r => printVariableBlock fmt r voyageVars true true)
      (fun r => printVariableBlock fmt r voyageVars false true))).2 = none) :
    writeLines (tableLines v (v.filter (inMonth y m)) (fun r => printVariableBlock fmt r voyageVars true true)
      (fun r => printVariableBlock fmt r voyageVars false true)) =
        (variableText fmt voyageVars (v.filter (inMonth y m)), none) ∧
    writeLines (tableLines v' (v'.filter (inMonth y m)) (fun r => printVariableBlock fmt r voyageVars true true)
      (fun r => printVariableBlock fmt r voyageVars false true)) =
        (variableText fmt voyageVars (v'.filter (inMonth y m)), none) := by
  have hu : ∀ r ∈ v.filter (inMonth y m), ∃ u, r.uid = some u := by
    intro r hr
    obtain ⟨s, hs⟩ := writeLines_all hw (printVariableBlock fmt r voyageVars false true) (by
      unfold tableLines
      exact List.mem_cons_of_mem _ (List.mem_map_of_mem hr))
    cases e : r.uid with
    | some u => exact ⟨u, rfl⟩
    | none =>
      rw [(C86_no_uid fmt r e voyageVars "" []).1] at hs
      cases hs
  have hu' : ∀ r ∈ v'.filter (inMonth y m), ∃ u, r.uid = some u := by
    intro r hr
    have := List.mem_map_of_mem (f := shadow) hr
    rw [← filter_alike y m h] at this
    obtain ⟨q, hq, e⟩ := List.mem_map.mp this
    obtain ⟨u, hu⟩ := hu q hq
    exact ⟨u, by rw [← shadow_uid r, ← e, shadow_uid, hu]⟩
  have key : ∀ w : List Report, w ≠ [] → (∀ r ∈ w.filter (inMonth y m), ∃ u, r.uid = some u) →
      writeLines (tableLines w (w.filter (inMonth y m)) (fun r => printVariableBlock fmt r voyageVars true true)
        (fun r => printVariableBlock fmt r voyageVars false true)) =
        (variableText fmt voyageVars (w.filter (inMonth y m)), none) := by
    intro w hne hw
    unfold tableLines
    cases w with
    | nil => exact absurd rfl hne
    | cons a w =>
      simp only [variable_header fmt a voyageVars (by decide)]
      rw [writeLines, writeLines_map (g := fun r => lineOf ((varRow fmt r voyageVars).map Prod.fst)) (by
        intro r hr
        obtain ⟨u, hu⟩ := hw r hr
        exact var_row fmt r voyageVars hu)]
      unfold variableText
      rw [List.map_cons, List.flatten_cons, List.map_map]
      rfl
  have hne : v ≠ [] := by
    rintro rfl
    cases hw
  have hne' : v' ≠ [] := by
    rintro rfl
    exact hne (List.map_eq_nil_iff.mp h)
  exact ⟨key v hne hu, key v' hne' hu'⟩

theorem printQc_shadow (r : Report) {b : String} (hb : KeptType b) (fl : List String) (x y : Bool) :
    printQcBlock (shadow r) b fl x y = printQcBlock r b fl x y := by
  unfold printQcBlock qcPieces
  simp only [shadow_getQc r hb, shadow_uid]

theorem tableLines_shadow (y m : Int) (v : List Report) {f g : Report → Except Err (List Char)} (hf : ∀ r, f (shadow r) = f r)
    (hg : ∀ r, g (shadow r) = g r) :
    tableLines (v.map shadow) ((v.map shadow).filter (inMonth y m)) f g = tableLines v (v.filter (inMonth y m)) f g := by
  unfold tableLines
  rw [filter_shadow, List.map_map]
  congr 1
  · cases v with
    | nil => rfl
    | cons a v => exact hf a
  · exact List.map_congr_left fun r _ => hg r

theorem voyageQc_shadow (runid dir : List Char) (y m : Int) (v : List Report) {flags : List (String × List String)}
    (hk : ∀ b ∈ flags, KeptType b.1) (fs : FileSys) :
    voyageWriteQc runid dir y m (v.map shadow) flags fs = voyageWriteQc runid dir y m v flags fs := by
  induction flags generalizing fs with
  | nil => rfl
  | cons b l ih =>
    cases v with
    | nil => rfl
    | cons a v =>
      have e := tableLines_shadow y m (a :: v) (f := fun r => printQcBlock r b.1 b.2 true true)
        (g := fun r => printQcBlock r b.1 b.2 false true) (fun r => printQc_shadow r (hk b (by simp)) _ _ _)
        (fun r => printQc_shadow r (hk b (by simp)) _ _ _)
      unfold voyageWriteQc
      have ih' : voyageWriteQc runid dir y m ((a :: v).map shadow) l = voyageWriteQc runid dir y m (a :: v) l :=
        funext fun fs => ih (fun c hc => hk c (by simp [hc])) fs
      rw [e, ih']
      simp only [List.map_cons, shadow_id]

theorem voyageQc_alike (runid dir : List Char) (y m : Int) {v v' : List Report} (h : v.map shadow = v'.map shadow)
    {flags : List (String × List String)} (hk : ∀ b ∈ flags, KeptType b.1) (fs : FileSys) :
    voyageWriteQc runid dir y m v' flags fs = voyageWriteQc runid dir y m v flags fs := by
  rw [← voyageQc_shadow _ _ _ _ v hk, h, voyageQc_shadow _ _ _ _ v' hk]

theorem kept_voyageFlags {flags : List (String × List String)} (h : flags.Perm voyageFlags) : ∀ b ∈ flags, KeptType b.1 := by
  intro b hb
  have : ∀ b ∈ voyageFlags, b.1 = "POS" ∨ b.1 = "SST" := by decide
  exact this b (h.mem_iff.mp hb)

theorem voyage_shadow (G : Geo) {d : Deck} (hq : KeptFilter d.filter) (l : List Nat) :
    d.dim.voyage G l = (d.voyage G l).map (List.map shadow) := by
  unfold Deck.voyage
  rw [platform_shadow hq, exBind_map, exMap_bind]
  congr 1
  funext c
  have e : (c.map shadowAt).map (·.1) = (c.map (·.1)).map shadow := by simp [shadowAt, Function.comp_def]
  have := build_shadow G (c.map (·.1)) []
  rw [List.map_nil] at this
  rw [e, this]

/-! ## The tables differ in the anomalies only -/

theorem columnText_alike (fmt : Rat → List Char) {r s : Report} (h : shadow r = shadow s) {v : VarName} (hv : v.1 ∉ mainOnly)
    (ha : v.2 = [] ∨ v.1 = "SST") : columnText fmt r v = columnText fmt s v := by
  have key : ∀ r : Report, columnText fmt (shadow r) v = columnText fmt r v := by
    intro r
    unfold columnText
    rw [shadow_id, shadow_uid, shadow_getvar r hv]
    rcases ha with ha | ha
    · simp only [ha, List.length_nil, gt_iff_lt, Nat.lt_irrefl, if_false]
    · rw [ha, shadow_getanom]
  rw [← key r, h, key s]

theorem row_alike (fmt : Rat → List Char) {r s : Report} (h : shadow r = shadow s) (hb : Bare s) :
    (varRow fmt s voyageVars).map Prod.fst = withoutAnomalies ((varRow fmt r voyageVars).map Prod.fst) := by
  have hi : ∀ {k : String}, k ∉ mainOnly → r.getint k = s.getint k := by
    intro k hk
    rw [← shadow_getint r hk, h, shadow_getint s hk]
  have hu : r.uid = s.uid := by rw [← shadow_uid r, h, shadow_uid]
  have hd : date r = date s := by
    unfold date
    rw [hi (by decide), hi (by decide), hi (by decide)]
  have hp : pentad r = pentad s := by
    unfold pentad
    rw [hi (by decide), hi (by decide)]
  have hc : ∀ {v : VarName}, v.1 ∉ mainOnly → (v.2 = [] ∨ v.1 = "SST") → columnText fmt r v = columnText fmt s v :=
    fun h1 h2 => columnText_alike fmt h h1 h2
  have ha : ∀ k : String, k ≠ "ID" → k ≠ "SST" → columnText fmt s (k, ["anom"]) = missing := by
    intro k hk hk'
    unfold columnText
    rw [if_neg hk, if_pos (by simp)]
    have : s.getanom k = none := by
      unfold Report.getanom
      rw [hb k hk']
    rw [this]
    rfl
  have e : ∀ q : Report, (varRow fmt q voyageVars).map Prod.fst =
      [(q.uid.getD "").toList, date q, intText (pentad q), columnText fmt q ("ID", []), columnText fmt q ("YR", []),
       columnText fmt q ("MO", []), columnText fmt q ("DY", []), columnText fmt q ("HR", []), columnText fmt q ("LAT", []),
       columnText fmt q ("LON", []), columnText fmt q ("AT", []), columnText fmt q ("AT", ["anom"]), columnText fmt q ("SST", []),
       columnText fmt q ("SST", ["anom"]), columnText fmt q ("DPT", []), columnText fmt q ("DPT", ["anom"]),
       columnText fmt q ("SLP", []), columnText fmt q ("SLP", ["anom"]), columnText fmt q ("OSTIA", []),
       columnText fmt q ("ICE", []), columnText fmt q ("BGVAR", [])] := fun q => rfl
  rw [e r, e s, hu, hd, hp, hc (v := ("ID", [])) (by decide) (Or.inl rfl), hc (v := ("YR", [])) (by decide) (Or.inl rfl),
    hc (v := ("MO", [])) (by decide) (Or.inl rfl), hc (v := ("DY", [])) (by decide) (Or.inl rfl),
    hc (v := ("HR", [])) (by decide) (Or.inl rfl), hc (v := ("LAT", [])) (by decide) (Or.inl rfl),
    hc (v := ("LON", [])) (by decide) (Or.inl rfl), hc (v := ("AT", [])) (by decide) (Or.inl rfl),
    hc (v := ("SST", [])) (by decide) (Or.inl rfl), hc (v := ("SST", ["anom"])) (by decide) (Or.inr rfl),
    hc (v := ("DPT", [])) (by decide) (Or.inl rfl), hc (v := ("SLP", [])) (by decide) (Or.inl rfl),
    hc (v := ("OSTIA", [])) (by decide) (Or.inl rfl), hc (v := ("ICE", [])) (by decide) (Or.inl rfl),
    hc (v := ("BGVAR", [])) (by decide) (Or.inl rfl), ha "AT" (by decide) (by decide), ha "DPT" (by decide) (by decide),
    ha "SLP" (by decide) (by decide)]
  rfl

theorem tables_alike (fmt : Rat → List Char) {l l' : List Report} (h : l.map shadow = l'.map shadow) (hb : ∀ r ∈ l', Bare r) :
    LacksAnomalies (variableText fmt voyageVars l) (variableText fmt voyageVars l') := by
  have e : ∀ l : List Report, variableText fmt voyageVars l =
      tableText ((varHead voyageVars).map Prod.fst :: l.map fun r => (varRow fmt r voyageVars).map Prod.fst) := by
    intro l
    unfold variableText tableText
    rw [List.map_cons, List.flatten_cons, List.flatMap_cons, lineOf_text (by decide), List.map_map, List.flatMap_map,
      List.flatMap_def]
    congr 2
    refine List.map_congr_left fun r _ => ?_
    exact lineOf_text (by simp [varRow])
  refine ⟨_, l.map fun r => (varRow fmt r voyageVars).map Prod.fst, e l, ?_, ?_, rfl, rfl, rfl⟩
  · rw [e l']
    congr 2
    rw [List.map_map]
    clear e
    induction l generalizing l' with
    | nil =>
      cases l' with
      | nil => rfl
      | cons b l' => cases h
    | cons a l ih =>
      cases l' with
      | nil => cases h
      | cons b l' =>
        rw [List.map_cons, List.map_cons, List.cons.injEq] at h
        rw [List.map_cons, List.map_cons, row_alike fmt h.1 (hb b (by simp)), ih h.2 fun r hr => hb r (by simp [hr])]
        rfl
  · intro r hr
    rcases List.mem_cons.mp hr with rfl | hr
    · rfl
    · obtain ⟨q, -, rfl⟩ := List.mem_map.mp hr
      rfl

end MarineQC
