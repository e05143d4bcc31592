import Verif.TrackOnly.Files
import Verif.Tracking.Handover
import Verif.Base.RunHandover

/-! # What the tracking program reads after either program -/

namespace MarineQC

open Spec

variable {F : Type} [LinearOrder F] [Zero F]

/-- The row of a report as `csv.DictReader` gives it. -/
def cellsOf (fmt : Rat → List Char) (q : Report) : RowDict := varColumns.map fun k => (k.toList, some (varCell fmt q k))

theorem csvVariables_cells (fmt : Rat → List Char) (num : List Char → Option Rat) (rnd : Rat → Rat) (h : Numerals fmt num rnd)
    (order : List (List Char) → List (List Char)) (Q : List Report) (hq : ∀ q ∈ Q, Storable rnd q) :
    csvVariables num order (variableText fmt voyageVars Q) = Q.mapM fun q => rowReport num order (cellsOf fmt q) := by
  unfold csvVariables
  rw [variable_lines fmt num rnd h Q hq]
  have eh : readHeaders (lineOf ((varHead voyageVars).map Prod.fst) ::
      Q.map fun q => lineOf ((varRow fmt q voyageVars).map Prod.fst)) = varColumns.map String.toList := by
    rw [varHead_columns, readHeaders_table]
    · decide
    · decide
  dsimp only
  rw [eh, if_neg (by decide)]
  have es : ((varColumns.map String.toList).set 11 "AT_anom".toList).set 13 "SST_anom".toList = varColumns.map String.toList := by
    decide
  rw [es]
  have er : dictRows (varColumns.map String.toList) (lineOf ((varHead voyageVars).map Prod.fst) ::
      Q.map fun q => lineOf ((varRow fmt q voyageVars).map Prod.fst)) =
      .ok (Q.map fun q => (varColumns.map fun k => (k.toList, some (varCell fmt q k)), false)) := by
    unfold dictRows
    have e : (Q.map fun q => lineOf ((varRow fmt q voyageVars).map Prod.fst)) =
        (Q.map fun q => varRow fmt q voyageVars).map fun p => lineOf (p.map Prod.fst) := by rw [List.map_map]; rfl
    rw [List.tail_cons, e, csvRows_table]
    · rw [except_bind_ok, List.map_map]
      have e2 : (Q.map ((fun p => p.map Prod.snd) ∘ fun q => varRow fmt q voyageVars)) =
          Q.map fun q => varColumns.map (varCell fmt q) := List.map_congr_left fun q _ => varRow_cells fmt q
      rw [e2, List.filter_eq_self.mpr, List.map_map]
      · exact congrArg Except.ok (List.map_congr_left fun q _ => dictRow_named varColumns (by decide) (varCell fmt q))
      · intro x hx
        obtain ⟨q, _, rfl⟩ := List.mem_map.mp hx
        simp [varColumns]
    · intro p hp
      obtain ⟨q, _, rfl⟩ := List.mem_map.mp hp
      simp [varRow]
    · intro p hp
      obtain ⟨q, hqm, rfl⟩ := List.mem_map.mp hp
      exact varRow_written fmt (fun x => (h.plain x).1) q (hq q hqm).writable _
    · intro p hp
      obtain ⟨q, hqm, rfl⟩ := List.mem_map.mp hp
      exact varRow_tidy fmt num rnd h q (hq q hqm) _
  rw [er, except_bind_ok, List.mapM_map]
  rfl

/-- The columns that the tracking program does not use and the second program leaves empty. -/
def unread : List String := ["AT_anom", "DPT_anom", "SLP_anom"]

theorem rowGet_alike (L : List String) (c c' : String → List Char) (hc : ∀ k ∈ L, k ∉ unread → c k = c' k) (k : List Char)
    (hk : String.ofList k ∉ unread) :
    rowGet (easyImma (L.map fun k => (k.toList, some (c k)))) k = rowGet (easyImma (L.map fun k => (k.toList, some (c' k)))) k := by
  induction L with
  | nil => rfl
  | cons a L ih =>
    unfold rowGet easyImma at ih ⊢
    simp only [List.map_cons, List.find?_cons]
    by_cases e : a.toList = k
    · have ha : a ∉ unread := by
        intro h
        rw [← e, String.ofList_toList] at hk
        exact hk h
      simp [e, hc a (by simp) ha]
    · have : (a.toList == k) = false := by simpa using e
      rw [this]
      exact ih fun k hk => hc k (by simp [hk])

theorem rowReport_alike (num : List Char → Option Rat) (order : List (List Char) → List (List Char)) (L : List String)
    (c c' : String → List Char) (hc : ∀ k ∈ L, k ∉ unread → c k = c' k) :
    rowReport num order (L.map fun k => (k.toList, some (c k))) = rowReport num order (L.map fun k => (k.toList, some (c' k))) := by
  have hk : ∀ d : String → List Char, (easyImma (L.map fun k => (k.toList, some (d k)))).map Prod.fst = L.map String.toList := by
    intro d
    unfold easyImma
    rw [List.map_map, List.map_map]
    rfl
  have hg := rowGet_alike L c c' hc
  have hr : recordEntry num (easyImma (L.map fun k => (k.toList, some (c k)))) =
      recordEntry num (easyImma (L.map fun k => (k.toList, some (c' k)))) := by
    funext k
    unfold recordEntry
    split_ifs with h
    · rw [hg k (by
        intro hu
        have : ∀ k ∈ unread, k ∉ VARLIST := by decide
        exact this _ hu h)]
    · rfl
  have he : ∀ k : String, k ∉ unread → extEntry num (easyImma (L.map fun k => (k.toList, some (c k)))) k =
      extEntry num (easyImma (L.map fun k => (k.toList, some (c' k)))) k := by
    intro k hk
    unfold extEntry
    rw [hg k.toList (by rw [String.ofList_toList]; exact hk)]
  unfold rowReport
  dsimp only
  rw [hk, hk, hr, hg "PT".toList (by decide), hg "ID".toList (by decide), hg "UID".toList (by decide), he "OSTIA" (by decide),
    he "ICE" (by decide), he "BGVAR" (by decide)]

/-- The report without its flags. -/
def flagless (r : Report) : Report := { r with qc := fun _ => none }

theorem varRow_flagless (fmt : Rat → List Char) (r : Report) (vars : List VarName) :
    varRow fmt (flagless r) vars = varRow fmt r vars := rfl

theorem entry_shadow (fmt : Rat → List Char) (r : Report) {v : VarName} (hv : v.1 ∉ mainOnly)
    (ha : v.2 = [] ∨ v.1 = "SST") : entry fmt (shadow r) v = entry fmt r v := by
  unfold entry
  rw [shadow_id, shadow_uid, shadow_getvar r hv, shadow_getint r hv]
  rcases ha with ha | ha
  · simp only [ha, ne_eq, not_true_eq_false, if_false]
  · rw [ha, shadow_getanom]

theorem cell_shadow (fmt : Rat → List Char) (r : Report) (k : String) (hk : k ∉ unread) (hc : k ∉ mainOnly) :
    varCell fmt (shadow r) k = varCell fmt r k := by
  have hd : date (shadow r) = date r := by
    unfold date
    rw [shadow_getint r (by decide), shadow_getint r (by decide), shadow_getint r (by decide)]
  have hp : pentad (shadow r) = pentad r := by
    unfold pentad
    rw [shadow_getint r (by decide), shadow_getint r (by decide)]
  simp only [unread, List.mem_cons, List.not_mem_nil, or_false, not_or] at hk
  unfold varCell
  rw [shadow_uid, hd, hp, entry_shadow fmt r (v := ("SST", ["anom"])) (by decide) (Or.inr rfl),
    entry_shadow fmt r (v := (k, [])) hc (Or.inl rfl)]
  rw [if_neg hk.1, if_neg hk.1, if_neg hk.2.1, if_neg hk.2.1, if_neg hk.2.2, if_neg hk.2.2]

theorem storable_flagless {rnd : Rat → Rat} {q q' : Report} (h : shadow q = shadow q') (hq : Storable rnd q) :
    Storable rnd (flagless q') := by
  have hu : q'.uid = q.uid := by rw [← shadow_uid q', ← h, shadow_uid]
  have hi : q'.id = q.id := by rw [← shadow_id q', ← h, shadow_id]
  have hg : ∀ {k : String}, k ∉ mainOnly → q'.getint k = q.getint k := by
    intro k hk
    rw [← shadow_getint q' hk, ← h, shadow_getint q hk]
  have hv : q'.getvar "HR" = q.getvar "HR" := by rw [← shadow_getvar q' (by decide), ← h, shadow_getvar q (by decide)]
  refine ⟨?_, ?_, fun t f => ⟨(by decide : (0 : Int) ≤ 9), le_refl (9 : Int)⟩, ?_⟩
  · show ∃ u, q'.uid = some u ∧ _
    rw [hu]
    exact hq.uid
  · show ∃ i, q'.id = some i ∧ _
    rw [hi]
    exact hq.ident
  · show ∀ y mo dy hr, q'.getint "YR" = some y → q'.getint "MO" = some mo → q'.getint "DY" = some dy → q'.getvar "HR" = some hr → _
    rw [hg (by decide), hg (by decide), hg (by decide), hv]
    exact hq.dated

theorem variableText_flagless (fmt : Rat → List Char) (l : List Report) :
    variableText fmt voyageVars (l.map flagless) = variableText fmt voyageVars l := by
  unfold variableText
  rw [List.map_map]
  rfl

/-- The two tables of variables are read alike. -/
theorem readVariables_alike (fmt : Rat → List Char) (num : List Char → Option Rat) (rnd : Rat → Rat) (h : Numerals fmt num rnd)
    (order : List (List Char) → List (List Char)) {l l' : List Report} (hl : l.map shadow = l'.map shadow)
    (hq : ∀ q ∈ l, Storable rnd q) :
    csvVariables num order (variableText fmt voyageVars l') = csvVariables num order (variableText fmt voyageVars l) ∧
      (fileLines (variableText fmt voyageVars l')).length = (fileLines (variableText fmt voyageVars l)).length := by
  have hq' : ∀ q ∈ l'.map flagless, Storable rnd q := by
    intro q hq1
    obtain ⟨q', hq', rfl⟩ := List.mem_map.mp hq1
    have := List.mem_map_of_mem (f := shadow) hq'
    rw [← hl] at this
    obtain ⟨q, hq2, e⟩ := List.mem_map.mp this
    exact storable_flagless e (hq q hq2)
  have hn : l'.length = l.length := by simpa using (congrArg List.length hl).symm
  rw [← variableText_flagless fmt l']
  constructor
  · rw [csvVariables_cells fmt num rnd h order _ hq, csvVariables_cells fmt num rnd h order _ hq', List.mapM_map]
    have key : ∀ q : Report, rowReport num order (cellsOf fmt (shadow q)) = rowReport num order (cellsOf fmt q) := by
      intro q
      refine rowReport_alike num order varColumns _ _ fun k hk hu => cell_shadow fmt q k hu ?_
      have : ∀ k ∈ varColumns, k ∉ mainOnly := by decide
      exact this k hk
    have e : ∀ l : List Report, (l.mapM fun q => rowReport num order (cellsOf fmt q)) =
        (l.map shadow).mapM fun q => rowReport num order (cellsOf fmt q) := by
      intro l
      rw [List.mapM_map]
      congr 1
      funext q
      exact (key q).symm
    rw [e l, hl, ← e l']
    rfl
  · rw [variable_lines fmt num rnd h _ hq, variable_lines fmt num rnd h _ hq']
    simp [hn]

theorem readMonth_alike {rnd : Rat → Rat} {num : List Char → Option Rat} {fmt : Rat → List Char} (h : Numerals fmt num rnd)
    (order : List (List Char) → List (List Char)) {runid out : List Char} {months : List (Int × Int)}
    (hm : ∀ m ∈ months, 0 ≤ m.1 ∧ 0 ≤ m.2) {fs gs : FileSys}
    (hf : Along fmt (Storable rnd) (DeckFile runid out months) (DrifterVariables runid out months) fs gs)
    (target : List Char) {y m : Int} (hy : 0 ≤ y) (hmo : 0 ≤ m) :
    readMonth num order gs out runid target y m = readMonth num order fs out runid target y m := by
  have b1 : Beginning "Variables_".toList ∧ Beginning "POS_qc_".toList ∧ Beginning "SST_qc_".toList := by
    unfold Beginning
    decide
  have hd : ∀ pre : String, Beginning pre.toList → ¬ DeckFile runid out months (inputPath out runid target y m pre) := by
    rintro pre hp ⟨k, hk, hkk⟩
    obtain ⟨pre', hpre', e⟩ : ∃ pre', Beginning pre' ∧ inputPath out runid target y m pre =
        deckPath runid (monthDir out k.1 k.2) k.1 k.2 false pre' := by
      rcases hkk with e | ⟨b, hb, e⟩
      · exact ⟨_, deck_beginnings.1, e⟩
      · exact ⟨_, deck_beginnings.2.1 b hb, e⟩
    rw [inputPath_eq] at e
    obtain ⟨x, ex⟩ := deckPath_in runid (monthDir out k.1 k.2) pre' k.1 k.2
    obtain ⟨x', ex'⟩ := voyagePath_in runid (monthDir out y m) pre.toList target y m
    have := inMonth_inj out x x' k.1 k.2 y m (hm k hk).1 hy (by rw [← ex, ← ex', e])
    obtain ⟨k1, k2⟩ := k
    cases this
    exact deck_voyage_path _ _ pre' pre.toList target _ _ hpre' hp hy hmo e.symm
  have hv : ∀ pre : String, Beginning pre.toList → pre.toList ≠ "Variables_".toList →
      gs.file (inputPath out runid target y m pre) = fs.file (inputPath out runid target y m pre) := by
    intro pre hp hne
    rcases hf.file _ (hd pre hp) with e | ⟨⟨k, hk, i, e⟩, -⟩
    · exact e.symm
    · rw [inputPath_eq] at e
      obtain ⟨x, ex⟩ := voyagePath_in runid (monthDir out k.1 k.2) "Variables_".toList i k.1 k.2
      obtain ⟨x', ex'⟩ := voyagePath_in runid (monthDir out y m) pre.toList target y m
      have := inMonth_inj out x x' k.1 k.2 y m (hm k hk).1 hy (by rw [← ex, ← ex', e])
      obtain ⟨k1, k2⟩ := k
      cases this
      exact absurd (voyagePath_inj _ _ _ _ _ _ _ _ hp b1.1 hy hmo e).1 hne
  unfold readMonth
  rw [hv "POS_qc_" b1.2.1 (by decide), hv "SST_qc_" b1.2.2 (by decide)]
  rcases hf.file _ (hd "Variables_" b1.1) with e | ⟨-, l, l', hl, -, hS, e1, e2⟩
  · rw [e]
  · rw [e1, e2]
    obtain ⟨r1, r2⟩ := readVariables_alike fmt num rnd h order hl hS
    cases fs.file (inputPath out runid target y m "POS_qc_") with
    | none => rfl
    | some a =>
      cases fs.file (inputPath out runid target y m "SST_qc_") with
      | none => rfl
      | some b =>
        dsimp only
        rw [r1, r2]

theorem readChunk_alike {rnd : Rat → Rat} {num : List Char → Option Rat} {fmt : Rat → List Char} (h : Numerals fmt num rnd)
    (order : List (List Char) → List (List Char)) {runid out : List Char} {months : List (Int × Int)}
    (hm : ∀ m ∈ months, 0 ≤ m.1 ∧ 0 ≤ m.2) {fs gs : FileSys}
    (hf : Along fmt (Storable rnd) (DeckFile runid out months) (DrifterVariables runid out months) fs gs)
    (id : List Char) {chunk : List (Int × Int)} (hc : ∀ m ∈ chunk, 0 ≤ m.1 ∧ 0 ≤ m.2) :
    readChunk num order gs out runid id chunk = readChunk num order fs out runid id chunk := by
  unfold readChunk
  have e : (chunk.mapM fun (m : Int × Int) => readMonth num order gs out runid (targetId id) m.1 m.2) =
      chunk.mapM fun (m : Int × Int) => readMonth num order fs out runid (targetId id) m.1 m.2 := by
    induction chunk with
    | nil => rfl
    | cons a l ih =>
      rw [List.mapM_cons, List.mapM_cons, ih fun m hm => hc m (by simp [hm]),
        readMonth_alike h order hm hf (targetId id) (hc a (by simp)).1 (hc a (by simp)).2]
  rw [e]

/-! ## The output of the tracking program -/

section Output

variable {fmt fmt' : Rat → List Char} {S : Report → Prop} {D V : List Char → Prop}

/-- The two results are alike. -/
def ResultAlike (fmt : Rat → List Char) (S : Report → Prop) (D V : List Char → Prop) (a b : FileSys × Option Err) : Prop :=
  b.2 = a.2 ∧ Along fmt S D V a.1 b.1

theorem along_sameWrite {fs gs : FileSys} (h : Along fmt S D V fs gs) (p : List Char) (L : List (Except Err (List Char))) :
    ResultAlike fmt S D V (writeFile fs p L) (writeFile gs p L) := by
  unfold writeFile
  rw [h.can]
  split_ifs
  · exact ⟨rfl, h.put _ _ _ (Or.inl rfl)⟩
  · exact ⟨rfl, h⟩

theorem along_writeTracking {fs gs : FileSys} (h : Along fmt S D V fs gs) (runid dir : List Char) (y m : Int) (v : List Report) :
    ResultAlike fmt S D V (writeTracking fmt' runid dir y m v fs) (writeTracking fmt' runid dir y m v gs) := by
  unfold writeTracking
  cases v with
  | nil => exact ⟨rfl, h⟩
  | cons a v =>
    dsimp only
    cases a.id with
    | none => exact ⟨rfl, h⟩
    | some i => exact along_sameWrite h _ _

theorem along_makeDirs (l : List (List Char)) (hl : ∀ p ∈ l, ¬ D p) : ∀ {fs gs : FileSys}, Along fmt S D V fs gs →
    Along fmt S D V (l.foldl makeDir fs) (l.foldl makeDir gs) := by
  induction l with
  | nil => exact fun h => h
  | cons a l ih =>
    intro fs gs h
    exact ih (fun p hp => hl p (by simp [hp])) (along_makeDir h (hl a (by simp)))

theorem along_writeInto {a b : FileSys × Option (List Char)} (h : Along fmt S D V a.1 b.1) (e : b.2 = a.2) (runid : List Char)
    (y m : Int) (v : List Report) : ResultAlike fmt S D V (writeInto fmt' runid y m v a) (writeInto fmt' runid y m v b) := by
  unfold writeInto
  rw [e]
  cases a.2 with
  | none => exact ⟨rfl, h⟩
  | some p => exact along_writeTracking h runid p y m v

theorem along_thenDo {a b : FileSys × Option Err} (h : ResultAlike fmt S D V a b) {f g : FileSys → FileSys × Option Err}
    (hf : ∀ {fs gs}, Along fmt S D V fs gs → ResultAlike fmt S D V (f fs) (g gs)) :
    ResultAlike fmt S D V (thenDo a f) (thenDo b g) := by
  obtain ⟨a1, a2⟩ := a
  obtain ⟨b1, b2⟩ := b
  obtain ⟨h1, h2⟩ := h
  dsimp only at h1
  subst h1
  cases b2 with
  | none => exact hf h2
  | some e => exact ⟨rfl, h2⟩

theorem along_whenDo (c : Bool) {f g : FileSys → FileSys × Option Err}
    (hf : ∀ {fs gs}, Along fmt S D V fs gs → ResultAlike fmt S D V (f fs) (g gs)) {fs gs : FileSys} (h : Along fmt S D V fs gs) :
    ResultAlike fmt S D V (whenDo c f fs) (whenDo c g gs) := by
  unfold whenDo
  split_ifs
  · exact hf h
  · exact ⟨rfl, h⟩

theorem along_trackingOutput {out runmonthid : List Char} (hb : IsBase out) (hrm : '/' ∉ runmonthid) {y m : Int}
    (hD : ∀ a ∈ trackingDirs out y m runmonthid, ¬ D a) (runid : List Char) (edge : List String) (v : List Report)
    {fs gs : FileSys} (h : Along fmt S D V fs gs) :
    ResultAlike fmt S D V (trackingOutput fmt' runid out y m edge runmonthid v fs)
      (trackingOutput fmt' runid out y m edge runmonthid v gs) := by
  have h1 : ∀ p ∈ buildCompletions out ["TrackingQC".toList, intText y, zeroPad 2 m], ¬ D p := by
    intro p hp
    rw [mem_completions out hb] at hp
    rcases hp with rfl | rfl | rfl <;> exact hD _ (by simp [trackingDirs])
  have hT : ∀ {fs gs : FileSys}, Along fmt S D V fs gs →
      Along fmt S D V (safeMakeTrackingDir fs out y m).1 (safeMakeTrackingDir gs out y m).1 ∧
      (safeMakeTrackingDir gs out y m).2 = (safeMakeTrackingDir fs out y m).2 := by
    intro fs gs h
    exact ⟨along_makeDirs _ h1 h, rfl⟩
  have hl : ∀ fs : FileSys, (safeMakeTrackingDir fs out y m).2 = some (trackingDir out y m) := by
    intro fs
    unfold safeMakeTrackingDir safeMakeDirGeneric
    dsimp only
    rw [C81_completions out _ hb (by
      intro s hs
      simp only [List.mem_cons, List.not_mem_nil, or_false] at hs
      rcases hs with rfl | rfl | rfl
      exacts [⟨by decide, by decide⟩, isName_int _, isName_pad _])]
    simp [List.range_succ, trackingDir]
  have hE : ∀ e : List Char, '/' ∉ e → trackingDir out y m ++ '/' :: (e ++ '_' :: runmonthid) ∈ trackingDirs out y m runmonthid →
      ∀ {fs gs : FileSys}, Along fmt S D V fs gs →
      Along fmt S D V (safeMakeEdgeDir fs out y m e runmonthid).1 (safeMakeEdgeDir gs out y m e runmonthid).1 ∧
      (safeMakeEdgeDir gs out y m e runmonthid).2 = (safeMakeEdgeDir fs out y m e runmonthid).2 := by
    intro e he hm fs gs h
    unfold safeMakeEdgeDir
    dsimp only
    rw [hl, hl]
    dsimp only
    refine ⟨along_makeDirs _ ?_ (hT h).1, rfl⟩
    intro p hp
    have hn : IsName (e ++ '_' :: runmonthid) := by
      refine ⟨by simp, ?_⟩
      simp only [List.mem_append, List.mem_cons, not_or]
      exact ⟨he, by decide, hrm⟩
    simp only [buildCompletions, pathJoin_name _ _ (trackingDir_isBase out y m) hn, List.mem_singleton] at hp
    subst hp
    exact hD _ hm
  unfold trackingOutput
  refine along_thenDo (along_whenDo _ (fun h => along_writeInto (hT h).1 (hT h).2 _ _ _ _) h) fun h => ?_
  refine along_thenDo (along_whenDo _ (fun h => ?_) h) fun h => along_whenDo _ (fun h => ?_) h
  · have := hE "start_edge_case".toList (by decide) (by simp [trackingDirs]) h
    exact along_writeInto this.1 this.2 _ _ _ _
  · have := hE "end_edge_case".toList (by decide) (by simp [trackingDirs]) h
    exact along_writeInto this.1 this.2 _ _ _ _

end Output

theorem tracking_alike {rnd : Rat → Rat} {num : List Char → Option Rat} {fmt : Rat → List Char} (h : Numerals fmt num rnd)
    (order : List (List Char) → List (List Char)) {runid out : List Char} {months : List (Int × Int)}
    (hm : ∀ m ∈ months, 0 ≤ m.1 ∧ 0 ≤ m.2) {fs gs : FileSys}
    (hf : Along fmt (Storable rnd) (DeckFile runid out months) (DrifterVariables runid out months) fs gs)
    (fmt' : Rat → List Char) (G : Geo) (elev : Int → Int → Rat → Rat → Rat → Rat → ℝ) (P : DriftParams)
    {trackOut runmonthid : List Char} (hb : IsBase trackOut) (hrm : '/' ∉ runmonthid) (arg : List Char) {chunk : List (Int × Int)}
    (hc : ∀ m ∈ chunk, 0 ≤ m.1 ∧ 0 ≤ m.2) {y m : Int}
    (hD : ∀ a ∈ trackingDirs trackOut y m runmonthid, ¬ DeckFile runid out months a) (edge : List String) :
    ResultAlike fmt (Storable rnd) (DeckFile runid out months) (DrifterVariables runid out months)
      (trackingMain fmt' num order G elev P out trackOut runid arg runmonthid chunk y m edge fs)
      (trackingMain fmt' num order G elev P out trackOut runid arg runmonthid chunk y m edge gs) := by
  unfold trackingMain
  rw [readChunk_alike h order hm hf arg hc]
  split
  · exact ⟨rfl, hf⟩
  · exact along_trackingOutput hb hrm hD runid edge _ hf

theorem trackAll_alike {rnd : Rat → Rat} {num : List Char → Option Rat} {fmt : Rat → List Char} (h : Numerals fmt num rnd)
    (order : List (List Char) → List (List Char)) {runid out : List Char} {months : List (Int × Int)}
    (hm : ∀ m ∈ months, 0 ≤ m.1 ∧ 0 ≤ m.2) (fmt' : Rat → List Char) (G : Geo)
    (elev : Int → Int → Rat → Rat → Rat → Rat → ℝ) (P : DriftParams) {trackOut : List Char} (hb : IsBase trackOut)
    (jobs : List TrackJob) (hj : ∀ j ∈ jobs, '/' ∉ j.runmonthid ∧ (∀ m ∈ j.chunk, 0 ≤ m.1 ∧ 0 ≤ m.2) ∧
      ∀ a ∈ trackingDirs trackOut j.year j.month j.runmonthid, ¬ DeckFile runid out months a) :
    ∀ {fs gs : FileSys}, Along fmt (Storable rnd) (DeckFile runid out months) (DrifterVariables runid out months) fs gs →
      (trackAll fmt' num order G elev P out trackOut runid jobs gs).2 = (trackAll fmt' num order G elev P out trackOut runid jobs fs).2 ∧
      Along fmt (Storable rnd) (DeckFile runid out months) (DrifterVariables runid out months)
        (trackAll fmt' num order G elev P out trackOut runid jobs fs).1 (trackAll fmt' num order G elev P out trackOut runid jobs gs).1 := by
  induction jobs with
  | nil => exact fun hf => ⟨rfl, hf⟩
  | cons j l ih =>
    intro fs gs hf
    obtain ⟨j1, j2, j3⟩ := hj j (by simp)
    obtain ⟨a1, a2⟩ := tracking_alike h order hm hf fmt' G elev P hb j1 j.arg j2 j3 j.edge
    obtain ⟨b1, b2⟩ := ih (fun k hk => hj k (by simp [hk])) a2
    unfold trackAll
    dsimp only
    exact ⟨by rw [a1, b1], b2⟩

theorem voyage_storable {rnd : Rat → Rat} {G : Geo} {d : Deck} (hd : ∀ r ∈ d.reps, DriftsNow r → Storable rnd r) (l : List Nat)
    (v : List Report) (h : (d.addFilter drifterFilter).voyage G l = .ok v) : ∀ r ∈ v, Storable rnd r := by
  unfold Deck.voyage at h
  obtain ⟨c, h1, h2⟩ := bind_ok_iff.mp h
  have hc : ∀ r ∈ c.map (·.1), Storable rnd r := by
    intro r hr
    obtain ⟨p, hp, rfl⟩ := List.mem_map.mp hr
    obtain ⟨p1, p2⟩ := platform_mem h1 p hp
    refine hd _ p1 ((passes_drifter _).mp ?_)
    rw [testReport_eq, show (d.addFilter drifterFilter).filter = drifterFilter from rfl] at p2
    by_contra hn
    rw [if_neg hn] at p2
    exact absurd p2 (by decide)
  have := build_only G _ v h2
  clear h1 h2 h
  revert hc
  generalize c.map (·.1) = l' at this ⊢
  intro hc
  induction this with
  | nil => simp
  | cons e _ ih =>
    intro r hr
    rcases List.mem_cons.mp hr with rfl | hr
    · exact storable_onlyFlags e (hc _ (by simp))
    · exact ih (fun r hr => hc r (by simp [hr])) r hr

end MarineQC
