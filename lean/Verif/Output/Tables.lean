import Verif.Output.Lines

/-! # Output files of a deck and of a voyage (C87–C89) -/

namespace MarineQC

/-! ## Writing one file -/

theorem writeLines_ok (l : List (List Char)) : writeLines (l.map Except.ok) = (l.flatten, none) := by
  induction l with
  | nil => rfl
  | cons a l ih => rw [List.map_cons, writeLines, ih]; rfl

theorem tableLines_ok (reps chosen : List Report) (hne : reps ≠ []) (header row : Report → Except Err (List Char))
    (h : List Char) (w : Report → List Char) (hh : ∀ r ∈ reps, header r = .ok h)
    (hw : ∀ r ∈ chosen, row r = .ok (w r)) :
    writeLines (tableLines reps chosen header row) = (h ++ (chosen.map w).flatten, none) := by
  have e : tableLines reps chosen header row = (h :: chosen.map w).map Except.ok := by
    unfold tableLines
    cases reps with
    | nil => exact absurd rfl hne
    | cons r l =>
      show header r :: _ = _
      rw [hh r (by simp), List.map_cons, List.map_map]
      congr 1
      exact List.map_congr_left fun a ha => hw a ha
  rw [e, writeLines_ok]
  rfl

theorem variable_table (fmt : Rat → List Char) (vars : List VarName) (hv : vars ≠ []) (reps chosen : List Report)
    (hne : reps ≠ []) (hr : ∀ r ∈ chosen, Spec.Writable r) :
    writeLines (tableLines reps chosen (fun r => printVariableBlock fmt r vars true true)
      (fun r => printVariableBlock fmt r vars false true)) =
      (((varHead vars :: chosen.map fun r => varRow fmt r vars).map fun p => lineOf (p.map Prod.fst)).flatten, none) := by
  rw [tableLines_ok reps chosen hne _ _ (lineOf ((varHead vars).map Prod.fst))
    (fun r => lineOf ((varRow fmt r vars).map Prod.fst)) (fun r _ => variable_header fmt r vars hv)
    (fun r h => variable_row fmt r vars (hr r h))]
  simp [Function.comp_def]

theorem qc_table (block : String) (flags : List String) (hv : flags ≠ []) (reps chosen : List Report)
    (hne : reps ≠ []) (hr : ∀ r ∈ chosen, Spec.Writable r) :
    writeLines (tableLines reps chosen (fun r => printQcBlock r block flags true true)
      (fun r => printQcBlock r block flags false true)) =
      (((qcHead flags :: chosen.map fun r => qcRow r block flags).map fun p => lineOf (p.map Prod.fst)).flatten, none) := by
  rw [tableLines_ok reps chosen hne _ _ (lineOf ((qcHead flags).map Prod.fst))
    (fun r => lineOf ((qcRow r block flags).map Prod.fst)) (fun r _ => qc_header r block flags hv)
    (fun r h => qc_row r block flags (hr r h))]
  simp [Function.comp_def]

/-! ## Specification -/

namespace Spec

/-- A table: the header, and one line per report of the month, in order. -/
def table (header : List (List Char)) (line : Report → List (List Char)) (reps : List Report) : List (List (List Char)) :=
  header :: reps.map line

/-- The reports of a month. -/
def ofMonth (year month : Int) (reps : List Report) : List Report :=
  reps.filter fun r => decide (r.getint "YR" = some year ∧ r.getint "MO" = some month)

/-- The table of variables. -/
def variableTable (fmt : Rat → List Char) (vars : List VarName) (reps : List Report) : List (List (List Char)) :=
  table (["UID".toList, "DATE".toList, "PENTAD".toList] ++ vars.map heading)
    (fun r => [(r.uid.getD "").toList, date r, intText (pentad r)] ++ vars.map (entry fmt r)) reps

/-- The table of the flags of one block. -/
def flagTable (block : String) (flags : List String) (reps : List Report) : List (List (List Char)) :=
  table ("UID".toList :: flags.map String.toList)
    (fun r => (r.uid.getD "").toList :: flags.map fun f => intText (r.getQc block f)) reps

/-- The file exists and holds the table. -/
def HoldsTable (fs : FileSys) (p : List Char) (t : List (List (List Char))) : Prop :=
  ∃ s, fs.file p = some s ∧ csv s = t

end Spec

theorem csv_variable_table (fmt : Rat → List Char) (hf : ∀ x, Spec.Plain (fmt x)) (vars : List VarName)
    (hv : ∀ v ∈ vars, Spec.Plain (Spec.heading v)) (chosen : List Report) (hr : ∀ r ∈ chosen, Spec.Writable r) :
    Spec.csv ((varHead vars :: chosen.map fun r => varRow fmt r vars).map fun p => lineOf (p.map Prod.fst)).flatten =
      Spec.variableTable fmt vars chosen := by
  rw [csv_lines]
  · unfold Spec.variableTable Spec.table
    rw [List.map_cons, List.map_map]
    congr 1
    · simp [varHead, Function.comp_def]
    · apply List.map_congr_left
      intro r _
      simp [varRow, Function.comp_def]
  · intro p hp
    rcases List.mem_cons.mp hp with rfl | h
    · simp [varHead]
    · obtain ⟨r, _, rfl⟩ := List.mem_map.mp h
      simp [varRow]
  · intro p hp
    rcases List.mem_cons.mp hp with rfl | h
    · exact varHead_written vars hv
    · obtain ⟨r, hm, rfl⟩ := List.mem_map.mp h
      exact varRow_written fmt hf r (hr r hm) vars

theorem csv_flag_table (block : String) (flags : List String) (hv : ∀ v ∈ flags, Spec.Plain v.toList)
    (chosen : List Report) (hr : ∀ r ∈ chosen, Spec.Writable r) :
    Spec.csv ((qcHead flags :: chosen.map fun r => qcRow r block flags).map fun p => lineOf (p.map Prod.fst)).flatten =
      Spec.flagTable block flags chosen := by
  rw [csv_lines]
  · unfold Spec.flagTable Spec.table
    rw [List.map_cons, List.map_map]
    congr 1
    · simp [qcHead, Function.comp_def]
    · apply List.map_congr_left
      intro r _
      simp [qcRow, Function.comp_def]
  · intro p hp
    rcases List.mem_cons.mp hp with rfl | h
    · simp [qcHead]
    · obtain ⟨r, _, rfl⟩ := List.mem_map.mp h
      simp [qcRow]
  · intro p hp
    rcases List.mem_cons.mp hp with rfl | h
    · exact qcHead_written flags hv
    · obtain ⟨r, hm, rfl⟩ := List.mem_map.mp h
      exact qcRow_written r (hr r hm) block flags

/-! ## Paths -/

theorem parent_of_join (dir name : List Char) (h : '/' ∉ name) : parentPath (dir ++ '/' :: name) = dir := by
  unfold parentPath
  have e : (dir ++ '/' :: name).reverse = name.reverse ++ '/' :: dir.reverse := by simp
  rw [e, List.dropWhile_append_of_pos]
  · simp
  · intro a ha
    have : a ≠ '/' := by
      rintro rfl
      exact h (by simpa using ha)
    simpa using this

theorem inMonth_eq (year month : Int) (reps : List Report) : reps.filter (inMonth year month) = Spec.ofMonth year month reps := by
  unfold Spec.ofMonth
  congr 1
  funext r
  unfold inMonth
  rw [Bool.decide_and]

/-! ## Several files -/

/-- One file after the other. -/
def writeFiles : List (List Char × List (Except Err (List Char))) → FileSys → FileSys × Option Err
  | [], fs => (fs, none)
  | x :: l, fs => thenDo (writeFile fs x.1 x.2) (writeFiles l)

theorem writeFiles_ok (l : List (List Char × List (Except Err (List Char)))) : ∀ (fs : FileSys)
    (_ : (l.map Prod.fst).Nodup) (_ : ∀ x ∈ l, canWrite fs x.1 = true) (_ : ∀ x ∈ l, (writeLines x.2).2 = none),
    ∃ fs', writeFiles l fs = (fs', none) ∧ (∀ x ∈ l, fs'.file x.1 = some (writeLines x.2).1) ∧
      (∀ p, p ∉ l.map Prod.fst → fs'.file p = fs.file p) ∧ fs'.dir = fs.dir := by
  induction l with
  | nil => intro fs _ _ _; exact ⟨fs, rfl, by simp, by simp, rfl⟩
  | cons x l ih =>
    intro fs hn hc hl
    rw [List.map_cons, List.nodup_cons] at hn
    have e : writeFile fs x.1 x.2 = (fs.put x.1 (writeLines x.2).1, none) := by
      unfold writeFile
      rw [if_pos (hc x (by simp)), hl x (by simp)]
    obtain ⟨fs', h1, h2, h3, h4⟩ := ih (fs.put x.1 (writeLines x.2).1) hn.2
      (fun y hy => hc y (by simp [hy])) (fun y hy => hl y (by simp [hy]))
    refine ⟨fs', ?_, ?_, ?_, h4⟩
    · rw [writeFiles, e]; exact h1
    · intro y hy
      rcases List.mem_cons.mp hy with rfl | hy
      · rw [h3 _ hn.1]; simp [FileSys.put]
      · exact h2 y hy
    · intro p hp
      rw [List.map_cons, List.mem_cons, not_or] at hp
      rw [h3 p hp.2]
      simp [FileSys.put, hp.1]

/-! ## Decks -/

/-- The lines of the file of a block of flags. -/
def qcFileLines (year month : Int) (reps : List Report) (b : String × List String) : List (Except Err (List Char)) :=
  tableLines reps (reps.filter (inMonth year month)) (fun r => printQcBlock r b.1 b.2 true true)
    (fun r => printQcBlock r b.1 b.2 false true)

theorem deckWriteQc_eq (runid dir : List Char) (year month : Int) (test : Bool) (reps : List Report)
    (l : List (String × List String)) :
    deckWriteQc runid dir year month test reps l = writeFiles (l.map fun b =>
      (deckPath runid dir year month test (b.1.toList ++ "_qc_".toList), qcFileLines year month reps b)) := by
  induction l with
  | nil => funext fs; rfl
  | cons b l ih =>
    funext fs
    rw [deckWriteQc, List.map_cons, writeFiles, ih]
    rfl

theorem deckPath_inj (runid dir : List Char) (year month : Int) (test : Bool) (p q : List Char)
    (h : deckPath runid dir year month test p = deckPath runid dir year month test q) : p = q := by
  unfold deckPath at h
  simpa using h

theorem deckName_no_slash (runid : List Char) (hid : '/' ∉ runid) (year month : Int) (test : Bool) (pre : List Char)
    (hp : '/' ∉ pre) : '/' ∉ (if test then "Test_".toList else []) ++
      (pre ++ intText year ++ zeroPad 2 month ++ '_' :: runid ++ ".csv".toList) := by
  have h1 : '/' ∉ intText year := by
    intro h
    unfold intText at h
    split at h
    · rcases List.mem_cons.mp h with h | h
      · revert h; decide
      · have := natText_digits _ _ h; revert this; decide
    · have := natText_digits _ _ h; revert this; decide
  have h2 : '/' ∉ zeroPad 2 month := by
    intro h
    rcases zeroPad_chars _ _ _ h with h | h <;> (revert h; decide)
  have h3 : '/' ∉ ".csv".toList := by decide
  have h4 : '/' ∉ (if test then "Test_".toList else []) := by cases test <;> decide
  simp only [List.mem_append, List.mem_cons, not_or]
  exact ⟨h4, ⟨⟨⟨hp, h1⟩, h2⟩, by decide, hid⟩, h3⟩

/-- The files to be written. -/
def outputFiles (fmt : Rat → List Char) (vars : List VarName) (flags : List (String × List String)) (year month : Int)
    (reps : List Report) (vpath : List Char) (qpath : String → List Char) :
    List (List Char × List (Except Err (List Char))) :=
  (vpath, tableLines reps (reps.filter (inMonth year month)) (fun r => printVariableBlock fmt r vars true true)
    (fun r => printVariableBlock fmt r vars false true)) :: flags.map fun b => (qpath b.1, qcFileLines year month reps b)

/-- The text of a table of variables. -/
def variableText (fmt : Rat → List Char) (vars : List VarName) (reps : List Report) : List Char :=
  ((varHead vars :: reps.map fun r => varRow fmt r vars).map fun p => lineOf (p.map Prod.fst)).flatten

/-- The text of a table of flags. -/
def flagText (b : String × List String) (reps : List Report) : List Char :=
  ((qcHead b.2 :: reps.map fun r => qcRow r b.1 b.2).map fun p => lineOf (p.map Prod.fst)).flatten

/-- Writing all files of a deck or voyage, when all can be opened and their names are different: the text of each. -/
theorem files_text (fmt : Rat → List Char) (vars : List VarName)
    (flags : List (String × List String)) (hv0 : vars ≠ []) (hb : ∀ b ∈ flags, b.2 ≠ [])
    (year month : Int) (reps : List Report) (hne : reps ≠ [])
    (hr : ∀ r ∈ Spec.ofMonth year month reps, Spec.Writable r) (fs : FileSys)
    (vpath : List Char) (qpath : String → List Char)
    (hn : (vpath :: flags.map fun b => qpath b.1).Nodup)
    (hcv : canWrite fs vpath = true) (hcq : ∀ b ∈ flags, canWrite fs (qpath b.1) = true) :
    ∃ fs', writeFiles (outputFiles fmt vars flags year month reps vpath qpath) fs = (fs', none) ∧
      fs'.file vpath = some (variableText fmt vars (Spec.ofMonth year month reps)) ∧
      (∀ b ∈ flags, fs'.file (qpath b.1) = some (flagText b (Spec.ofMonth year month reps))) ∧
      (∀ p, p ≠ vpath → (∀ b ∈ flags, p ≠ qpath b.1) → fs'.file p = fs.file p) ∧ fs'.dir = fs.dir := by
  rw [← inMonth_eq] at hr ⊢
  have vt := variable_table fmt vars hv0 reps (reps.filter (inMonth year month)) hne hr
  have ft : ∀ b ∈ flags, writeLines (qcFileLines year month reps b) = _ := fun b hbm =>
    qc_table b.1 b.2 (hb b hbm) reps (reps.filter (inMonth year month)) hne hr
  obtain ⟨fs', h1, h2, h3, h4⟩ := writeFiles_ok (outputFiles fmt vars flags year month reps vpath qpath) fs
    (by
      rw [outputFiles, List.map_cons, List.map_map]
      exact hn)
    (by
      intro x hx
      rcases List.mem_cons.mp hx with rfl | hx
      · exact hcv
      · obtain ⟨b, hbm, rfl⟩ := List.mem_map.mp hx
        exact hcq b hbm)
    (by
      intro x hx
      rcases List.mem_cons.mp hx with rfl | hx
      · rw [vt]
      · obtain ⟨b, hbm, rfl⟩ := List.mem_map.mp hx
        rw [ft b hbm])
  refine ⟨fs', h1, ?_, ?_, ?_, h4⟩
  · have := h2 _ (List.mem_cons_self ..)
    rw [vt] at this
    exact this
  · intro b hbm
    have := h2 _ (List.mem_cons_of_mem _ (List.mem_map_of_mem hbm))
    rw [ft b hbm] at this
    exact this
  · intro p hp1 hp2
    apply h3
    rw [outputFiles, List.map_cons, List.mem_cons, not_or, List.map_map]
    refine ⟨hp1, ?_⟩
    intro hm
    obtain ⟨b, hbm, rfl⟩ := List.mem_map.mp hm
    exact hp2 b hbm rfl

/-- Writing all files of a deck or voyage, when all can be opened and their names are different. -/
theorem files_written (fmt : Rat → List Char) (hf : ∀ x, Spec.Plain (fmt x)) (vars : List VarName)
    (flags : List (String × List String)) (hv0 : vars ≠ []) (hv : ∀ v ∈ vars, Spec.Plain (Spec.heading v))
    (hb : ∀ b ∈ flags, b.2 ≠ [] ∧ ∀ v ∈ b.2, Spec.Plain v.toList)
    (year month : Int) (reps : List Report) (hne : reps ≠ [])
    (hr : ∀ r ∈ Spec.ofMonth year month reps, Spec.Writable r) (fs : FileSys)
    (vpath : List Char) (qpath : String → List Char)
    (hn : (vpath :: flags.map fun b => qpath b.1).Nodup)
    (hcv : canWrite fs vpath = true) (hcq : ∀ b ∈ flags, canWrite fs (qpath b.1) = true) :
    ∃ fs', writeFiles (outputFiles fmt vars flags year month reps vpath qpath) fs = (fs', none) ∧
      Spec.HoldsTable fs' vpath (Spec.variableTable fmt vars (Spec.ofMonth year month reps)) ∧
      (∀ b ∈ flags, Spec.HoldsTable fs' (qpath b.1) (Spec.flagTable b.1 b.2 (Spec.ofMonth year month reps))) ∧
      (∀ p, p ≠ vpath → (∀ b ∈ flags, p ≠ qpath b.1) → fs'.file p = fs.file p) ∧ fs'.dir = fs.dir := by
  obtain ⟨fs', h1, h2, h3, h4, h5⟩ := files_text fmt vars flags hv0 (fun b hbm => (hb b hbm).1) year month reps hne hr fs vpath
    qpath hn hcv hcq
  exact ⟨fs', h1, ⟨_, h2, csv_variable_table fmt hf vars hv _ hr⟩,
    fun b hbm => ⟨_, h3 b hbm, csv_flag_table b.1 b.2 (hb b hbm).2 _ hr⟩, h4, h5⟩

theorem not_qc_prefix (b : String) : "Variables_".toList ≠ b.toList ++ "_qc_".toList := by
  intro this
  have h5 := congrArg (fun l : List Char => l.reverse.take 4) this
  simp only [List.reverse_append] at h5
  rw [List.take_append_of_le_length (by decide)] at h5
  revert h5
  decide

/-- Writing a deck with any lists of variables and flags. -/
theorem deck_written (fmt : Rat → List Char) (hf : ∀ x, Spec.Plain (fmt x)) (vars : List VarName)
    (flags : List (String × List String)) (hv0 : vars ≠ []) (hv : ∀ v ∈ vars, Spec.Plain (Spec.heading v))
    (hb : ∀ b ∈ flags, b.2 ≠ [] ∧ ∀ v ∈ b.2, Spec.Plain v.toList)
    (hs : ∀ b ∈ flags, '/' ∉ b.1.toList) (hn : (flags.map Prod.fst).Nodup)
    (runid dir : List Char) (hid : '/' ∉ runid) (year month : Int) (test : Bool) (reps : List Report) (hne : reps ≠ [])
    (hr : ∀ r ∈ Spec.ofMonth year month reps, Spec.Writable r) (fs : FileSys) (hdir : fs.dir dir = true)
    (hfree : ∀ pre, fs.dir (deckPath runid dir year month test pre) = true → pre ≠ "Variables_".toList ∧
      ∀ b ∈ flags, pre ≠ b.1.toList ++ "_qc_".toList) :
    ∃ fs', deckWrite fmt vars flags runid dir year month test reps fs = (fs', none) ∧
      Spec.HoldsTable fs' (deckPath runid dir year month test "Variables_".toList)
        (Spec.variableTable fmt vars (Spec.ofMonth year month reps)) ∧
      (∀ b ∈ flags, Spec.HoldsTable fs' (deckPath runid dir year month test (b.1.toList ++ "_qc_".toList))
        (Spec.flagTable b.1 b.2 (Spec.ofMonth year month reps))) ∧
      (∀ p, p ≠ deckPath runid dir year month test "Variables_".toList →
        (∀ b ∈ flags, p ≠ deckPath runid dir year month test (b.1.toList ++ "_qc_".toList)) → fs'.file p = fs.file p) ∧
      fs'.dir = fs.dir := by
  have e : deckWrite fmt vars flags runid dir year month test reps fs =
      writeFiles (outputFiles fmt vars flags year month reps (deckPath runid dir year month test "Variables_".toList)
        fun b => deckPath runid dir year month test (b.toList ++ "_qc_".toList)) fs := by
    unfold deckWrite outputFiles
    rw [deckWriteQc_eq, writeFiles]
  have can : ∀ pre, '/' ∉ pre → fs.dir (deckPath runid dir year month test pre) = false →
      canWrite fs (deckPath runid dir year month test pre) = true := by
    intro pre hp hq
    unfold canWrite
    rw [hq, deckPath, parent_of_join _ _ (deckName_no_slash runid hid year month test pre hp), hdir]
    rfl
  rw [e]
  apply files_written fmt hf vars flags hv0 hv hb year month reps hne hr fs
  · rw [List.nodup_cons]
    constructor
    · intro hm
      obtain ⟨b, _, hb2⟩ := List.mem_map.mp hm
      exact not_qc_prefix b.1 (deckPath_inj _ _ _ _ _ _ _ hb2).symm
    · have : (fun b : String × List String => deckPath runid dir year month test (b.1.toList ++ "_qc_".toList)) =
          (fun p : String => deckPath runid dir year month test (p.toList ++ "_qc_".toList)) ∘ Prod.fst := rfl
      rw [this, ← List.map_map]
      apply hn.map
      intro x y hxy
      exact String.toList_injective (List.append_cancel_right (deckPath_inj _ _ _ _ _ _ _ hxy))
  · exact can _ (by decide) (by
      rw [← Bool.not_eq_true]
      exact fun h => (hfree _ h).1 rfl)
  · intro b hbm
    apply can
    · rw [List.mem_append, not_or]
      exact ⟨hs b hbm, by decide⟩
    · rw [← Bool.not_eq_true]
      exact fun h => (hfree _ h).2 b hbm rfl

/-- **C87.** `Deck.write_output`: if the directory exists and no directory has the name of an output file, and the reports
of the month can be written, then afterwards the variables file holds one line for each report of the month, in the order of
the deck; each of the six flags files holds one line for each of the same reports, in the same order; no other file has
changed.  It does not matter in which order the dictionary of flags is iterated. -/
theorem C87_deck (fmt : Rat → List Char) (hf : ∀ x, Spec.Plain (fmt x)) (flags : List (String × List String))
    (hp : flags.Perm deckFlags) (runid dir : List Char) (hid : '/' ∉ runid) (year month : Int) (test : Bool)
    (reps : List Report) (hne : reps ≠ []) (hr : ∀ r ∈ Spec.ofMonth year month reps, Spec.Writable r) (fs : FileSys)
    (hdir : fs.dir dir = true) (hfree : ∀ pre, fs.dir (deckPath runid dir year month test pre) = false) :
    ∃ fs', deckWrite fmt deckVars flags runid dir year month test reps fs = (fs', none) ∧
      Spec.HoldsTable fs' (deckPath runid dir year month test "Variables_".toList)
        (Spec.variableTable fmt deckVars (Spec.ofMonth year month reps)) ∧
      (∀ b ∈ deckFlags, Spec.HoldsTable fs' (deckPath runid dir year month test (b.1.toList ++ "_qc_".toList))
        (Spec.flagTable b.1 b.2 (Spec.ofMonth year month reps))) ∧
      (∀ p, p ≠ deckPath runid dir year month test "Variables_".toList →
        (∀ b ∈ deckFlags, p ≠ deckPath runid dir year month test (b.1.toList ++ "_qc_".toList)) → fs'.file p = fs.file p) ∧
      fs'.dir = fs.dir := by
  have hm : ∀ b, b ∈ flags ↔ b ∈ deckFlags := fun b => hp.mem_iff
  obtain ⟨fs', h1, h2, h3, h4, h5⟩ := deck_written fmt hf deckVars flags (by decide)
    (by
      have : ∀ v ∈ deckVars, ∀ c ∈ Spec.heading v, c ≠ ',' ∧ c ≠ '"' ∧ c ≠ '\n' := by decide
      exact this)
    (by
      have : ∀ b ∈ deckFlags, b.2 ≠ [] ∧ ∀ v ∈ b.2, ∀ c ∈ v.toList, c ≠ ',' ∧ c ≠ '"' ∧ c ≠ '\n' := by decide
      exact fun b hb => this b ((hm b).mp hb))
    (by
      have : ∀ b ∈ deckFlags, '/' ∉ b.1.toList := by decide
      exact fun b hb => this b ((hm b).mp hb))
    ((hp.map Prod.fst).nodup_iff.mpr (by decide)) runid dir hid year month test reps hne hr fs hdir
    (fun pre h => by rw [hfree] at h; cases h)
  exact ⟨fs', h1, h2, fun b hb => h3 b ((hm b).mpr hb), fun p q1 q2 => h4 p q1 fun b hb => q2 b ((hm b).mp hb), h5⟩

/-- **C87.** The same for `Deck.write_min_output` with its shorter lists. -/
theorem C87_min (fmt : Rat → List Char) (hf : ∀ x, Spec.Plain (fmt x)) (flags : List (String × List String))
    (hp : flags.Perm deckMinFlags) (runid dir : List Char) (hid : '/' ∉ runid) (year month : Int) (test : Bool)
    (reps : List Report) (hne : reps ≠ []) (hr : ∀ r ∈ Spec.ofMonth year month reps, Spec.Writable r) (fs : FileSys)
    (hdir : fs.dir dir = true) (hfree : ∀ pre, fs.dir (deckPath runid dir year month test pre) = false) :
    ∃ fs', deckWrite fmt deckMinVars flags runid dir year month test reps fs = (fs', none) ∧
      Spec.HoldsTable fs' (deckPath runid dir year month test "Variables_".toList)
        (Spec.variableTable fmt deckMinVars (Spec.ofMonth year month reps)) ∧
      (∀ b ∈ deckMinFlags, Spec.HoldsTable fs' (deckPath runid dir year month test (b.1.toList ++ "_qc_".toList))
        (Spec.flagTable b.1 b.2 (Spec.ofMonth year month reps))) ∧
      (∀ p, p ≠ deckPath runid dir year month test "Variables_".toList →
        (∀ b ∈ deckMinFlags, p ≠ deckPath runid dir year month test (b.1.toList ++ "_qc_".toList)) →
          fs'.file p = fs.file p) ∧
      fs'.dir = fs.dir := by
  have hm : ∀ b, b ∈ flags ↔ b ∈ deckMinFlags := fun b => hp.mem_iff
  obtain ⟨fs', h1, h2, h3, h4, h5⟩ := deck_written fmt hf deckMinVars flags (by decide)
    (by
      have : ∀ v ∈ deckMinVars, ∀ c ∈ Spec.heading v, c ≠ ',' ∧ c ≠ '"' ∧ c ≠ '\n' := by decide
      exact this)
    (by
      have : ∀ b ∈ deckMinFlags, b.2 ≠ [] ∧ ∀ v ∈ b.2, ∀ c ∈ v.toList, c ≠ ',' ∧ c ≠ '"' ∧ c ≠ '\n' := by decide
      exact fun b hb => this b ((hm b).mp hb))
    (by
      have : ∀ b ∈ deckMinFlags, '/' ∉ b.1.toList := by decide
      exact fun b hb => this b ((hm b).mp hb))
    ((hp.map Prod.fst).nodup_iff.mpr (by decide)) runid dir hid year month test reps hne hr fs hdir
    (fun pre h => by rw [hfree] at h; cases h)
  exact ⟨fs', h1, h2, fun b hb => h3 b ((hm b).mpr hb), fun p q1 q2 => h4 p q1 fun b hb => q2 b ((hm b).mp hb), h5⟩

/-- **C87.** An empty deck leaves an empty variables file and raises IndexError. -/
theorem C87_empty (fmt : Rat → List Char) (vars : List VarName) (flags : List (String × List String))
    (runid dir : List Char) (year month : Int) (test : Bool) (fs : FileSys)
    (hc : canWrite fs (deckPath runid dir year month test "Variables_".toList) = true) :
    deckWrite fmt vars flags runid dir year month test [] fs =
      (fs.put (deckPath runid dir year month test "Variables_".toList) [], some .index) := by
  unfold deckWrite writeFile
  rw [if_pos hc]
  rfl

end MarineQC
