import Mathlib.Data.List.Basic
import Mathlib.Tactic.FinCases
import Verif.Output.Spec
import Verif.Imma.Text
import Verif.Files.Names

/-! # Lines of the output files: header and row have the same columns (C86) -/

namespace MarineQC

/-! ## Fields -/

/-- A field as written: plain text, or any text without quotation marks between quotation marks. -/
inductive Written : List Char → List Char → Prop
  | plain (s : List Char) (h : Spec.Plain s) : Written s s
  | quoted (s : List Char) (h : '"' ∉ s) : Written ('"' :: s ++ ['"']) s

theorem csv_plain (s : List Char) (h : Spec.Plain s) : ∀ (f : List Char) (r : List (List Char)) (t : List Char),
    Spec.csvFrom false f r (s ++ t) = Spec.csvFrom false (f ++ s) r t := by
  induction s with
  | nil => simp
  | cons c s ih =>
    intro f r t
    obtain ⟨h1, h2, h3⟩ := h c (by simp)
    rw [List.cons_append, Spec.csvFrom, if_neg h2, if_neg (by simp), if_neg h1, if_neg h3,
      ih (fun d hd => h d (by simp [hd]))]
    simp

theorem csv_quoted (s : List Char) (h : '"' ∉ s) : ∀ (f : List Char) (r : List (List Char)) (t : List Char),
    Spec.csvFrom true f r (s ++ t) = Spec.csvFrom true (f ++ s) r t := by
  induction s with
  | nil => simp
  | cons c s ih =>
    intro f r t
    rw [List.cons_append, Spec.csvFrom, if_neg (by rintro rfl; simp at h), if_pos rfl,
      ih (fun hd => h (by simp [hd]))]
    simp

theorem csv_written (w s : List Char) (h : Written w s) (r : List (List Char)) (t : List Char) :
    Spec.csvFrom false [] r (w ++ t) = Spec.csvFrom false s r t := by
  cases h with
  | plain _ h => rw [csv_plain _ h]; simp
  | quoted _ h =>
    rw [List.append_assoc, List.cons_append, Spec.csvFrom, if_pos rfl, Bool.not_false, csv_quoted _ h, List.singleton_append,
      Spec.csvFrom, if_pos rfl]
    simp

/-- The text of a record: the fields with commas between and a newline. -/
def lineOf : List (List Char) → List Char
  | [] => ['\n']
  | [w] => w ++ ['\n']
  | w :: l => w ++ ',' :: lineOf l

theorem csv_line (p : List (List Char × List Char)) (hp : p ≠ []) (h : ∀ x ∈ p, Written x.1 x.2) :
    ∀ (r : List (List Char)) (t : List Char),
      Spec.csvFrom false [] r (lineOf (p.map Prod.fst) ++ t) = (r ++ p.map Prod.snd) :: Spec.csv t := by
  induction p with
  | nil => exact absurd rfl hp
  | cons x p ih =>
    intro r t
    cases p with
    | nil =>
      simp only [List.map_cons, List.map_nil, lineOf, List.append_assoc]
      rw [csv_written _ _ (h x (by simp)), List.singleton_append, Spec.csvFrom, if_neg (by decide), if_neg (by simp),
        if_neg (by decide), if_pos rfl]
      rfl
    | cons y p =>
      have := ih (by simp) (fun z hz => h z (by simp [hz])) (r ++ [x.2]) t
      simp only [List.map_cons, lineOf, List.append_assoc, List.cons_append] at this ⊢
      rw [csv_written _ _ (h x (by simp)), Spec.csvFrom, if_neg (by decide), if_neg (by simp), if_pos rfl, this]
      simp

theorem csv_lines (L : List (List (List Char × List Char))) (hne : ∀ p ∈ L, p ≠ [])
    (h : ∀ p ∈ L, ∀ x ∈ p, Written x.1 x.2) :
    Spec.csv (L.map fun p => lineOf (p.map Prod.fst)).flatten = L.map fun p => p.map Prod.snd := by
  induction L with
  | nil => rfl
  | cons p L ih =>
    rw [List.map_cons, List.flatten_cons]
    have := csv_line p (hne p (by simp)) (h p (by simp)) [] (L.map fun p => lineOf (p.map Prod.fst)).flatten
    rw [Spec.csv, this, ih (fun q hq => hne q (by simp [hq])) (fun q hq => h q (by simp [hq]))]
    rfl

/-! ## Joining the pieces -/

theorem join_some (l : List (List Char)) : joinPieces (l.map some) = .ok (l.dropLast.flatten ++ ['\n']) := by
  unfold joinPieces
  have : (l.map some).dropLast ++ [some ['\n']] = (l.dropLast ++ [['\n']]).map some := by
    simp [List.map_dropLast]
  rw [this]
  dsimp only
  rw [List.mapM_map, mapM_ok _ id]
  · simp [except_bind_ok, except_pure]
  · intro a _; rfl

theorem withCommas_eq (l : List (List Char)) : withCommas l = (l.flatMap fun s => [s, [',']]).map some := by
  unfold withCommas
  rw [List.map_flatMap]
  rfl

theorem drop_comma (l : List (List Char)) (hl : l ≠ []) :
    (l.flatMap fun s => [s, [',']]).dropLast.flatten ++ ['\n'] = lineOf l := by
  induction l with
  | nil => exact absurd rfl hl
  | cons w l ih =>
    cases l with
    | nil => simp [lineOf]
    | cons x l =>
      have := ih (by simp)
      rw [List.flatMap_cons, List.dropLast_append_of_ne_nil (by simp)]
      simp only [lineOf, List.flatten_append, List.append_assoc] at this ⊢
      rw [this]
      simp

/-- A line whose pieces are fields each followed by a comma, perhaps after an empty piece. -/
theorem join_fields (l : List (List Char)) (hl : l ≠ []) : joinPieces (withCommas l) = .ok (lineOf l) := by
  rw [withCommas_eq, join_some, drop_comma l hl]

theorem join_empty (l : List (List Char)) (hl : l ≠ []) : joinPieces ([some []] ++ withCommas l) = .ok (lineOf l) := by
  have e : ([some []] : List (Option (List Char))) ++ withCommas l = ([] :: l.flatMap fun s => [s, [',']]).map some := by
    rw [withCommas_eq]; rfl
  have hn : (l.flatMap fun s => [s, [',']]) ≠ [] := by
    cases l with
    | nil => exact absurd rfl hl
    | cons x l => simp
  rw [e, join_some, List.dropLast_cons_of_ne_nil hn, List.flatten_cons, List.nil_append, drop_comma l hl]

/-! ## Variables -/

theorem intText_plain (n : Int) : Spec.Plain (intText n) := by
  have key : ∀ c ∈ intText n, c = '-' ∨ c.isDigit = true := by
    intro c hc
    unfold intText at hc
    split at hc
    · rcases List.mem_cons.mp hc with h | h
      · exact Or.inl h
      · exact Or.inr (natText_digits _ c h)
    · exact Or.inr (natText_digits _ c hc)
  intro c hc
  rcases key c hc with rfl | h
  · decide
  · refine ⟨?_, ?_, ?_⟩ <;> (rintro rfl; revert h; decide)

theorem missing_plain : Spec.Plain Spec.missing := by
  intro c hc
  simp only [Spec.missing, List.mem_cons, List.not_mem_nil, or_false] at hc
  rcases hc with rfl | rfl <;> decide

theorem datestring_plain (y m d : Int) : Spec.Plain (datestring y m d) := by
  have key : ∀ c, c = '-' ∨ c.isDigit = true → c ≠ ',' ∧ c ≠ '"' ∧ c ≠ '\n' := by
    intro c h
    rcases h with rfl | h
    · decide
    · refine ⟨?_, ?_, ?_⟩ <;> (rintro rfl; revert h; decide)
  intro c hc
  unfold datestring at hc
  split at hc
  · apply key
    rcases List.mem_append.mp hc with h | h
    · rcases List.mem_append.mp h with h | h
      · exact zeroPad_chars _ _ c h
      · rcases List.mem_cons.mp h with h | h
        · exact Or.inl h
        · exact zeroPad_chars _ _ c h
    · rcases List.mem_cons.mp h with h | h
      · exact Or.inl h
      · exact zeroPad_chars _ _ c h
  · revert c
    decide

theorem columnName_eq (v : VarName) : columnName v = Spec.heading v := by
  obtain ⟨a, l⟩ := v
  unfold columnName Spec.heading
  dsimp only
  induction l generalizing a with
  | nil => simp [List.intercalate]
  | cons b l ih =>
    rw [List.foldl_cons, ih]
    have e : ∀ (x y : List Char) (l : List (List Char)), ['_'].intercalate (x :: y :: l) = x ++ '_' :: ['_'].intercalate (y :: l) := by
      intro x y l; simp [List.intercalate]
    have e' : ∀ (x z : List Char) (l : List (List Char)), ['_'].intercalate ((z ++ x) :: l) = z ++ ['_'].intercalate (x :: l) := by
      intro x z l
      cases l <;> simp [List.intercalate]
    rw [List.map_cons, List.map_cons, List.map_cons, e, String.toList_append, String.toList_append, e']
    simp

theorem columnText_written (fmt : Rat → List Char) (hf : ∀ x, Spec.Plain (fmt x)) (r : Report) (hr : Spec.Writable r)
    (v : VarName) : Written (columnText fmt r v) (Spec.entry fmt r v) := by
  unfold columnText Spec.entry
  by_cases h1 : v.1 = "ID"
  · rw [if_pos h1, if_pos h1]
    cases hi : r.id with
    | none => exact .plain _ missing_plain
    | some i => exact .quoted _ (hr.ident i hi)
  rw [if_neg h1, if_neg h1]
  by_cases h2 : v.2 = []
  · rw [if_neg (show ¬ v.2.length > 0 by simp [h2]), if_neg (show ¬ v.2 ≠ [] by simp [h2])]
    by_cases h3 : v.1 = "UID"
    · rw [if_pos h3, if_pos h3]
      obtain ⟨u, hu, hp⟩ := hr.uid
      rw [hu]
      exact .plain _ hp
    rw [if_neg h3, if_neg h3]
    by_cases h4 : v.1 ∈ intVars
    · rw [if_pos h4]
      have hv : v.1 ∈ VARLIST := by
        have : ∀ x ∈ intVars, x ∈ VARLIST := by decide
        exact this _ h4
      have : (r.getvar v.1).map (varText fmt v.1) = (r.getint v.1).map intText := by
        unfold Report.getvar Report.getint
        rw [if_neg (by simp [hv]), if_pos hv]
        cases r.data v.1 with
        | none => rfl
        | some q =>
          simp only [if_pos h4, Option.map_some, varText]
          congr 2
          unfold pyInt
          split <;> simp
      rw [this]
      cases r.getint v.1 with
      | none => exact .plain _ missing_plain
      | some n => exact .plain _ (intText_plain n)
    · rw [if_neg h4]
      cases r.getvar v.1 with
      | none => exact .plain _ missing_plain
      | some x =>
        simp only [Option.map_some, varText, if_neg h4]
        exact .plain _ (hf x)
  · rw [if_pos (by simpa [List.length_pos_iff] using h2), if_pos h2]
    cases r.getanom v.1 with
    | none => exact .plain _ missing_plain
    | some x => exact .plain _ (hf x)

theorem rowDate_eq (r : Report) : rowDate r = Spec.date r := rfl

theorem rowPentad_eq (r : Report) : rowPentad r = Spec.pentad r := by
  unfold rowPentad Spec.pentad
  cases r.getint "MO" with
  | none => rfl
  | some m =>
    cases r.getint "DY" with
    | none => rfl
    | some d =>
      dsimp only
      cases whichPentad m d <;> rfl

theorem date_plain (r : Report) : Spec.Plain (Spec.date r) := by
  unfold Spec.date
  split
  · exact datestring_plain _ _ _
  · intro c hc; revert c; decide

/-- The fields of a header of variables. -/
def varHead (vars : List VarName) : List (List Char × List Char) :=
  (["UID", "DATE", "PENTAD"].map String.toList ++ vars.map Spec.heading).map fun s => (s, s)

/-- The fields of a row of variables, as written and as read. -/
def varRow (fmt : Rat → List Char) (r : Report) (vars : List VarName) : List (List Char × List Char) :=
  ([(r.uid.getD "").toList, Spec.date r, intText (Spec.pentad r)].map fun s => (s, s)) ++
    vars.map fun v => (columnText fmt r v, Spec.entry fmt r v)

theorem variable_header (fmt : Rat → List Char) (r : Report) (vars : List VarName) (hv : vars ≠ []) :
    printVariableBlock fmt r vars true true = .ok (lineOf ((varHead vars).map Prod.fst)) := by
  unfold printVariableBlock variablePieces
  have hn : ((vars.map columnName).flatMap fun s => [s, [',']]) ≠ [] := by
    cases vars with
    | nil => exact absurd rfl hv
    | cons x l => simp
  have e : ([some "UID,DATE,PENTAD,".toList] : List (Option (List Char))) ++ withCommas (vars.map columnName) =
      ("UID,DATE,PENTAD,".toList :: (vars.map columnName).flatMap fun s => [s, [',']]).map some := by
    rw [withCommas_eq]; rfl
  rw [if_pos rfl, if_pos rfl, e, join_some, List.dropLast_cons_of_ne_nil hn, List.flatten_cons, List.append_assoc,
    drop_comma _ (by simpa using hv)]
  have e2 : (varHead vars).map Prod.fst = "UID".toList :: "DATE".toList :: "PENTAD".toList :: vars.map columnName := by
    unfold varHead
    rw [List.map_map]
    have : columnName = Spec.heading := funext columnName_eq
    rw [this]
    simp [Function.comp_def]
  rw [e2]
  cases vars with
  | nil => exact absurd rfl hv
  | cons x l => rfl

theorem variable_row (fmt : Rat → List Char) (r : Report) (vars : List VarName) (hr : Spec.Writable r) :
    printVariableBlock fmt r vars false true = .ok (lineOf ((varRow fmt r vars).map Prod.fst)) := by
  obtain ⟨u, hu, _⟩ := hr.uid
  unfold printVariableBlock variablePieces
  rw [if_neg (by simp), if_pos rfl, hu]
  have e : ([(some u).map String.toList, some [','], some (rowDate r), some [','], some (intText (rowPentad r)), some [',']] :
      List (Option (List Char))) ++ withCommas (vars.map (columnText fmt r)) =
      withCommas (u.toList :: rowDate r :: intText (rowPentad r) :: vars.map (columnText fmt r)) := by
    simp [withCommas]
  rw [e, join_fields _ (by simp)]
  congr 2
  unfold varRow
  rw [hu, rowDate_eq, rowPentad_eq]
  simp [Function.comp_def]

theorem varHead_written (vars : List VarName) (hv : ∀ v ∈ vars, Spec.Plain (Spec.heading v)) :
    ∀ x ∈ varHead vars, Written x.1 x.2 := by
  intro x hx
  unfold varHead at hx
  obtain ⟨s, hs, rfl⟩ := List.mem_map.mp hx
  apply Written.plain
  rcases List.mem_append.mp hs with h | h
  · have : ∀ s ∈ ["UID", "DATE", "PENTAD"].map String.toList, ∀ c ∈ s, c ≠ ',' ∧ c ≠ '"' ∧ c ≠ '\n' := by decide
    exact this s h
  · obtain ⟨v, hv', rfl⟩ := List.mem_map.mp h
    exact hv v hv'

theorem varRow_written (fmt : Rat → List Char) (hf : ∀ x, Spec.Plain (fmt x)) (r : Report) (hr : Spec.Writable r)
    (vars : List VarName) : ∀ x ∈ varRow fmt r vars, Written x.1 x.2 := by
  intro x hx
  unfold varRow at hx
  rcases List.mem_append.mp hx with h | h
  · obtain ⟨s, hs, rfl⟩ := List.mem_map.mp h
    apply Written.plain
    simp only [List.mem_cons, List.not_mem_nil, or_false] at hs
    obtain ⟨u, hu, hp⟩ := hr.uid
    rcases hs with rfl | rfl | rfl
    · rw [hu]; exact hp
    · exact date_plain r
    · exact intText_plain _
  · obtain ⟨v, _, rfl⟩ := List.mem_map.mp h
    exact columnText_written fmt hf r hr v

/-- **C86.** Header and row of a block of variables, read as comma-separated text: the header has the columns UID, DATE,
PENTAD and one per variable, and the row has in the same places the identity, date, pentad and the value of each variable,
whatever commas the identifier contains. -/
theorem C86_variables (fmt : Rat → List Char) (hf : ∀ x, Spec.Plain (fmt x)) (r : Report) (hr : Spec.Writable r)
    (vars : List VarName) (hne : vars ≠ []) (hv : ∀ v ∈ vars, Spec.Plain (Spec.heading v)) :
    ∃ h w, printVariableBlock fmt r vars true true = .ok h ∧ printVariableBlock fmt r vars false true = .ok w ∧
      Spec.csv h = [["UID".toList, "DATE".toList, "PENTAD".toList] ++ vars.map Spec.heading] ∧
      Spec.csv w = [[(r.uid.getD "").toList, Spec.date r, intText (Spec.pentad r)] ++ vars.map (Spec.entry fmt r)] := by
  refine ⟨_, _, variable_header fmt r vars hne, variable_row fmt r vars hr, ?_, ?_⟩
  · have := csv_lines [varHead vars] (by simp [varHead]) (by simpa using varHead_written vars hv)
    simp only [List.map_cons, List.map_nil, List.flatten_cons, List.flatten_nil, List.append_nil] at this
    rw [this]
    simp [varHead, Function.comp_def]
  · have := csv_lines [varRow fmt r vars] (by simp [varRow]) (by simpa using varRow_written fmt hf r hr vars)
    simp only [List.map_cons, List.map_nil, List.flatten_cons, List.flatten_nil, List.append_nil] at this
    rw [this]
    simp [varRow, Function.comp_def]

/-- **C86, violated.** Without variables the header is empty although the row has three entries. -/
theorem C86_empty_violation (fmt : Rat → List Char) (r : Report) (hr : Spec.Writable r) :
    printVariableBlock fmt r [] true true = .ok ['\n'] ∧
    ∃ w, printVariableBlock fmt r [] false true = .ok w ∧
      Spec.csv w = [[(r.uid.getD "").toList, Spec.date r, intText (Spec.pentad r)]] := by
  refine ⟨rfl, _, variable_row fmt r [] hr, ?_⟩
  have := csv_lines [varRow fmt r []] (by simp [varRow])
    (by
      intro p hp x hx
      simp only [List.mem_singleton] at hp
      subst hp
      unfold varRow at hx
      simp only [List.map_nil, List.append_nil] at hx
      obtain ⟨s, hs, rfl⟩ := List.mem_map.mp hx
      apply Written.plain
      simp only [List.mem_cons, List.not_mem_nil, or_false] at hs
      obtain ⟨u, hu, hp⟩ := hr.uid
      rcases hs with rfl | rfl | rfl
      · rw [hu]; exact hp
      · exact date_plain r
      · exact intText_plain _)
  simp only [List.map_cons, List.map_nil, List.flatten_cons, List.flatten_nil, List.append_nil] at this
  rw [this]
  simp [varRow]

/-- **C86.** A report without UID cannot be written. -/
theorem C86_no_uid (fmt : Rat → List Char) (r : Report) (hr : r.uid = none) (vars : List VarName) (block : String)
    (flags : List String) :
    printVariableBlock fmt r vars false true = .error .type ∧ printQcBlock r block flags false true = .error .type := by
  have key : ∀ (x : Option (List Char)) (l : List (Option (List Char))), joinPieces (none :: x :: l) = .error .type := by
    intro x l
    unfold joinPieces
    rw [List.dropLast_cons_of_ne_nil (by simp), List.cons_append]
    dsimp only
    rw [List.mapM_cons]
    rfl
  unfold printVariableBlock variablePieces printQcBlock qcPieces
  rw [hr]
  exact ⟨key _ _, key _ _⟩

/-! ## Flags -/

/-- The fields of a header of flags. -/
def qcHead (flags : List String) : List (List Char × List Char) :=
  ("UID" :: flags).map fun s => (s.toList, s.toList)

/-- The fields of a row of flags. -/
def qcRow (r : Report) (block : String) (flags : List String) : List (List Char × List Char) :=
  ((r.uid.getD "").toList :: flags.map fun v => intText (r.getQc block v)).map fun s => (s, s)

theorem qc_header (r : Report) (block : String) (flags : List String) (hne : flags ≠ []) :
    printQcBlock r block flags true true = .ok (lineOf ((qcHead flags).map Prod.fst)) := by
  unfold printQcBlock qcPieces
  have hn : ((flags.map String.toList).flatMap fun s => [s, [',']]) ≠ [] := by
    cases flags with
    | nil => exact absurd rfl hne
    | cons x l => simp
  have e : ([some "UID,".toList] : List (Option (List Char))) ++ withCommas (flags.map String.toList) =
      ("UID,".toList :: (flags.map String.toList).flatMap fun s => [s, [',']]).map some := by
    rw [withCommas_eq]; rfl
  rw [if_pos rfl, if_pos rfl, e, join_some, List.dropLast_cons_of_ne_nil hn, List.flatten_cons, List.append_assoc,
    drop_comma _ (by simpa using hne)]
  have e2 : (qcHead flags).map Prod.fst = "UID".toList :: flags.map String.toList := by
    simp [qcHead, Function.comp_def]
  rw [e2]
  cases flags with
  | nil => exact absurd rfl hne
  | cons x l => rfl

theorem qc_row (r : Report) (block : String) (flags : List String) (hr : Spec.Writable r) :
    printQcBlock r block flags false true = .ok (lineOf ((qcRow r block flags).map Prod.fst)) := by
  obtain ⟨u, hu, _⟩ := hr.uid
  unfold printQcBlock qcPieces
  rw [if_neg (by simp), if_pos rfl, hu]
  have e : ([(some u).map String.toList, some [',']] : List (Option (List Char))) ++
      withCommas (flags.map fun v => intText (r.getQc block v)) =
      withCommas (u.toList :: flags.map fun v => intText (r.getQc block v)) := by
    simp [withCommas]
  rw [e, join_fields _ (by simp)]
  congr 2
  unfold qcRow
  rw [hu]
  simp [Function.comp_def]

theorem qcHead_written (flags : List String) (hv : ∀ v ∈ flags, Spec.Plain v.toList) :
    ∀ x ∈ qcHead flags, Written x.1 x.2 := by
  intro x hx
  unfold qcHead at hx
  obtain ⟨s, hs, rfl⟩ := List.mem_map.mp hx
  apply Written.plain
  rcases List.mem_cons.mp hs with rfl | h
  · have : ∀ c ∈ "UID".toList, c ≠ ',' ∧ c ≠ '"' ∧ c ≠ '\n' := by decide
    exact this
  · exact hv s h

theorem qcRow_written (r : Report) (hr : Spec.Writable r) (block : String) (flags : List String) :
    ∀ x ∈ qcRow r block flags, Written x.1 x.2 := by
  intro x hx
  unfold qcRow at hx
  obtain ⟨s, hs, rfl⟩ := List.mem_map.mp hx
  apply Written.plain
  rcases List.mem_cons.mp hs with rfl | h
  · obtain ⟨u, hu, hp⟩ := hr.uid
    rw [hu]; exact hp
  · obtain ⟨v, _, rfl⟩ := List.mem_map.mp h
    exact intText_plain _

/-- **C86.** Header and row of a block of flags: the columns are UID and the flags; the row has the value of each flag in
its place (9 when it was never set). -/
theorem C86_flags (r : Report) (hr : Spec.Writable r) (block : String) (flags : List String) (hne : flags ≠ [])
    (hv : ∀ v ∈ flags, Spec.Plain v.toList) :
    ∃ h w, printQcBlock r block flags true true = .ok h ∧ printQcBlock r block flags false true = .ok w ∧
      Spec.csv h = ["UID".toList :: flags.map String.toList] ∧
      Spec.csv w = [(r.uid.getD "").toList :: flags.map fun f => intText (r.getQc block f)] := by
  refine ⟨_, _, qc_header r block flags hne, qc_row r block flags hr, ?_, ?_⟩
  · have := csv_lines [qcHead flags] (by simp [qcHead]) (by simpa using qcHead_written flags hv)
    simp only [List.map_cons, List.map_nil, List.flatten_cons, List.flatten_nil, List.append_nil] at this
    rw [this]
    simp [qcHead, Function.comp_def]
  · have := csv_lines [qcRow r block flags] (by simp [qcRow]) (by simpa using qcRow_written r hr block flags)
    simp only [List.map_cons, List.map_nil, List.flatten_cons, List.flatten_nil, List.append_nil] at this
    rw [this]
    simp [qcRow, Function.comp_def]

/-- A row with a comma in the identifier and a missing value. -/
example : (do
    let r := { Report.empty (some "SH,IP") (some "ABC123") with data := fun k => if k = "YR" then some 1999 else none }
    printVariableBlock (fun _ => []) r [("ID", []), ("YR", []), ("SST", []), ("SST", ["anom"])] false true) =
    .ok "ABC123,0000-00-00,0,\"SH,IP\",1999,\\N,\\N\n".toList := by decide +kernel

end MarineQC
