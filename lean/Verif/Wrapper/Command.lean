import Verif.Wrapper.Lists

/-! # From the arguments of a job to the arguments of the tracking program (C120) -/

namespace MarineQC

open Spec

namespace Spec

/-- A word that goes through the shell and through `argparse` unchanged: letters, digits, underscores, points, hyphens and
slashes, and no hyphen at the beginning. -/
def IsWord (s : List Char) : Prop :=
  s ≠ [] ∧ (∀ c ∈ s, c.isAlphanum = true ∨ c ∈ ['_', '-', '.', '/']) ∧ s.head? ≠ some '-'

/-- The job can be put on a command line: its identifier is a word followed by blanks, the edge words are words and there is one,
and the years and months are not negative. -/
structure Sendable (j : Job) (arg : List Char) : Prop where
  word : IsWord arg
  ident : ∃ k, j.ident.toList = arg ++ List.replicate k ' '
  edges : ∀ e ∈ j.edge, IsWord e.toList
  oneEdge : j.edge ≠ []
  years : 0 ≤ j.yr1 ∧ 0 ≤ j.yr2
  months : 0 ≤ j.mn1 ∧ 0 ≤ j.mn2

/-- The names in the configuration are words. -/
structure WordsOnly (W : WrapperEnv) (runmonthid : List Char) : Prop where
  config : IsWord W.config
  trackOut : IsWord W.trackOut
  runid : IsWord W.runid
  runmonthid : IsWord runmonthid

end Spec

/-! ## Words -/

theorem lineWordsFrom_append (s t : List Char) : ∀ acc, lineWordsFrom acc (s ++ ' ' :: t) = lineWordsFrom acc s ++ lineWordsFrom [] t := by
  induction s with
  | nil =>
    intro acc
    rw [List.nil_append, lineWordsFrom, lineWordsFrom]
    by_cases h : acc = [] <;> simp [h]
  | cons c s ih =>
    intro acc
    rw [List.cons_append, lineWordsFrom, lineWordsFrom]
    by_cases hc : c = ' '
    · by_cases h : acc = [] <;> simp [hc, h, ih]
    · simp [hc, ih]

theorem lineWords_append (s t : List Char) : lineWords (s ++ ' ' :: t) = lineWords s ++ lineWords t := lineWordsFrom_append s t []

theorem lineWordsFrom_word (s : List Char) (h : ' ' ∉ s) : ∀ acc, lineWordsFrom acc s = if acc ++ s = [] then [] else [acc ++ s] := by
  induction s with
  | nil => intro acc; simp [lineWordsFrom]
  | cons c s ih =>
    intro acc
    rw [lineWordsFrom, if_neg (by rintro rfl; simp at h), ih (by intro hc; simp [hc] at h)]
    simp

theorem lineWords_word (s : List Char) (h : ' ' ∉ s) (hs : s ≠ []) : lineWords s = [s] := by
  unfold lineWords
  rw [lineWordsFrom_word s h, List.nil_append, if_neg hs]

theorem lineWords_blanks (k : Nat) : lineWords (List.replicate k ' ') = [] := by
  induction k with
  | zero => rfl
  | succ k ih =>
    have := lineWords_append [] (List.replicate k ' ')
    rw [ih] at this
    exact this

theorem lineWords_padded (s : List Char) (k : Nat) (h : ' ' ∉ s) (hs : s ≠ []) : lineWords (s ++ List.replicate k ' ') = [s] := by
  cases k with
  | zero => rw [List.replicate_zero, List.append_nil, lineWords_word s h hs]
  | succ k => rw [List.replicate_succ, lineWords_append, lineWords_blanks, List.append_nil, lineWords_word s h hs]

theorem lineWords_join (l : List (List Char)) (h : ∀ w ∈ l, ' ' ∉ w ∧ w ≠ []) : lineWords ([' '].intercalate l) = l := by
  induction l with
  | nil => rfl
  | cons w l ih =>
    obtain ⟨w1, w2⟩ := h w (by simp)
    cases l with
    | nil =>
      rw [List.intercalate_singleton]
      exact lineWords_word w w1 w2
    | cons x l =>
      have : [' '].intercalate (w :: x :: l) = w ++ ' ' :: [' '].intercalate (x :: l) := by
        simp [List.intercalate, List.intersperse]
      rw [this, lineWords_append, lineWords_word w w1 w2, ih fun y hy => h y (by simp [hy])]
      rfl

theorem lineWords_flatMap {α : Type} (f : α → List Char) (l : List α) : ∀ a, lineWords (a ++ l.flatMap fun o => ' ' :: f o) =
    lineWords a ++ l.flatMap fun o => lineWords (f o) := by
  induction l with
  | nil => simp
  | cons o l ih =>
    intro a
    rw [List.flatMap_cons, List.flatMap_cons]
    have : a ++ (' ' :: f o ++ l.flatMap fun o => ' ' :: f o) = (a ++ ' ' :: f o) ++ l.flatMap fun o => ' ' :: f o := by simp
    rw [this, ih, lineWords_append, List.append_assoc]

theorem isWord_blank {s : List Char} (h : IsWord s) : ' ' ∉ s := by
  intro hc
  rcases h.2.1 _ hc with h | h
  · revert h; decide
  · revert h; decide

theorem isWord_newline {s : List Char} (h : IsWord s) : '\n' ∉ s := by
  intro hc
  rcases h.2.1 _ hc with h | h
  · revert h; decide
  · revert h; decide

theorem isWord_plain {s : List Char} (h : IsWord s) : s.all shellPlain = true := by
  rw [List.all_eq_true]
  intro c hc
  unfold shellPlain
  rcases h.2.1 _ hc with h | h
  · simp [h]
  · simp only [List.mem_cons, List.not_mem_nil, or_false] at h
    rcases h with rfl | rfl | rfl | rfl <;> decide

theorem digits_word {s : List Char} (hs : s ≠ []) (h : ∀ c ∈ s, c.isDigit = true) : IsWord s := by
  refine ⟨hs, fun c hc => Or.inl ?_, ?_⟩
  · simp [Char.isAlphanum, h c hc]
  · intro e
    have := h _ (List.mem_of_mem_head? e)
    revert this; decide

theorem intText_word {n : Int} (h : 0 ≤ n) : IsWord (intText n) := by
  refine digits_word (intText_ne_nil n) ?_
  intro c hc
  unfold intText at hc
  rw [if_neg (by omega)] at hc
  exact natText_digits _ _ hc

/-! ## Options -/

theorem argGroups_options (L : List (List Char × List (List Char))) (h : ∀ o ∈ L, ∀ w ∈ o.2, w.head? ≠ some '-') :
    argGroups (L.flatMap fun o => ('-' :: o.1) :: o.2) = ([], L.map fun o => ('-' :: o.1, o.2)) := by
  unfold argGroups
  induction L with
  | nil => rfl
  | cons o L ih =>
    rw [List.flatMap_cons, List.cons_append, List.foldr_cons, List.foldr_append, ih fun q hq => h q (by simp [hq])]
    have : ∀ (l : List (List Char)) (s : List (List Char × List (List Char))), (∀ w ∈ l, w.head? ≠ some '-') →
        l.foldr (fun w (s : List (List Char) × List (List Char × List (List Char))) =>
          if w.head? = some '-' then ([], (w, s.1) :: s.2) else (w :: s.1, s.2)) ([], s) = (l, s) := by
      intro l s hl
      induction l with
      | nil => rfl
      | cons w l ih2 =>
        rw [List.foldr_cons, ih2 fun x hx => hl x (by simp [hx]), if_neg (hl w (by simp))]
    rw [this _ _ (h o (by simp))]
    simp

theorem argValues_unique (G : List (List Char × List (List Char))) (name : String) (v : List (List Char))
    (hm : (name.toList, v) ∈ G) (hu : ∀ o ∈ G, o.1 = name.toList → o.2 = v) : argValues G name = some v := by
  unfold argValues
  cases hf : G.reverse.find? fun o => o.1 == name.toList with
  | none =>
    rw [List.find?_eq_none] at hf
    have := hf _ (List.mem_reverse.mpr hm)
    simp at this
  | some o =>
    have h1 := List.find?_some hf
    have h2 := List.mem_reverse.mp (List.mem_of_find?_eq_some hf)
    rw [Option.map_some, hu o h2 (by simpa using h1)]

/-- The options of a job as they are on the command line: name and words. -/
def jobGroups (config runmonthid arg : List Char) (j : Job) : List (List Char × List (List Char)) :=
  [("id".toList, [arg]), ("config".toList, [config]), ("yr1".toList, [intText j.yr1]), ("mn1".toList, [intText j.mn1]),
    ("yr2".toList, [intText j.yr2]), ("mn2".toList, [intText j.mn2]), ("edge".toList, j.edge.map String.toList),
    ("runmonthid".toList, [runmonthid])]

theorem jobOptions_words {config runmonthid arg : List Char} {j : Job} (hj : Sendable j arg) (hc : IsWord config)
    (hr : IsWord runmonthid) : (jobOptions config runmonthid j).map (fun o => (o.1.toList, lineWords o.2)) =
      jobGroups config runmonthid arg j := by
  obtain ⟨k, hk⟩ := hj.ident
  have word : ∀ {s : List Char}, IsWord s → lineWords s = [s] := fun h => lineWords_word _ (isWord_blank h) h.1
  unfold jobOptions jobGroups
  simp only [List.map_cons, List.map_nil]
  rw [hk, lineWords_padded _ _ (isWord_blank hj.word) hj.word.1, word hc, word hr, word (intText_word hj.years.1),
    word (intText_word hj.years.2), word (intText_word hj.months.1), word (intText_word hj.months.2), lineWords_join]
  intro w hw
  obtain ⟨e, he, rfl⟩ := List.mem_map.mp hw
  exact ⟨isWord_blank (hj.edges e he), (hj.edges e he).1⟩

theorem jobGroups_words {config runmonthid arg : List Char} {j : Job} (hj : Sendable j arg) (hc : IsWord config)
    (hr : IsWord runmonthid) : ∀ o ∈ jobGroups config runmonthid arg j, ∀ w ∈ o.2, IsWord w := by
  intro o ho w hw
  simp only [jobGroups, List.mem_cons, List.not_mem_nil, or_false] at ho
  rcases ho with rfl | rfl | rfl | rfl | rfl | rfl | rfl | rfl
  · rw [List.mem_singleton.mp hw]; exact hj.word
  · rw [List.mem_singleton.mp hw]; exact hc
  · rw [List.mem_singleton.mp hw]; exact intText_word hj.years.1
  · rw [List.mem_singleton.mp hw]; exact intText_word hj.months.1
  · rw [List.mem_singleton.mp hw]; exact intText_word hj.years.2
  · rw [List.mem_singleton.mp hw]; exact intText_word hj.months.2
  · obtain ⟨e, he, rfl⟩ := List.mem_map.mp hw
    exact hj.edges e he
  · rw [List.mem_singleton.mp hw]; exact hr

/-- The words of the options, in the order of the dictionary. -/
def groupWords (L : List (List Char × List (List Char))) : List (List Char) := L.flatMap fun o => ('-' :: o.1) :: o.2

theorem parse_groups {config runmonthid arg : List Char} {j : Job} (hj : Sendable j arg) (hc : IsWord config)
    (hr : IsWord runmonthid) (L : List (List Char × List (List Char))) (hL : L.Perm (jobGroups config runmonthid arg j)) :
    parseArgs (groupWords L) = .ok ⟨config, arg, j.yr1, j.mn1, j.yr2, j.mn2, j.edge, runmonthid⟩ := by
  have hw : ∀ o ∈ L, ∀ w ∈ o.2, IsWord w := fun o ho => jobGroups_words hj hc hr o (hL.mem_iff.mp ho)
  have hg := argGroups_options L fun o ho w hw' => (hw o ho w hw').2.2
  have hP : (L.map fun o => ('-' :: o.1, o.2)).Perm ((jobGroups config runmonthid arg j).map fun o => ('-' :: o.1, o.2)) := hL.map _
  have val : ∀ name v, (name.toList, v) ∈ ((jobGroups config runmonthid arg j).map fun o => ('-' :: o.1, o.2)) →
      (∀ o ∈ ((jobGroups config runmonthid arg j).map fun o => ('-' :: o.1, o.2)), o.1 = name.toList → o.2 = v) →
      argValues (L.map fun o => ('-' :: o.1, o.2)) name = some v := by
    intro name v h1 h2
    exact argValues_unique _ name v (hP.mem_iff.mpr h1) fun o ho => h2 o (hP.mem_iff.mp ho)
  have v1 : argValues (L.map fun o => ('-' :: o.1, o.2)) "-id" = some [arg] := val _ _ (by simp [jobGroups]) (by simp [jobGroups])
  have v2 : argValues (L.map fun o => ('-' :: o.1, o.2)) "-config" = some [config] := val _ _ (by simp [jobGroups]) (by simp [jobGroups])
  have v3 : argValues (L.map fun o => ('-' :: o.1, o.2)) "-yr1" = some [intText j.yr1] := val _ _ (by simp [jobGroups]) (by simp [jobGroups])
  have v4 : argValues (L.map fun o => ('-' :: o.1, o.2)) "-mn1" = some [intText j.mn1] := val _ _ (by simp [jobGroups]) (by simp [jobGroups])
  have v5 : argValues (L.map fun o => ('-' :: o.1, o.2)) "-yr2" = some [intText j.yr2] := val _ _ (by simp [jobGroups]) (by simp [jobGroups])
  have v6 : argValues (L.map fun o => ('-' :: o.1, o.2)) "-mn2" = some [intText j.mn2] := val _ _ (by simp [jobGroups]) (by simp [jobGroups])
  have v7 : argValues (L.map fun o => ('-' :: o.1, o.2)) "-edge" = some (j.edge.map String.toList) :=
    val _ _ (by simp [jobGroups]) (by simp [jobGroups])
  have v8 : argValues (L.map fun o => ('-' :: o.1, o.2)) "-runmonthid" = some [runmonthid] := val _ _ (by simp [jobGroups]) (by simp [jobGroups])
  have right : argsRight ([], L.map fun o => ('-' :: o.1, o.2)) = true := by
    unfold argsRight
    simp only [decide_true, Bool.true_and, List.all_eq_true]
    intro o ho
    have ho := hP.mem_iff.mp ho
    simp only [jobGroups, List.map_cons, List.map_nil, List.mem_cons, List.not_mem_nil, or_false] at ho
    rcases ho with rfl | rfl | rfl | rfl | rfl | rfl | rfl | rfl
    all_goals first
      | (simp [hj.oneEdge]; done)
      | (simp only [List.length_singleton, decide_true, Bool.and_true, Bool.or_eq_true, decide_eq_true_eq]; left; decide)
  have hed : (j.edge.map String.toList).map String.ofList = j.edge := by
    rw [List.map_map]
    conv_rhs => rw [← List.map_id j.edge]
    exact List.map_congr_left fun e _ => by simp
  unfold parseArgs groupWords
  simp only
  rw [hg]
  simp only [right, if_true, argNumber, v1, v2, v3, v4, v5, v6, v7, v8, parseInt_intText, except_bind_ok, hed, except_pure]
  rfl

/-! ## Scripts -/

theorem takeWhile_redirect (A : List (List Char)) (log : List Char) (h : ∀ a ∈ A, a ≠ ['>']) :
    (A ++ [['>'], log]).takeWhile (· != ['>']) = A := by
  rw [List.takeWhile_append_of_pos (by intro a ha; simpa using h a ha)]
  simp

theorem command_words (W : WrapperEnv) (hW : ∀ l, (W.options l).Perm l) (runmonthid : List Char) (j : Job) (log : List Char)
    (hl : ' ' ∉ log ∧ log ≠ []) : lineWords (jobCommand W runmonthid j ++ " > ".toList ++ log) =
      "python".toList :: (codeDir ++ "tracking_qc.py".toList) ::
        (groupWords ((W.options (jobOptions W.config runmonthid j)).map fun o => (o.1.toList, lineWords o.2)) ++ [['>'], log]) := by
  have e : jobCommand W runmonthid j ++ " > ".toList ++ log = jobCommand W runmonthid j ++ ' ' :: (['>'] ++ ' ' :: log) := by
    rw [show " > ".toList = [' ', '>', ' '] from by decide]
    simp
  rw [e, lineWords_append, lineWords_append, lineWords_word log hl.1 hl.2]
  unfold jobCommand
  rw [lineWords_flatMap (fun o : String × List Char => '-' :: (o.1.toList ++ ' ' :: o.2))]
  have h1 : lineWords ("python ".toList ++ codeDir ++ "tracking_qc.py".toList) = ["python".toList, codeDir ++ "tracking_qc.py".toList] := by
    decide +kernel
  have h2 : (W.options (jobOptions W.config runmonthid j)).flatMap (fun o => lineWords ('-' :: (o.1.toList ++ ' ' :: o.2))) =
      groupWords ((W.options (jobOptions W.config runmonthid j)).map fun o => (o.1.toList, lineWords o.2)) := by
    unfold groupWords
    rw [List.flatMap_map]
    apply List.flatMap_congr
    intro o ho
    have ho := (hW _).mem_iff.mp ho
    have hb : ' ' ∉ '-' :: o.1.toList := by
      have : o.1 ∈ (jobOptions W.config runmonthid j).map (·.1) := List.mem_map_of_mem ho
      simp only [jobOptions, List.map_cons, List.map_nil] at this
      generalize o.1 = n at this
      revert n
      decide
    rw [← List.cons_append, lineWords_append, lineWords_word _ hb (by simp)]
    rfl
  rw [h1, h2, lineWords_word ['>'] (by decide) (by simp)]
  simp

theorem fileLines_script (l : List (List Char)) (h : ∀ x ∈ l, '\n' ∉ x) :
    fileLines (l.flatMap fun x => x ++ ['\n']) = l.map fun x => x ++ ['\n'] := by
  induction l with
  | nil => rfl
  | cons x l ih =>
    rw [List.flatMap_cons, List.append_assoc, List.singleton_append, fileLines_cons x _ (h x (by simp)),
      ih fun y hy => h y (by simp [hy])]
    rfl

theorem scriptCalls_lines (l : List (List Char)) (h : ∀ x ∈ l, '\n' ∉ x) :
    scriptCalls (l.flatMap fun x => x ++ ['\n']) = l.filterMap shellPython := by
  unfold scriptCalls
  rw [fileLines_script l h, List.filterMap_map]
  apply List.filterMap_congr
  intro x hx
  simp only [Function.comp]
  rw [dropWhile_newline x (h x hx)]

theorem not_python (w t : List Char) (h : ' ' ∉ w) (hw : w ≠ []) (hp : w ≠ "python".toList) : shellPython (w ++ ' ' :: t) = none := by
  unfold shellPython
  rw [lineWords_append, lineWords_word w h hw]
  exact if_neg fun hc => hp hc.1

theorem plainText_log {W : WrapperEnv} {rid arg : List Char} {j : Job} (hW : WordsOnly W rid) (hj : Sendable j arg) (pre : String)
    (hp : ∀ c ∈ pre.toList, c.isAlphanum = true ∨ c ∈ ['_', '-', '.', '/']) :
    ∀ c ∈ logName W pre j, c.isAlphanum = true ∨ c ∈ ['_', '-', '.', '/'] := by
  intro c hc
  obtain ⟨k, hk⟩ := hj.ident
  have hpad : ∀ c ∈ zeroPad 2 j.mn2, c.isAlphanum = true ∨ c ∈ ['_', '-', '.', '/'] := by
    intro c hc
    rcases zeroPad_chars 2 j.mn2 c hc with h | h
    · right; simp [h]
    · left; simp [Char.isAlphanum, h]
  unfold logName at hc
  simp only [List.mem_append, List.mem_cons] at hc
  rcases hc with (hc | hc) | rfl | (((hc | hc) | hc) | hc) | rfl | hc
  · exact hW.trackOut.2.1 c hc
  · revert c; decide
  · right; simp
  · exact hp c hc
  · exact (intText_word hj.years.2).2.1 c hc
  · exact hpad c hc
  · unfold withoutBlanks at hc
    rw [hk] at hc
    obtain ⟨h1, h2⟩ := List.mem_filter.mp hc
    rcases List.mem_append.mp h1 with h1 | h1
    · exact hj.word.2.1 c h1
    · rw [List.eq_of_mem_replicate h1] at h2
      simp at h2
  · right; simp
  · exact hW.runid.2.1 c hc

theorem mem_intercalate_blank {l : List (List Char)} {c : Char} (h : c ∈ [' '].intercalate l) : c = ' ' ∨ ∃ w ∈ l, c ∈ w := by
  induction l with
  | nil => cases h
  | cons w l ih =>
    cases l with
    | nil =>
      rw [List.intercalate_singleton] at h
      exact Or.inr ⟨w, by simp, h⟩
    | cons x l =>
      have e : [' '].intercalate (w :: x :: l) = w ++ ' ' :: [' '].intercalate (x :: l) := by
        simp [List.intercalate, List.intersperse]
      rw [e, List.mem_append, List.mem_cons] at h
      rcases h with h | h | h
      · exact Or.inr ⟨w, by simp, h⟩
      · exact Or.inl h
      · rcases ih h with h | ⟨y, hy, h⟩
        · exact Or.inl h
        · exact Or.inr ⟨y, by simp [hy], h⟩

/-- **C120, part.**  The tracking program gets from a script the arguments with which the job was submitted: in every script there is
one call of `python`, of `tracking_qc.py`, and its arguments are the configuration file, the identifier without the blanks at its
end, the first and the last month, the edge words and the label of the run, whatever the order of the options.  *Missing:*
identifiers with a blank inside (see below), with a hyphen in front or with marks that mean something to the shell. -/
theorem C120_arguments_partial (W : WrapperEnv) (ho' : ∀ l, (W.options l).Perm l) (rid : List Char) (hW : WordsOnly W rid) (j : Job)
    (arg : List Char) (hj : Sendable j arg) :
    ∃ ws, scriptCalls (jobScript W rid j) = [(codeDir ++ "tracking_qc.py".toList) :: ws] ∧
      parseArgs ws = .ok ⟨W.config, arg, j.yr1, j.mn1, j.yr2, j.mn2, j.edge, rid⟩ := by
  have hlog := plainText_log hW hj "SPICE_trackqc_genout" (by decide)
  have hlog' := plainText_log hW hj "SPICE_trackqc_errout" (by decide)
  have no : ∀ {s : List Char} (x : Char), x ∈ [' ', '\n'] → (∀ c ∈ s, c.isAlphanum = true ∨ c ∈ ['_', '-', '.', '/']) → x ∉ s := by
    intro s x hx hs hc
    have := hs x hc
    clear hc
    revert x
    decide
  have hne : ∀ pre, logName W pre j ≠ [] := by intro pre; simp [logName]
  have hwords : (W.options (jobOptions W.config rid j)).map (fun o => (o.1.toList, lineWords o.2)) |>.Perm
      (jobGroups W.config rid arg j) := by
    rw [← jobOptions_words hj hW.config hW.runmonthid]
    exact (ho' _).map _
  refine ⟨groupWords ((W.options (jobOptions W.config rid j)).map fun o => (o.1.toList, lineWords o.2)), ?_,
    parse_groups hj hW.config hW.runmonthid _ hwords⟩
  have hvals : ∀ o ∈ jobOptions W.config rid j, '\n' ∉ o.1.toList ∧ '\n' ∉ o.2 := by
    obtain ⟨k, hk⟩ := hj.ident
    intro o ho
    simp only [jobOptions, List.mem_cons, List.not_mem_nil, or_false] at ho
    rcases ho with rfl | rfl | rfl | rfl | rfl | rfl | rfl | rfl <;> refine ⟨by dsimp only; decide, ?_⟩
    · simp only [hk, List.mem_append, not_or]
      exact ⟨isWord_newline hj.word, fun hc => absurd (List.eq_of_mem_replicate hc) (by decide)⟩
    · exact isWord_newline hW.config
    · exact isWord_newline (intText_word hj.years.1)
    · exact isWord_newline (intText_word hj.months.1)
    · exact isWord_newline (intText_word hj.years.2)
    · exact isWord_newline (intText_word hj.months.2)
    · intro hc
      rcases mem_intercalate_blank hc with h | ⟨w, hw, h⟩
      · revert h; decide
      · obtain ⟨e, he, rfl⟩ := List.mem_map.mp hw
        exact isWord_newline (hj.edges e he) h
    · exact isWord_newline hW.runmonthid
  have hcmd : '\n' ∉ jobCommand W rid j := by
    unfold jobCommand
    simp only [List.mem_append, List.mem_flatMap, not_or]
    refine ⟨⟨⟨by decide, by decide⟩, by decide⟩, ?_⟩
    rintro ⟨o, ho, h⟩
    obtain ⟨h1, h2⟩ := hvals o ((ho' _).mem_iff.mp ho)
    simp only [List.mem_cons, List.mem_append] at h
    rcases h with h | h | h | h | h
    · revert h; decide
    · revert h; decide
    · exact h1 h
    · revert h; decide
    · exact h2 h
  unfold jobScript
  rw [scriptCalls_lines]
  · have c1 : shellPython "#!/bin/bash -l".toList = none := by decide +kernel
    have c2 : shellPython "#SBATCH --mem=8000".toList = none := by decide +kernel
    have c3 : shellPython "#SBATCH --ntasks=1".toList = none := by decide +kernel
    have c4 : shellPython ("#SBATCH --output=".toList ++ logName W "SPICE_trackqc_errout" j) = none := by
      have : "#SBATCH --output=".toList ++ logName W "SPICE_trackqc_errout" j =
          "#SBATCH".toList ++ ' ' :: ("--output=".toList ++ logName W "SPICE_trackqc_errout" j) := by simp
      rw [this]
      exact not_python _ _ (by decide) (by decide) (by decide)
    have c5 : shellPython "#SBATCH --time=30".toList = none := by decide +kernel
    have c6 : shellPython [] = none := by decide +kernel
    have c7 : shellPython "module load scitools/default_legacy-current".toList = none := by decide +kernel
    have c8 : shellPython (jobCommand W rid j ++ " > ".toList ++ logName W "SPICE_trackqc_genout" j) =
        some ((codeDir ++ "tracking_qc.py".toList) ::
          groupWords ((W.options (jobOptions W.config rid j)).map fun o => (o.1.toList, lineWords o.2))) := by
      unfold shellPython
      rw [command_words W ho' rid j _ ⟨no ' ' (by simp) hlog, hne _⟩]
      have hplain : ∀ w ∈ groupWords ((W.options (jobOptions W.config rid j)).map fun o => (o.1.toList, lineWords o.2)),
          w.all shellPlain = true := by
        intro w hw
        obtain ⟨o, ho, hw⟩ := List.mem_flatMap.mp hw
        have ho := hwords.mem_iff.mp ho
        rcases List.mem_cons.mp hw with rfl | hw
        · have : o.1 ∈ (jobGroups W.config rid arg j).map (·.1) := List.mem_map_of_mem ho
          simp only [jobGroups, List.map_cons, List.map_nil] at this
          generalize o.1 = n at this
          revert n
          decide
        · exact isWord_plain (jobGroups_words hj hW.config hW.runmonthid o ho w hw)
      have hlp : (logName W "SPICE_trackqc_genout" j).all shellPlain = true := by
        rw [List.all_eq_true]
        intro c hc
        unfold shellPlain
        rcases hlog c hc with h | h
        · simp [h]
        · simp only [List.mem_cons, List.not_mem_nil, or_false] at h
          rcases h with rfl | rfl | rfl | rfl <;> decide
      have hprog : (codeDir ++ "tracking_qc.py".toList).all shellPlain = true := by decide
      simp only
      rw [if_pos]
      · rw [← List.cons_append, takeWhile_redirect]
        intro a ha
        have : a.all shellPlain = true := by
          rcases List.mem_cons.mp ha with rfl | ha
          · exact hprog
          · exact hplain a ha
        rintro rfl
        revert this
        decide
      · refine ⟨trivial, ?_⟩
        rw [List.all_eq_true]
        intro w hw
        rw [Bool.or_eq_true]
        rcases List.mem_cons.mp hw with rfl | hw
        · exact Or.inl hprog
        · rcases List.mem_append.mp hw with hw | hw
          · exact Or.inl (hplain w hw)
          · rcases List.mem_cons.mp hw with rfl | hw
            · exact Or.inr rfl
            · rw [List.mem_singleton.mp hw]
              exact Or.inl hlp
    simp only [List.filterMap_cons, c1, c2, c3, c4, c5, c6, c7, c8, List.filterMap_nil]
  · intro x hx
    simp only [List.mem_cons, List.not_mem_nil, or_false] at hx
    rcases hx with rfl | rfl | rfl | rfl | rfl | rfl | rfl | rfl
    · decide
    · decide
    · decide
    · rw [List.mem_append, not_or]
      exact ⟨by decide, no '\n' (by simp) hlog'⟩
    · decide
    · decide
    · decide
    · simp only [List.mem_append, not_or]
      exact ⟨⟨hcmd, by decide⟩, no '\n' (by simp) hlog⟩

/-! ## Examples -/

/-- A configuration, with the options in reverse order. -/
def sampleWrapper : WrapperEnv :=
  ⟨"conf.txt".toList, "/out".toList, "/out".toList, "base".toList, List.reverse, fun l => l⟩

/-- A job with two edge words. -/
def sampleJob (ident : String) : Job := ⟨ident, 1990, 1, 1990, 3, ["start_edge_case", "end_edge_case"]⟩

/-- Non-vacuity of C120: the sample meets its conditions. -/
example : (∀ l, (sampleWrapper.options l).Perm l) ∧ WordsOnly sampleWrapper (runMonthId 1990 1 1990 3) ∧
    Sendable (sampleJob "D1       ") "D1".toList := by
  refine ⟨fun l => List.reverse_perm l, ⟨?_, ?_, ?_, ?_⟩, ⟨?_, ⟨7, by decide⟩, ?_, by decide, by decide, by decide⟩⟩
  all_goals first
    | (unfold IsWord; decide +kernel)
    | (intro e he; simp only [sampleJob, List.mem_cons, List.not_mem_nil, or_false] at he; unfold IsWord; rcases he with rfl | rfl <;> decide +kernel)

/-- The call in its script. -/
example : scriptCalls (jobScript sampleWrapper (runMonthId 1990 1 1990 3) (sampleJob "D1       ")) =
    [(["/net/home/h04/hadjj/PyWorkspace/Marine_QC/tracking_qc.py", "-runmonthid", "199001-199003", "-edge", "start_edge_case",
      "end_edge_case", "-mn2", "3", "-yr2", "1990", "-mn1", "1", "-yr1", "1990", "-config", "conf.txt", "-id", "D1"].map String.toList)] := by
  decide +kernel

/-- C120 fails for an identifier with a blank inside: it is not quoted in the script, and the tracking program refuses the second
word. -/
theorem C120_blank_violation : (scriptCalls (jobScript sampleWrapper (runMonthId 1990 1 1990 3) (sampleJob "SHIP 7   "))).map
    (fun ws => (parseArgs ws.tail).toOption) = [none] := by
  decide +kernel

end MarineQC
