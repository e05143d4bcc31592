import Verif.Drifter.Model
import Verif.Output.Voyages

/-! # The csv reader on the lines of the output files -/

namespace MarineQC

/-- Text without line ends and NUL. -/
def Spec.Tidy (s : List Char) : Prop := ∀ c ∈ s, c ≠ '\n' ∧ c ≠ '\r' ∧ c ≠ '\x00'

theorem tidy_not_newline {c : Char} (h : c ≠ '\n' ∧ c ≠ '\r' ∧ c ≠ '\x00') : isNewline c = false := by
  unfold isNewline
  simp [h.1, h.2.1]

/-! ## Lines -/

theorem fileLinesFrom_tidy (s : List Char) (h : '\n' ∉ s) : ∀ acc t,
    fileLinesFrom acc (s ++ '\n' :: t) = (acc ++ s ++ ['\n']) :: fileLinesFrom [] t := by
  induction s with
  | nil => intro acc t; simp [fileLinesFrom]
  | cons c s ih =>
    intro acc t
    rw [List.cons_append, fileLinesFrom, if_neg (by rintro rfl; simp at h), ih (by intro hc; simp [hc] at h)]
    simp

/-- A line without its newline. -/
def commaJoin : List (List Char) → List Char
  | [] => []
  | [w] => w
  | w :: l => w ++ ',' :: commaJoin l

theorem lineOf_eq (l : List (List Char)) : lineOf l = commaJoin l ++ ['\n'] := by
  induction l with
  | nil => rfl
  | cons w l ih =>
    cases l with
    | nil => rfl
    | cons x l => simp only [lineOf, commaJoin, ih, List.append_assoc, List.cons_append]

theorem commaJoin_newline (l : List (List Char)) (h : ∀ w ∈ l, '\n' ∉ w) : '\n' ∉ commaJoin l := by
  induction l with
  | nil => simp [commaJoin]
  | cons w l ih =>
    cases l with
    | nil => exact h w (by simp)
    | cons x l =>
      simp only [commaJoin, List.mem_append, List.mem_cons, not_or]
      exact ⟨h w (by simp), by decide, ih fun y hy => h y (by simp [hy])⟩

theorem fileLines_table (L : List (List (List Char))) (h : ∀ l ∈ L, ∀ w ∈ l, '\n' ∉ w) :
    fileLines (L.map lineOf).flatten = L.map lineOf := by
  unfold fileLines
  induction L with
  | nil => rfl
  | cons l L ih =>
    rw [List.map_cons, List.flatten_cons, lineOf_eq, List.append_assoc, List.singleton_append,
      fileLinesFrom_tidy _ (commaJoin_newline l (h l (by simp))), ih fun k hk => h k (by simp [hk])]
    simp

/-! ## Headers -/

theorem splitCommas_field (s : List Char) (h : ',' ∉ s) : ∀ acc t,
    splitCommas acc (s ++ t) = splitCommas (acc ++ s) t := by
  induction s with
  | nil => simp
  | cons c s ih =>
    intro acc t
    rw [List.cons_append, splitCommas, if_neg (by rintro rfl; simp at h), ih (by intro hc; simp [hc] at h)]
    simp

theorem splitCommas_join (l : List (List Char)) (hl : l ≠ []) (h : ∀ w ∈ l, ',' ∉ w) : splitCommas [] (commaJoin l) = l := by
  induction l with
  | nil => exact absurd rfl hl
  | cons w l ih =>
    cases l with
    | nil =>
      have := splitCommas_field w (h w (by simp)) [] []
      simpa [commaJoin, splitCommas] using this
    | cons x l =>
      rw [commaJoin, splitCommas_field w (h w (by simp)), List.nil_append, splitCommas, if_pos rfl,
        ih (by simp) fun y hy => h y (by simp [hy])]
      simp

theorem readHeaders_table (l : List (List Char)) (L : List (List Char)) (hl : l ≠ []) (h : ∀ w ∈ l, ',' ∉ w) :
    readHeaders (lineOf l :: L) = l := by
  unfold readHeaders
  rw [List.headD_cons, lineOf_eq, List.dropLast_concat, splitCommas_join l hl h]

/-! ## Records -/

theorem char_inField (s : List Char) (h : Spec.Plain s) (ht : Spec.Tidy s) : ∀ f fs,
    s.foldlM CsvReader.char ⟨.inField, f, fs⟩ = .ok ⟨.inField, f ++ s, fs⟩ := by
  induction s with
  | nil => intro f fs; simp [except_pure]
  | cons c s ih =>
    intro f fs
    have h1 := h c (by simp)
    have h2 := ht c (by simp)
    rw [List.foldlM_cons, CsvReader.char, if_neg h2.2.2]
    simp only [tidy_not_newline h2, if_neg h1.1, except_bind_ok, CsvReader.add]
    rw [if_neg (by simp), ih (fun d hd => h d (by simp [hd])) (fun d hd => ht d (by simp [hd]))]
    simp

theorem char_inQuoted (s : List Char) (h : '"' ∉ s) (ht : Spec.Tidy s) : ∀ f fs,
    s.foldlM CsvReader.char ⟨.inQuoted, f, fs⟩ = .ok ⟨.inQuoted, f ++ s, fs⟩ := by
  induction s with
  | nil => intro f fs; simp [except_pure]
  | cons c s ih =>
    intro f fs
    have h2 := ht c (by simp)
    rw [List.foldlM_cons, CsvReader.char, if_neg h2.2.2]
    simp only [CsvReader.add]
    rw [if_neg (by rintro rfl; simp at h), except_bind_ok, ih (by intro hc; simp [hc] at h) (fun d hd => ht d (by simp [hd]))]
    simp

/-- After a field, before the separator: the next comma or newline ends the field. -/
def FieldDone (m : CsvReader) (s : List Char) (fs : List (List Char)) : Prop :=
  m.char ',' = .ok ⟨.startField, [], fs ++ [s]⟩ ∧ (m.state ≠ .startRecord → m.char '\n' = .ok ⟨.eatNewline, [], fs ++ [s]⟩)

theorem field_read (w s : List Char) (h : Written w s) (ht : Spec.Tidy w) (fs : List (List Char)) (st : CsvState)
    (hst : st = .startField ∨ st = .startRecord) :
    ∃ m, w.foldlM CsvReader.char ⟨st, [], fs⟩ = .ok m ∧ FieldDone m s fs ∧ (st = .startField → m.state ≠ .startRecord) := by
  have first : ∀ c : Char, c ≠ '\n' ∧ c ≠ '\r' ∧ c ≠ '\x00' →
      CsvReader.char ⟨st, [], fs⟩ c = .ok (CsvReader.begin ⟨st, [], fs⟩ c) := by
    intro c hc
    unfold CsvReader.char
    rw [if_neg hc.2.2]
    rcases hst with rfl | rfl
    · rfl
    · simp [tidy_not_newline hc]
  cases h with
  | plain _ hp =>
    cases w with
    | nil =>
      refine ⟨⟨st, [], fs⟩, rfl, ⟨?_, ?_⟩, ?_⟩
      · rcases hst with rfl | rfl <;> rfl
      · rcases hst with rfl | rfl
        · intro _; rfl
        · intro h; exact absurd rfl h
      · rintro rfl; simp
    | cons c w =>
      have h1 := hp c (by simp)
      have h2 := ht c (by simp)
      refine ⟨⟨.inField, c :: w, fs⟩, ?_, ⟨rfl, fun _ => rfl⟩, by simp⟩
      rw [List.foldlM_cons, first c h2, except_bind_ok, CsvReader.begin, tidy_not_newline h2, if_neg (by simp),
        if_neg h1.2.1, if_neg h1.1, CsvReader.add,
        char_inField w (fun d hd => hp d (by simp [hd])) (fun d hd => ht d (by simp [hd]))]
      simp
  | quoted _ hq =>
    refine ⟨⟨.quoteInQuoted, s, fs⟩, ?_, ⟨rfl, fun _ => rfl⟩, by simp⟩
    rw [List.cons_append, List.foldlM_cons, first '"' (by decide), except_bind_ok, CsvReader.begin,
      if_neg (show ¬ isNewline '"' = true by decide), if_pos rfl, List.foldlM_append]
    dsimp only
    rw [char_inQuoted s hq (fun c hc => ht c (by simp [hc])), except_bind_ok]
    rfl

theorem fields_read (p : List (List Char × List Char)) (hp : p ≠ []) (h : ∀ x ∈ p, Written x.1 x.2)
    (ht : ∀ x ∈ p, Spec.Tidy x.1) : ∀ fs,
    (lineOf (p.map Prod.fst)).foldlM CsvReader.char ⟨.startField, [], fs⟩ = .ok ⟨.eatNewline, [], fs ++ p.map Prod.snd⟩ := by
  induction p with
  | nil => exact absurd rfl hp
  | cons x p ih =>
    intro fs
    obtain ⟨m, h1, ⟨h2, h3⟩, h4⟩ := field_read x.1 x.2 (h x (by simp)) (ht x (by simp)) fs .startField (Or.inl rfl)
    cases p with
    | nil =>
      simp only [List.map_cons, List.map_nil, lineOf]
      rw [List.foldlM_append, h1, except_bind_ok, List.foldlM_cons, h3 (h4 rfl), except_bind_ok]
      rfl
    | cons y p =>
      have := ih (by simp) (fun z hz => h z (by simp [hz])) (fun z hz => ht z (by simp [hz])) (fs ++ [x.2])
      simp only [List.map_cons, lineOf] at this ⊢
      rw [List.foldlM_append, h1, except_bind_ok, List.foldlM_cons, h2, except_bind_ok, this]
      simp

theorem record_read (p : List (List Char × List Char)) (hp : 2 ≤ p.length) (h : ∀ x ∈ p, Written x.1 x.2)
    (ht : ∀ x ∈ p, Spec.Tidy x.1) :
    (lineOf (p.map Prod.fst)).foldlM CsvReader.char CsvReader.start = .ok ⟨.eatNewline, [], p.map Prod.snd⟩ := by
  match p, hp with
  | x :: y :: p, _ =>
    obtain ⟨m, h1, ⟨h2, _⟩, _⟩ := field_read x.1 x.2 (h x (by simp)) (ht x (by simp)) [] .startRecord (Or.inr rfl)
    have := fields_read (y :: p) (by simp) (fun z hz => h z (by simp [hz])) (fun z hz => ht z (by simp [hz])) [x.2]
    simp only [List.map_cons, lineOf] at this ⊢
    unfold CsvReader.start
    rw [List.foldlM_append, h1, except_bind_ok, List.foldlM_cons, h2, except_bind_ok, List.nil_append, this]
    simp

/-- The rows of a table, one per line. -/
theorem csvRows_table (L : List (List (List Char × List Char))) (hL : ∀ p ∈ L, 2 ≤ p.length)
    (h : ∀ p ∈ L, ∀ x ∈ p, Written x.1 x.2) (ht : ∀ p ∈ L, ∀ x ∈ p, Spec.Tidy x.1) :
    csvRows (L.map fun p => lineOf (p.map Prod.fst)) CsvReader.start = .ok (L.map fun p => p.map Prod.snd) := by
  induction L with
  | nil => rfl
  | cons p L ih =>
    rw [List.map_cons, csvRows, record_read p (hL p (by simp)) (h p (by simp)) (ht p (by simp)), except_bind_ok]
    simp only [CsvReader.endLine, if_true]
    rw [ih (fun q hq => hL q (by simp [hq])) (fun q hq => h q (by simp [hq])) (fun q hq => ht q (by simp [hq])),
      except_bind_ok]
    rfl

/-! ## Dictionaries -/

theorem rowSet_new (d : RowDict) (p : List Char × Option (List Char)) (h : p.1 ∉ d.map Prod.fst) : rowSet d p = d ++ [p] := by
  unfold rowSet
  rw [if_neg]
  simp only [List.any_eq_true, not_exists, not_and, beq_iff_eq]
  intro q hq he
  exact h (he ▸ List.mem_map_of_mem hq)

theorem rowSet_nodup (l : RowDict) : ∀ (d : RowDict) (_ : ((d ++ l).map Prod.fst).Nodup), l.foldl rowSet d = d ++ l := by
  induction l with
  | nil => simp
  | cons p l ih =>
    intro d hn
    rw [List.foldl_cons, rowSet_new, ih]
    · simp
    · simpa using hn
    · intro hm
      rw [List.map_append, List.nodup_append] at hn
      exact hn.2.2 _ hm _ (by simp) rfl

/-- The row of a table with the columns `H` whose entries are given by name. -/
theorem dictRow_named (H : List String) (hn : H.Nodup) (cell : String → List Char) :
    dictRow (H.map String.toList) (H.map cell) = (H.map fun k => (k.toList, some (cell k)), false) := by
  unfold dictRow
  rw [List.length_map, List.length_map, Nat.sub_self, List.replicate_zero, List.append_nil, List.map_map]
  have e : (H.map String.toList).zip (H.map (some ∘ cell)) = H.map fun k => (k.toList, some (cell k)) := by
    rw [List.zip_map']
    rfl
  rw [e, rowSet_nodup]
  · simp
  · rw [List.nil_append, List.map_map]
    exact hn.map fun _ _ h => String.toList_injective h

theorem rowGet_named (H : List String) (f : String → Option (List Char)) (k : String) :
    rowGet (H.map fun k => (k.toList, f k)) k.toList = if k ∈ H then some (f k) else none := by
  unfold rowGet
  induction H with
  | nil => rfl
  | cons h H ih =>
    rw [List.map_cons, List.find?_cons]
    by_cases he : h = k
    · subst he
      simp
    · rw [show ((h.toList, f h).1 == k.toList) = false by
        simp only [beq_eq_false_iff_ne, ne_eq]
        exact fun hh => he (String.toList_injective hh)]
      dsimp only
      rw [ih]
      by_cases hm : k ∈ H
      · rw [if_pos hm, if_pos (by simp [hm])]
      · rw [if_neg hm, if_neg (by simp [hm, Ne.symm he])]

end MarineQC
