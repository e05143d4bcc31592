import Verif.Output.Voyages

/-! # The tracking file of a voyage (C90) -/

namespace MarineQC

namespace Spec

/-- The columns of a block. -/
def blockHeading : Block → List (List Char)
  | .vars l => l.map heading
  | .flags _ l => l.map String.toList

/-- The entries of a report for a block. -/
def blockEntries (fmt : Rat → List Char) (r : Report) : Block → List (List Char)
  | .vars l => l.map (entry fmt r)
  | .flags b l => l.map fun f => intText (r.getQc b f)

/-- Text without white space at the end. -/
def NoBlankEnd (s : List Char) : Prop := ∀ c, s.getLast? = some c → isBlank c = false

/-- The tracking table: UID, date and pentad, then all blocks side by side, one line for each report. -/
def trackingTable (fmt : Rat → List Char) (reps : List Report) : List (List (List Char)) :=
  table (["UID".toList, "DATE".toList, "PENTAD".toList] ++ (trackingBlocks.map blockHeading).flatten)
    (fun r => [(r.uid.getD "").toList, date r, intText (pentad r)] ++ (trackingBlocks.map (blockEntries fmt r)).flatten) reps

end Spec

/-! ## Blocks without UID -/

/-- The fields of a block, as written and as read. -/
def blockFields (fmt : Rat → List Char) (r : Report) (header : Bool) : Block → List (List Char × List Char)
  | .vars l => if header then l.map fun v => (Spec.heading v, Spec.heading v)
      else l.map fun v => (columnText fmt r v, Spec.entry fmt r v)
  | .flags b l => if header then l.map fun v => (v.toList, v.toList)
      else l.map fun v => (intText (r.getQc b v), intText (r.getQc b v))

theorem block_print (fmt : Rat → List Char) (r : Report) (header : Bool) (b : Block)
    (hb : blockFields fmt r header b ≠ []) :
    b.print fmt r header false = .ok (lineOf ((blockFields fmt r header b).map Prod.fst)) := by
  have hc : columnName = Spec.heading := funext columnName_eq
  cases b with
  | vars l =>
    have hl : l ≠ [] := by rintro rfl; cases header <;> simp [blockFields] at hb
    cases header with
    | true =>
      simp only [Block.print, printVariableBlock, variablePieces, if_true, Bool.false_eq_true, if_false]
      rw [join_empty _ (by simpa using hl), hc]
      simp [blockFields, Function.comp_def]
    | false =>
      simp only [Block.print, printVariableBlock, variablePieces, Bool.false_eq_true, if_false]
      rw [join_empty _ (by simpa using hl)]
      simp [blockFields, Function.comp_def]
  | flags b l =>
    have hl : l ≠ [] := by rintro rfl; cases header <;> simp [blockFields] at hb
    cases header with
    | true =>
      simp only [Block.print, printQcBlock, qcPieces, if_true, Bool.false_eq_true, if_false]
      rw [join_empty _ (by simpa using hl)]
      simp [blockFields, Function.comp_def]
    | false =>
      simp only [Block.print, printQcBlock, qcPieces, Bool.false_eq_true, if_false]
      rw [join_empty _ (by simpa using hl)]
      simp [blockFields, Function.comp_def]

theorem rstrip_newline (s : List Char) (h : Spec.NoBlankEnd s) : pyRstrip (s ++ ['\n']) = s := by
  unfold pyRstrip
  rw [List.reverse_append, List.reverse_singleton, List.singleton_append, List.dropWhile_cons, if_pos (by decide)]
  cases hs : s.reverse with
  | nil =>
    have : s = [] := by simpa using hs
    simp [this]
  | cons c t =>
    have hl : s.getLast? = some c := by
      rw [← List.head?_reverse, hs]; rfl
    rw [List.dropWhile_cons, if_neg (by simp [h c hl]), ← hs]
    simp

/-- The text of a line without its newline. -/
def bodyOf (l : List (List Char)) : List Char := [','].intercalate l

theorem lineOf_body (l : List (List Char)) (hl : l ≠ []) : lineOf l = bodyOf l ++ ['\n'] := by
  induction l with
  | nil => exact absurd rfl hl
  | cons w l ih =>
    cases l with
    | nil => simp [lineOf, bodyOf, List.intercalate]
    | cons x l =>
      rw [lineOf, ih (by simp)]
      · simp [bodyOf, List.intercalate]
      · simp

theorem lineOf_append (l m : List (List Char)) (hl : l ≠ []) (hm : m ≠ []) : lineOf (l ++ m) = bodyOf l ++ ',' :: lineOf m := by
  induction l with
  | nil => exact absurd rfl hl
  | cons w l ih =>
    cases l with
    | nil =>
      cases m with
      | nil => exact absurd rfl hm
      | cons x m => simp [lineOf, bodyOf, List.intercalate]
    | cons x l =>
      rw [List.cons_append, List.cons_append, lineOf, ← List.cons_append, ih (by simp)]
      · simp [bodyOf, List.intercalate]
      · simp

theorem body_getLast (l : List (List Char)) (w : List Char) (hw : w ≠ []) : (bodyOf (l ++ [w])).getLast? = w.getLast? := by
  induction l with
  | nil => simp [bodyOf, List.intercalate]
  | cons x l ih =>
    have : bodyOf (x :: l ++ [w]) = (x ++ [',']) ++ bodyOf (l ++ [w]) := by
      cases l <;> simp [bodyOf, List.intercalate]
    have hne : bodyOf (l ++ [w]) ≠ [] := by
      intro h
      rw [h] at ih
      simp only [List.getLast?_nil] at ih
      exact hw (List.getLast?_eq_none_iff.mp ih.symm)
    rw [this, List.getLast?_append_of_ne_nil _ hne, ih]

/-- Blocks whose last fields do not end with white space are put side by side. -/
theorem joinBlocks_lines (L : List (List (List Char))) (hne : ∀ l ∈ L, l ≠ []) (h0 : L ≠ [])
    (hb : ∀ l ∈ L, Spec.NoBlankEnd (bodyOf l)) : joinBlocks (L.map lineOf) = lineOf L.flatten := by
  induction L with
  | nil => exact absurd rfl h0
  | cons l L ih =>
    cases L with
    | nil => simp [joinBlocks]
    | cons m L =>
      have hl := hne l (by simp)
      have := ih (fun x hx => hne x (by simp [hx])) (by simp) (fun x hx => hb x (by simp [hx]))
      rw [List.map_cons, List.map_cons, joinBlocks, ← List.map_cons, this]
      · have hm : (m :: L).flatten ≠ [] := by simp [hne m (by simp)]
        rw [List.flatten_cons (l := l), lineOf_append l _ hl hm, lineOf_body l hl, rstrip_newline _ (hb l (by simp))]
      · simp

/-! ## The table -/

/-- All fields of a line. -/
def trackingFields (fmt : Rat → List Char) (r : Report) (header : Bool) : List (List (List Char × List Char)) :=
  match trackingBlocks with
  | b :: l => ((if header then varHead [] else varRow fmt r []) ++ blockFields fmt r header b) ::
      l.map (blockFields fmt r header)
  | [] => []

theorem missing_end : Spec.NoBlankEnd Spec.missing := by
  intro c hc
  simp only [Spec.missing, List.getLast?_cons_cons, List.getLast?_singleton, Option.some.injEq] at hc
  subst hc; decide

theorem intText_end (n : Int) : Spec.NoBlankEnd (intText n) ∧ intText n ≠ [] := by
  constructor
  · intro c hc
    exact intText_not_blank n c (List.mem_of_getLast? hc)
  · unfold intText
    split
    · simp
    · exact natText_ne_nil _

/-- The entry of a number does not end with white space. -/
theorem columnText_end (fmt : Rat → List Char) (hf : ∀ x, Spec.NoBlankEnd (fmt x) ∧ fmt x ≠ []) (r : Report) (n : String)
    (h1 : n ≠ "ID") (h2 : n ≠ "UID") : Spec.NoBlankEnd (columnText fmt r (n, [])) ∧ columnText fmt r (n, []) ≠ [] := by
  unfold columnText
  rw [if_neg h1, if_neg (by simp), if_neg h2]
  cases r.getvar n with
  | none => exact ⟨missing_end, by simp [tostring]⟩
  | some x =>
    simp only [Option.map_some, tostring, Option.getD_some]
    unfold varText
    split
    · exact intText_end _
    · exact hf x

theorem noBlankEnd_body (l : List (List Char)) (w : List Char) (h : Spec.NoBlankEnd w ∧ w ≠ []) :
    Spec.NoBlankEnd (bodyOf (l ++ [w])) := by
  intro c hc
  rw [body_getLast l w h.2] at hc
  exact h.1 c hc

/-- A line of the tracking file. -/
theorem tracking_line (fmt : Rat → List Char) (hf : ∀ x, Spec.NoBlankEnd (fmt x) ∧ fmt x ≠ []) (r : Report)
    (header : Bool) (hr : header = true ∨ Spec.Writable r) :
    trackingLine fmt header r = .ok (lineOf ((trackingFields fmt r header).flatten.map Prod.fst)) := by
  have first : ∀ vars, vars ≠ [] → (Block.vars vars).print fmt r header true = .ok (lineOf
      (((if header then varHead [] else varRow fmt r []) ++ blockFields fmt r header (.vars vars)).map Prod.fst)) := by
    intro vars hv
    cases header with
    | true =>
      simp only [Block.print, if_true]
      rw [variable_header fmt r vars hv]
      simp [varHead, blockFields, Function.comp_def]
    | false =>
      simp only [Block.print, Bool.false_eq_true, if_false]
      rw [variable_row fmt r vars (by simpa using hr)]
      simp [varRow, blockFields, Function.comp_def]
  have hlines : (trackingBlocks.zipIdx).mapM (fun (b : Block × Nat) => b.1.print fmt r header (b.2 == 0)) =
      .ok (((trackingFields fmt r header).map fun p => p.map Prod.fst).map lineOf) := by
    have hz : trackingBlocks.zipIdx = trackingBlocks.zip [0, 1, 2, 3, 4, 5] := rfl
    rw [hz]
    unfold trackingFields trackingBlocks
    simp only [List.zip_cons_cons, List.zip_nil_right, List.mapM_cons, List.mapM_nil, List.map_cons, List.map_nil]
    have b1 : ((0 : Nat) == 0) = true := rfl
    have b2 : ((1 : Nat) == 0) = false := rfl
    have b3 : ((2 : Nat) == 0) = false := rfl
    have b4 : ((3 : Nat) == 0) = false := rfl
    have b5 : ((4 : Nat) == 0) = false := rfl
    have b6 : ((5 : Nat) == 0) = false := rfl
    rw [b1, b2, b3, b4, b5, b6, first _ (by simp), block_print, block_print, block_print, block_print, block_print]
    · rfl
    all_goals (cases header <;> simp [blockFields])
  unfold trackingLine
  rw [hlines, except_bind_ok, except_pure, joinBlocks_lines]
  · rw [List.map_flatten]
  · intro l hl
    obtain ⟨p, hp, rfl⟩ := List.mem_map.mp hl
    have : p ≠ [] := by
      unfold trackingFields trackingBlocks at hp
      simp only [List.map_cons, List.map_nil, List.mem_cons, List.not_mem_nil, or_false] at hp
      rcases hp with rfl | rfl | rfl | rfl | rfl | rfl <;> cases header <;> simp [blockFields, varHead, varRow]
    simpa using this
  · simp [trackingFields, trackingBlocks]
  · intro l hl
    obtain ⟨p, hp, rfl⟩ := List.mem_map.mp hl
    suffices ∃ q w, p.map Prod.fst = q ++ [w] ∧ Spec.NoBlankEnd w ∧ w ≠ [] by
      obtain ⟨q, w, e, h⟩ := this
      rw [e]
      exact noBlankEnd_body q w h
    have hm : p ≠ [] → ∀ (h : p ≠ []), (Spec.NoBlankEnd (p.getLast h).1 ∧ (p.getLast h).1 ≠ []) →
        ∃ q w, p.map Prod.fst = q ++ [w] ∧ Spec.NoBlankEnd w ∧ w ≠ [] := by
      intro _ h h2
      refine ⟨p.dropLast.map Prod.fst, (p.getLast h).1, ?_, h2⟩
      conv_lhs => rw [← List.dropLast_append_getLast h]
      rw [List.map_append]
      rfl
    have lit : ∀ s : List Char, (s.getLast?.map isBlank = some false) → Spec.NoBlankEnd s ∧ s ≠ [] := by
      intro s hs
      constructor
      · intro c hc
        rw [hc] at hs
        simpa using hs
      · rintro rfl
        simp at hs
    have hc := columnText_end fmt hf r
    unfold trackingFields trackingBlocks at hp
    simp only [List.map_cons, List.map_nil, List.mem_cons, List.not_mem_nil, or_false] at hp
    rcases hp with rfl | rfl | rfl | rfl | rfl | rfl
    · cases header with
      | true => exact hm (by simp [blockFields]) (by simp [blockFields]) (lit _ rfl)
      | false => exact hm (by simp [blockFields]) (by simp [blockFields]) (hc "HR" (by decide) (by decide))
    · cases header with
      | true => exact hm (by simp [blockFields]) (by simp [blockFields]) (lit _ rfl)
      | false => exact hm (by simp [blockFields]) (by simp [blockFields]) (intText_end _)
    · cases header with
      | true => exact hm (by simp [blockFields]) (by simp [blockFields]) (lit _ rfl)
      | false => exact hm (by simp [blockFields]) (by simp [blockFields]) (intText_end _)
    · cases header with
      | true => exact hm (by simp [blockFields]) (by simp [blockFields]) (lit _ rfl)
      | false => exact hm (by simp [blockFields]) (by simp [blockFields]) (intText_end _)
    · cases header with
      | true => exact hm (by simp [blockFields]) (by simp [blockFields]) (lit _ rfl)
      | false => exact hm (by simp [blockFields]) (by simp [blockFields]) (intText_end _)
    · cases header with
      | true => exact hm (by simp [blockFields]) (by simp [blockFields]) (lit _ rfl)
      | false => exact hm (by simp [blockFields]) (by simp [blockFields]) (hc "ICE" (by decide) (by decide))

theorem blockFields_written (fmt : Rat → List Char) (hf : ∀ x, Spec.Plain (fmt x)) (r : Report) (header : Bool)
    (hr : header = true ∨ Spec.Writable r) (b : Block) (hb : ∀ s ∈ Spec.blockHeading b, Spec.Plain s) :
    ∀ x ∈ blockFields fmt r header b, Written x.1 x.2 := by
  intro x hx
  cases b with
  | vars l =>
    cases header with
    | true =>
      simp only [blockFields, if_true] at hx
      obtain ⟨v, hv, rfl⟩ := List.mem_map.mp hx
      exact .plain _ (hb _ (List.mem_map_of_mem hv))
    | false =>
      simp only [blockFields, Bool.false_eq_true, if_false] at hx
      obtain ⟨v, hv, rfl⟩ := List.mem_map.mp hx
      exact columnText_written fmt hf r (by simpa using hr) v
  | flags b l =>
    cases header with
    | true =>
      simp only [blockFields, if_true] at hx
      obtain ⟨v, hv, rfl⟩ := List.mem_map.mp hx
      exact .plain _ (hb _ (List.mem_map_of_mem hv))
    | false =>
      simp only [blockFields, Bool.false_eq_true, if_false] at hx
      obtain ⟨v, hv, rfl⟩ := List.mem_map.mp hx
      exact .plain _ (intText_plain _)

theorem tracking_written (fmt : Rat → List Char) (hf : ∀ x, Spec.Plain (fmt x)) (r : Report) (header : Bool)
    (hr : header = true ∨ Spec.Writable r) :
    ∀ x ∈ (trackingFields fmt r header).flatten, Written x.1 x.2 := by
  have hplain : ∀ b ∈ trackingBlocks, ∀ s ∈ Spec.blockHeading b, Spec.Plain s := by
    have : ∀ b ∈ trackingBlocks.map Spec.blockHeading, ∀ s ∈ b, ∀ c ∈ s, c ≠ ',' ∧ c ≠ '"' ∧ c ≠ '\n' := by decide
    exact fun b hb => this _ (List.mem_map_of_mem hb)
  intro x hx
  obtain ⟨p, hp, hxp⟩ := List.mem_flatten.mp hx
  have hfirst : ∀ y ∈ (if header then varHead [] else varRow fmt r []), Written y.1 y.2 := by
    cases header with
    | true =>
      simp only [if_true]
      exact varHead_written [] (by simp)
    | false =>
      simp only [Bool.false_eq_true, if_false]
      exact varRow_written fmt hf r (by simpa using hr) []
  unfold trackingFields at hp
  cases ht : trackingBlocks with
  | nil => rw [ht] at hp; simp at hp
  | cons b l =>
    rw [ht] at hp hplain
    simp only [List.mem_cons] at hp
    rcases hp with rfl | hp
    · rcases List.mem_append.mp hxp with h | h
      · exact hfirst x h
      · exact blockFields_written fmt hf r header hr b (hplain b (by simp)) x h
    · obtain ⟨b', hb', rfl⟩ := List.mem_map.mp hp
      exact blockFields_written fmt hf r header hr b' (hplain b' (by simp [hb'])) x hxp

theorem tracking_read (fmt : Rat → List Char) (r : Report) :
    (trackingFields fmt r true).flatten.map Prod.snd =
      ["UID".toList, "DATE".toList, "PENTAD".toList] ++ (trackingBlocks.map Spec.blockHeading).flatten ∧
    (trackingFields fmt r false).flatten.map Prod.snd =
      [(r.uid.getD "").toList, Spec.date r, intText (Spec.pentad r)] ++
        (trackingBlocks.map (Spec.blockEntries fmt r)).flatten := by
  have e : ∀ b, (blockFields fmt r true b).map Prod.snd = Spec.blockHeading b ∧
      (blockFields fmt r false b).map Prod.snd = Spec.blockEntries fmt r b := by
    intro b
    cases b <;> simp [blockFields, Spec.blockHeading, Spec.blockEntries, Function.comp_def]
  have key : ∀ header f, (∀ b, (blockFields fmt r header b).map Prod.snd = f b) → ∀ l : List Block,
      ((l.map (blockFields fmt r header)).flatten).map Prod.snd = (l.map f).flatten := by
    intro header f hfb l
    rw [List.map_flatten, List.map_map]
    congr 1
    exact List.map_congr_left fun b _ => hfb b
  unfold trackingFields
  cases ht : trackingBlocks with
  | nil => simp [trackingBlocks] at ht
  | cons b l =>
    constructor
    · rw [List.flatten_cons, List.map_append, List.map_append, key true _ (fun b => (e b).1), (e b).1]
      simp [varHead]
    · rw [List.flatten_cons, List.map_append, List.map_append, key false _ (fun b => (e b).2), (e b).2]
      simp [varRow]

/-- **C90.** If the directory exists, the voyage's first report has an identifier and its reports can be written,
`write_tracking_output` writes one file.  Read as CSV, this holds a header and one line for every report of the voyage, in
order and whatever the month, each with as many fields as the header: the entry or flag named by the column.  Nothing else
changes. -/
theorem C90_tracking (fmt : Rat → List Char) (hf : ∀ x, Spec.Plain (fmt x))
    (hfe : ∀ x, Spec.NoBlankEnd (fmt x) ∧ fmt x ≠ []) (runid dir : List Char) (hid : '/' ∉ runid) (year month : Int)
    (r : Report) (reps : List Report) (ident : String) (hi : r.id = some ident)
    (hr : ∀ q ∈ r :: reps, Spec.Writable q) (fs : FileSys) (hdir : fs.dir dir = true)
    (hfree : fs.dir (voyagePath runid dir year month "Tracking_".toList (safeFilename ident.toList)) = false) :
    ∃ fs', writeTracking fmt runid dir year month (r :: reps) fs = (fs', none) ∧
      Spec.HoldsTable fs' (voyagePath runid dir year month "Tracking_".toList (safeFilename ident.toList))
        (Spec.trackingTable fmt (r :: reps)) ∧
      (∀ p, p ≠ voyagePath runid dir year month "Tracking_".toList (safeFilename ident.toList) →
        fs'.file p = fs.file p) ∧
      fs'.dir = fs.dir ∧ ∀ l ∈ Spec.trackingTable fmt (r :: reps), l.length = 41 := by
  have can : canWrite fs (voyagePath runid dir year month "Tracking_".toList (safeFilename ident.toList)) = true := by
    unfold canWrite
    rw [hfree, voyagePath, parent_of_join _ _ (voyageName_no_slash runid _ hid (C65_legal ident.toList).1 year month _
      (by decide)), hdir]
    rfl
  have hlines := tableLines_ok (r :: reps) (r :: reps) (by simp) (trackingLine fmt true) (trackingLine fmt false)
    (lineOf ((trackingFields fmt r true).flatten.map Prod.fst))
    (fun q => lineOf ((trackingFields fmt q false).flatten.map Prod.fst))
    (fun q _ => by
      rw [tracking_line fmt hfe q true (.inl rfl)]
      rfl)
    (fun q hq => tracking_line fmt hfe q false (.inr (hr q hq)))
  unfold writeTracking
  simp only [hi]
  unfold writeFile
  rw [if_pos can, hlines]
  refine ⟨_, rfl, ?_, ?_, rfl, ?_⟩
  · refine ⟨_, if_pos rfl, ?_⟩
    have hlen : ∀ q header, (trackingFields fmt q header).flatten ≠ [] := by
      intro q header
      unfold trackingFields trackingBlocks
      cases header <;> simp [varHead, varRow]
    have key : ∀ R : List Report, (∀ q ∈ R, Spec.Writable q) →
        Spec.csv (lineOf ((trackingFields fmt r true).flatten.map Prod.fst) ++
          (R.map fun q => lineOf ((trackingFields fmt q false).flatten.map Prod.fst)).flatten) = Spec.trackingTable fmt R := by
      intro R hR
      have k := csv_lines ((trackingFields fmt r true).flatten :: R.map fun q => (trackingFields fmt q false).flatten)
        (by
          intro p hp
          rcases List.mem_cons.mp hp with rfl | h
          · exact hlen _ _
          · obtain ⟨q, _, rfl⟩ := List.mem_map.mp h
            exact hlen _ _)
        (by
          intro p hp
          rcases List.mem_cons.mp hp with rfl | h
          · exact tracking_written fmt hf r true (.inl rfl)
          · obtain ⟨q, hq, rfl⟩ := List.mem_map.mp h
            exact tracking_written fmt hf q false (.inr (hR q hq)))
      rw [List.map_cons, List.map_map, List.flatten_cons, List.map_cons, List.map_map] at k
      rw [Spec.trackingTable, Spec.table, ← (tracking_read fmt r).1]
      refine Eq.trans k ?_
      exact congrArg _ (List.map_congr_left fun q _ => (tracking_read fmt q).2)
    exact key _ hr
  · intro p hp
    exact if_neg hp
  · intro l hl
    unfold Spec.trackingTable Spec.table at hl
    rcases List.mem_cons.mp hl with rfl | hl
    · rfl
    · obtain ⟨q, -, rfl⟩ := List.mem_map.mp hl
      rfl

/-! ## A concrete case

The hypotheses of C87, C89 and C90 hold for a directory `out`, a run `r1` and a voyage of two reports. -/

/-- A file system with one empty directory. -/
def outFs : FileSys := { file := fun _ => none, dir := fun p => p == "out".toList }

/-- Two reports of different months. -/
def outReps : List Report :=
  [{ Report.empty (some "SH,IP") (some "A1") with data := fun k => if k = "YR" then some 1999 else if k = "MO" then some 1 else none },
   { Report.empty (some "SH,IP") (some "A2") with data := fun k => if k = "YR" then some 1999 else if k = "MO" then some 2 else none }]

theorem outReps_writable : ∀ q ∈ outReps, Spec.Writable q := by
  intro q hq
  simp only [outReps, List.mem_cons, List.not_mem_nil, or_false] at hq
  have plain : ∀ u ∈ ["A1", "A2"], ∀ c ∈ u.toList, c ≠ ',' ∧ c ≠ '"' ∧ c ≠ '\n' := by decide
  have quote : '"' ∉ "SH,IP".toList := by decide
  rcases hq with rfl | rfl
  · exact ⟨⟨"A1", rfl, plain _ (by simp)⟩, fun i hi => by cases hi; exact quote⟩
  · exact ⟨⟨"A2", rfl, plain _ (by simp)⟩, fun i hi => by cases hi; exact quote⟩

example (fmt : Rat → List Char) (h1 : ∀ x, Spec.Plain (fmt x)) (h2 : ∀ x, Spec.NoBlankEnd (fmt x) ∧ fmt x ≠ []) :
    ∃ fs', writeTracking fmt "r1".toList "out".toList 1999 2 outReps outFs = (fs', none) := by
  obtain ⟨fs', h, -⟩ := C90_tracking fmt h1 h2 "r1".toList "out".toList (by decide) 1999 2 _ _ "SH,IP" rfl outReps_writable outFs
    (by decide) (by simp [voyagePath, outFs])
  exact ⟨fs', h⟩

example (fmt : Rat → List Char) (h1 : ∀ x, Spec.Plain (fmt x)) :
    (∃ fs', deckWrite fmt deckVars deckFlags "r1".toList "out".toList 1999 2 false outReps outFs = (fs', none)) ∧
    (∃ fs', voyageWrite fmt voyageFlags "r1".toList "out".toList 1999 2 outReps outFs = (fs', none)) ∧
    (Spec.ofMonth 1999 2 outReps).length = 1 := by
  have hw : ∀ q ∈ Spec.ofMonth 1999 2 outReps, Spec.Writable q := fun q hq => outReps_writable q (List.mem_of_mem_filter hq)
  obtain ⟨fs1, e1, -⟩ := C87_deck fmt h1 deckFlags (.refl _) "r1".toList "out".toList (by decide) 1999 2 false outReps (by simp [outReps])
    hw outFs (by decide) (fun pre => by simp [deckPath, outFs])
  obtain ⟨fs2, e2, -⟩ := C89_voyage_partial fmt h1 voyageFlags (.refl _) "r1".toList "out".toList (by decide) 1999 2 _ _ "SH,IP" rfl
    (by decide) hw outFs (by decide) (by decide) (by decide) (fun pre i => by simp [voyagePath, outFs])
  exact ⟨⟨fs1, e1⟩, ⟨fs2, e2⟩, by decide +kernel⟩

/-- A way of writing numbers that meets the hypotheses. -/
example : ∃ fmt : Rat → List Char, (∀ x, Spec.Plain (fmt x)) ∧ ∀ x, Spec.NoBlankEnd (fmt x) ∧ fmt x ≠ [] :=
  ⟨fun x => intText x.num ++ '/' :: natText x.den, by
    intro x c hc
    rcases List.mem_append.mp hc with h | h
    · exact intText_plain _ c h
    · rcases List.mem_cons.mp h with rfl | h
      · decide
      · have e : intText (x.den : Int) = natText x.den := by simp [intText]
        exact intText_plain (x.den : Int) c (e ▸ h), by
    intro x
    refine ⟨?_, by simp⟩
    intro c hc
    have hn := intText_end (x.den : Int)
    have e : intText (x.den : Int) = natText x.den := by simp [intText]
    rw [e] at hn
    rw [List.getLast?_append_of_ne_nil _ (by simp), List.getLast?_cons_of_ne_nil hn.2] at hc
    exact hn.1 c hc⟩

end MarineQC
