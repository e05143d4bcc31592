import Verif.Output.Tables

/-! # Names of output files; output files of a voyage (C88–C90) -/

namespace MarineQC

/-! ## Names -/

theorem split_at_digits (P P' D D' R R' : List Char) (hP : ∀ c ∈ P, c.isDigit = false) (hP' : ∀ c ∈ P', c.isDigit = false)
    (hD : ∀ c ∈ D, c.isDigit = true) (hD' : ∀ c ∈ D', c.isDigit = true) (hD0 : D ≠ []) (hD0' : D' ≠ [])
    (h : P ++ (D ++ '_' :: R) = P' ++ (D' ++ '_' :: R')) : P = P' ∧ D = D' ∧ R = R' := by
  have take : ∀ (p : Char → Bool) (A B : List Char), (∀ c ∈ A, p c = true) → (∀ c, B.head? = some c → p c = false) →
      (A ++ B).takeWhile p = A ∧ (A ++ B).dropWhile p = B := by
    intro p A B hA hB
    induction A with
    | nil =>
      cases B with
      | nil => simp
      | cons b B => simp [hB b rfl]
    | cons a A ih =>
      obtain ⟨h1, h2⟩ := ih fun c hc => hA c (by simp [hc])
      simp [hA a (by simp), h1, h2]
  have hh : ∀ (D R : List Char), D ≠ [] → (∀ c ∈ D, c.isDigit = true) → ∀ c, (D ++ '_' :: R).head? = some c →
      (!c.isDigit) = false := by
    intro D R h0 hD c hc
    cases D with
    | nil => exact absurd rfl h0
    | cons d D =>
      simp only [List.cons_append, List.head?_cons, Option.some.injEq] at hc
      subst hc
      simp [hD d (by simp)]
  obtain ⟨a1, a2⟩ := take (fun c => !c.isDigit) P (D ++ '_' :: R) (fun c hc => by simp [hP c hc]) (hh D R hD0 hD)
  obtain ⟨b1, b2⟩ := take (fun c => !c.isDigit) P' (D' ++ '_' :: R') (fun c hc => by simp [hP' c hc]) (hh D' R' hD0' hD')
  rw [h, b1] at a1
  rw [h, b2] at a2
  have hu : ∀ (R : List Char) (c : Char), ('_' :: R).head? = some c → c.isDigit = false := by
    intro R c hc
    simp only [List.head?_cons, Option.some.injEq] at hc
    subst hc; decide
  obtain ⟨c1, c2⟩ := take (fun c => c.isDigit) D ('_' :: R) hD (hu R)
  obtain ⟨d1, d2⟩ := take (fun c => c.isDigit) D' ('_' :: R') hD' (hu R')
  rw [← a2, d1] at c1
  rw [← a2, d2] at c2
  simp only [List.cons.injEq, true_and] at c2
  exact ⟨a1.symm, c1.symm, c2.symm⟩

theorem yearMonth_digits (y m : Int) (hy : 0 ≤ y) (hm : 0 ≤ m) :
    (∀ c ∈ intText y ++ zeroPad 2 m, c.isDigit = true) ∧ intText y ++ zeroPad 2 m ≠ [] := by
  obtain ⟨y, rfl⟩ := Int.eq_ofNat_of_zero_le hy
  obtain ⟨m, rfl⟩ := Int.eq_ofNat_of_zero_le hm
  rw [intText_nat]
  constructor
  · intro c hc
    rcases List.mem_append.mp hc with h | h
    · exact natText_digits _ c h
    · unfold zeroPad at h
      rw [if_neg (by omega)] at h
      rcases List.mem_append.mp h with h | h
      · rw [List.eq_of_mem_replicate h]; decide
      · exact natText_digits _ c h
  · intro h
    exact natText_ne_nil y (List.append_eq_nil_iff.mp h).1

theorem yearMonth_inj (y m y' m' : Int) (hm : 0 ≤ m) (hm2 : m < 100) (hm' : 0 ≤ m')
    (hm2' : m' < 100) (h : intText y ++ zeroPad 2 m = intText y' ++ zeroPad 2 m') : y = y' ∧ m = m' := by
  obtain ⟨m, rfl⟩ := Int.eq_ofNat_of_zero_le hm
  obtain ⟨m', rfl⟩ := Int.eq_ofNat_of_zero_le hm'
  obtain ⟨a1, _, a3⟩ := C64_numbers 2 m (by norm_num) (by omega)
  obtain ⟨b1, _, b3⟩ := C64_numbers 2 m' (by norm_num) (by omega)
  obtain ⟨h1, h2⟩ := List.append_inj' h (by rw [a1, b1])
  refine ⟨intText_inj _ _ h1, ?_⟩
  rw [h2, b3] at a3
  exact congrArg _ a3.symm

/-- The beginnings of file names, without digits. -/
def Spec.Beginning (s : List Char) : Prop := ∀ c ∈ s, c.isDigit = false

/-- **C88.** In one directory, output files of decks of different months, different runs or different kinds have different
names: the name determines month, run and beginning. -/
theorem C88_deck_names (runid runid' dir pre pre' : List Char) (y m y' m' : Int) (test test' : Bool) (hp : Spec.Beginning pre)
    (hp' : Spec.Beginning pre') (hy : 0 ≤ y) (hy' : 0 ≤ y') (hm : 0 ≤ m) (hm2 : m < 100) (hm' : 0 ≤ m') (hm2' : m' < 100)
    (h : deckPath runid dir y m test pre = deckPath runid' dir y' m' test' pre') :
    y = y' ∧ m = m' ∧ runid = runid' ∧
      (if test then "Test_".toList else []) ++ pre = (if test' then "Test_".toList else []) ++ pre' := by
  unfold deckPath at h
  have h := List.append_cancel_left h
  simp only [List.cons.injEq, true_and] at h
  obtain ⟨d1, d2⟩ := yearMonth_digits y m hy hm
  obtain ⟨e1, e2⟩ := yearMonth_digits y' m' hy' hm'
  have ht : ∀ t : Bool, ∀ c ∈ (if t then "Test_".toList else []), c.isDigit = false := by decide
  obtain ⟨q1, q2, q3⟩ := split_at_digits ((if test then "Test_".toList else []) ++ pre)
    ((if test' then "Test_".toList else []) ++ pre') (intText y ++ zeroPad 2 m) (intText y' ++ zeroPad 2 m')
    (runid ++ ".csv".toList) (runid' ++ ".csv".toList)
    (by
      intro c hc
      rcases List.mem_append.mp hc with hc | hc
      · exact ht _ c hc
      · exact hp c hc)
    (by
      intro c hc
      rcases List.mem_append.mp hc with hc | hc
      · exact ht _ c hc
      · exact hp' c hc) d1 e1 d2 e2
    (by simpa [List.append_assoc] using h)
  obtain ⟨r1, r2⟩ := yearMonth_inj y m y' m' hm hm2 hm' hm2' q2
  exact ⟨r1, r2, List.append_cancel_right q3, q1⟩

/-- The beginnings used by the code have no digits. -/
example : Spec.Beginning "Variables_".toList ∧ Spec.Beginning "DPT_qc_".toList := by
  unfold Spec.Beginning
  decide

/-- **C88.** The same for the variables file of voyages, of one run: identifiers that `safe_filename` keeps apart have
different files. -/
theorem C88_voyage_names (runid dir pre ident ident' : List Char) (y m y' m' : Int) (hp : Spec.Beginning pre)
    (hy : 0 ≤ y) (hy' : 0 ≤ y') (hm : 0 ≤ m) (hm2 : m < 100) (hm' : 0 ≤ m') (hm2' : m' < 100)
    (h : voyagePath runid dir y m pre ident = voyagePath runid dir y' m' pre ident') :
    y = y' ∧ m = m' ∧ ident = ident' := by
  unfold voyagePath at h
  have h := List.append_cancel_left h
  simp only [List.cons.injEq, true_and] at h
  obtain ⟨d1, d2⟩ := yearMonth_digits y m hy hm
  obtain ⟨e1, e2⟩ := yearMonth_digits y' m' hy' hm'
  obtain ⟨q1, q2, q3⟩ := split_at_digits pre pre (intText y ++ zeroPad 2 m) (intText y' ++ zeroPad 2 m')
    (ident ++ '_' :: (runid ++ ".csv".toList)) (ident' ++ '_' :: (runid ++ ".csv".toList)) hp hp d1 e1 d2 e2
    (by simpa [List.append_assoc] using h)
  obtain ⟨r1, r2⟩ := yearMonth_inj y m y' m' hm hm2 hm' hm2' q2
  exact ⟨r1, r2, List.append_cancel_right q3⟩

/-- **C88, violated.** Two voyages whose identifiers differ only in a slash and an asterisk have one variables file. -/
theorem C88_voyage_violation (runid dir : List Char) (y m : Int) :
    voyagePath runid dir y m "Variables_".toList (safeFilename "A/B".toList) =
      voyagePath runid dir y m "Variables_".toList (safeFilename "A*B".toList) := by
  rw [C65_collision.1]

/-- **C88, violated.** An identifier with an underscore and the beginning of another run's name can be confused. -/
theorem C88_run_violation (dir : List Char) (y m : Int) :
    voyagePath "X_R".toList dir y m "Variables_".toList "A".toList =
      voyagePath "R".toList dir y m "Variables_".toList "A_X".toList := by
  unfold voyagePath
  simp only [List.append_assoc, List.cons_append, List.append_cancel_left_eq, List.cons.injEq, true_and]
  decide

/-! ## Voyages -/

theorem voyageWriteQc_eq (runid dir : List Char) (year month : Int) (r : Report) (reps : List Report) (ident : String)
    (hi : r.id = some ident) (l : List (String × List String)) :
    voyageWriteQc runid dir year month (r :: reps) l = writeFiles (l.map fun b =>
      (voyagePath runid dir year month (b.1.toList ++ "_qc_".toList) ident.toList, qcFileLines year month (r :: reps) b)) := by
  induction l with
  | nil => funext fs; rfl
  | cons b l ih =>
    funext fs
    rw [voyageWriteQc, List.map_cons, writeFiles]
    simp only [hi, ih]
    rfl

theorem voyagePath_pre_inj (runid dir : List Char) (year month : Int) (p q ident : List Char)
    (h : voyagePath runid dir year month p ident = voyagePath runid dir year month q ident) : p = q := by
  unfold voyagePath at h
  simpa using h

theorem voyageName_no_slash (runid ident : List Char) (hid : '/' ∉ runid) (hi : '/' ∉ ident) (year month : Int)
    (pre : List Char) (hp : '/' ∉ pre) :
    '/' ∉ pre ++ intText year ++ zeroPad 2 month ++ '_' :: ident ++ '_' :: runid ++ ".csv".toList := by
  have h := deckName_no_slash runid hid year month false pre hp
  simp only [List.mem_append, List.mem_cons, not_or] at h ⊢
  exact ⟨⟨⟨h.2.1.1, by decide, hi⟩, h.2.1.2⟩, h.2.2⟩

/-- `Voyage.write_output` for a voyage whose first identifier has no slash: the text of the files. -/
theorem voyage_text (fmt : Rat → List Char) (flags : List (String × List String))
    (hp : flags.Perm voyageFlags) (runid dir : List Char) (hid : '/' ∉ runid) (year month : Int)
    (r : Report) (reps : List Report) (ident : String) (hi : r.id = some ident) (hs : '/' ∉ ident.toList)
    (hr : ∀ q ∈ Spec.ofMonth year month (r :: reps), Spec.Writable q) (fs : FileSys)
    (hy : 0 ≤ year) (hm : 0 ≤ month)
    (hdir : fs.dir dir = true) (hfree : ∀ pre i, fs.dir (voyagePath runid dir year month pre i) = false) :
    ∃ fs', voyageWrite fmt flags runid dir year month (r :: reps) fs = (fs', none) ∧
      fs'.file (voyagePath runid dir year month "Variables_".toList (safeFilename ident.toList)) =
        some (variableText fmt voyageVars (Spec.ofMonth year month (r :: reps))) ∧
      (∀ b ∈ voyageFlags, fs'.file (voyagePath runid dir year month (b.1.toList ++ "_qc_".toList) ident.toList) =
        some (flagText b (Spec.ofMonth year month (r :: reps)))) ∧
      (∀ p, p ≠ voyagePath runid dir year month "Variables_".toList (safeFilename ident.toList) →
        (∀ b ∈ voyageFlags, p ≠ voyagePath runid dir year month (b.1.toList ++ "_qc_".toList) ident.toList) →
          fs'.file p = fs.file p) ∧
      fs'.dir = fs.dir := by
  have hmem : ∀ b, b ∈ flags ↔ b ∈ voyageFlags := fun b => hp.mem_iff
  have e : voyageWrite fmt flags runid dir year month (r :: reps) fs =
      writeFiles (outputFiles fmt voyageVars flags year month (r :: reps)
        (voyagePath runid dir year month "Variables_".toList (safeFilename ident.toList))
        fun b => voyagePath runid dir year month (b.toList ++ "_qc_".toList) ident.toList) fs := by
    unfold voyageWrite outputFiles
    simp only [hi]
    rw [voyageWriteQc_eq _ _ _ _ _ _ _ hi, writeFiles]
  have can : ∀ pre i, '/' ∉ pre → '/' ∉ i → canWrite fs (voyagePath runid dir year month pre i) = true := by
    intro pre i hp hi
    unfold canWrite
    rw [hfree, voyagePath, parent_of_join _ _ (voyageName_no_slash runid i hid hi year month pre hp), hdir]
    rfl
  have hslash : ∀ b ∈ flags, '/' ∉ b.1.toList ∧ Spec.Beginning (b.1.toList ++ "_qc_".toList) := by
    have : ∀ b ∈ voyageFlags, '/' ∉ b.1.toList ∧ ∀ c ∈ b.1.toList ++ "_qc_".toList, c.isDigit = false := by decide
    exact fun b hb => this b ((hmem b).mp hb)
  rw [e]
  obtain ⟨fs', h1, h2, h3, h4, h5⟩ := files_text fmt voyageVars flags (by decide)
    (by
      have : ∀ b ∈ voyageFlags, b.2 ≠ [] := by decide
      exact fun b hb => this b ((hmem b).mp hb))
    year month (r :: reps) (by simp) hr fs
    (voyagePath runid dir year month "Variables_".toList (safeFilename ident.toList))
    (fun b => voyagePath runid dir year month (b.toList ++ "_qc_".toList) ident.toList)
    (by
      rw [List.nodup_cons]
      constructor
      · intro hmm
        obtain ⟨b, hb, hb2⟩ := List.mem_map.mp hmm
        unfold voyagePath at hb2
        have hb2 := List.append_cancel_left hb2
        simp only [List.cons.injEq, true_and] at hb2
        obtain ⟨d1, d2⟩ := yearMonth_digits year month hy hm
        obtain ⟨q1, _, _⟩ := split_at_digits (b.1.toList ++ "_qc_".toList) "Variables_".toList
          (intText year ++ zeroPad 2 month) (intText year ++ zeroPad 2 month)
          (ident.toList ++ '_' :: (runid ++ ".csv".toList)) (safeFilename ident.toList ++ '_' :: (runid ++ ".csv".toList))
          (hslash b hb).2 (by decide) d1 d1 d2 d2 (by simpa [List.append_assoc] using hb2)
        exact not_qc_prefix b.1 q1.symm
      · have : (fun b : String × List String =>
              voyagePath runid dir year month (b.1.toList ++ "_qc_".toList) ident.toList) =
            (fun p : String => voyagePath runid dir year month (p.toList ++ "_qc_".toList) ident.toList) ∘ Prod.fst := rfl
        rw [this, ← List.map_map]
        apply List.Nodup.map _ ((hp.map Prod.fst).nodup_iff.mpr (by decide))
        intro x y hxy
        exact String.toList_injective (List.append_cancel_right (voyagePath_pre_inj _ _ _ _ _ _ _ hxy)))
    (can _ _ (by decide) (C65_legal ident.toList).1)
    (fun b hb => can _ _ (by
      rw [List.mem_append, not_or]
      exact ⟨(hslash b hb).1, by decide⟩) hs)
  exact ⟨fs', h1, h2, fun b hb => h3 b ((hmem b).mpr hb), fun p q1 q2 => h4 p q1 fun b hb => q2 b ((hmem b).mp hb), h5⟩

/-- **C89, part.** `Voyage.write_output` for a voyage whose first identifier has no slash: if the directory exists and no
directory has the name of an output file, then afterwards the variables file and both flags files hold one line for each
report of the month, in the order of the voyage, and no other file has changed.  Missing: identifiers with a slash (see
below). -/
theorem C89_voyage_partial (fmt : Rat → List Char) (hf : ∀ x, Spec.Plain (fmt x)) (flags : List (String × List String))
    (hp : flags.Perm voyageFlags) (runid dir : List Char) (hid : '/' ∉ runid) (year month : Int)
    (r : Report) (reps : List Report) (ident : String) (hi : r.id = some ident) (hs : '/' ∉ ident.toList)
    (hr : ∀ q ∈ Spec.ofMonth year month (r :: reps), Spec.Writable q) (fs : FileSys)
    (hy : 0 ≤ year) (hm : 0 ≤ month)
    (hdir : fs.dir dir = true) (hfree : ∀ pre i, fs.dir (voyagePath runid dir year month pre i) = false) :
    ∃ fs', voyageWrite fmt flags runid dir year month (r :: reps) fs = (fs', none) ∧
      Spec.HoldsTable fs' (voyagePath runid dir year month "Variables_".toList (safeFilename ident.toList))
        (Spec.variableTable fmt voyageVars (Spec.ofMonth year month (r :: reps))) ∧
      (∀ b ∈ voyageFlags, Spec.HoldsTable fs' (voyagePath runid dir year month (b.1.toList ++ "_qc_".toList) ident.toList)
        (Spec.flagTable b.1 b.2 (Spec.ofMonth year month (r :: reps)))) ∧
      (∀ p, p ≠ voyagePath runid dir year month "Variables_".toList (safeFilename ident.toList) →
        (∀ b ∈ voyageFlags, p ≠ voyagePath runid dir year month (b.1.toList ++ "_qc_".toList) ident.toList) →
          fs'.file p = fs.file p) ∧
      fs'.dir = fs.dir := by
  obtain ⟨fs', h1, h2, h3, h4, h5⟩ := voyage_text fmt flags hp runid dir hid year month r reps ident hi hs hr fs hy hm hdir hfree
  have hv : ∀ v ∈ voyageVars, ∀ c ∈ Spec.heading v, c ≠ ',' ∧ c ≠ '"' ∧ c ≠ '\n' := by decide
  have hb : ∀ b ∈ voyageFlags, ∀ v ∈ b.2, ∀ c ∈ v.toList, c ≠ ',' ∧ c ≠ '"' ∧ c ≠ '\n' := by decide
  exact ⟨fs', h1, ⟨_, h2, csv_variable_table fmt hf _ hv _ hr⟩, fun b hbm => ⟨_, h3 b hbm, csv_flag_table _ _ (hb b hbm) _ hr⟩,
    h4, h5⟩

/-- **C89, violated.** With a slash in the identifier the variables file is written, but the flags file is looked for in a
directory named by the part before the slash.  Unless there is one, writing stops with an exception, leaving no flags. -/
theorem C89_slash_violation (fmt : Rat → List Char) (hf : ∀ x, Spec.Plain (fmt x)) (runid dir : List Char)
    (hid : '/' ∉ runid) (year month : Int) (r : Report) (reps : List Report) (a b : List Char) (ident : String)
    (hb : '/' ∉ b) (hab : ident.toList = a ++ '/' :: b) (hi : r.id = some ident)
    (hr : ∀ q ∈ Spec.ofMonth year month (r :: reps), Spec.Writable q) (fs : FileSys)
    (hdir : fs.dir dir = true) (hfree : ∀ pre i, fs.dir (voyagePath runid dir year month pre i) = false)
    (hno : ∀ pre, fs.dir (dir ++ '/' :: (pre ++ intText year ++ zeroPad 2 month ++ '_' :: a)) = false) :
    ∃ fs', voyageWrite fmt voyageFlags runid dir year month (r :: reps) fs = (fs', some .other) ∧
      Spec.HoldsTable fs' (voyagePath runid dir year month "Variables_".toList (safeFilename ident.toList))
        (Spec.variableTable fmt voyageVars (Spec.ofMonth year month (r :: reps))) ∧
      (∀ p, p ≠ voyagePath runid dir year month "Variables_".toList (safeFilename ident.toList) →
          fs'.file p = fs.file p) := by
  rw [← inMonth_eq] at hr ⊢
  have vt := variable_table fmt voyageVars (by decide) (r :: reps) ((r :: reps).filter (inMonth year month)) (by simp) hr
  have hcan : canWrite fs (voyagePath runid dir year month "Variables_".toList (safeFilename ident.toList)) = true := by
    unfold canWrite
    rw [hfree, voyagePath, parent_of_join _ _ (voyageName_no_slash runid _ hid (C65_legal ident.toList).1 year month _
      (by decide)), hdir]
    rfl
  have hcannot : ∀ pre, (fs.dir (parentPath (voyagePath runid dir year month pre ident.toList))) = false := by
    intro pre
    have e : voyagePath runid dir year month pre ident.toList =
        (dir ++ '/' :: (pre ++ intText year ++ zeroPad 2 month ++ '_' :: a)) ++ '/' :: (b ++ '_' :: runid ++ ".csv".toList) := by
      unfold voyagePath
      rw [hab]
      simp [List.append_assoc]
    rw [e, parent_of_join, hno]
    simp only [List.mem_append, List.mem_cons, not_or]
    exact ⟨⟨hb, by decide, hid⟩, by decide⟩
  generalize hT : ((varHead voyageVars :: ((r :: reps).filter (inMonth year month)).map fun r =>
    varRow fmt r voyageVars).map fun p => lineOf (p.map Prod.fst)).flatten = text at vt
  refine ⟨fs.put (voyagePath runid dir year month "Variables_".toList (safeFilename ident.toList)) text, ?_,
    ⟨text, if_pos rfl, ?_⟩, fun p hp => if_neg hp⟩
  · unfold voyageWrite
    simp only [hi]
    have e1 : writeFile fs (voyagePath runid dir year month "Variables_".toList (safeFilename ident.toList))
        (tableLines (r :: reps) ((r :: reps).filter (inMonth year month))
          (fun r => printVariableBlock fmt r voyageVars true true)
          (fun r => printVariableBlock fmt r voyageVars false true)) =
        (fs.put (voyagePath runid dir year month "Variables_".toList (safeFilename ident.toList)) text, none) := by
      unfold writeFile
      rw [if_pos hcan, vt]
    rw [e1]
    simp only [thenDo]
    rw [voyageWriteQc_eq _ _ _ _ _ _ _ hi]
    unfold voyageFlags
    rw [List.map_cons, writeFiles]
    have e2 : ∀ fs' l, fs'.dir = fs.dir → writeFile fs'
        (voyagePath runid dir year month ("POS".toList ++ "_qc_".toList) ident.toList) l = (fs', some .other) := by
      intro fs' l h
      unfold writeFile
      rw [if_neg]
      unfold canWrite
      rw [h, hcannot]
      simp
    dsimp only
    rw [e2 (fs.put (voyagePath runid dir year month "Variables_".toList (safeFilename ident.toList)) text) _ rfl, thenDo]
  · rw [← hT]
    exact csv_variable_table fmt hf voyageVars (by
      have : ∀ v ∈ voyageVars, ∀ c ∈ Spec.heading v, c ≠ ',' ∧ c ≠ '"' ∧ c ≠ '\n' := by decide
      exact this) _ hr

end MarineQC
