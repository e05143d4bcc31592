import Verif.Drifter.RoundTrip

/-! # Reading a drifter's months back (C91, C92) -/

namespace MarineQC

open Spec

/-- The directory of a month, as `safe_make_dir` returns it. -/
def Spec.monthDir (out : List Char) (year month : Int) : List Char :=
  out ++ '/' :: (intText year ++ '/' :: zeroPad 2 month)

/-- It is the directory made by `safe_make_dir`. -/
example (fs : FileSys) : (safeMakeDir fs "/data/out".toList 2003 4).2 = some (monthDir "/data/out".toList 2003 4) := by
  show (buildCompletions "/data/out".toList [intText 2003, zeroPad 2 4]).getLast? = _
  decide

theorem inputPath_eq (out runid target : List Char) (year month : Int) (pre : String) :
    inputPath out runid target year month pre = voyagePath runid (monthDir out year month) year month pre.toList target := by
  unfold inputPath voyagePath monthDir
  simp [List.append_assoc]

theorem safe_id (s : List Char) (h1 : '/' ∉ s) (h2 : '*' ∉ s) : safeFilename s = s := by
  obtain ⟨hl, hc⟩ := C65_characters s
  apply List.ext_getElem hl
  intro i a b
  refine (hc i b a).2 ?_ ?_
  · intro h; exact h1 (h ▸ List.getElem_mem b)
  · intro h; exact h2 (h ▸ List.getElem_mem b)

/-- **C91, part.** A drifter's month written by `Voyage.write_output` into the directory of the month is read back by
`tracking_qc.py`: the same reports in the same order, with their identity, date and flags; position, time of day,
temperatures, pressure and background with the digits written.  The identifier given on the command line may lack the
blanks at its end.  Missing: identifiers with a slash or an asterisk (see below). -/
theorem C91_month_partial (fmt : Rat → List Char) (num : List Char → Option Rat) (rnd : Rat → Rat)
    (h : Numerals fmt num rnd) (order : List (List Char) → List (List Char)) (ho : ∀ l, (order l).Perm l)
    (flags : List (String × List String)) (hp : flags.Perm voyageFlags) (out runid arg : List Char) (hid : '/' ∉ runid)
    (year month : Int) (hy : 0 ≤ year) (hm : 0 ≤ month) (r : Report) (reps : List Report) (ident : String)
    (hi : r.id = some ident) (harg : ident.toList = targetId arg) (hs : '/' ∉ ident.toList) (ha : '*' ∉ ident.toList)
    (hq : ∀ q ∈ ofMonth year month (r :: reps), Storable rnd q) (fs : FileSys)
    (hdir : fs.dir (monthDir out year month) = true)
    (hfree : ∀ pre i, fs.dir (voyagePath runid (monthDir out year month) year month pre i) = false) :
    ∃ fs' R, voyageWrite fmt flags runid (monthDir out year month) year month (r :: reps) fs = (fs', none) ∧
      readMonth num order fs' out runid (targetId arg) year month = .ok R ∧
      List.Forall₂ (ReadBack rnd) (ofMonth year month (r :: reps)) R := by
  obtain ⟨fs', h1, h2, h3, _, _⟩ := voyage_text fmt flags hp runid (monthDir out year month) hid year month r reps ident hi hs
    (fun q hqm => (hq q hqm).writable) fs hy hm hdir hfree
  rw [safe_id _ hs ha, harg] at h2
  obtain ⟨R, g1, g2⟩ := readMonth_text fmt num rnd h order ho fs' out runid (targetId arg) year month _ hq
    (by rw [inputPath_eq]; exact h2)
    (by
      intro b hb
      rw [inputPath_eq, String.toList_append, ← harg]
      exact h3 b hb)
  exact ⟨fs', R, h1, g1, g2⟩

/-- **C91, violated.** With an asterisk in the identifier the variables file has another name than the reader expects, so that
reading stops with an exception, even right after writing, unless there was such a file before. -/
theorem C91_asterisk_violation (fmt : Rat → List Char) (num : List Char → Option Rat)
    (order : List (List Char) → List (List Char))
    (flags : List (String × List String)) (hp : flags.Perm voyageFlags) (out runid arg : List Char) (hid : '/' ∉ runid)
    (year month : Int) (hy : 0 ≤ year) (hm : 0 ≤ month) (r : Report) (reps : List Report) (ident : String)
    (hi : r.id = some ident) (harg : ident.toList = targetId arg) (hs : '/' ∉ ident.toList) (ha : '*' ∈ ident.toList)
    (hq : ∀ q ∈ ofMonth year month (r :: reps), Writable q) (fs : FileSys)
    (hdir : fs.dir (monthDir out year month) = true)
    (hfree : ∀ pre i, fs.dir (voyagePath runid (monthDir out year month) year month pre i) = false)
    (hnew : fs.file (inputPath out runid (targetId arg) year month "Variables_") = none) :
    ∃ fs', voyageWrite fmt flags runid (monthDir out year month) year month (r :: reps) fs = (fs', none) ∧
      readMonth num order fs' out runid (targetId arg) year month = .error .other := by
  obtain ⟨fs', h1, h2, h3, h4, _⟩ := voyage_text fmt flags hp runid (monthDir out year month) hid year month r reps ident hi hs
    hq fs hy hm hdir hfree
  refine ⟨fs', h1, ?_⟩
  have e : fs'.file (inputPath out runid (targetId arg) year month "Variables_") = none := by
    rw [← hnew]
    apply h4
    · rw [inputPath_eq, ← harg]
      intro he
      unfold voyagePath at he
      have he : ident.toList = safeFilename ident.toList := by simpa using he
      exact (C65_legal ident.toList).2.1 (he ▸ ha)
    · intro b hb he
      rw [inputPath_eq, ← harg] at he
      exact not_qc_prefix b.1 (voyagePath_pre_inj _ _ _ _ _ _ _ he)
  have e2 := h3 ("POS", ["day", "isship", "trk", "date", "time", "pos", "blklst", "isbuoy", "iquam_track", "isdrifter"])
    (by decide)
  unfold readMonth
  rw [e, show "POS_qc_" = "POS" ++ "_qc_" from by decide, inputPath_eq out runid (targetId arg) year month ("POS" ++ "_qc_"),
    String.toList_append, ← harg, e2]

/-- **C91, violated.** Reports whose identifier has fewer than nine characters are never found: whatever is given on the command line,
the reader looks for a name of at least nine characters. -/
theorem C91_short_violation (ident arg : List Char) (h : ident.length < 9) : targetId arg ≠ ident := by
  rintro rfl
  unfold targetId at h
  rw [List.length_append, List.length_replicate] at h
  omega

/-! ## Several months -/

theorem no_slash_int (n : Int) : '/' ∉ intText n := by
  intro h
  unfold intText at h
  split at h
  · rcases List.mem_cons.mp h with h | h
    · revert h; decide
    · have := natText_digits _ _ h; revert this; decide
  · have := natText_digits _ _ h; revert this; decide

theorem no_slash_pad (n : Int) : '/' ∉ zeroPad 2 n := by
  intro h
  rcases zeroPad_chars _ _ _ h with h | h <;> (revert h; decide)

theorem split_slash (a b c d : List Char) (ha : '/' ∉ a) (hb : '/' ∉ b) (h : a ++ '/' :: c = b ++ '/' :: d) : a = b ∧ c = d := by
  induction a generalizing b with
  | nil =>
    cases b with
    | nil => simpa using h
    | cons y b =>
      simp only [List.nil_append, List.cons_append, List.cons.injEq] at h
      exact absurd (h.1 ▸ List.mem_cons_self) hb
  | cons x a ih =>
    cases b with
    | nil =>
      simp only [List.nil_append, List.cons_append, List.cons.injEq] at h
      exact absurd (h.1 ▸ List.mem_cons_self) ha
    | cons y b =>
      simp only [List.cons_append, List.cons.injEq] at h
      obtain ⟨h1, h2⟩ := ih b (fun hh => ha (by simp [hh])) (fun hh => hb (by simp [hh])) h.2
      exact ⟨by rw [h.1, h1], h2⟩

/-- The files of different months have different paths. -/
theorem monthPath_inj (out runid : List Char) (y m y' m' : Int) (hm : 0 ≤ m) (hm2 : m < 100) (hm' : 0 ≤ m') (hm2' : m' < 100)
    (pre pre' i i' : List Char)
    (h : voyagePath runid (monthDir out y m) y m pre i = voyagePath runid (monthDir out y' m') y' m' pre' i') :
    y = y' ∧ m = m' := by
  unfold voyagePath monthDir at h
  simp only [List.append_assoc, List.cons_append, List.append_cancel_left_eq, List.cons.injEq, true_and] at h
  obtain ⟨h1, h2⟩ := split_slash _ _ _ _ (no_slash_int y) (no_slash_int y') h
  obtain ⟨h3, _⟩ := split_slash _ _ _ _ (no_slash_pad m) (no_slash_pad m') h2
  refine ⟨intText_inj _ _ h1, ?_⟩
  exact (yearMonth_inj y m y m' hm hm2 hm' hm2' (by rw [h3])).2

/-- Writing a drifter's months, one after the other; months without reports are not written. -/
def Spec.writeMonths (fmt : Rat → List Char) (flags : List (String × List String)) (out runid : List Char)
    (voyage : Int × Int → List Report) : List (Int × Int) → FileSys → FileSys × Option Err
  | [], fs => (fs, none)
  | m :: l, fs =>
    if voyage m = [] then writeMonths fmt flags out runid voyage l fs
    else thenDo (voyageWrite fmt flags runid (monthDir out m.1 m.2) m.1 m.2 (voyage m) fs)
      (writeMonths fmt flags out runid voyage l)

theorem writeMonths_text (fmt : Rat → List Char) (flags : List (String × List String)) (hp : flags.Perm voyageFlags)
    (out runid : List Char) (hid : '/' ∉ runid) (ident : String) (hs : '/' ∉ ident.toList)
    (voyage : Int × Int → List Report) (ms : List (Int × Int)) : ∀ (fs : FileSys)
    (_ : ms.Nodup) (_ : ∀ m ∈ ms, 0 ≤ m.1 ∧ 0 ≤ m.2 ∧ m.2 < 100)
    (_ : ∀ m ∈ ms, ∀ r ∈ voyage m, r.id = some ident)
    (_ : ∀ m ∈ ms, ∀ q ∈ ofMonth m.1 m.2 (voyage m), Writable q)
    (_ : ∀ m ∈ ms, fs.dir (monthDir out m.1 m.2) = true)
    (_ : ∀ (m : Int × Int) pre i, fs.dir (voyagePath runid (monthDir out m.1 m.2) m.1 m.2 pre i) = false),
    ∃ fs', writeMonths fmt flags out runid voyage ms fs = (fs', none) ∧
      (∀ m ∈ ms, voyage m ≠ [] →
        fs'.file (voyagePath runid (monthDir out m.1 m.2) m.1 m.2 "Variables_".toList (safeFilename ident.toList)) =
          some (variableText fmt voyageVars (ofMonth m.1 m.2 (voyage m))) ∧
        ∀ b ∈ voyageFlags,
          fs'.file (voyagePath runid (monthDir out m.1 m.2) m.1 m.2 (b.1.toList ++ "_qc_".toList) ident.toList) =
            some (flagText b (ofMonth m.1 m.2 (voyage m)))) ∧
      (∀ (m : Int × Int), 0 ≤ m.2 → m.2 < 100 → (m ∈ ms → voyage m = []) → ∀ pre i,
        fs'.file (voyagePath runid (monthDir out m.1 m.2) m.1 m.2 pre i) =
          fs.file (voyagePath runid (monthDir out m.1 m.2) m.1 m.2 pre i)) ∧
      fs'.dir = fs.dir := by
  induction ms with
  | nil => intro fs _ _ _ _ _ _; exact ⟨fs, rfl, by simp, fun _ _ _ _ _ _ => rfl, rfl⟩
  | cons m ms ih =>
    intro fs hn hv hi hw hd hf
    rw [List.nodup_cons] at hn
    by_cases he : voyage m = []
    · obtain ⟨fs', g1, g2, g3, g4⟩ := ih fs hn.2 (fun k hk => hv k (by simp [hk])) (fun k hk => hi k (by simp [hk]))
        (fun k hk => hw k (by simp [hk])) (fun k hk => hd k (by simp [hk])) hf
      refine ⟨fs', ?_, ?_, ?_, g4⟩
      · rw [writeMonths, if_pos he, g1]
      · intro k hk hne
        rcases List.mem_cons.mp hk with rfl | hk
        · exact absurd he hne
        · exact g2 k hk hne
      · intro k k1 k2 hk
        exact g3 k k1 k2 fun hm => hk (by simp [hm])
    · obtain ⟨r, reps, hr⟩ := List.exists_cons_of_ne_nil he
      obtain ⟨v1, v2, v3⟩ := hv m (by simp)
      have hwm := hw m (by simp)
      have him := hi m (by simp)
      rw [hr] at hwm him
      obtain ⟨fs1, a1, a2, a3, a4, a5⟩ := voyage_text fmt flags hp runid (monthDir out m.1 m.2) hid m.1 m.2 r reps ident
        (him r (by simp)) hs hwm fs v1 v2 (hd m (by simp)) (hf m)
      obtain ⟨fs', g1, g2, g3, g4⟩ := ih fs1 hn.2 (fun k hk => hv k (by simp [hk])) (fun k hk => hi k (by simp [hk]))
        (fun k hk => hw k (by simp [hk])) (fun k hk => by rw [a5]; exact hd k (by simp [hk]))
        (fun k pre i => by rw [a5]; exact hf k pre i)
      refine ⟨fs', ?_, ?_, ?_, g4.trans a5⟩
      · rw [writeMonths, if_neg he, hr, a1, thenDo, g1]
      · intro k hk hne
        rcases List.mem_cons.mp hk with rfl | hk
        · have keep := g3 k v2 v3 fun hmem => absurd hmem hn.1
          rw [hr]
          refine ⟨(keep _ _).trans a2, fun b hb => (keep _ _).trans (a3 b hb)⟩
        · exact g2 k hk hne
      · intro k k1 k2 hk pre i
        rw [g3 k k1 k2 (fun hm => hk (by simp [hm]))]
        have hkm : k ≠ m := by
          rintro rfl
          exact he (hk (by simp))
        have far : ∀ pre' i', voyagePath runid (monthDir out k.1 k.2) k.1 k.2 pre i ≠
            voyagePath runid (monthDir out m.1 m.2) m.1 m.2 pre' i' := by
          intro pre' i' h
          obtain ⟨e1, e2⟩ := monthPath_inj out runid k.1 k.2 m.1 m.2 k1 k2 v2 v3 _ _ _ _ h
          exact hkm (Prod.ext e1 e2)
        exact a4 _ (far _ _) fun b _ => far _ _

theorem forall2_append {α β : Type} {P : α → β → Prop} {a b : List α} {c d : List β} (h1 : List.Forall₂ P a c)
    (h2 : List.Forall₂ P b d) : List.Forall₂ P (a ++ b) (c ++ d) := by
  induction h1 with
  | nil => exact h2
  | cons h _ ih => exact .cons h ih

/-- **C92, part.** The months of a drifter, written one after the other in any order, are read back as one chunk: all reports of the
months asked for, in the order of the months and within a month in the order of the voyage, each as in `C91`.  Months in which
nothing was written are passed over; if there is no report at all, reading stops with an exception.  Missing: as for `C91`. -/
theorem C92_chunk_partial (fmt : Rat → List Char) (num : List Char → Option Rat) (rnd : Rat → Rat)
    (h : Numerals fmt num rnd) (order : List (List Char) → List (List Char)) (ho : ∀ l, (order l).Perm l)
    (flags : List (String × List String)) (hp : flags.Perm voyageFlags) (out runid arg : List Char) (hid : '/' ∉ runid)
    (ident : String) (harg : ident.toList = targetId arg) (hs : '/' ∉ ident.toList) (ha : '*' ∉ ident.toList)
    (voyage : Int × Int → List Report) (written months : List (Int × Int)) (hn : written.Nodup)
    (hmonths : ∀ m ∈ written ++ months, 0 ≤ m.1 ∧ 0 ≤ m.2 ∧ m.2 < 100) (hall : ∀ m ∈ months, voyage m ≠ [] → m ∈ written)
    (hi : ∀ m, ∀ r ∈ voyage m, r.id = some ident) (hq : ∀ m, ∀ q ∈ ofMonth m.1 m.2 (voyage m), Storable rnd q)
    (fs : FileSys) (hdir : ∀ m ∈ written, fs.dir (monthDir out m.1 m.2) = true)
    (hfree : ∀ (m : Int × Int) pre i, fs.dir (voyagePath runid (monthDir out m.1 m.2) m.1 m.2 pre i) = false)
    (hnew : ∀ (m : Int × Int) pre, fs.file (inputPath out runid (targetId arg) m.1 m.2 pre) = none) :
    ∃ fs', writeMonths fmt flags out runid voyage written fs = (fs', none) ∧
      ((months.flatMap fun m => ofMonth m.1 m.2 (voyage m)) = [] →
        readChunk num order fs' out runid arg months = .error .other) ∧
      ((months.flatMap fun m => ofMonth m.1 m.2 (voyage m)) ≠ [] →
        ∃ R, readChunk num order fs' out runid arg months = .ok R ∧
          List.Forall₂ (ReadBack rnd) (months.flatMap fun m => ofMonth m.1 m.2 (voyage m)) R) := by
  obtain ⟨fs', w1, w2, w3, _⟩ := writeMonths_text fmt flags hp out runid hid ident hs voyage written fs hn
    (fun m hm => hmonths m (by simp [hm])) (fun m _ => hi m) (fun m _ q hqm => (hq m q hqm).writable) hdir hfree
  have each : ∀ m ∈ months, ∃ R, readMonth num order fs' out runid (targetId arg) m.1 m.2 = .ok R ∧
      List.Forall₂ (ReadBack rnd) (ofMonth m.1 m.2 (voyage m)) R := by
    intro m hm
    obtain ⟨v1, v2, v3⟩ := hmonths m (by simp [hm])
    by_cases he : voyage m = []
    · refine ⟨[], ?_, ?_⟩
      · have none' : ∀ pre, fs'.file (inputPath out runid (targetId arg) m.1 m.2 pre) = none := by
          intro pre
          rw [← hnew m pre, inputPath_eq]
          exact w3 m v2 v3 (fun _ => he) _ _
        unfold readMonth
        rw [none', none', none']
      · rw [he]; exact .nil
    · obtain ⟨t1, t2⟩ := w2 m (hall m hm he) he
      rw [safe_id _ hs ha, harg] at t1
      exact readMonth_text fmt num rnd h order ho fs' out runid (targetId arg) m.1 m.2 _ (hq m)
        (by rw [inputPath_eq]; exact t1)
        (by
          intro b hb
          rw [inputPath_eq, String.toList_append, ← harg]
          exact t2 b hb)
  obtain ⟨L, l1, l2⟩ := mapM_forall2 (fun m R => List.Forall₂ (ReadBack rnd) (ofMonth m.1 m.2 (voyage m)) R)
    (fun m : Int × Int => readMonth num order fs' out runid (targetId arg) m.1 m.2) months each
  have l3 : List.Forall₂ (ReadBack rnd) (months.flatMap fun m => ofMonth m.1 m.2 (voyage m)) L.flatten := by
    clear l1 each hall hmonths
    induction l2 with
    | nil => exact .nil
    | cons g _ ih =>
      rw [List.flatMap_cons, List.flatten_cons]
      exact forall2_append g ih
  refine ⟨fs', w1, ?_, ?_⟩
  · intro he
    rw [he] at l3
    have hL : L.flatten = [] := by
      cases hc : L.flatten with
      | nil => rfl
      | cons x l => rw [hc] at l3; cases l3
    unfold readChunk
    rw [l1, except_bind_ok, if_pos hL]
  · intro he
    refine ⟨L.flatten, ?_, l3⟩
    unfold readChunk
    rw [l1, except_bind_ok, if_neg]
    · rfl
    · intro hc
      rw [hc] at l3
      cases hc2 : (months.flatMap fun m => ofMonth m.1 m.2 (voyage m)) with
      | nil => exact he hc2
      | cons x l => rw [hc2] at l3; cases l3

/-! ## The hypotheses can be met -/

/-- Writing whole degrees: numbers are rounded down. -/
theorem floor_numerals : Numerals (fun x => intText ⌊x⌋) (fun s => match parseInt s with
    | .ok n => some (n : Rat)
    | .error _ => none) (fun x => (⌊x⌋ : Rat)) :=
  ⟨fun x => ⟨intText_plain _, intText_tidy _, intText_not_missing _⟩, fun x => by simp [parseInt_intText],
    fun n => by simp [parseInt_intText]⟩

/-- A drifter with one report in each of two months. -/
def buoyVoyage (m : Int × Int) : List Report :=
  if m = (1999, 1) ∨ m = (1999, 3) then
    [{ Report.empty (some "4400123  ") (some "A1") with
        data := fun k => if k = "YR" then some 1999 else if k = "MO" then some (m.2 : Rat) else if k = "DY" then some 5
          else if k = "HR" then some (23 / 2) else if k = "SST" then some (37 / 2) else none
        qc := fun k => if k = "POSpos" then some 1 else none }]
  else []

theorem buoyVoyage_storable (m : Int × Int) : ∀ q ∈ buoyVoyage m, Storable (fun x => (⌊x⌋ : Rat)) q ∧ q.id = some "4400123  " := by
  intro q hq
  unfold buoyVoyage at hq
  split at hq
  case isFalse => cases hq
  rename_i hm
  rw [List.mem_singleton] at hq
  have plain : ∀ c ∈ "A1".toList, c ≠ ',' ∧ c ≠ '"' ∧ c ≠ '\n' := by decide
  have tidy : ∀ s ∈ ["A1", "4400123  "], ∀ c ∈ s.toList, c ≠ '\n' ∧ c ≠ '\r' ∧ c ≠ '\x00' := by decide
  refine ⟨⟨⟨"A1", by rw [hq]; rfl, plain, tidy _ (by simp), by decide⟩, ⟨"4400123  ", by rw [hq]; rfl, by decide, tidy _ (by simp),
    by decide⟩, ?_, ?_⟩, by rw [hq]; rfl⟩
  · intro t f
    rw [hq]
    unfold Report.getQc
    dsimp only
    by_cases h : t ++ f = "POSpos"
    · rw [if_pos h]; decide
    · rw [if_neg h]; decide
  · intro y mo dy hr e1 e2 e3 e4
    rw [hq] at e1 e2 e3 e4
    have y1 : y = 1999 := by
      have : (some (pyInt 1999) : Option Int) = some y := e1
      injection this with this
      rw [← this]; decide +kernel
    have m1 : mo = m.2 := by
      have : (some (pyInt (m.2 : Rat)) : Option Int) = some mo := e2
      injection this with this
      rw [← this, pyInt_intCast]
    have h1 : hr = 23 / 2 := by
      have : (some (23 / 2) : Option Rat) = some hr := e4
      injection this with this
      rw [← this]
    subst y1 m1 h1
    have fl : (⌊(23 / 2 : Rat)⌋) = 11 := by decide +kernel
    rw [fl]
    rcases hm with rfl | rfl <;> norm_num

/-- A file system in which every path that does not end in v is a directory. -/
def buoyFs : FileSys := { file := fun _ => none, dir := fun p => p.getLast? != some 'v' }

example : ∃ fs' R, writeMonths (fun x => intText ⌊x⌋) voyageFlags "out".toList "r1".toList buoyVoyage [(1999, 1), (1999, 3)] buoyFs =
      (fs', none) ∧
    readChunk (fun s => match parseInt s with
      | .ok n => some (n : Rat)
      | .error _ => none) id fs' "out".toList "r1".toList "4400123".toList [(1999, 1), (1999, 2), (1999, 3)] = .ok R ∧
    R.length = 2 := by
  have hfree : ∀ (m : Int × Int) pre i, buoyFs.dir (voyagePath "r1".toList (monthDir "out".toList m.1 m.2) m.1 m.2 pre i) = false := by
    intro m pre i
    have e : ∃ a, voyagePath "r1".toList (monthDir "out".toList m.1 m.2) m.1 m.2 pre i = a ++ ['v'] := by
      refine ⟨monthDir "out".toList m.1 m.2 ++ '/' :: (pre ++ intText m.1 ++ zeroPad 2 m.2 ++ '_' :: i ++ '_' :: "r1".toList ++
        ".cs".toList), ?_⟩
      unfold voyagePath
      simp [List.append_assoc]
    obtain ⟨a, ha⟩ := e
    rw [ha]
    simp [buoyFs]
  obtain ⟨fs', h1, -, h2⟩ := C92_chunk_partial _ _ _ floor_numerals id (fun l => .refl l) voyageFlags (.refl _) "out".toList "r1".toList
    "4400123".toList (by decide) "4400123  " (by decide) (by decide) (by decide) buoyVoyage [(1999, 1), (1999, 3)]
    [(1999, 1), (1999, 2), (1999, 3)] (by decide) (by decide)
    (by
      intro m hm hv
      unfold buoyVoyage at hv
      by_cases h : m = (1999, 1) ∨ m = (1999, 3)
      · rcases h with rfl | rfl <;> decide
      · rw [if_neg h] at hv; exact absurd rfl hv)
    (fun m r hr => (buoyVoyage_storable m r hr).2)
    (fun m q hq => (buoyVoyage_storable m q (List.mem_of_mem_filter hq)).1) buoyFs (by decide) hfree (fun _ _ => rfl)
  have hl : ([(1999, 1), (1999, 2), (1999, 3)].flatMap fun m : Int × Int => ofMonth m.1 m.2 (buoyVoyage m)).length = 2 := by
    decide +kernel
  obtain ⟨R, h3, h4⟩ := h2 (by intro he; rw [he] at hl; cases hl)
  exact ⟨fs', R, h1, h3, h4.length_eq ▸ hl⟩

end MarineQC
