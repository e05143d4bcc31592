import Verif.Hires.Run
import Verif.Hires.Ids
import Verif.Base.RunTrackSample

/-!
# The program for the climatology of high resolution (C131–C133)
-/

namespace MarineQC

open Spec

variable {F : Type} [LinearOrder F] [Zero F]

/-! ## What the deck of the main program says about this one -/

theorem forall2_of_bones : ∀ {l l' : List Report}, l.map bones = l'.map bones → List.Forall₂ (fun r s => bones r = bones s) l l'
  | [], [], _ => .nil
  | [], _ :: _, h => by cases h
  | _ :: _, [], h => by cases h
  | a :: l, b :: l', h => by
    rw [List.map_cons, List.map_cons, List.cons.injEq] at h
    exact .cons h.1 (forall2_of_bones h.2)

theorem bones_id_uid {r s : Report} (h : bones r = bones s) : s.id = r.id ∧ s.uid = r.uid :=
  ⟨(congrArg Report.id h).symm, (congrArg Report.uid h).symm⟩

theorem drifts_bones {r s : Report} (h : bones r = bones s) : DriftsNow s ↔ DriftsNow r := by
  unfold DriftsNow Report.getQc
  rw [flag_bones h (k := "POS" ++ "month_match") (by decide), flag_bones h (k := "POS" ++ "isdrifter") (by decide)]

theorem getint_same {r s : Report} (h : bones r = bones s) {k : String} (hk : k ∉ hiddenNames) : s.getint k = r.getint k := by
  rw [← bones_getint s hk, ← bones_getint r hk, h]

theorem getvar_same {r s : Report} (h : bones r = bones s) {k : String} (hk : k ∉ hiddenNames) : s.getvar k = r.getvar k := by
  rw [← bones_getvar s hk, ← bones_getvar r hk, h]

theorem traceable_bones {r s : Report} (h : bones r = bones s) (hr : Traceable r) : Traceable s := by
  unfold Traceable Report.lat Report.lon at hr ⊢
  rw [getvar_same h (k := "LAT") (by decide), getvar_same h (k := "LON") (by decide), getvar_same h (k := "HR") (by decide),
    getint_same h (k := "YR") (by decide), getint_same h (k := "MO") (by decide), getint_same h (k := "DY") (by decide)]
  exact hr

theorem ofMonth_bones {year month : Int} {l l' : List Report} (h : List.Forall₂ (fun r s => bones r = bones s) l l') :
    List.Forall₂ (fun r s => bones r = bones s) (ofMonth year month l) (ofMonth year month l') := by
  induction h with
  | nil => exact .nil
  | @cons r s l m e _ ih =>
    unfold ofMonth at ih ⊢
    rw [List.filter_cons, List.filter_cons, getint_same e (k := "YR") (by decide), getint_same e (k := "MO") (by decide)]
    split
    · exact .cons e ih
    · exact ih

theorem back_bones {l l' : List Report} (h : List.Forall₂ (fun r s => bones r = bones s) l l') {s : Report} (hs : s ∈ l') :
    ∃ r ∈ l, bones r = bones s := by
  obtain ⟨n, hn⟩ := List.mem_iff_getElem?.mp hs
  obtain ⟨r, hr, e⟩ := forall2_get h.flip n s hn
  exact ⟨r, List.mem_of_getElem? hr, e⟩

/-- The month of the program for high resolution, when the main program completes. -/
theorem hires_stage {E : RunEnv F} {lib : ClimLib Arr3} {clim : Arr3} (hE : RunReady E lib) (hc : GridShape clim) {m : Int × Int}
    (ha : ArchiveReady E.read m) (hd : E.read.tracking = true → DriftersArchived E.read m) :
    ∃ d, hiresChecked E clim m = .ok d ∧ d.Indexed ∧
      (∀ fs, OutputPlace (hiresLabel E.runid) E.out m.1 m.2 fs → OutputReady (hiresLabel E.runid) E.out m.1 m.2 d.reps fs) ∧
      (E.read.tracking = true → DriftersReady d.reps) ∧
      (ofMonth m.1 m.2 d.reps).map (fun r => (r.uid.getD "").toList) =
        (recordsFor E.read [m]).map fun p => ((textOf (p.2.data "UID")).getD "").toList := by
  have hB := hE.buddies _ _ (stdev_readable (flat_mds 0)) (stdev_readable (flat_mds 0))
  have hH : HiresReady E clim := ⟨hc, hE.params, hE.geo, hE.ships, hB.sst1, hB.sst2, hB.sst3, hB.pentad, hB.sstBayes, hB.mds⟩
  obtain ⟨d, hd'⟩ := hires_checked hH ha
  obtain ⟨d0, lib', h0⟩ := archive_checked E lib hE m ha
  have near := checked_near h0 hd'
  have two := forall2_of_bones near.reps
  obtain ⟨-, -, -, -, -, -, hix, -⟩ := checkedMonth_parts ha.month h0
  refine ⟨d, hd', ?_, ?_, ?_, ?_⟩
  · refine indexed_of_ids hix near.index ?_
    have := congrArg (List.map Report.id) near.reps
    rw [List.map_map, List.map_map] at this
    exact this.symm
  · intro fs ho
    refine ⟨ho.noSlash, ho.base, ho.there, by have := ha.year; omega, by have := ha.month; omega, ho.yearName, ho.dirName, ho.deck,
      ho.voyage, ho.list, ?_, ?_⟩
    · intro e
      rw [e] at two
      have e0 : d0.reps = [] := List.forall₂_nil_right_iff.mp two
      have := checkedMonth_records E lib lib' m ha.month d0 h0
      rw [e0] at this
      exact ha.nonempty (List.forall₂_nil_right_iff.mp this)
    · intro s hs
      obtain ⟨r, hr, e⟩ := back_bones (ofMonth_bones two) hs
      obtain ⟨w1, w2⟩ := archive_writable E lib lib' m ha d0 h0 r hr
      obtain ⟨e1, e2⟩ := bones_id_uid e
      exact ⟨by rw [e2]; exact w1, by rw [e1]; exact w2⟩
  · intro ht
    obtain ⟨t1, t2, t3⟩ := archive_drifters E lib lib' m ha (hd ht) d0 h0
    refine ⟨?_, ?_, ?_⟩
    · intro s hs hn
      obtain ⟨r, hr, e⟩ := back_bones two hs
      exact traceable_bones e (t1 r hr ((drifts_bones e).mp hn))
    · intro s hs hn i hi
      obtain ⟨r, hr, e⟩ := back_bones two hs
      exact t2 r hr ((drifts_bones e).mp hn) i (by rw [← (bones_id_uid e).1]; exact hi)
    · intro s hs s' hs' hn hn' i j hi hj
      obtain ⟨r, hr, e⟩ := back_bones two hs
      obtain ⟨r', hr', e'⟩ := back_bones two hs'
      exact t3 r hr r' hr' ((drifts_bones e).mp hn) ((drifts_bones e').mp hn') i j (by rw [← (bones_id_uid e).1]; exact hi)
        (by rw [← (bones_id_uid e').1]; exact hj)
  · have := month_uids E lib lib' m ha.month d0 h0
    rw [← this]
    have two' := ofMonth_bones (year := m.1) (month := m.2) two
    generalize ofMonth m.1 m.2 d0.reps = a at two'
    generalize ofMonth m.1 m.2 d.reps = b at two'
    clear this
    induction two' with
    | nil => rfl
    | cons e _ ih => rw [List.map_cons, List.map_cons, ih, (bones_id_uid e).2]

/-! ## C131: which files the program changes -/

/-- **C131.**  Whatever the input, and also when it stops with an exception, the program for high resolution changes no file
but its own files of flags for the months of the run, labelled `hires_`, and, with tracking, the lists of drifters of these
months; and it makes or removes no directory but those of the months and their years. -/
theorem C131_frame (E : RunEnv F) (clim : Arr3) (hb : IsBase E.out) (months : List (Int × Int))
    (hm : ∀ m ∈ months, 0 ≤ m.1 ∧ 0 ≤ m.2) (fs : FileSys) :
    (∀ p, ¬ HiresFlagFile E.runid E.out months p → (E.read.tracking = true → ¬ DrifterList E.out months p) →
      (hiresRun E clim months fs).1.file p = fs.file p) ∧
    ∀ p, (∀ m ∈ months, p ≠ E.out ++ '/' :: intText m.1 ∧ p ≠ monthDir E.out m.1 m.2) →
      (hiresRun E clim months fs).1.dir p = fs.dir p :=
  ⟨fun _ h1 h2 => hires_leaves hb months hm h1 h2 fs, fun _ h => hires_dirs hb months hm h fs⟩

/-- **C131.**  Of the files of the main program for the same months and the same run, the program for high resolution changes
none but the lists of drifters, and those only with tracking; unless a drifter's identifier could be taken for part of the label. -/
theorem C131_main_files_partial (E : RunEnv F) (clim : Arr3) (hb : IsBase E.out) (months : List (Int × Int))
    (hm : ∀ m ∈ months, 0 ≤ m.1 ∧ 0 ≤ m.2) (fs : FileSys) (p : List Char) (hp : MainFile E.runid E.out months p)
    (hl : E.read.tracking = true → ¬ DrifterList E.out months p) :
    (hiresRun E clim months fs).1.file p = fs.file p :=
  hires_leaves hb months hm (mainFile_not_hires hm hp) hl fs

/-- **C131, what is missing.**  A drifter with the identifier `hires` is given by the main program a file with the name of the
file of the whole deck of the program for high resolution; one whose identifier ends in `_hires`, a file with the name of that
of another drifter. -/
theorem C131_names_violation (runid dir ident : List Char) (y m : Int) :
    voyagePath runid dir y m "SST_qc_".toList "hires".toList =
      deckPath ("hires_".toList ++ runid) dir y m false "SST_qc_".toList ∧
    voyagePath runid dir y m "SST_qc_".toList (ident ++ "_hires".toList) =
      voyagePath ("hires_".toList ++ runid) dir y m "SST_qc_".toList ident := by
  constructor
  · unfold voyagePath deckPath
    simp [List.append_assoc]
  · unfold voyagePath
    simp [List.append_assoc]

/-! ## C132: what the two programs have in common -/

/-- **C132.**  When both programs have read and checked a month, they have the same reports in the same order, under the same
identifiers, and each report has the same identity, time and data and the same flags, as far as these do not depend on the
climatology. -/
theorem C132_reports (E : RunEnv F) (lib lib' : ClimLib Arr3) (clim : Arr3) (m : Int × Int) (d d' : Deck)
    (h : checkedMonth E lib m = .ok (d, lib')) (h' : hiresChecked E clim m = .ok d') :
    d'.idtracker = d.idtracker ∧ List.Forall₂ SameButClimate d.reps d'.reps := by
  have near := checked_near h h'
  refine ⟨near.index, (forall2_of_bones near.reps).imp ?_⟩
  intro r s e
  refine ⟨(bones_id_uid e).1, (bones_id_uid e).2, (congrArg Report.dt e).symm, fun k hk => data_bones e hk, fun p hp => ?_⟩
  exact flag_bones e (List.mem_map_of_mem hp)

/-- **C132.**  When both programs have completed runs for the same months, whatever was there before each, they have left the
same lists of drifters, character by character. -/
theorem C132_lists (E : RunEnv F) (clim : Arr3) (hb : IsBase E.out) (ht : E.read.tracking = true) (months : List (Int × Int))
    (hm : ∀ m ∈ months, 0 ≤ m.1 ∧ 0 ≤ m.2) (lib : ClimLib Arr3) (fs fs' fs1 fs2 : FileSys)
    (h : runMonths E months lib fs = (fs1, none)) (h' : hiresRun E clim months fs' = (fs2, none)) (p : List Char)
    (hp : DrifterList E.out months p) : fs2.file p = fs1.file p := by
  obtain ⟨m, hmm, rfl⟩ := hp
  exact lists_same hb ht (hm m hmm).1 months hm lib fs fs' fs1 fs2 (Or.inl hmm) h h'

/-- **C132.**  When the main program has completed and the program for high resolution completes after it for the same
months, every file the main program left is as it was, unless a drifter's identifier could be taken for part of the label. -/
theorem C132_after_partial (E : RunEnv F) (clim : Arr3) (hb : IsBase E.out) (months : List (Int × Int))
    (hm : ∀ m ∈ months, 0 ≤ m.1 ∧ 0 ≤ m.2) (lib : ClimLib Arr3) (fs fs1 fs2 : FileSys)
    (h : runMonths E months lib fs = (fs1, none)) (h' : hiresRun E clim months fs1 = (fs2, none)) (p : List Char)
    (hp : MainFile E.runid E.out months p) : fs2.file p = fs1.file p := by
  by_cases hl : E.read.tracking = true ∧ DrifterList E.out months p
  · exact C132_lists E clim hb hl.1 months hm lib fs fs1 fs1 fs2 h h' p hl.2
  · have := C131_main_files_partial E clim hb months hm fs1 p hp (fun ht hd => hl ⟨ht, hd⟩)
    rw [h'] at this
    exact this

/-! ## C133: when the program completes, and what it leaves -/

/-- **C133, part.**  Where the conditions of C111 for the main program are met, and the climatology is on a regular grid, a run
of the program for high resolution over different months completes.  It leaves for each month the flags of the reports of the
month, one row for each record used from the archive, in its order; with tracking, the list of drifters and a file for each of
them.  *Missing:* C101, C106 and C107 show by example that conditions on the archive are needed. -/
theorem C133_run_partial (E : RunEnv F) (lib : ClimLib Arr3) (hE : RunReady E lib) (clim : Arr3) (hc : GridShape clim)
    (months : List (Int × Int)) (fs : FileSys) (hn : months.Nodup) (ha : ∀ m ∈ months, ArchiveReady E.read m)
    (hd : ∀ m ∈ months, E.read.tracking = true → DriftersArchived E.read m)
    (ho : ∀ m ∈ months, OutputPlace ("hires_".toList ++ E.runid) E.out m.1 m.2 fs) :
    ∃ (fs' : FileSys) (deck : Int × Int → Deck), hiresRun E clim months fs = (fs', none) ∧
      ∀ m ∈ months, hiresChecked E clim m = .ok (deck m) ∧
        HiresLeft E.runid (monthDir E.out m.1 m.2) m.1 m.2 E.read.tracking (deck m).reps fs' ∧
        (ofMonth m.1 m.2 (deck m).reps).map (fun r => (r.uid.getD "").toList) =
          (recordsFor E.read [m]).map fun p => ((textOf (p.2.data "UID")).getD "").toList := by
  have hex : ∀ m : Int × Int, ∃ d : Deck, m ∈ months → hiresChecked E clim m = .ok d ∧ d.Indexed ∧
      (∀ fs, OutputPlace (hiresLabel E.runid) E.out m.1 m.2 fs → OutputReady (hiresLabel E.runid) E.out m.1 m.2 d.reps fs) ∧
      (E.read.tracking = true → DriftersReady d.reps) ∧
      (ofMonth m.1 m.2 d.reps).map (fun r => (r.uid.getD "").toList) =
        (recordsFor E.read [m]).map fun p => ((textOf (p.2.data "UID")).getD "").toList := by
    intro m
    by_cases hm : m ∈ months
    · obtain ⟨d, h⟩ := hires_stage hE hc (ha m hm) (hd m hm)
      exact ⟨d, fun _ => h⟩
    · exact ⟨⟨[], [], []⟩, fun h => absurd h hm⟩
  choose deck hdeck using hex
  obtain ⟨fs', r1, r2, -⟩ := hiresRun_ok E clim hE.order deck months fs hn (fun m hm => (hdeck m hm).1) (fun m hm => (hdeck m hm).2.1)
    (fun m hm => (hdeck m hm).2.2.1 fs (ho m hm)) (fun m hm => (hdeck m hm).2.2.2.1)
  exact ⟨fs', deck, r1, fun m hm => ⟨(hdeck m hm).1, r2 m hm, (hdeck m hm).2.2.2.2⟩⟩

/-- **C133, part.**  After a run of the main program the program for high resolution still completes. -/
theorem C133_after_partial (E : RunEnv F) (lib : ClimLib Arr3) (hE : RunReady E lib) (clim : Arr3) (hc : GridShape clim)
    (months : List (Int × Int)) (fs : FileSys) (hn : months.Nodup) (ha : ∀ m ∈ months, ArchiveReady E.read m)
    (hd : ∀ m ∈ months, E.read.tracking = true → DriftersArchived E.read m)
    (ho : ∀ m ∈ months, OutputPlace E.runid E.out m.1 m.2 fs)
    (ho' : ∀ m ∈ months, OutputPlace ("hires_".toList ++ E.runid) E.out m.1 m.2 fs) :
    ∃ fs1 fs2, runMonths E months lib fs = (fs1, none) ∧ hiresRun E clim months fs1 = (fs2, none) := by
  have hex : ∀ m : Int × Int, ∃ d, m ∈ months → ∃ lib', checkedMonth E lib m = .ok (d, lib') := by
    intro m
    by_cases hm : m ∈ months
    · obtain ⟨d, lib', h⟩ := archive_checked E lib hE m (ha m hm)
      exact ⟨d, fun _ => ⟨lib', h⟩⟩
    · exact ⟨⟨[], [], []⟩, fun h => absurd h hm⟩
  choose deck hdeck using hex
  obtain ⟨fs1, r1, -, r3, r4⟩ := run_text E hE.numbers hE.dflags hE.vflags hE.order lib deck months fs hn
    (fun m hm => (ha m hm).month) hdeck
    (fun m hm => by
      obtain ⟨lib', h⟩ := hdeck m hm
      exact archive_output E lib lib' m (ha m hm) _ h fs (ho m hm))
    (fun m hm ht => by
      obtain ⟨lib', h⟩ := hdeck m hm
      exact archive_drifters E lib lib' m (ha m hm) (hd m hm ht) _ h)
  have hy : ∀ m ∈ months, 0 ≤ m.1 := fun m hm => by have := (ha m hm).year; omega
  have place : ∀ m ∈ months, OutputPlace ("hires_".toList ++ E.runid) E.out m.1 m.2 fs1 := by
    intro m hm
    have free : ∀ x, fs.dir (monthDir E.out m.1 m.2 ++ '/' :: x) = false → fs1.dir (monthDir E.out m.1 m.2 ++ '/' :: x) = false := by
      intro x hx
      rw [Bool.eq_false_iff, ne_eq, r4]
      rintro (⟨k, hk, e | e⟩ | e)
      · exact inMonth_not_year _ _ _ _ _ (hy k hk) e
      · exact inMonth_not_month _ _ _ _ _ _ (hy m hm) (hy k hk) e
      · rw [hx] at e; cases e
    have h' := ho' m hm
    refine ⟨h'.noSlash, h'.base, (r4 _).mpr (Or.inr h'.there), ?_, ?_, ?_, ?_, ?_⟩
    · rw [r3, h'.yearName]
      intro k hk hmf
      obtain ⟨x, hx⟩ := monthFile_in hmf
      exact inMonth_not_year _ _ _ _ _ (hy m hm) hx.symm
    · rw [r3, h'.dirName]
      intro k hk hmf
      obtain ⟨x, hx⟩ := monthFile_in hmf
      exact inMonth_not_month _ _ _ _ _ _ (hy k hk) (hy m hm) hx.symm
    · intro pre; exact free _ (h'.deck pre)
    · intro pre i; exact free _ (h'.voyage pre i)
    · exact free "ID_file.txt".toList h'.list
  obtain ⟨fs2, -, k, -⟩ := C133_run_partial E lib hE clim hc months fs1 hn ha hd place
  exact ⟨fs1, fs2, r1, k⟩

/-! ## The conditions can be met -/

theorem sampleHires_place : ∀ m ∈ [((1990 : Int), (2 : Int)), (1990, 3)],
    OutputPlace ("hires_".toList ++ sampleTrackRun.runid) sampleTrackRun.out m.1 m.2 (oneDir "/out".toList) := by
  intro m hm
  have e : (monthDir "/out".toList m.1 m.2).length = 12 := by revert m; decide
  have h := sampleRun_place m hm
  have long : ∀ x, (oneDir "/out".toList).dir (monthDir "/out".toList m.1 m.2 ++ '/' :: x) = false := by
    intro x
    rw [Bool.eq_false_iff]
    intro h
    have h : monthDir "/out".toList m.1 m.2 ++ '/' :: x = "/out".toList := beq_iff_eq.mp h
    have h := congrArg List.length h
    rw [List.length_append, e] at h
    simp at h
    omega
  exact ⟨by show '/' ∉ "hires_".toList ++ "base".toList; decide, h.base, h.there, h.yearName, h.dirName, fun pre => long _, fun pre i => long _, h.list⟩

/-- Non-vacuity of C131, C132 and C133: both programs complete for February and March of the sample with two drifters and a
ship, one after the other; the list of drifters and the flags of the main program are as they were, and the new file of flags has
the rows of February. -/
example : ∃ fs1 fs2 d d' lib', runMonths sampleTrackRun [(1990, 2), (1990, 3)] sampleLib (oneDir "/out".toList) = (fs1, none) ∧
    hiresRun sampleTrackRun (flatField 73 180 360 15) [(1990, 2), (1990, 3)] fs1 = (fs2, none) ∧
    fs2.file (idFilePath (monthDir "/out".toList 1990 2)) = fs1.file (idFilePath (monthDir "/out".toList 1990 2)) ∧
    fs2.file (deckPath "base".toList (monthDir "/out".toList 1990 2) 1990 2 false "Variables_".toList) =
      fs1.file (deckPath "base".toList (monthDir "/out".toList 1990 2) 1990 2 false "Variables_".toList) ∧
    checkedMonth sampleTrackRun sampleLib (1990, 2) = .ok (d, lib') ∧
    hiresChecked sampleTrackRun (flatField 73 180 360 15) (1990, 2) = .ok d' ∧ List.Forall₂ SameButClimate d.reps d'.reps := by
  have ar : ∀ m ∈ [((1990 : Int), (2 : Int)), (1990, 3)], ArchiveReady sampleTrackRun.read m :=
    fun m hm => { (sampleRun_archive m hm).1 with }
  have dr : ∀ m ∈ [((1990 : Int), (2 : Int)), (1990, 3)], sampleTrackRun.read.tracking = true → DriftersArchived sampleTrackRun.read m :=
    fun m hm _ => { (sampleRun_archive m hm).2 with }
  have hb : IsBase sampleTrackRun.out := by unfold sampleTrackRun sampleRun IsBase; decide
  obtain ⟨fs1, fs2, h1, h2⟩ := C133_after_partial sampleTrackRun sampleLib sampleTrackRun_ready (flatField 73 180 360 15) (flat_grid 15)
    [(1990, 2), (1990, 3)] (oneDir "/out".toList) (by decide) ar dr (fun m hm => sampleRun_place m hm) sampleHires_place
  obtain ⟨_, deck, -, h3⟩ := C133_run_partial sampleTrackRun sampleLib sampleTrackRun_ready (flatField 73 180 360 15) (flat_grid 15)
    [(1990, 2), (1990, 3)] (oneDir "/out".toList) (by decide) ar dr sampleHires_place
  obtain ⟨d, lib', h4⟩ := archive_checked sampleTrackRun sampleLib sampleTrackRun_ready (1990, 2) (ar _ (by decide))
  have h5 := (h3 (1990, 2) (by decide)).1
  have keep := C132_after_partial sampleTrackRun (flatField 73 180 360 15) hb [(1990, 2), (1990, 3)] (by decide) sampleLib _ fs1 fs2 h1 h2
  exact ⟨fs1, fs2, d, deck (1990, 2), lib', h1, h2, keep _ (Or.inr (Or.inl ⟨(1990, 2), by decide, rfl⟩)),
    keep _ (Or.inl ⟨(1990, 2), by decide, Or.inl rfl⟩), h4, h5, (C132_reports sampleTrackRun sampleLib lib' _ (1990, 2) d _ h4 h5).2⟩

/-- Non-vacuity of C131: a file of the main program and a drifter's file, which are not files of this program. -/
example : MainFile "base".toList "/out".toList [(1990, 2)]
      (voyagePath "base".toList (monthDir "/out".toList 1990 2) 1990 2 "SST_qc_".toList "D1".toList) ∧
    HiresFlagFile "base".toList "/out".toList [(1990, 2)]
      (voyagePath "hires_base".toList (monthDir "/out".toList 1990 2) 1990 2 "SST_qc_".toList "D1".toList) := by
  have hl : ¬ LikeLabel "D1".toList := by
    unfold LikeLabel
    decide
  exact ⟨Or.inr (Or.inr (Or.inr ⟨(1990, 2), List.mem_singleton.mpr rfl, _, List.mem_cons_of_mem _ List.mem_cons_self, "D1".toList, hl,
    rfl⟩)), ⟨(1990, 2), List.mem_singleton.mpr rfl, Or.inr ⟨"D1".toList, rfl⟩⟩⟩

end MarineQC
