import Verif.Wrapper.Run

/-! # The whole system: the main program, the wrapper and the tracking program (C122) -/

namespace MarineQC

open Spec

variable {F : Type} [LinearOrder F] [Zero F]

namespace Spec

/-- The months in which there are records of a drifter, as a series of ones and zeros. -/
def recordActivity (E : ReadEnv F) (months : List (Int × Int)) (i : String) : List Int :=
  months.map fun m => if (drifterRecords E i m).isEmpty then 0 else 1

/-- The months from the `s`th to the `u`th after the month `t`. -/
def chunkMonths (t : Int × Int) (s u : Nat) : List (Int × Int) := monthList (monthsLater s t) (u - s)

/-- The directories before the run: that for the results of the tracking is there; there are no files in the directories of the
months, and nothing at all below `TrackingQC`, which is not below the directory of a year. -/
structure SystemPlace (out trackOut : List Char) (months : List (Int × Int)) (fs : FileSys) : Prop where
  base : IsBase trackOut
  there : fs.dir trackOut = true
  empty : ∀ m ∈ months, ∀ x, fs.file (monthDir out m.1 m.2 ++ '/' :: x) = none
  new : ∀ x, fs.file (trackOut ++ "/TrackingQC".toList ++ x) = none ∧ fs.dir (trackOut ++ "/TrackingQC".toList ++ x) = false
  apart : ∀ m ∈ months, ∀ x z, trackOut ++ "/TrackingQC".toList ++ x ≠ out ++ '/' :: (intText m.1 ++ z)

end Spec

theorem reported_iff (E : RunEnv F) (lib lib' : ClimLib Arr3) (m : Int × Int) (hm : 1 ≤ m.2 ∧ m.2 ≤ 12) (d : Deck)
    (h : checkedMonth E lib m = .ok (d, lib')) (i : String) : ReportedIn d.reps i ↔ drifterRecords E.read i m ≠ [] := by
  constructor
  · rintro ⟨r, hr, hi, hdn⟩ he
    obtain ⟨n, hn'⟩ := List.mem_iff_getElem?.mp hr
    obtain ⟨p, hp, r0, c1, c2⟩ := forall2_get (checkedMonth_records E lib lib' m hm _ h).flip n r hn'
    obtain ⟨e1, e2⟩ := recordsFor_source (List.mem_of_getElem? hp)
    obtain ⟨e3, e4⟩ := (after_drifts c1 c2).mp hdn
    rw [e3] at e2
    have : p.2 ∈ drifterRecords E.read i m := by
      unfold drifterRecords
      rw [List.mem_filter]
      exact ⟨e2, decide_eq_true ⟨e4, by rw [← (C104_contents c1).1, ← c2.id, hi]⟩⟩
    rw [he] at this
    cases this
  · intro he
    have rows := drifter_rows E lib lib' m hm d h i
    cases hd : ofMonth m.1 m.2 (driftOf (some i) d.reps) with
    | nil =>
      rw [hd] at rows
      exact absurd (List.forall₂_nil_right_iff.mp rows) he
    | cons r l =>
      have hr : r ∈ ofMonth m.1 m.2 (driftOf (some i) d.reps) := by rw [hd]; simp
      have hr := (List.mem_filter.mp hr).1
      obtain ⟨r1, r2⟩ := List.mem_filter.mp hr
      have r2 := of_decide_eq_true r2
      exact ⟨r, r1, r2.1, r2.2⟩

open Classical in
theorem activity_records (E : RunEnv F) (lib : ClimLib Arr3) (deck : Int × Int → Deck) (months : List (Int × Int))
    (hb : ∀ m ∈ months, 1 ≤ m.2 ∧ m.2 ≤ 12) (hdeck : ∀ m ∈ months, ∃ lib', checkedMonth E lib m = .ok (deck m, lib')) (i : String) :
    activity (fun m => (deck m).reps) months i = recordActivity E.read months i := by
  unfold activity recordActivity
  apply List.map_congr_left
  intro m hm
  obtain ⟨lib', h⟩ := hdeck m hm
  have := reported_iff E lib lib' m (hb m hm) _ h i
  by_cases he : drifterRecords E.read i m = []
  · rw [if_neg fun hc => (this.mp hc) he, he]
    rfl
  · rw [if_pos (this.mpr he), if_neg]
    rw [List.isEmpty_iff]
    exact he

theorem mem_chunkMonths {t : Int × Int} {s u : Nat} (h : s ≤ u) {m : Int × Int} : m ∈ chunkMonths t s u ↔ ∃ k, s ≤ k ∧ k ≤ u ∧ m = monthsLater k t := by
  unfold chunkMonths monthList
  simp only [List.mem_map, List.mem_range]
  constructor
  · rintro ⟨i, hi, rfl⟩
    exact ⟨s + i, by omega, by omega, (monthsLater_add s i t).symm⟩
  · rintro ⟨k, h1, h2, rfl⟩
    refine ⟨k - s, by omega, ?_⟩
    rw [← monthsLater_add]
    congr 1
    omega

theorem mem_monthList {t : Int × Int} {n : Nat} {m : Int × Int} : m ∈ monthList t n ↔ ∃ k, k ≤ n ∧ m = monthsLater k t := by
  unfold monthList
  simp only [List.mem_map, List.mem_range]
  constructor
  · rintro ⟨i, hi, rfl⟩
    exact ⟨i, by omega, rfl⟩
  · rintro ⟨k, h1, rfl⟩
    exact ⟨k, by omega, rfl⟩

theorem recordActivity_data {E : ReadEnv F} {t : Int × Int} {n : Nat} {i : String} {k : Nat} :
    Data (recordActivity E (monthList t n) i) k ↔ k ≤ n ∧ drifterRecords E i (monthsLater k t) ≠ [] := by
  unfold Data recordActivity monthList
  rw [List.map_map, List.getElem?_map]
  by_cases hk : k < n + 1
  · rw [List.getElem?_range hk]
    simp only [Option.map_some, Function.comp, Option.some.injEq]
    by_cases he : drifterRecords E i (monthsLater k t) = []
    · simp [he]
    · have : (drifterRecords E i (monthsLater k t)).isEmpty = false := by simpa using he
      simp [this, he]
      omega
  · rw [List.getElem?_eq_none (by simpa using Nat.not_lt.mp hk)]
    simp
    omega

theorem perm_map_inv {α β : Type} (f : α → β) {a b : List β} (h : a.Perm b) : ∀ l : List α, b = l.map f → ∃ l' : List α, l'.Perm l ∧ a = l'.map f := by
  induction h with
  | nil => intro l e; exact ⟨l, List.Perm.refl _, e⟩
  | cons x _ ih =>
    intro l e
    cases l with
    | nil => cases e
    | cons y l =>
      rw [List.map_cons] at e
      injection e with e1 e2
      obtain ⟨l', h1, h2⟩ := ih l e2
      exact ⟨y :: l', h1.cons y, by rw [List.map_cons, h2, e1]⟩
  | swap x y l0 =>
    intro l e
    match l, e with
    | p :: q :: l, e =>
      rw [List.map_cons, List.map_cons] at e
      injection e with e1 e2
      injection e2 with e2 e3
      exact ⟨q :: p :: l, List.Perm.swap .., by rw [List.map_cons, List.map_cons, e1, e2, e3]⟩
  | trans _ _ ih1 ih2 =>
    intro l e
    obtain ⟨l', h1, h2⟩ := ih2 l e
    obtain ⟨l'', h3, h4⟩ := ih1 l' h2
    exact ⟨l'', h3.trans h1, h4⟩

theorem isChunk_same_end {c : List Int} {gap s s' u : Nat} (h : IsChunk c gap s u) (h' : IsChunk c gap s' u) : s = s' := by
  have key : ∀ {a b : Nat}, IsChunk c gap a u → IsChunk c gap b u → a < b → False := by
    intro a b ha hb hab
    obtain ⟨a1, a2, a3, a4, a5, a6⟩ := ha
    obtain ⟨b1, b2, b3, b4, b5, b6⟩ := hb
    by_cases hl : a + gap ≤ b
    · obtain ⟨j, j1, j2, j3⟩ := a6 (b - gap) (by omega) (by omega)
      exact b4 j (by omega) (by omega) j3
    · exact b4 a hab (by omega) a1
  rcases Nat.lt_trichotomy s s' with hl | hl | hl
  · exact (key h h' hl).elim
  · exact hl
  · exact (key h' h hl).elim

theorem labels_words (n gap s e : Nat) : labels n gap s e ≠ [] ∧ ∀ x ∈ labels n gap s e, IsWord x.toList := by
  constructor
  · unfold labels
    by_cases h1 : s < gap
    · simp [h1]
    · by_cases h2 : n < e + 1 + gap
      · simp [h2]
      · have : gap ≤ s ∧ e + 1 + gap ≤ n := by omega
        simp [this]
  · intro x hx
    have : x ∈ ["start_edge_case", "end_edge_case", "new", "regular"] := by
      unfold labels at hx
      simp only [List.mem_append] at hx
      rcases hx with ((hx | hx) | hx) | hx <;> (split at hx <;> simp at hx <;> simp [hx])
    clear hx
    unfold IsWord
    revert x
    decide

/-- A path of a script is not one of the directories for results. -/
theorem jobPath_not_tracking {W : WrapperEnv} {rid rid' a : List Char} {j : Job} {y m : Int} (ha : a ∈ trackingDirs W.trackOut y m rid') :
    a ≠ jobPath W rid j := by
  have e : "/TrackingQC/".toList = "/TrackingQC".toList ++ ['/'] := by decide
  have e' : "/TrackingQC/jobs/".toList = "/TrackingQC".toList ++ '/' :: 'j' :: "obs/".toList := by decide
  have key : ∀ z : List Char, W.trackOut ++ "/TrackingQC".toList ++ '/' :: (intText y ++ z) ≠ jobPath W rid j := by
    intro z h
    unfold jobPath at h
    rw [e', ← List.append_assoc, List.append_assoc (W.trackOut ++ _)] at h
    have h := List.append_cancel_left h
    have h := (List.cons.inj h).2
    obtain ⟨c, t, ht⟩ := List.exists_cons_of_ne_nil (intText_ne_nil y)
    rw [ht] at h
    have hc : c ∈ intText y := by rw [ht]; simp
    have hj := (List.cons.inj h).1
    subst hj
    rcases intText_chars _ _ hc with h | h <;> revert h <;> decide
  simp only [trackingDirs, trackingDir, List.mem_cons, List.not_mem_nil, or_false] at ha
  rcases ha with rfl | rfl | rfl | rfl | rfl
  · intro h
    exact jobPath_ne_dir W.trackOut (jobName W.runid rid j) _ (by simp [jobDirs]) h.symm
  · have := key []
    rw [e]
    simpa [List.append_assoc] using this
  · have := key ('/' :: zeroPad 2 m)
    rw [e]
    simpa [List.append_assoc] using this
  · have := key ('/' :: zeroPad 2 m ++ "/start_edge_case_".toList ++ rid')
    rw [e]
    simpa [List.append_assoc] using this
  · have := key ('/' :: zeroPad 2 m ++ "/end_edge_case_".toList ++ rid')
    rw [e]
    simpa [List.append_assoc] using this

/-- **C122.**  Every record of a drifter belongs to exactly one group of months: a month with records of it is in the months of one
group and of no other. -/
theorem C122_one_job (E : ReadEnv F) (t : Int × Int) (ht : 1 ≤ t.2 ∧ t.2 ≤ 12) (n gap : Nat) (hg1 : 1 ≤ gap) (hg2 : gap ≤ 10) (i : String)
    (m : Int × Int) (hm : m ∈ monthList t n) (hr : drifterRecords E i m ≠ []) :
    ∃! p : Nat × Nat, IsChunk (recordActivity E (monthList t n) i) gap p.1 p.2 ∧ m ∈ chunkMonths t p.1 p.2 := by
  obtain ⟨k, hk, rfl⟩ := mem_monthList.mp hm
  obtain ⟨L, -, H⟩ := getChunks_chunking gap hg1 hg2 (recordActivity E (monthList t n) i) (by
    intro x hx
    obtain ⟨m, -, rfl⟩ := List.mem_map.mp hx
    split
    · exact Or.inl rfl
    · exact Or.inr rfl)
  obtain ⟨⟨s, u⟩, hp, h1, h2⟩ := H.covers k (recordActivity_data.mpr ⟨hk, hr⟩)
  refine ⟨(s, u), ⟨(mem_iff_isChunk H s u).mp hp, (mem_chunkMonths (Nat.le_trans h1 h2)).mpr ⟨k, h1, h2, rfl⟩⟩, ?_⟩
  rintro ⟨s', u'⟩ ⟨hc, hmm⟩
  obtain ⟨k', g1, g2, g3⟩ := (mem_chunkMonths hc.2.2.1).mp hmm
  obtain rfl := monthsLater_inj ht g3
  have hp' := (mem_iff_isChunk H s' u').mpr hc
  by_contra hne
  obtain ⟨a, b, hab⟩ := List.mem_iff_getElem.mp hp
  obtain ⟨a', b', hab'⟩ := List.mem_iff_getElem.mp hp'
  have sep := List.pairwise_iff_getElem.mp H.separated
  rcases Nat.lt_trichotomy a a' with hl | hl | hl
  · have := sep a a' b b' hl
    rw [hab, hab'] at this
    simp only at this h1 h2 g1 g2
    omega
  · subst hl
    rw [hab] at hab'
    exact hne hab'.symm
  · have := sep a' a b' b hl
    rw [hab, hab'] at this
    simp only at this h1 h2 g1 g2
    omega

/-- The first two programs of the system: what they leave for the jobs. -/
theorem system_jobs (E : RunEnv F) (num : List Char → Option Rat) (rnd : Rat → Rat) (h : Numerals E.fmt num rnd)
    (hfe : ∀ x, NoBlankEnd (E.fmt x) ∧ E.fmt x ≠ []) (ord : List (List Char) → List (List Char)) (hord : ∀ l, (ord l).Perm l)
    (lib : ClimLib Arr3) (hE : RunReady E lib) (htr : E.read.tracking = true) (hbg : SoundBackground rnd E.read)
    (W : WrapperEnv) (hWo : W.out = E.out) (hWr : W.runid = E.runid) (hids : ∀ l, (W.ids l).Perm l)
    (y1 m1 y2 m2 : Int) (h1 : 1 ≤ m1 ∧ m1 ≤ 12) (h2 : 1 ≤ m2 ∧ m2 ≤ 12) (n : Nat) (hn : (n : Int) = 12 * (y2 - y1) + m2 - m1)
    (gap : Nat) (hg1 : 1 ≤ gap) (hg2 : gap ≤ 10) (fs : FileSys)
    (ha : ∀ m ∈ monthList (y1, m1) n, ArchiveReady E.read m) (hd : ∀ m ∈ monthList (y1, m1) n, DriftersArchived E.read m)
    (hnames : ∀ m ∈ monthList (y1, m1) n, DrifterNames E.read m)
    (hrec : ∀ m ∈ monthList (y1, m1) n, ∀ i, drifterRecords E.read i m ≠ [] → ∀ k ∈ monthList (y1, m1) n, DrifterRecords rnd E.read i k)
    (ho : ∀ m ∈ monthList (y1, m1) n, OutputPlace E.runid E.out m.1 m.2 fs)
    (hplace : SystemPlace E.out W.trackOut (monthList (y1, m1) n) fs) :
    ∃ (fs1 : FileSys) (jobs : List Job) (fs2 : FileSys) (recs : Job → List Imma) (R : Job → List Report), runMonths E (monthList (y1, m1) n) lib fs = (fs1, none) ∧
      wrapperMain W y1 m1 y2 m2 gap "all" fs1 = (jobs.map (jobScript W (runMonthId y1 m1 y2 m2)), fs2, none) ∧ jobs.Nodup ∧
      (∀ j, j ∈ jobs ↔ ∃ i s u, IsChunk (recordActivity E.read (monthList (y1, m1) n) i) gap s u ∧
        j = chunkJob (y1, m1) (n + 1) gap i s u) ∧
      JobReady W.out W.trackOut W.runid (runMonthId y1 m1 y2 m2) (monthList (y1, m1) n) fs1 jobs fs2 ∧
      (∀ m ∈ monthList (y1, m1) n, ∀ x z, W.trackOut ++ "/TrackingQC".toList ++ x ≠ monthDir W.out m.1 m.2 ++ '/' :: z) ∧
      (∀ j ∈ jobs, '/' ∉ j.ident.toList ∧ '*' ∉ j.ident.toList) ∧
      (∀ j ∈ jobs, (1 ≤ j.mn1 ∧ j.mn1 ≤ 12) ∧ 1 ≤ j.mn2 ∧ j.mn2 ≤ 12) ∧
      (∀ j ∈ jobs, ∀ k ∈ jobs, j.ident = k.ident → j.yr2 = k.yr2 → j.mn2 = k.mn2 → j = k) ∧
      (∀ j ∈ jobs, ∃ arg k, Sendable j arg ∧ ((k : Nat) : Int) = 12 * (j.yr2 - j.yr1) + j.mn2 - j.mn1 ∧
        (∀ m ∈ monthList (j.yr1, j.mn1) k, m ∈ monthList (y1, m1) n) ∧
        readChunk num ord fs1 W.out W.runid arg (monthList (j.yr1, j.mn1) k) = .ok (R j) ∧ ChunkFound rnd j.ident (recs j) (R j)) ∧
      (∀ i s u, IsChunk (recordActivity E.read (monthList (y1, m1) n) i) gap s u →
        List.Forall₂ (TrackedAs rnd) (trackedRecords E.read (monthList (y1, m1) n) (chunkMonths (y1, m1) s u) i)
          (R (chunkJob (y1, m1) (n + 1) gap i s u))) ∧ '/' ∉ W.runid := by
  have hb : ∀ m ∈ monthList (y1, m1) n, 1 ≤ m.2 ∧ m.2 ≤ 12 := fun m hm => (ha m hm).month
  have hf : ∀ x, Plain (E.fmt x) := fun x => (h.plain x).1
  have hex : ∀ m : Int × Int, ∃ d, m ∈ monthList (y1, m1) n → ∃ lib', checkedMonth E lib m = .ok (d, lib') := by
    intro m
    by_cases hm : m ∈ monthList (y1, m1) n
    · obtain ⟨d, lib', h⟩ := archive_checked E lib hE m (ha m hm)
      exact ⟨d, fun _ => ⟨lib', h⟩⟩
    · exact ⟨⟨[], [], []⟩, fun h => absurd h hm⟩
  choose deck hdeck using hex
  have hready : ∀ m ∈ monthList (y1, m1) n, OutputReady E.runid E.out m.1 m.2 (deck m).reps fs := fun m hm => by
    obtain ⟨lib', hk⟩ := hdeck m hm
    exact archive_output E lib lib' m (ha m hm) _ hk fs (ho m hm)
  have hdr : ∀ m ∈ monthList (y1, m1) n, DriftersReady (deck m).reps := fun m hm => by
    obtain ⟨lib', hk⟩ := hdeck m hm
    exact archive_drifters E lib lib' m (ha m hm) (hd m hm) _ hk
  obtain ⟨fs1, a1, a2, a3, a4⟩ := run_text E hf hE.dflags hE.vflags hE.order lib deck (monthList (y1, m1) n) fs (monthList_nodup h1 n) hb
    hdeck hready (fun m hm _ => hdr m hm)
  have hrep : ∀ m ∈ monthList (y1, m1) n, ∀ i, ReportedIn (deck m).reps i ↔ drifterRecords E.read i m ≠ [] := fun m hm i => by
    obtain ⟨lib', hk⟩ := hdeck m hm
    exact reported_iff E lib lib' m (hb m hm) _ hk i
  have hword : ∀ m ∈ monthList (y1, m1) n, ∀ i, drifterRecords E.read i m ≠ [] → ∃ arg, PaddedWord arg i := by
    intro m hm i he
    obtain ⟨rec, hr⟩ := List.exists_mem_of_ne_nil _ he
    obtain ⟨r1, r2⟩ := List.mem_filter.mp hr
    have r2 := of_decide_eq_true r2
    exact hnames m hm rec r1 r2.1 i r2.2
  have hlist : ∀ m ∈ monthList (y1, m1) n, Listable (deck m).reps := by
    intro m hm r hr hdn i hi
    obtain ⟨arg, hw⟩ := hword m hm i ((hrep m hm i).mp ⟨r, hr, hi, hdn⟩)
    exact ⟨paddedWord_not hw _ (by decide), paddedWord_not hw _ (by decide)⟩
  obtain ⟨D, b1, b2⟩ := lists_read E htr deck fs1 y1 m1 y2 m2 h1 h2 n hn a2 hlist
  -- paths of the tracking are not those of the main program
  have below : ∀ x, fs1.file (W.trackOut ++ "/TrackingQC".toList ++ x) = none ∧ fs1.dir (W.trackOut ++ "/TrackingQC".toList ++ x) = false := by
    intro x
    constructor
    · rw [a3, (hplace.new x).1]
      intro m hm hmf
      obtain ⟨z, hz⟩ := monthFile_in hmf
      refine hplace.apart m hm x ('/' :: zeroPad 2 m.2 ++ '/' :: z) ?_
      rw [hz]
      unfold monthDir
      simp [List.append_assoc]
    · rw [Bool.eq_false_iff, ne_eq, a4]
      rintro (⟨m, hm, e | e⟩ | e)
      · exact hplace.apart m hm x [] (by rw [e, List.append_nil])
      · exact hplace.apart m hm x ('/' :: zeroPad 2 m.2) (by rw [e]; unfold monthDir; simp [List.append_assoc])
      · rw [(hplace.new x).2] at e; cases e
  have qe : "/TrackingQC/jobs/".toList = "/TrackingQC".toList ++ "/jobs/".toList := by decide
  have hjp : JobPlace W.trackOut fs1 := by
    refine ⟨(a4 _).mpr (Or.inr hplace.there), ?_, ?_⟩
    · intro a haa
      simp only [jobDirs, List.mem_cons, List.not_mem_nil, or_false] at haa
      rcases haa with rfl | rfl | rfl
      · have := (below []).1
        rw [List.append_nil] at this
        exact this
      · rw [show "/TrackingQC/logs".toList = "/TrackingQC".toList ++ "/logs".toList by decide, ← List.append_assoc]
        exact (below _).1
      · rw [show "/TrackingQC/jobs".toList = "/TrackingQC".toList ++ "/jobs".toList by decide, ← List.append_assoc]
        exact (below _).1
    · intro x
      rw [qe, ← List.append_assoc, List.append_assoc (W.trackOut ++ _)]
      exact (below _).2
  have hseen : ∀ i, ReportedDuring (fun m => (deck m).reps) (monthList (y1, m1) n) i → ∃ arg, PaddedWord arg i := by
    rintro i ⟨m, hm, hr⟩
    exact hword m hm i ((hrep m hm i).mp hr)
  have hrun : '/' ∉ W.runid := by
    rw [hWr]
    exact (ho _ (mem_monthList.mpr ⟨0, by omega, rfl⟩)).noSlash
  obtain ⟨jobs, fs2, c1, c2, c3, c4, c5, c6, -⟩ := C121_jobs_partial W hids "all" (by decide) y1 m1 y2 m2 h1 n gap hg1 hg2
    (fun m => (deck m).reps) fs1 D (by rw [hWo]; exact b1) b2 hjp hrun (fun i hi => by
      obtain ⟨arg, hw⟩ := hseen i hi
      exact paddedWord_not hw _ (by decide))
  have c3' : ∀ j, j ∈ jobs ↔ ∃ i s u, IsChunk (recordActivity E.read (monthList (y1, m1) n) i) gap s u ∧
      j = chunkJob (y1, m1) (n + 1) gap i s u := by
    intro j
    rw [c3]
    constructor
    · rintro ⟨i, s, u, k1, -, k3⟩
      rw [activity_records E lib deck _ hb hdeck] at k1
      exact ⟨i, s, u, k1, k3⟩
    · rintro ⟨i, s, u, k1, k3⟩
      rw [← activity_records E lib deck _ hb hdeck] at k1
      exact ⟨i, s, u, k1, Or.inl rfl, k3⟩
  -- what every job reads
  have hjobs : ∀ j, ∃ R : List Report, j ∈ jobs → ∃ arg k i s u, PaddedWord arg i ∧ IsChunk (recordActivity E.read (monthList (y1, m1) n) i) gap s u ∧
      j = chunkJob (y1, m1) (n + 1) gap i s u ∧ Sendable j arg ∧ ((k : Nat) : Int) = 12 * (j.yr2 - j.yr1) + j.mn2 - j.mn1 ∧
      (∀ m ∈ monthList (j.yr1, j.mn1) k, m ∈ monthList (y1, m1) n) ∧
      readChunk num ord fs1 W.out W.runid arg (monthList (j.yr1, j.mn1) k) = .ok R ∧
      ChunkFound rnd j.ident (trackedRecords E.read (monthList (y1, m1) n) (chunkMonths (y1, m1) s u) i) R := by
    intro j
    by_cases hj : j ∈ jobs
    · obtain ⟨i, s, u, hc, rfl⟩ := (c3' j).mp hj
      have ds := recordActivity_data.mp hc.1
      have du := recordActivity_data.mp hc.2.1
      have hsu := hc.2.2.1
      have mem : ∀ k, k ≤ n → monthsLater k (y1, m1) ∈ monthList (y1, m1) n := fun k hk => mem_monthList.mpr ⟨k, hk, rfl⟩
      obtain ⟨arg, hw⟩ := hword _ (mem s ds.1) i ds.2
      have hsub : ∀ m ∈ chunkMonths (y1, m1) s u, m ∈ monthList (y1, m1) n := by
        intro m hm
        obtain ⟨k, -, k2, rfl⟩ := (mem_chunkMonths hsu).mp hm
        exact mem k (by omega)
      obtain ⟨R, r1, r2⟩ := chunk_read E num rnd h ord hord lib hE deck (monthList (y1, m1) n) (chunkMonths (y1, m1) s u) fs fs1 hdeck htr ha hbg
        a2 a3 hplace.empty hsub hnames arg i hw (hrec _ (mem s ds.1) i ds.2) (by
          intro he
          unfold trackedRecords at he
          rw [List.flatMap_eq_nil_iff] at he
          have := he (monthsLater s (y1, m1)) ((mem_chunkMonths hsu).mpr ⟨s, by omega, hsu, rfl⟩)
          rw [if_pos (mem s ds.1)] at this
          exact ds.2 this)
      refine ⟨R, fun _ => ⟨arg, u - s, i, s, u, hw, hc, rfl, ⟨hw.1, ⟨9 - arg.length, hw.2.2⟩, (labels_words _ _ _ _).2, (labels_words _ _ _ _).1, ?_, ?_⟩, ?_, ?_, ?_, r2⟩⟩
      · have q1 := (ha _ (mem s ds.1)).year
        have q2 := (ha _ (mem u du.1)).year
        show 0 ≤ (monthsLater s (y1, m1)).1 ∧ 0 ≤ (monthsLater u (y1, m1)).1
        omega
      · have q1 := hb _ (mem s ds.1)
        have q2 := hb _ (mem u du.1)
        show 0 ≤ (monthsLater s (y1, m1)).2 ∧ 0 ≤ (monthsLater u (y1, m1)).2
        omega
      · have q1 := (monthsLater_valid (t := (y1, m1)) s h1).2
        have q2 := (monthsLater_valid (t := (y1, m1)) u h1).2
        show ((u - s : Nat) : Int) = 12 * ((monthsLater u (y1, m1)).1 - (monthsLater s (y1, m1)).1) + (monthsLater u (y1, m1)).2 - (monthsLater s (y1, m1)).2
        unfold monthNo at q1 q2
        omega
      · exact hsub
      · rw [hWo, hWr]
        exact r1
    · exact ⟨[], fun hc => absurd hc hj⟩
  choose R hR using hjobs
  choose! recs hrecs using fun j => (show j ∈ jobs → ∃ rs : List Imma, ChunkFound rnd j.ident rs (R j) from fun hj => by
    obtain ⟨arg, k, i, s, u, -, -, -, -, -, -, -, k8⟩ := hR j hj
    exact ⟨_, k8⟩)
  have hjr : JobReady W.out W.trackOut W.runid (runMonthId y1 m1 y2 m2) (monthList (y1, m1) n) fs1 jobs fs2 := by
    refine ⟨c6 _ hjp.there, ?_, ?_, ?_⟩
    · intro j _ a haa
      obtain ⟨x, hx⟩ := trackingDirs_below haa
      rw [c4 a fun k _ => jobPath_not_tracking haa, hx]
      exact (below x).1
    · intro j _ a haa
      rw [Bool.eq_false_iff]
      intro hc
      rcases c5 _ hc with hc | hc
      · have hl : (resultPath W.runid j a).getLast? = some 'v' := voyagePath_last ..
        simp only [jobDirs, List.mem_cons, List.not_mem_nil, or_false] at hc
        rcases hc with hc | hc | hc <;> rw [hc, List.getLast?_append_of_ne_nil _ (by decide)] at hl <;> revert hl <;> decide
      · obtain ⟨x, hx⟩ := trackingDirs_below haa
        obtain ⟨w, hw⟩ := voyagePath_in W.runid a "Tracking_".toList (safeFilename j.ident.toList) j.yr2 j.mn2
        have := (below (x ++ '/' :: w)).2
        rw [← List.append_assoc, ← hx, ← hw] at this
        rw [show fs1.dir (voyagePath W.runid a j.yr2 j.mn2 "Tracking_".toList (safeFilename j.ident.toList)) = true from hc] at this
        cases this
    · intro m hm x
      apply c4
      intro j _ e
      refine hplace.apart m hm ("/jobs/".toList ++ jobName W.runid (runMonthId y1 m1 y2 m2) j) ('/' :: zeroPad 2 m.2 ++ '/' :: x) ?_
      rw [← List.append_assoc, List.append_assoc W.trackOut, ← qe, hWo] at *
      rw [show W.trackOut ++ "/TrackingQC/jobs/".toList ++ jobName W.runid (runMonthId y1 m1 y2 m2) j = _ from e.symm]
      unfold monthDir
      simp [List.append_assoc]
  have hpad : ∀ j ∈ jobs, '/' ∉ j.ident.toList ∧ '*' ∉ j.ident.toList := by
    intro j hj
    obtain ⟨arg, k, i, s, u, k1, -, rfl, -⟩ := hR j hj
    exact ⟨paddedWord_not k1 _ (by decide), paddedWord_not k1 _ (by decide)⟩
  refine ⟨fs1, jobs, fs2, recs, R, a1, c1, c2, c3', hjr, ?_, hpad, ?_, ?_, ?_, ?_, hrun⟩
  · intro m hm x z e
    refine hplace.apart m hm x ('/' :: zeroPad 2 m.2 ++ '/' :: z) ?_
    rw [e, hWo]
    unfold monthDir
    simp [List.append_assoc]
  · intro j hj
    obtain ⟨i, s, u, -, rfl⟩ := (c3' j).mp hj
    exact ⟨(monthsLater_valid (t := (y1, m1)) s h1).1, (monthsLater_valid (t := (y1, m1)) u h1).1⟩
  · intro j hj k hk e1 e2 e3
    obtain ⟨i, s, u, hc, rfl⟩ := (c3' j).mp hj
    obtain ⟨i', s', u', hc', rfl⟩ := (c3' k).mp hk
    have g1 : i = i' := e1
    have g2 := monthsLater_inj (t := (y1, m1)) h1 (i := u) (j := u') (Prod.ext e2 e3)
    subst g1 g2
    rw [isChunk_same_end hc hc']
  · intro j hj
    obtain ⟨arg, k, i, s, u, -, -, -, k4, k5, k6, k7, -⟩ := hR j hj
    exact ⟨arg, k, k4, k5, k6, k7, hrecs j hj⟩
  · intro i s u hc
    obtain ⟨arg, k, i', s', u', -, -, ke, -, -, -, -, k8⟩ := hR _ ((c3' _).mpr ⟨i, s, u, hc, rfl⟩)
    obtain ⟨rfl, rfl, rfl⟩ := chunkJob_inj (t := (y1, m1)) h1 ke
    exact k8.records

/-- **C122, part.**  The whole system: over a range of months of an archive in good order, with a sound background and drifters whose
identifiers are words, whose records are at existing dates and have an hour, and do not fall in the same minute, the main program
completes; the wrapper, in mode `all`, completes and submits a script for every group of months of every drifter; and the scripts,
run one after the other in any order, all complete.  For every drifter and every group of months with its records, parted by `gap`
or more months without any, the tracking program has exactly one report for each record of the group, in order, and at the end every
directory asked for holds the table of these reports in the order of time with the flags of the drifter checks.  The files of the
months are as the main program has left them.  *Missing:* identifiers that are not words (C91, C119, C120); gaps over ten months (C10); and what is missing in C111 and C116. -/
theorem C122_system_partial (E : RunEnv F) (num : List Char → Option Rat) (rnd : Rat → Rat) (h : Numerals E.fmt num rnd)
    (hfe : ∀ x, NoBlankEnd (E.fmt x) ∧ E.fmt x ≠ []) (ord : List (List Char) → List (List Char)) (hord : ∀ l, (ord l).Perm l)
    (lib : ClimLib Arr3) (hE : RunReady E lib) (htr : E.read.tracking = true) (hbg : SoundBackground rnd E.read)
    (elev : Int → Int → Rat → Rat → Rat → Rat → ℝ) (P : DriftParams) (hP : TrackParamsOk P)
    (W : WrapperEnv) (hWo : W.out = E.out) (hWr : W.runid = E.runid) (hopt : ∀ l, (W.options l).Perm l) (hids : ∀ l, (W.ids l).Perm l)
    (conf : List Char → Option TrackSettings) (hconf : conf W.config = some ⟨E.out, W.trackOut, E.runid, P⟩)
    (y1 m1 y2 m2 : Int) (h1 : 1 ≤ m1 ∧ m1 ≤ 12) (h2 : 1 ≤ m2 ∧ m2 ≤ 12) (n : Nat) (hn : (n : Int) = 12 * (y2 - y1) + m2 - m1)
    (hwords : WordsOnly W (runMonthId y1 m1 y2 m2)) (gap : Nat) (hg1 : 1 ≤ gap) (hg2 : gap ≤ 10) (fs : FileSys)
    (ha : ∀ m ∈ monthList (y1, m1) n, ArchiveReady E.read m) (hd : ∀ m ∈ monthList (y1, m1) n, DriftersArchived E.read m)
    (hnames : ∀ m ∈ monthList (y1, m1) n, DrifterNames E.read m)
    (hrec : ∀ m ∈ monthList (y1, m1) n, ∀ i, drifterRecords E.read i m ≠ [] → ∀ k ∈ monthList (y1, m1) n, DrifterRecords rnd E.read i k)
    (ho : ∀ m ∈ monthList (y1, m1) n, OutputPlace E.runid E.out m.1 m.2 fs)
    (hplace : SystemPlace E.out W.trackOut (monthList (y1, m1) n) fs) :
    ∃ fs1 scripts fs2, runMonths E (monthList (y1, m1) n) lib fs = (fs1, none) ∧
      wrapperMain W y1 m1 y2 m2 gap "all" fs1 = (scripts, fs2, none) ∧
      ∀ order, order.Perm scripts → ∃ fs3, runScripts E.fmt num ord E.geo elev conf order fs2 = (fs3, order.map fun _ => none) ∧
        (∀ i s u, IsChunk (recordActivity E.read (monthList (y1, m1) n) i) gap s u → ∃ R,
          List.Forall₂ (TrackedAs rnd) (trackedRecords E.read (monthList (y1, m1) n) (chunkMonths (y1, m1) s u) i) R ∧
          JobDone E.fmt E.geo elev P W.trackOut E.runid (runMonthId y1 m1 y2 m2) (chunkJob (y1, m1) (n + 1) gap i s u) R fs3) ∧
        ∀ m ∈ monthList (y1, m1) n, ∀ x, fs3.file (monthDir E.out m.1 m.2 ++ '/' :: x) = fs1.file (monthDir E.out m.1 m.2 ++ '/' :: x) := by
  obtain ⟨fs1, jobs, fs2, recs, R, a1, c1, -, c3, c4, c5, c6, c7, c8, c9, c10, hrun⟩ := system_jobs E num rnd h hfe ord hord lib hE htr hbg W hWo
    hWr hids y1 m1 y2 m2 h1 h2 n hn gap hg1 hg2 fs ha hd hnames hrec ho hplace
  refine ⟨fs1, _, fs2, a1, c1, ?_⟩
  intro order hperm
  obtain ⟨l, l1, rfl⟩ := perm_map_inv _ hperm jobs rfl
  obtain ⟨fs3, d1, d2, d3⟩ := jobs_run E.fmt (fun x => (h.plain x).1) hfe num ord E.geo hE.geo elev P hP W hopt conf (by rw [hconf, hWo, hWr])
    y1 m1 y2 m2 hwords hplace.base hrun (monthList (y1, m1) n) fs1 jobs rnd recs R c5 c6 c7 c8 c9 l (fun j hj => l1.mem_iff.mp hj) fs2 c4
  refine ⟨fs3, ?_, ?_, ?_⟩
  · rw [d1, List.map_map]
    rfl
  · intro i s u hc
    have hj : chunkJob (y1, m1) (n + 1) gap i s u ∈ jobs := (c3 _).mpr ⟨i, s, u, hc, rfl⟩
    have done := d2 _ hj (Or.inl (l1.mem_iff.mpr hj))
    rw [hWr] at done
    exact ⟨_, c10 i s u hc, done⟩
  · rw [← hWo]
    exact d3.input

end MarineQC
