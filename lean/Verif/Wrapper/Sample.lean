import Verif.Wrapper.System
import Verif.Wrapper.Restart
import Verif.Base.RunTrackSample

/-! # A sample run of the whole system -/

namespace MarineQC

open Spec

/-- The settings of the tracking program in the sample. -/
noncomputable def sampleConf : List Char → Option TrackSettings := fun _ => some ⟨"/out".toList, "/out".toList, "base".toList, driftParams⟩

theorem sampleMonths : monthList (1990, 2) 1 = [((1990 : Int), (2 : Int)), (1990, 3)] := by decide

theorem sampleTrackRun_names : ∀ m ∈ [((1990 : Int), (2 : Int)), (1990, 3)], DrifterNames sampleTrackRun.read m := by
  intro m hm rec hrec _ i hi
  have hsub : m ∈ [((1990 : Int), (1 : Int)), (1990, 2), (1990, 3), (1990, 4)] := by
    clear hrec
    revert m; decide
  obtain ⟨-, -, -, -, -, j, hj, e⟩ := (fourFiles_facts m hsub).2.2 rec hrec
  rw [hi, Option.some.injEq] at e
  subst e
  simp only [List.mem_cons, List.not_mem_nil, or_false] at hj
  unfold PaddedWord IsWord
  rcases hj with rfl | rfl | rfl
  · exact ⟨"D1".toList, by decide⟩
  · exact ⟨"D2".toList, by decide⟩
  · exact ⟨"S".toList, by decide⟩

theorem sampleSystem_place : SystemPlace "/out".toList "/out".toList [((1990 : Int), (2 : Int)), (1990, 3)] (oneDir "/out".toList) where
  base := by unfold IsBase; decide
  there := by decide
  empty _ _ _ := rfl
  new x := by
    refine ⟨rfl, ?_⟩
    show ("/out".toList ++ "/TrackingQC".toList ++ x == "/out".toList) = false
    rw [beq_eq_false_iff_ne]
    intro e
    have := congrArg List.length e
    simp at this
  apart m hm x z e := by
    have e := congrArg (List.take 6) e
    have h1 : List.take 6 ("/out".toList ++ "/TrackingQC".toList ++ x) = "/out/T".toList := by
      rw [List.take_append_of_le_length (by decide)]
      decide
    have h2 : List.take 6 ("/out".toList ++ '/' :: (intText m.1 ++ z)) = "/out/1".toList := by
      have hm1 : m.1 = 1990 := (show ∀ m ∈ [((1990 : Int), (2 : Int)), (1990, 3)], m.1 = 1990 by decide) m hm
      rw [hm1, ← List.cons_append, ← List.append_assoc, List.take_append_of_le_length (by decide)]
      decide
    rw [h1, h2] at e
    revert e
    decide

theorem sampleSystem_words : WordsOnly sampleWrapper (runMonthId 1990 2 1990 3) := by
  refine ⟨?_, ?_, ?_, ?_⟩ <;> (unfold IsWord; decide +kernel)

theorem fourFiles_activity : recordActivity (sampleEnv fourFiles) [(1990, 2), (1990, 3)] "D1       " = [1, 0] ∧
    recordActivity (sampleEnv fourFiles) [(1990, 2), (1990, 3)] "D2       " = [1, 1] := by decide +kernel

/-- Non-vacuity of C119 to C122: the sample meets their conditions.  The run over February and March, the wrapper and both
scripts, in whatever order, complete; the results for the first drifter, which has reported in February only, are the table of its
two reports, and the second drifter has its results from both months. -/
example : ∃ fs1 scripts fs2, runMonths sampleTrackRun [(1990, 2), (1990, 3)] sampleLib (oneDir "/out".toList) = (fs1, none) ∧
    wrapperMain sampleWrapper 1990 2 1990 3 1 "all" fs1 = (scripts, fs2, none) ∧
    ∀ order, order.Perm scripts → ∃ fs3 R R2, runScripts (fun x => intText ⌊x⌋) (fun s => match parseInt s with
        | .ok n => some (n : Rat)
        | .error _ => none) (fun l => l) planeGeo (fun _ _ _ _ _ _ => 0) sampleConf order fs2 = (fs3, order.map fun _ => none) ∧
      R.map (fun r => r.uid) = [some "UID002", some "UID005"] ∧
      JobDone (fun x => intText ⌊x⌋) planeGeo (fun _ _ _ _ _ _ => 0) driftParams "/out".toList "base".toList (runMonthId 1990 2 1990 3)
        ⟨"D1       ", 1990, 2, 1990, 2, ["start_edge_case", "new"]⟩ R fs3 ∧
      JobDone (fun x => intText ⌊x⌋) planeGeo (fun _ _ _ _ _ _ => 0) driftParams "/out".toList "base".toList (runMonthId 1990 2 1990 3)
        ⟨"D2       ", 1990, 2, 1990, 3, ["start_edge_case", "end_edge_case"]⟩ R2 fs3 := by
  have key := C122_system_partial sampleTrackRun _ _ floor_numerals (fun x => intText_end _) (fun l => l)
    (fun _ => List.Perm.refl _) sampleLib sampleTrackRun_ready rfl sampleTrackRun_background (fun _ _ _ _ _ _ => 0) driftParams driftParams_ok
    sampleWrapper rfl rfl (fun l => List.reverse_perm l) (fun l => List.Perm.refl l) sampleConf rfl 1990 2 1990 3 (by decide) (by decide) 1
    (by decide) sampleSystem_words 1 (by decide) (by decide) (oneDir "/out".toList)
  rw [sampleMonths] at key
  obtain ⟨fs1, scripts, fs2, k1, k2, k3⟩ := key
    (fun m hm => { (sampleRun_archive m hm).1 with }) (fun m hm => { (sampleRun_archive m hm).2 with }) sampleTrackRun_names
    (fun _ _ i _ k hk => sampleTrackRun_records i k hk) (fun m hm => sampleRun_place m hm) sampleSystem_place
  refine ⟨fs1, scripts, fs2, k1, k2, ?_⟩
  intro order hperm
  obtain ⟨fs3, l1, l2, -⟩ := k3 order hperm
  have c1 : IsChunk [1, 0] 1 0 0 := (C10_chunks_characterised 1 (by omega) (by omega) [1, 0] (by decide) 0 0).mp (by decide)
  have c2 : IsChunk [1, 1] 1 0 1 := (C10_chunks_characterised 1 (by omega) (by omega) [1, 1] (by decide) 0 1).mp (by decide)
  obtain ⟨R, r1, r2⟩ := l2 "D1       " 0 0 (by
    rw [show recordActivity sampleTrackRun.read [(1990, 2), (1990, 3)] "D1       " = [1, 0] from fourFiles_activity.1]; exact c1)
  obtain ⟨R2, -, q2⟩ := l2 "D2       " 0 1 (by
    rw [show recordActivity sampleTrackRun.read [(1990, 2), (1990, 3)] "D2       " = [1, 1] from fourFiles_activity.2]; exact c2)
  refine ⟨fs3, R, R2, l1, ?_, r2, q2⟩
  have hu : (trackedRecords (sampleEnv fourFiles) [(1990, 2), (1990, 3)] (chunkMonths (1990, 2) 0 0) "D1       ").map
      (fun rec => textOf (rec.data "UID")) = [some "UID002", some "UID005"] := by decide +kernel
  rw [← hu]
  have : ∀ {l : List Imma} {R : List Report}, List.Forall₂ (TrackedAs (fun x => (⌊x⌋ : Rat))) l R →
      R.map (fun r => r.uid) = l.map fun rec => textOf (rec.data "UID") := by
    intro l R h
    induction h with
    | nil => rfl
    | cons a _ ih => rw [List.map_cons, List.map_cons, a.uid, ih]
  exact this r1

/-- Non-vacuity of C124: in the sample both jobs are started and killed after a few operations, then both are run again at the
same time.  There is a schedule with which all results are there at the end. -/
example : ∃ fs1 scripts fs2, runMonths sampleTrackRun [(1990, 2), (1990, 3)] sampleLib (oneDir "/out".toList) = (fs1, none) ∧
    wrapperMain sampleWrapper 1990 2 1990 3 1 "all" fs1 = (scripts, fs2, none) ∧
    ∃ s1 s2 sched R1 R2, s1 ∈ scripts ∧ s2 ∈ scripts ∧
      ∀ final, final = runRounds (fun x => intText ⌊x⌋) (fun s => match parseInt s with
          | .ok n => some (n : Rat)
          | .error _ => none) (fun l => l) planeGeo (fun _ _ _ _ _ _ => 0) sampleConf
          [([s1, s2], [0, 1, 1, 0, 1, 0, 1, 1]), ([s2, s1], sched)] fs2 →
        JobDone (fun x => intText ⌊x⌋) planeGeo (fun _ _ _ _ _ _ => 0) driftParams "/out".toList "base".toList (runMonthId 1990 2 1990 3)
          ⟨"D1       ", 1990, 2, 1990, 2, ["start_edge_case", "new"]⟩ R1 final ∧
        JobDone (fun x => intText ⌊x⌋) planeGeo (fun _ _ _ _ _ _ => 0) driftParams "/out".toList "base".toList (runMonthId 1990 2 1990 3)
          ⟨"D2       ", 1990, 2, 1990, 3, ["start_edge_case", "end_edge_case"]⟩ R2 final := by
  have key := C124_together_partial sampleTrackRun _ _ floor_numerals (fun x => intText_end _) (fun l => l)
    (fun _ => List.Perm.refl _) sampleLib sampleTrackRun_ready rfl sampleTrackRun_background (fun _ _ _ _ _ _ => 0) driftParams driftParams_ok
    sampleWrapper rfl rfl (fun l => List.reverse_perm l) (fun l => List.Perm.refl l) sampleConf rfl 1990 2 1990 3 (by decide) (by decide) 1
    (by decide) sampleSystem_words 1 (by decide) (by decide) (oneDir "/out".toList)
  rw [sampleMonths] at key
  obtain ⟨fs1, jobs, fs2, R, k1, k2, k3, k4, -, k6⟩ := key
    (fun m hm => { (sampleRun_archive m hm).1 with }) (fun m hm => { (sampleRun_archive m hm).2 with }) sampleTrackRun_names
    (fun _ _ i _ k hk => sampleTrackRun_records i k hk) (fun m hm => sampleRun_place m hm) sampleSystem_place
  have c1 : IsChunk [1, 0] 1 0 0 := (C10_chunks_characterised 1 (by omega) (by omega) [1, 0] (by decide) 0 0).mp (by decide)
  have c2 : IsChunk [1, 1] 1 0 1 := (C10_chunks_characterised 1 (by omega) (by omega) [1, 1] (by decide) 0 1).mp (by decide)
  have j1 : (⟨"D1       ", 1990, 2, 1990, 2, ["start_edge_case", "new"]⟩ : Job) ∈ jobs := (k4 _).mpr ⟨"D1       ", 0, 0, by
    rw [show recordActivity sampleTrackRun.read [(1990, 2), (1990, 3)] "D1       " = [1, 0] from fourFiles_activity.1]; exact c1, by decide +kernel⟩
  have j2 : (⟨"D2       ", 1990, 2, 1990, 3, ["start_edge_case", "end_edge_case"]⟩ : Job) ∈ jobs := (k4 _).mpr ⟨"D2       ", 0, 1, by
    rw [show recordActivity sampleTrackRun.read [(1990, 2), (1990, 3)] "D2       " = [1, 1] from fourFiles_activity.2]; exact c2, by decide +kernel⟩
  obtain ⟨e1, ⟨N, e2⟩, -⟩ := k6 [([⟨"D1       ", 1990, 2, 1990, 2, ["start_edge_case", "new"]⟩,
      ⟨"D2       ", 1990, 2, 1990, 3, ["start_edge_case", "end_edge_case"]⟩], [0, 1, 1, 0, 1, 0, 1, 1])] []
    [⟨"D2       ", 1990, 2, 1990, 3, ["start_edge_case", "end_edge_case"]⟩, ⟨"D1       ", 1990, 2, 1990, 2, ["start_edge_case", "new"]⟩]
    (by
      intro r hr
      obtain rfl := List.mem_singleton.mp hr
      refine ⟨by decide, fun j hj => ?_⟩
      rcases List.mem_pair.mp hj with rfl | rfl
      exacts [j1, j2])
    (by intro r hr; cases hr) (by decide)
    (by
      intro j hj
      rcases List.mem_pair.mp hj with rfl | rfl
      exacts [j2, j1]) _ _ (fun _ => rfl) (fun _ => rfl)
  have stops := e2 (List.replicate N 0 ++ List.replicate N 1) (by
    intro k hk
    have hk : k < 2 := hk
    have : k = 0 ∨ k = 1 := by omega
    rcases this with rfl | rfl <;> simp [List.count_append, List.count_replicate])
  refine ⟨fs1, _, fs2, k1, k2, _, _, List.replicate N 0 ++ List.replicate N 1,
    R ⟨"D1       ", 1990, 2, 1990, 2, ["start_edge_case", "new"]⟩, R ⟨"D2       ", 1990, 2, 1990, 3, ["start_edge_case", "end_edge_case"]⟩,
    List.mem_map_of_mem j1, List.mem_map_of_mem j2, ?_⟩
  rintro final rfl
  exact ⟨(e1 _ 1 _ none rfl (stops 1 (by decide))).2 (by simp), (e1 _ 0 _ none rfl (stops 0 (by decide))).2 (by simp)⟩

/-- Non-vacuity of C119 and C121, apart from C122: the sample meets the conditions of C119, and its result those of C121. -/
example : ∃ (deck : Int × Int → Deck) (fs1 : FileSys) (D : List (String × YMCounter)) (jobs : List Job) (fs2 : FileSys),
    runMonths sampleTrackRun [(1990, 2), (1990, 3)] sampleLib (oneDir "/out".toList) = (fs1, none) ∧
    wrapperIds fs1 "/out".toList 1990 2 1990 3 = .ok D ∧ Listed (fun m => (deck m).reps) [(1990, 2), (1990, 3)] D ∧
    ReportedIn (deck (1990, 2)).reps "D1       " ∧
    wrapperMain sampleWrapper 1990 2 1990 3 1 "new" fs1 = (jobs.map (jobScript sampleWrapper (runMonthId 1990 2 1990 3)), fs2, none) ∧
    ⟨"D1       ", 1990, 2, 1990, 2, ["start_edge_case", "new"]⟩ ∈ jobs := by
  have hex : ∀ m : Int × Int, ∃ d, m ∈ [((1990 : Int), (2 : Int)), (1990, 3)] → ∃ lib', checkedMonth sampleTrackRun sampleLib m = .ok (d, lib') := by
    intro m
    by_cases hm : m ∈ [((1990 : Int), (2 : Int)), (1990, 3)]
    · obtain ⟨d, lib', h⟩ := archive_checked sampleTrackRun sampleLib sampleTrackRun_ready m { (sampleRun_archive m hm).1 with }
      exact ⟨d, fun _ => ⟨lib', h⟩⟩
    · exact ⟨⟨[], [], []⟩, fun h => absurd h hm⟩
  choose deck hdeck using hex
  have hb : ∀ m ∈ [((1990 : Int), (2 : Int)), (1990, 3)], 1 ≤ m.2 ∧ m.2 ≤ 12 := by decide
  have hword : ∀ m ∈ [((1990 : Int), (2 : Int)), (1990, 3)], ∀ i, ReportedIn (deck m).reps i → ∃ arg, PaddedWord arg i := by
    intro m hm i hr
    obtain ⟨lib', hk⟩ := hdeck m hm
    obtain ⟨rec, hrec⟩ := List.exists_mem_of_ne_nil _ ((reported_iff sampleTrackRun sampleLib lib' m (hb m hm) _ hk i).mp hr)
    obtain ⟨r1, r2⟩ := List.mem_filter.mp hrec
    have r2 := of_decide_eq_true r2
    exact sampleTrackRun_names m hm rec r1 r2.1 i r2.2
  have key := C119_lists_partial sampleTrackRun sampleTrackRun_ready.numbers sampleTrackRun_ready.dflags sampleTrackRun_ready.vflags
    sampleTrackRun_ready.order sampleLib deck 1990 2 1990 3 (by decide) (by decide) 1 (by decide) (oneDir "/out".toList)
  rw [sampleMonths] at key
  obtain ⟨fs1, D, k1, k2, k3⟩ := key hdeck
    (fun m hm => by
      obtain ⟨lib', hk⟩ := hdeck m hm
      exact archive_output sampleTrackRun sampleLib lib' m { (sampleRun_archive m hm).1 with } _ hk _ (sampleRun_place m hm)) rfl
    (fun m hm => by
      obtain ⟨lib', hk⟩ := hdeck m hm
      exact archive_drifters sampleTrackRun sampleLib lib' m { (sampleRun_archive m hm).1 with } { (sampleRun_archive m hm).2 with } _ hk)
    (fun m hm r hr hdn i hi => by
      obtain ⟨arg, hw⟩ := hword m hm i ⟨r, hr, hi, hdn⟩
      exact ⟨paddedWord_not hw _ (by decide), paddedWord_not hw _ (by decide)⟩)
  obtain ⟨fs', a1, -, a3, a4⟩ := run_text sampleTrackRun sampleTrackRun_ready.numbers sampleTrackRun_ready.dflags sampleTrackRun_ready.vflags
    sampleTrackRun_ready.order sampleLib deck [(1990, 2), (1990, 3)] (oneDir "/out".toList) (by decide) hb hdeck
    (fun m hm => by
      obtain ⟨lib', hk⟩ := hdeck m hm
      exact archive_output sampleTrackRun sampleLib lib' m { (sampleRun_archive m hm).1 with } _ hk _ (sampleRun_place m hm))
    (fun m hm _ => by
      obtain ⟨lib', hk⟩ := hdeck m hm
      exact archive_drifters sampleTrackRun sampleLib lib' m { (sampleRun_archive m hm).1 with } { (sampleRun_archive m hm).2 with } _ hk)
  rw [k1] at a1
  obtain rfl : fs1 = fs' := (Prod.mk.inj a1).1
  have hrep : ∀ m ∈ [((1990 : Int), (2 : Int)), (1990, 3)], ∀ i, ReportedIn (deck m).reps i ↔ drifterRecords sampleTrackRun.read i m ≠ [] := by
    intro m hm i
    obtain ⟨lib', hk⟩ := hdeck m hm
    exact reported_iff sampleTrackRun sampleLib lib' m (hb m hm) _ hk i
  have below : ∀ x, fs1.file ("/out".toList ++ "/TrackingQC".toList ++ x) = none ∧ fs1.dir ("/out".toList ++ "/TrackingQC".toList ++ x) = false := by
    intro x
    constructor
    · rw [a3]
      · rfl
      intro m hm hmf
      obtain ⟨z, hz⟩ := monthFile_in hmf
      refine sampleSystem_place.apart m hm x ('/' :: zeroPad 2 m.2 ++ '/' :: z) ?_
      rw [hz]
      show monthDir "/out".toList m.1 m.2 ++ _ = _
      unfold monthDir
      simp [List.append_assoc]
    · rw [Bool.eq_false_iff, ne_eq, a4]
      rintro (⟨m, hm, e | e⟩ | e)
      · exact sampleSystem_place.apart m hm x [] (by rw [e, List.append_nil]; rfl)
      · exact sampleSystem_place.apart m hm x ('/' :: zeroPad 2 m.2) (by
          rw [e]
          show monthDir "/out".toList m.1 m.2 = _
          unfold monthDir
          simp [List.append_assoc])
      · rw [(sampleSystem_place.new x).2] at e; cases e
  have hjp : JobPlace "/out".toList fs1 := by
    refine ⟨(a4 _).mpr (Or.inr (by decide)), ?_, fun x => ?_⟩
    · intro a ha
      simp only [jobDirs, List.mem_cons, List.not_mem_nil, or_false] at ha
      rcases ha with rfl | rfl | rfl
      · exact (below []).1
      · exact (below "/logs".toList).1
      · exact (below "/jobs".toList).1
    · exact (below ("/jobs/".toList ++ x)).2
  obtain ⟨jobs, fs2, c1, -, c3, -⟩ := C121_jobs_partial sampleWrapper (fun l => List.Perm.refl l) "new" (by decide) 1990 2 1990 3 (by decide) 1 1
    (by decide) (by decide) (fun m => (deck m).reps) fs1 D k2 (by rw [sampleMonths]; exact k3) hjp (by decide)
    (by
      rw [sampleMonths]
      rintro i ⟨m, hm, hr⟩
      obtain ⟨arg, hw⟩ := hword m hm i hr
      exact paddedWord_not hw _ (by decide))
  refine ⟨deck, fs1, D, jobs, fs2, k1, k2, k3, ?_, c1, (c3 _).mpr ⟨"D1       ", 0, 0, ?_, Or.inr (Or.inr (Or.inl ⟨rfl, by decide⟩)), by decide⟩⟩
  · rw [hrep _ (by decide)]
    show drifterRecords (sampleEnv fourFiles) "D1       " (1990, 2) ≠ []
    intro e
    have : (drifterRecords (sampleEnv fourFiles) "D1       " (1990, 2)).isEmpty = false := by decide +kernel
    rw [e] at this
    cases this
  · rw [sampleMonths, activity_records sampleTrackRun sampleLib deck _ hb hdeck,
      show recordActivity sampleTrackRun.read [(1990, 2), (1990, 3)] "D1       " = [1, 0] from fourFiles_activity.1]
    exact (C10_chunks_characterised 1 (by omega) (by omega) [1, 0] (by decide) 0 0).mp (by decide)

/-- C121: two identifiers that differ in blanks only have the same file for their scripts, and the second script is written over the
first. -/
theorem C121_name_violation :
    let j : Job := ⟨"AB       ", 1990, 2, 1990, 2, ["regular"]⟩
    let k : Job := ⟨"A B      ", 1990, 2, 1990, 2, ["regular"]⟩
    let W : WrapperEnv := sampleWrapper
    let fs := (submitAll W [] [j, k] (oneDir "/out".toList)).2.1
    j ≠ k ∧ jobScript W [] j ≠ jobScript W [] k ∧ jobPath W [] j = jobPath W [] k ∧ fs.file (jobPath W [] j) = some (jobScript W [] k) := by
  decide +kernel

end MarineQC
