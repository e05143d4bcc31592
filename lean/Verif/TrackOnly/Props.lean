import Verif.TrackOnly.Readback
import Verif.Base.RunTrackSample

/-! # The program that only prepares the tracking of drifters: the reports it checks -/

namespace MarineQC

open Spec

variable {F : Type} [LinearOrder F] [Zero F]

theorem forall2_of_shadow : ∀ {l l' : List Report}, l.map shadow = l'.map shadow → List.Forall₂ SameForTracking l l'
  | [], [], _ => .nil
  | [], _ :: _, h => by cases h
  | _ :: _, [], h => by cases h
  | a :: l, b :: l', h => by
    rw [List.map_cons, List.map_cons, List.cons.injEq] at h
    exact .cons ((same_iff a b).mpr h.1) (forall2_of_shadow h.2)

/-- C128.  When the main program reads and checks a month without an exception, so does the program that only prepares
tracking.  The two have the same reports in the same order, under the same identifiers, and each report has the same
identity, time, data, background values, climatology of sea-surface temperature and flags of position and sea-surface
temperature. -/
theorem C128_reports (E : RunEnv F) (lib lib' : ClimLib Arr3) (m : Int × Int) (d : Deck)
    (h : checkedMonth E lib m = .ok (d, lib')) :
    ∃ d', trackOnlyChecked E lib m = .ok (d', lib') ∧ d'.idtracker = d.idtracker ∧
      List.Forall₂ SameForTracking d.reps d'.reps := by
  obtain ⟨d', h1, h2, -⟩ := checked_alike h
  exact ⟨d', h1, h2.index, forall2_of_shadow h2.reps⟩

/-- Non-vacuity of C128: the month of February with two drifters and a ship. -/
example : ∃ d lib' d', checkedMonth sampleTrackRun sampleLib (1990, 2) = .ok (d, lib') ∧
    trackOnlyChecked sampleTrackRun sampleLib (1990, 2) = .ok (d', lib') ∧ List.Forall₂ SameForTracking d.reps d'.reps := by
  have hm : ((1990 : Int), (2 : Int)) ∈ [((1990 : Int), (2 : Int)), (1990, 3)] := by decide
  obtain ⟨d, lib', h⟩ := archive_checked sampleTrackRun sampleLib sampleTrackRun_ready (1990, 2)
    { (sampleRun_archive (1990, 2) hm).1 with }
  obtain ⟨d', h1, -, h2⟩ := C128_reports sampleTrackRun sampleLib lib' (1990, 2) d h
  exact ⟨d, lib', d', h, h1, h2⟩

/-- C129.  When a run of the main program completes, so does a run of the program that only prepares tracking for the same
months from the same file system.  It leaves the files of the whole deck as they were before.  It makes the same
directories, and leaves every other file as the main program does, except that in the drifters' files of variables the
anomalies of air temperature, dew point and pressure are missing. -/
theorem C129_files (E : RunEnv F) (hdf : E.dflags.Perm deckFlags) (hvf : E.vflags.Perm voyageFlags)
    (hb : IsBase E.out) (months : List (Int × Int)) (hm : ∀ m ∈ months, 0 ≤ m.1 ∧ 0 ≤ m.2) (lib : ClimLib Arr3)
    (fs fs1 : FileSys) (h : runMonths E months lib fs = (fs1, none)) :
    ∃ fs2, trackOnlyRun E months lib fs = (fs2, none) ∧ fs2.dir = fs1.dir ∧
      (∀ p, DeckFile E.runid E.out months p → fs2.file p = fs.file p) ∧
      ∀ p, ¬ DeckFile E.runid E.out months p → fs2.file p = fs1.file p ∨ DrifterVariables E.runid E.out months p ∧
        ∃ s t, fs1.file p = some s ∧ fs2.file p = some t ∧ LacksAnomalies s t := by
  obtain ⟨fs2, h1, h2⟩ := along_run (S := fun _ => True) hdf hvf hb hm (fun _ _ _ _ _ _ _ _ _ _ _ => trivial) months (fun _ h => h) lib fs fs fs1 ⟨rfl, fun _ _ => Or.inl rfl⟩ h
  refine ⟨fs2, h1, h2.dir, ?_, ?_⟩
  · intro p hp
    have := trackOnly_leaves hvf hb hm hp months (fun _ h => h) lib fs
    rw [h1] at this
    exact this
  · intro p hp
    rcases h2.file p hp with e | ⟨hV, l, l', hl, hbare, -, e1, e2⟩
    · exact Or.inl e.symm
    · exact Or.inr ⟨hV, _, _, e1, e2, tables_alike E.fmt hl hbare⟩

/-- Non-vacuity of C129: the sample meets its conditions.  Both programs complete for February and March, and the second
leaves no file of the whole deck. -/
example : ∃ fs1 fs2, runMonths sampleTrackRun [(1990, 2), (1990, 3)] sampleLib (oneDir "/out".toList) = (fs1, none) ∧
    trackOnlyRun sampleTrackRun [(1990, 2), (1990, 3)] sampleLib (oneDir "/out".toList) = (fs2, none) ∧ fs2.dir = fs1.dir ∧
    fs2.file (deckPath "base".toList (monthDir "/out".toList 1990 2) 1990 2 false "Variables_".toList) = none ∧
    fs2.file (idFilePath (monthDir "/out".toList 1990 2)) = fs1.file (idFilePath (monthDir "/out".toList 1990 2)) := by
  obtain ⟨fs1, deck, h1, -⟩ := C111_run_partial sampleTrackRun sampleLib sampleTrackRun_ready [(1990, 2), (1990, 3)]
    (oneDir "/out".toList) (by decide) (fun m hm => { (sampleRun_archive m hm).1 with })
    (fun m hm _ => { (sampleRun_archive m hm).2 with }) (fun m hm => sampleRun_place m hm)
  obtain ⟨fs2, h2, h3, h4, h5⟩ := C129_files sampleTrackRun (List.Perm.refl _) (List.Perm.refl _)
    (by unfold sampleTrackRun sampleRun IsBase; decide) [(1990, 2), (1990, 3)] (by decide) sampleLib _ fs1 h1
  refine ⟨fs1, fs2, h1, h2, h3, h4 _ ⟨(1990, 2), by simp, Or.inl rfl⟩, ?_⟩
  rcases h5 (idFilePath (monthDir "/out".toList 1990 2)) (by
    rintro ⟨k, -, h | ⟨b, -, h⟩⟩ <;>
    · have := congrArg List.getLast? h
      rw [deckPath_last, idFile_last] at this
      exact absurd this (by decide)) with h | ⟨⟨k, -, i, h⟩, -⟩
  · exact h
  · have := congrArg List.getLast? h
    rw [voyagePath_last, idFile_last] at this
    exact absurd this (by decide)

/-- C130.  After a completed run of the main program, or after a run of the program that only prepares tracking from the same
file system, the tracking program gives the same for every sequence of calls: the same exceptions, the same directories and
the same files, but for those of the whole deck and the drifters' files of variables it starts from. -/
theorem C130_tracking (E : RunEnv F) (num : List Char → Option Rat) (rnd : Rat → Rat) (h : Numerals E.fmt num rnd)
    (hdf : E.dflags.Perm deckFlags) (hvf : E.vflags.Perm voyageFlags) (hb : IsBase E.out) (months : List (Int × Int))
    (hm : ∀ m ∈ months, 0 ≤ m.1 ∧ 0 ≤ m.2)
    (hq : ∀ m ∈ months, ∀ l l' d, checkedMonth E l m = .ok (d, l') → ∀ r ∈ d.reps, DriftsNow r → Storable rnd r)
    (lib : ClimLib Arr3) (fs fs1 : FileSys) (hrun : runMonths E months lib fs = (fs1, none))
    (fmt : Rat → List Char) (ord : List (List Char) → List (List Char)) (G : Geo)
    (elev : Int → Int → Rat → Rat → Rat → Rat → ℝ) (P : DriftParams) (trackOut : List Char) (htb : IsBase trackOut)
    (jobs : List TrackJob) (hj : ∀ j ∈ jobs, '/' ∉ j.runmonthid ∧ (∀ m ∈ j.chunk, 0 ≤ m.1 ∧ 0 ≤ m.2) ∧
      ∀ a ∈ trackingDirs trackOut j.year j.month j.runmonthid, ¬ DeckFile E.runid E.out months a) :
    ∃ fs2 a b x, trackOnlyRun E months lib fs = (fs2, none) ∧
      trackAll fmt num ord G elev P E.out trackOut E.runid jobs fs1 = (a, x) ∧
      trackAll fmt num ord G elev P E.out trackOut E.runid jobs fs2 = (b, x) ∧ b.dir = a.dir ∧
      ∀ p, ¬ DeckFile E.runid E.out months p → ¬ DrifterVariables E.runid E.out months p → b.file p = a.file p := by
  obtain ⟨fs2, h1, h2⟩ := along_run (S := Storable rnd) hdf hvf hb hm
    (fun m hmm l l' d hd => voyage_storable (hq m hmm l l' d hd)) months (fun _ h => h) lib fs fs fs1 ⟨rfl, fun _ _ => Or.inl rfl⟩ hrun
  obtain ⟨h3, h4⟩ := trackAll_alike h ord hm fmt G elev P htb jobs hj h2
  refine ⟨fs2, _, _, _, h1, rfl, Prod.ext rfl h3, h4.dir, ?_⟩
  intro p hp hp'
  rcases h4.file p hp with e | ⟨hV, -⟩
  · exact e.symm
  · exact absurd hV hp'

/-- Non-vacuity of C130: the sample with two drifters meets its conditions, and the tracking of the first of them. -/
example : ∃ fs1 fs2 a b x, runMonths sampleTrackRun [(1990, 2), (1990, 3)] sampleLib (oneDir "/out".toList) = (fs1, none) ∧
    trackOnlyRun sampleTrackRun [(1990, 2), (1990, 3)] sampleLib (oneDir "/out".toList) = (fs2, none) ∧
    trackAll (fun x => intText ⌊x⌋) (fun s => match parseInt s with
      | .ok n => some (n : Rat)
      | .error _ => none) (fun l => l) planeGeo (fun _ _ _ _ _ _ => 0) driftParams "/out".toList "/out".toList "base".toList
      [⟨"D1".toList, "x".toList, [(1990, 1), (1990, 2), (1990, 3)], 1990, 2, ["regular"]⟩] fs1 = (a, x) ∧
    trackAll (fun x => intText ⌊x⌋) (fun s => match parseInt s with
      | .ok n => some (n : Rat)
      | .error _ => none) (fun l => l) planeGeo (fun _ _ _ _ _ _ => 0) driftParams "/out".toList "/out".toList "base".toList
      [⟨"D1".toList, "x".toList, [(1990, 1), (1990, 2), (1990, 3)], 1990, 2, ["regular"]⟩] fs2 = (b, x) ∧ b.dir = a.dir := by
  obtain ⟨fs1, deck, h1, -⟩ := C111_run_partial sampleTrackRun sampleLib sampleTrackRun_ready [(1990, 2), (1990, 3)]
    (oneDir "/out".toList) (by decide) (fun m hm => { (sampleRun_archive m hm).1 with })
    (fun m hm _ => { (sampleRun_archive m hm).2 with }) (fun m hm => sampleRun_place m hm)
  obtain ⟨fs2, a, b, x, h2, h3, h4, h5, -⟩ := C130_tracking sampleTrackRun _ _ floor_numerals (List.Perm.refl _) (List.Perm.refl _)
    (by unfold sampleTrackRun sampleRun IsBase; decide) [(1990, 2), (1990, 3)] (by decide)
    (by
      intro m hm l l' d hd r hr hdr
      have ar : ArchiveReady sampleTrackRun.read m := { (sampleRun_archive m hm).1 with }
      obtain ⟨n, hn⟩ := List.mem_iff_getElem?.mp hr
      obtain ⟨p, hp, r0, c1, c2, c3⟩ := forall2_get (checkedMonth_sources sampleTrackRun l l' m ar.month d hd).flip n r hn
      obtain ⟨e1, e2⟩ := recordsFor_source (List.mem_of_getElem? hp)
      have hs : p.1 ∈ [((1990 : Int), (1 : Int)), (1990, 2), (1990, 3), (1990, 4)] := by
        have : ∀ m ∈ [((1990 : Int), (2 : Int)), (1990, 3)], ∀ k ∈ around m,
          k ∈ [((1990 : Int), (1 : Int)), (1990, 2), (1990, 3), (1990, 4)] := by decide
        exact this m hm _ e1
      obtain ⟨-, -, -, -, -, i, hi, e⟩ := (fourFiles_facts p.1 hs).2.2 p.2 e2
      have hid : r.id = some i := by rw [c2.id, (C104_contents c1).1, e]
      have ht : '"' ∉ i.toList ∧ Tidy i.toList ∧ i.toList ≠ missing := by
        clear hid e
        unfold Tidy missing
        revert i; decide
      obtain ⟨-, -, -, -, -, -, -, -, hs, -⟩ := record_handed sampleTrackRun sampleTrackRun_ready.geo
        sampleTrackRun_ready.ships.toGoodShipParams l l' m ar d hd _ i ht sampleTrackRun_background
        (sampleTrackRun_records i m hm) r hr hid hdr
      exact hs)
    sampleLib _ fs1 h1 (fun x => intText ⌊x⌋) (fun l => l) planeGeo (fun _ _ _ _ _ _ => 0) driftParams "/out".toList
    (by unfold IsBase; decide) [⟨"D1".toList, "x".toList, [(1990, 1), (1990, 2), (1990, 3)], 1990, 2, ["regular"]⟩]
    (by
      intro j hj
      rw [List.mem_singleton] at hj
      subst hj
      refine ⟨by decide, by decide, ?_⟩
      rintro a ha ⟨k, -, hk⟩
      have : a.getLast? = some 'v' := by
        rcases hk with rfl | ⟨b, -, rfl⟩ <;> exact deckPath_last _ _ _ _ _
      clear hk
      revert a; decide +kernel)
  exact ⟨fs1, fs2, a, b, x, h1, h2, h3, h4, h5⟩

end MarineQC
