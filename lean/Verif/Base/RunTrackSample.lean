import Verif.Base.RunTrack
import Verif.Base.RunSample

/-! # A sample run with the tracking of a drifter -/

namespace MarineQC

open Spec

/-- The sample run with a background of 280 kelvin, and numbers written without their fractions. -/
noncomputable def sampleTrackRun : RunEnv Rat :=
  { sampleRun with
    read := { sampleEnv fourFiles with background := fun _ => .ok (flatField 1 3600 7200 280, flatField 1 3600 7200 0) }
    fmt := fun x => intText ⌊x⌋ }

theorem sampleTrackRun_ready : RunReady sampleTrackRun sampleLib :=
  { sampleRun_ready with
    background := by
      refine ⟨fun _ _ => ⟨_, rfl, Or.inl rfl, rfl, rfl⟩, fun _ t => ⟨_, rfl, ?_, ?_⟩⟩ <;>
        exact ⟨by norm_num [flatField], rfl, rfl⟩
    params := sampleParams_good
    numbers := fun x => intText_plain _ }

theorem flatMds_value {nt ny nx : Nat} {q la lo : Rat} {mo dy : Int} {x : Option Rat} (hd : IsDate 2004 mo dy)
    (h : (flatField nt ny nx q).getValueMds la lo (some mo) (some dy) = .ok x) : x = some q := by
  unfold Arr3.getValueMds at h
  rw [(badMonthDay_iff (some mo) (some dy)).mpr ⟨mo, dy, rfl, rfl, hd⟩] at h
  simp only [Bool.false_eq_true, if_false] at h
  unfold Arr3.get at h
  simp only [bind_ok_iff] at h
  obtain ⟨_, -, t, -, i, -, j, -, h⟩ := h
  injection h with h
  exact h.symm

theorem sampleTrackRun_background : SoundBackground (fun x => (⌊x⌋ : Rat)) sampleTrackRun.read where
  temperature day b hb la lo x hx := by
    injection hb with hb
    subst hb
    have := flat_ostia hx
    injection this with this
    subst this
    norm_num
  ice day b hb la lo x hx := by
    injection hb with hb
    subst hb
    have := flat_ostia hx
    injection this with this
    subst this
    norm_num
  variance season bg hb la lo mo dy x hx := by
    injection hb with hb
    subst hb
    by_cases hd : IsDate 2004 mo dy
    · have := flatMds_value hd hx
      injection this with this
      subst this
      norm_num
    · unfold Arr3.getValueMds at hx
      have : badMonthDay (some mo) (some dy) = true := by
        rw [← Bool.not_eq_false]
        intro hc
        obtain ⟨m, d, e1, e2, e3⟩ := (badMonthDay_iff (some mo) (some dy)).mp hc
        injection e1 with e1
        injection e2 with e2
        subst e1 e2
        exact hd e3
      rw [this] at hx
      cases hx
  both day b season bg _ hb la lo x mo dy v _ hd hv := by
    injection hb with hb
    subst hb
    rw [flatMds_value hd hv]
    simp

theorem fourFiles_drifter : ∀ m ∈ [((1990 : Int), (2 : Int)), (1990, 3)], ∀ d ∈ [(1 : Int), 2, 4, 5, 6, 7], IsDate m.1 m.2 d := by decide

theorem sampleTrackRun_records (ident : String) : ∀ m ∈ [((1990 : Int), (2 : Int)), (1990, 3)],
    DrifterRecords (fun x => (⌊x⌋ : Rat)) sampleTrackRun.read ident m := by
  intro m hm
  have hsub : m ∈ [((1990 : Int), (1 : Int)), (1990, 2), (1990, 3), (1990, 4)] := by
    revert m; decide
  have facts := (fourFiles_facts m hsub).2.2
  have hour : ∀ rec ∈ recordsIn (sampleEnv fourFiles).excl m (linesOfFile (sampleEnv fourFiles) m), hourGiven rec = some 12 := by
    intro rec hrec
    unfold hourGiven
    rw [(facts rec hrec).2.2.1]
  refine ⟨?_, ?_, ?_, ?_, ?_⟩
  · intro rec hrec _ _
    obtain ⟨-, -, -, -, ⟨u, hu, e⟩, -⟩ := facts rec hrec
    refine ⟨u, e, ?_⟩
    clear e
    unfold Plain Tidy missing
    revert u
    decide
  · intro rec hrec _ _
    obtain ⟨-, -, -, ⟨d, hd, e⟩, -⟩ := facts rec hrec
    exact ⟨d, e, fourFiles_drifter m hm d hd⟩
  · intro rec hrec _ _
    refine ⟨12, hour rec hrec, ?_⟩
    norm_num
  · intro rec hrec _ _ la hla
    rw [(facts rec hrec).1, Option.some.injEq] at hla
    subst hla
    norm_num
  · intro rec hrec rec' hrec' _ _ _ _ _ h h' e e' _
    rw [hour rec hrec, Option.some.injEq] at e
    rw [hour rec' hrec', Option.some.injEq] at e'
    rw [← e, ← e']

theorem fourFiles_tracked : (trackedRecords (sampleEnv fourFiles) [(1990, 2), (1990, 3)] [(1990, 1), (1990, 2), (1990, 3)] "D1       ").map
    (fun rec => textOf (rec.data "UID")) = [some "UID002", some "UID005"] := by decide +kernel

/-- Non-vacuity of C115 to C118: the sample meets their conditions.  The run over February and March and then the tracking of the
drifter from January to March complete, and the table in the directory asked for is that of its two reports of February. -/
example : ∃ fs' fs'' R R' order v,
    runMonths sampleTrackRun [(1990, 2), (1990, 3)] sampleLib (oneDir "/out".toList) = (fs', none) ∧
    trackingMain (fun x => intText ⌊x⌋) (fun s => match parseInt s with
      | .ok n => some (n : Rat)
      | .error _ => none) (fun l => l) planeGeo (fun _ _ _ _ _ _ => 0) driftParams "/out".toList "/out".toList "base".toList "D1".toList
      "x".toList [(1990, 1), (1990, 2), (1990, 3)] 1990 2 ["regular"] fs' = (fs'', none) ∧
    R.map (fun r => r.uid) = [some "UID002", some "UID005"] ∧
    trackingChecks planeGeo (fun _ _ _ _ _ _ => 0) driftParams R = .ok R' ∧ order.Perm [0, 1] ∧ VoyageOf planeGeo R' order v ∧
    HoldsTable fs'' (voyagePath "base".toList (trackingDir "/out".toList 1990 2) 1990 2 "Tracking_".toList (safeFilename "D1       ".toList))
      (trackingTable (fun x => intText ⌊x⌋) v) := by
  have key := C118_archive_to_tracks_partial sampleTrackRun _ _ floor_numerals (fun x => intText_end _) (fun l => l)
    (fun _ => List.Perm.refl _) sampleLib sampleTrackRun_ready (fun _ _ _ _ _ _ => 0) driftParams driftParams_ok
    [(1990, 2), (1990, 3)] [(1990, 1), (1990, 2), (1990, 3)] (oneDir "/out".toList) (by decide) rfl
    (fun m hm => { (sampleRun_archive m hm).1 with }) (fun m hm => { (sampleRun_archive m hm).2 with })
    (fun m hm => sampleRun_place m hm) sampleTrackRun_background (by decide) (by show '/' ∉ "base".toList; decide) "D1".toList "D1       "
    (by decide) (by decide) (by decide) (by unfold Tidy missing; decide) (sampleTrackRun_records _)
    (by
      intro m hm rec hrec _ j hj hs
      have hsub : m ∈ [((1990 : Int), (1 : Int)), (1990, 2), (1990, 3), (1990, 4)] := by
        clear hrec hj hs
        revert m; decide
      obtain ⟨-, -, -, -, -, i, hi, e⟩ := (fourFiles_facts m hsub).2.2 rec hrec
      rw [hj, Option.some.injEq] at e
      subst e
      clear hj
      have := (show ∀ j ∈ ["D1       ", "D2       ", "S        "], safeFilename j.toList = "D1       ".toList → j = "D1       " by decide)
      exact this j hi hs)
    (fun _ _ _ _ _ => rfl)
    (by
      intro e
      have := fourFiles_tracked
      rw [show trackedRecords (sampleEnv fourFiles) _ _ _ = [] from e] at this
      cases this)
    "/out".toList "x".toList (by decide) (by unfold IsBase; decide) 1990 2 ["regular"] (by decide)
    (by
      intro a ha
      refine ⟨rfl, ?_, ?_⟩
      · intro m hm x e0
        have e := congrArg (List.take 6) e0
        clear e0
        have : List.take 6 (monthDir sampleTrackRun.out m.1 m.2 ++ '/' :: x) = "/out/1".toList := by
          rw [List.take_append_of_le_length]
          · show List.take 6 (monthDir "/out".toList m.1 m.2) = _
            clear e
            revert m; decide
          · show 6 ≤ (monthDir "/out".toList m.1 m.2).length
            clear e
            revert m; decide
        rw [this] at e
        clear this hm
        revert a; decide
      · revert a; decide +kernel)
  obtain ⟨fs', fs'', R, R', order, v, t1, t2, t3, t4, t5, -, t6, t7⟩ := key
  have hR : R.map (fun r => r.uid) = [some "UID002", some "UID005"] := by
    rw [← fourFiles_tracked]
    have : ∀ {l : List Imma} {R : List Report}, List.Forall₂ (TrackedAs (fun x => (⌊x⌋ : Rat))) l R →
        R.map (fun r => r.uid) = l.map fun rec => textOf (rec.data "UID") := by
      intro l R h
      induction h with
      | nil => rfl
      | cons a _ ih => rw [List.map_cons, List.map_cons, a.uid, ih]
    exact this t3
  have hl : R.length = 2 := by simpa using congrArg List.length hR
  rw [hl] at t5
  exact ⟨fs', fs'', R, R', order, v, t1, t2, hR, t4, t5, t6, t7 _ (Or.inl ⟨Or.inr (by simp), rfl⟩)⟩

/-- Non-vacuity of C117: a checked month with a report, whose flags are digits. -/
example : ∃ d lib', checkedMonth sampleTrackRun sampleLib (1990, 2) = .ok (d, lib') ∧ ∀ r ∈ d.reps, FlagsIn r := by
  have hm : ((1990 : Int), (2 : Int)) ∈ [((1990 : Int), (2 : Int)), (1990, 3)] := by decide
  obtain ⟨d, lib', h⟩ := archive_checked sampleTrackRun sampleLib sampleTrackRun_ready (1990, 2)
    { (sampleRun_archive (1990, 2) hm).1 with }
  exact ⟨d, lib', h, C117_flags sampleTrackRun sampleTrackRun_ready.geo sampleTrackRun_ready.ships.toGoodShipParams sampleLib lib'
    (1990, 2) (by decide) d h⟩

end MarineQC
