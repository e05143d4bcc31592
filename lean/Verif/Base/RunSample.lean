import Verif.Base.RunArchive
import Verif.Base.ReadNeeds

/-! # A sample run over months -/

namespace MarineQC

open Spec

/-- A line with the platform type and the unique identifier: the core of 108 characters, attachment 1 and attachment 98. -/
def fullLine (date ident pt uid : String) : List Char :=
  sampleLine date ident ++ List.replicate (108 - (sampleLine date ident).length) ' ' ++ " 165".toList ++ List.replicate 12 ' ' ++
    pt.toList ++ List.replicate 47 ' ' ++ "9815".toList ++ uid.toList ++ List.replicate 5 ' '

/-- Four months with two drifters and a ship. -/
def fourFiles : List (String × List (List Char)) :=
  [("/d/f1990-01", [fullLine "199001 4" "D1       " " 7" "UID001"]),
   ("/d/f1990-02", [fullLine "199002 4" "D1       " " 7" "UID002", fullLine "199002 5" "S        " " 5" "UID003",
     fullLine "199002 6" "D2       " " 7" "UID004", fullLine "199002 7" "D1       " " 7" "UID005"]),
   ("/d/f1990-03", [fullLine "199003 1" "S        " " 5" "UID006", fullLine "199003 2" "D2       " " 7" "UID007"]),
   ("/d/f1990-04", [])]

/-- A run with tracking. -/
noncomputable def sampleRun : RunEnv Rat where
  read := sampleEnv fourFiles
  geo := planeGeo
  rnd := fun q => q
  ships := sampleShipParams
  span := fullXspan
  buddy := sampleBuddies
  fmt := fun _ => "1".toList
  dflags := deckFlags
  vflags := voyageFlags
  order := fun l => l
  runid := "base".toList
  out := "/out".toList

theorem sampleRun_ready : RunReady sampleRun sampleLib where
  background := sampleEnv_ready _
  params := sampleParams_good
  geo := planeGeo_isDistance
  ships := sampleShipParams_sound
  buddies := fun f g hf hg => { sampleBuddies_sound with dpt := hf, slp := hg }
  library := sampleLib_ready
  deviations := by
    intro v hv
    simp only [List.mem_cons, List.not_mem_nil, or_false] at hv
    rcases hv with rfl | rfl <;> exact ⟨_, rfl, flat_mds _⟩
  numbers := fun _ => by show Plain "1".toList; unfold Plain; decide
  dflags := List.Perm.refl _
  vflags := List.Perm.refl _
  order := fun _ => List.Perm.refl _

instance (l : List Imma) : Decidable (InOrder l) := by unfold InOrder; infer_instance

theorem fourFiles_facts : ∀ ym ∈ [((1990 : Int), (1 : Int)), (1990, 2), (1990, 3), (1990, 4)],
    (∀ line ∈ linesOfFile (sampleEnv fourFiles) ym, HasIdentifier line) ∧
    InOrder (recordsIn (sampleEnv fourFiles).excl ym (linesOfFile (sampleEnv fourFiles) ym)) ∧
    ∀ rec ∈ recordsIn (sampleEnv fourFiles).excl ym (linesOfFile (sampleEnv fourFiles) ym),
      numericOf (rec.data "LAT") = some 45 ∧ numericOf (rec.data "LON") = some 320 ∧ numericOf (rec.data "HR") = some 12 ∧
      (∃ d ∈ [1, 2, 4, 5, 6, 7], dayOf rec = some d) ∧
      (∃ u ∈ ["UID001", "UID002", "UID003", "UID004", "UID005", "UID006", "UID007"], textOf (rec.data "UID") = some u) ∧
      ∃ i ∈ ["D1       ", "D2       ", "S        "], textOf (rec.data "ID") = some i := by
  decide +kernel

theorem fourFiles_found : ∀ ym ∈ [((1990 : Int), (1 : Int)), (1990, 2), (1990, 3), (1990, 4)],
    ∃ name, icoadsFilenameFromStub (sampleEnv fourFiles).fs (sampleEnv fourFiles).dirs (sampleEnv fourFiles).files (some ym.1)
      (some ym.2) = .ok (some name) := by
  intro ym hym
  simp only [List.mem_cons, List.not_mem_nil, or_false] at hym
  rcases hym with rfl | rfl | rfl | rfl
  · exact ⟨"/d/f1990-01".toList, by decide +kernel⟩
  · exact ⟨"/d/f1990-02".toList, by decide +kernel⟩
  · exact ⟨"/d/f1990-03".toList, by decide +kernel⟩
  · exact ⟨"/d/f1990-04".toList, by decide +kernel⟩

theorem fourFiles_uids : (recordsFor (sampleEnv fourFiles) [(1990, 2)]).map (fun p => textOf (p.2.data "UID")) =
    [some "UID002", some "UID003", some "UID004", some "UID005"] ∧
    (recordsFor (sampleEnv fourFiles) [(1990, 3)]).map (fun p => textOf (p.2.data "UID")) = [some "UID006", some "UID007"] := by
  decide +kernel

theorem sampleRun_archive : ∀ m ∈ [((1990 : Int), (2 : Int)), (1990, 3)], ArchiveReady sampleRun.read m ∧
    DriftersArchived sampleRun.read m := by
  intro m hm
  have hsub : ∀ ym ∈ around m, ym ∈ [((1990 : Int), (1 : Int)), (1990, 2), (1990, 3), (1990, 4)] := by
    revert m; decide
  have hin : m ∈ around m := by simp [around]
  have hrange : (2 ≤ m.1 ∧ m.1 ≤ 9998) ∧ 1 ≤ m.2 ∧ m.2 ≤ 12 := by revert m; decide
  have names : ∀ rec ∈ recordsIn (sampleEnv fourFiles).excl m (linesOfFile (sampleEnv fourFiles) m), ∀ i,
      textOf (rec.data "ID") = some i → i ∈ ["D1       ", "D2       ", "S        "] := by
    intro rec hrec i hi
    obtain ⟨-, -, -, -, -, j, hj, e⟩ := (fourFiles_facts m (hsub m hin)).2.2 rec hrec
    rw [e, Option.some.injEq] at hi
    subst hi
    exact hj
  refine ⟨⟨hrange.1, hrange.2, fun ym h => fourFiles_found ym (hsub ym h), fun ym h => (fourFiles_facts ym (hsub ym h)).1, ?_,
    fun ym h => (fourFiles_facts ym (hsub ym h)).2.1, ?_, ?_, ?_⟩, ?_, ?_, ?_⟩
  · intro ym h rec hrec
    obtain ⟨h1, h2, h3, -⟩ := (fourFiles_facts ym (hsub ym h)).2.2 rec hrec
    refine ⟨⟨45, 320, h1, h2, by norm_num, by norm_num, by norm_num, by norm_num⟩, ?_⟩
    intro h hh
    rw [h3] at hh
    injection hh with hh
    subst hh
    norm_num
  · have hne : recordsFor (sampleEnv fourFiles) [m] ≠ [] := by
      intro e
      have h2 := fourFiles_uids
      simp only [List.mem_cons, List.not_mem_nil, or_false] at hm
      rcases hm with rfl | rfl
      · rw [e] at h2; exact absurd h2.1 (by simp)
      · rw [e] at h2; exact absurd h2.2 (by simp)
    intro e
    apply hne
    unfold recordsFor at e ⊢
    rw [List.flatMap_eq_nil_iff] at e ⊢
    intro ym hym
    rw [List.mem_singleton] at hym
    exact e ym (by rw [hym]; exact hin)
  · intro rec hrec
    obtain ⟨-, -, -, -, ⟨u, hu, e⟩, -⟩ := (fourFiles_facts m (hsub m hin)).2.2 rec hrec
    refine ⟨u, e, ?_⟩
    clear e
    unfold Plain
    revert u
    decide
  · intro rec hrec i hi
    have := names rec hrec i hi
    clear hi
    revert i
    decide
  · intro rec hrec _ _
    obtain ⟨-, -, -, ⟨d, hd, e⟩, -⟩ := (fourFiles_facts m (hsub m hin)).2.2 rec hrec
    refine ⟨d, e, ?_⟩
    clear e
    revert d
    decide
  · intro rec hrec _ i hi
    have := names rec hrec i hi
    clear hi
    revert i
    decide
  · intro rec hrec rec' hrec' _ _ i j hi hj
    have h1 := names rec hrec i hi
    have h2 := names rec' hrec' j hj
    clear hi hj
    have : ∀ i ∈ ["D1       ", "D2       ", "S        "], ∀ j ∈ ["D1       ", "D2       ", "S        "],
      safeFilename i.toList = safeFilename j.toList → i = j := by decide
    exact this i h1 j h2

theorem sampleRun_place : ∀ m ∈ [((1990 : Int), (2 : Int)), (1990, 3)],
    OutputPlace sampleRun.runid sampleRun.out m.1 m.2 (oneDir "/out".toList) := by
  intro m hm
  have e : (monthDir "/out".toList m.1 m.2).length = 12 := by revert m; decide
  have long : ∀ x, (oneDir "/out".toList).dir (monthDir "/out".toList m.1 m.2 ++ '/' :: x) = false := by
    intro x
    rw [Bool.eq_false_iff]
    intro h
    have h : monthDir "/out".toList m.1 m.2 ++ '/' :: x = "/out".toList := beq_iff_eq.mp h
    have h := congrArg List.length h
    rw [List.length_append, e] at h
    simp at h
    omega
  exact ⟨by unfold sampleRun; decide, by unfold sampleRun IsBase; decide, by unfold sampleRun; decide, rfl, rfl,
    fun _ => long _, fun _ _ => long _, long "ID_file.txt".toList⟩

/-- Non-vacuity of C109, C110 and C111: the sample meets their conditions.  The run over February and March completes, and the
files of February list its four records. -/
example : ∃ (fs' : FileSys) (t : List (List (List Char))),
    runMonths sampleRun [(1990, 2), (1990, 3)] sampleLib (oneDir "/out".toList) = (fs', none) ∧
    HoldsTable fs' (deckPath "base".toList "/out/1990/02".toList 1990 2 false "Variables_".toList) t ∧
    t.map List.head? = ["UID", "UID002", "UID003", "UID004", "UID005"].map fun u => some u.toList := by
  obtain ⟨fs', deck, h1, h2, -⟩ := C111_run_partial sampleRun sampleLib sampleRun_ready [(1990, 2), (1990, 3)] (oneDir "/out".toList)
    (by decide) (fun m hm => (sampleRun_archive m hm).1) (fun m hm _ => (sampleRun_archive m hm).2) sampleRun_place
  obtain ⟨⟨lib', h3⟩, h4⟩ := h2 (1990, 2) (by simp)
  obtain ⟨t, t1, t2⟩ := C109_records sampleRun sampleLib lib' (1990, 2) (by decide) _ h3 _ fs' h4.1 "Variables_" (by simp)
  refine ⟨fs', t, h1, t1, ?_⟩
  rw [t2]
  have := congrArg (List.map fun o : Option String => some (o.getD "").toList) fourFiles_uids.1
  rw [List.map_map] at this
  exact congrArg (some "UID".toList :: ·) this

/-- Non-vacuity of C108: a library with a background left from another month makes no difference for the sample. -/
example : ∃ d l l', checkedMonth sampleRun sampleLib (1990, 2) = .ok (d, l) ∧
    checkedMonth sampleRun (sampleLib ++ [("OSTIA", [("mean", flatField 1 3600 7200 7)])]) (1990, 2) = .ok (d, l') := by
  obtain ⟨d, l, h⟩ := archive_checked sampleRun sampleLib sampleRun_ready (1990, 2) (sampleRun_archive _ (by simp)).1
  obtain ⟨l', h'⟩ := C108_reports sampleRun sampleLib (sampleLib ++ [("OSTIA", [("mean", flatField 1 3600 7200 7)])]) (by
    intro v t hv
    have : dictGet (sampleLib ++ [("OSTIA", [("mean", flatField 1 3600 7200 7)])]) v = dictGet sampleLib v := by
      generalize sampleLib = c
      induction c with
      | nil => simp [dictGet, Ne.symm hv]
      | cons a c ih => rw [List.cons_append, dictGet, dictGet, ih]
    unfold ClimLib.getField
    rw [this]) (1990, 2) d l h
  exact ⟨d, l, l', h, h'⟩

end MarineQC
