import Verif.Alone.Props
import Verif.Base.RunSample

/-!
# Samples for C135: an archive with and without a record of another platform
-/

namespace MarineQC

open Spec

/-- The three files of `threeFiles` without the record of platform B. -/
def withoutB : List (String × List (List Char)) :=
  [("/d/f1990-01", [sampleLine "199001 4" "A        "]),
   ("/d/f1990-02", [sampleLine "199002 5" "C        ", sampleLine "199002 6" "D        "]),
   ("/d/f1990-03", [sampleLine "199003 7" "E        "])]

theorem withoutB_read : observed (readReports (sampleEnv withoutB) sampleLib 1990 2) =
    some [⟨some "A        ", some 4, some 0, some (some (-3403 / 20))⟩,
      ⟨some "C        ", some 5, some 1, some (some (-1383 / 20))⟩,
      ⟨some "D        ", some 6, some 1, some (some (-1363 / 20))⟩,
      ⟨some "E        ", some 7, some 0, some (some (657 / 20))⟩] := by decide +kernel

theorem threeFiles_found : ∀ files ∈ [threeFiles, withoutB], ∀ ym ∈ [((1990 : Int), (1 : Int)), (1990, 2), (1990, 3)],
    ∃ name, icoadsFilenameFromStub (sampleEnv files).fs (sampleEnv files).dirs (sampleEnv files).files (some ym.1)
      (some ym.2) = .ok (some name) := by
  intro files hf ym hym
  simp only [List.mem_cons, List.not_mem_nil, or_false] at hym hf
  rcases hf with rfl | rfl <;> rcases hym with rfl | rfl | rfl
  · exact ⟨"/d/f1990-01".toList, by decide +kernel⟩
  · exact ⟨"/d/f1990-02".toList, by decide +kernel⟩
  · exact ⟨"/d/f1990-03".toList, by decide +kernel⟩
  · exact ⟨"/d/f1990-01".toList, by decide +kernel⟩
  · exact ⟨"/d/f1990-02".toList, by decide +kernel⟩
  · exact ⟨"/d/f1990-03".toList, by decide +kernel⟩

theorem threeFiles_facts : ∀ files ∈ [threeFiles, withoutB], ∀ ym ∈ [((1990 : Int), (1 : Int)), (1990, 2), (1990, 3)],
    (∀ line ∈ linesOfFile (sampleEnv files) ym, HasIdentifier line) ∧
    InOrder (recordsIn (sampleEnv files).excl ym (linesOfFile (sampleEnv files) ym)) ∧
    ∀ rec ∈ recordsIn (sampleEnv files).excl ym (linesOfFile (sampleEnv files) ym),
      numericOf (rec.data "LAT") = some 45 ∧ numericOf (rec.data "LON") = some 320 ∧ numericOf (rec.data "HR") = some 12 := by
  decide +kernel

theorem recordsOf_append (i : Option String) (l l' : List ((Int × Int) × Imma)) :
    recordsOf i (l ++ l') = recordsOf i l ++ recordsOf i l' := by
  unfold recordsOf
  exact List.filter_append ..

theorem threeFiles_lines : linesOfFile (sampleEnv threeFiles) (1990, 1) =
      linesOfFile (sampleEnv withoutB) (1990, 1) ++ [sampleLine "199001 5" "B        "] ∧
    linesOfFile (sampleEnv threeFiles) (1990, 2) = linesOfFile (sampleEnv withoutB) (1990, 2) ∧
    linesOfFile (sampleEnv threeFiles) (1990, 3) = linesOfFile (sampleEnv withoutB) (1990, 3) := by decide +kernel

theorem lineB_other : ∀ i ∈ [some "A        ", some "C        ", some "D        ", some "E        "],
    (recordsOf i ((recordsIn (sampleEnv threeFiles).excl (1990, 1) [sampleLine "199001 5" "B        "]).map
      fun rec => ((1990, 1), rec))).length = 0 := by decide +kernel

theorem threeFiles_platform (i : Option String) (hi : i ∈ [some "A        ", some "C        ", some "D        ", some "E        "]) :
    recordsOf i (recordsFor (sampleEnv withoutB) [(1990, 1), (1990, 2), (1990, 3)]) =
    recordsOf i (recordsFor (sampleEnv threeFiles) [(1990, 1), (1990, 2), (1990, 3)]) := by
  have hB := List.length_eq_zero_iff.mp (lineB_other i hi)
  unfold recordsFor
  simp only [List.flatMap_cons, List.flatMap_nil, List.append_nil, recordsOf_append]
  rw [threeFiles_lines.1, threeFiles_lines.2.1, threeFiles_lines.2.2]
  have e : ∀ l, recordsIn (sampleEnv threeFiles).excl (1990, 1) (l ++ [sampleLine "199001 5" "B        "]) =
      recordsIn (sampleEnv threeFiles).excl (1990, 1) l ++
        recordsIn (sampleEnv threeFiles).excl (1990, 1) [sampleLine "199001 5" "B        "] := by
    intro l
    unfold recordsIn
    exact List.filterMap_append ..
  rw [e, List.map_append, recordsOf_append, hB, List.append_nil]
  rfl

/-- The sample run over the archive of `files`. -/
noncomputable def runOver (files : List (String × List (List Char))) : RunEnv Rat := { sampleRun with read := sampleEnv files }

theorem runOver_checked (files) (hf : files ∈ [threeFiles, withoutB]) :
    ∃ d lib', checkedMonth (runOver files) sampleLib (1990, 2) = .ok (d, lib') := by
  have hR := sampleRun_ready
  refine C110_completes_partial (runOver files) (sampleEnv_ready _) hR.params hR.geo hR.ships hR.buddies sampleLib hR.library
    hR.deviations (1990, 2) (by decide) (by decide) (1990, 1) (by decide) (by decide) ?_ ?_ ?_ ?_
  · exact threeFiles_found files hf
  · exact fun ym h => (threeFiles_facts files hf ym h).1
  · intro ym h line hl rec hu
    obtain ⟨h1, h2, h3⟩ := (threeFiles_facts files hf ym h).2.2 rec (used_recordsIn hl hu)
    refine ⟨⟨45, 320, h1, h2, by norm_num, by norm_num, by norm_num, by norm_num⟩, ?_⟩
    intro h hh
    rw [h3] at hh
    injection hh with hh
    subst hh
    norm_num
  · exact fun ym h => (threeFiles_facts files hf ym h).2.1

theorem forall2_map_eq' {α β γ : Type} {R : α → β → Prop} {f : α → γ} {g : β → γ} {l : List α} {l' : List β}
    (h : List.Forall₂ R l l') (hf : ∀ a b, R a b → f a = g b) : l.map f = l'.map g := by
  induction h with
  | nil => rfl
  | cons e _ ih => rw [List.map_cons, List.map_cons, hf _ _ e, ih]

theorem runOver_seen (files) {d : Deck} {lib' : ClimLib Arr3}
    (h : checkedMonth (runOver files) sampleLib (1990, 2) = .ok (d, lib')) :
    (observed (readReports (sampleEnv files) sampleLib 1990 2)).map (·.map fun r => (r.id, r.back)) =
      some (d.reps.map fun r => (r.id, r.ext "OSTIA")) := by
  obtain ⟨_, reps, -, -, -, h1, -, s, h2, rfl⟩ := checkedMonth_parts (by decide) h
  have h2 : readReports (sampleEnv files) sampleLib 1990 2 = .ok s := h2
  rw [h2]
  unfold observed
  simp only [Except.toOption, Option.map_some, List.map_map, Option.some.injEq]
  refine forall2_map_eq' h1 ?_
  intro a b hab
  simp only [Function.comp, seenOf, hab.id, hab.ext "OSTIA" (by decide)]

/-- Non-vacuity of C135: the sample month with and without the record of platform B.  Both are checked, and the reports of C
are the same but for the background and the flags of the buddy checks. -/
example : ∃ d d' l l', checkedMonth (runOver threeFiles) sampleLib (1990, 2) = .ok (d, l) ∧
    checkedMonth (runOver withoutB) sampleLib (1990, 2) = .ok (d', l') ∧
    List.Forall₂ SameButBuddies (reportsOf (some "C        ") d.reps) (reportsOf (some "C        ") d'.reps) := by
  obtain ⟨d, l, h⟩ := runOver_checked threeFiles (by simp)
  obtain ⟨d', l', h'⟩ := runOver_checked withoutB (by simp)
  refine ⟨d, d', l, l', h, h', ?_⟩
  exact C135_other_platforms_partial (runOver threeFiles) (sampleEnv withoutB).fs (sampleEnv withoutB).lines sampleLib sampleLib l l'
    (fun _ _ _ => rfl) (1990, 1) (1990, 2) (by decide) (by decide) (some "C        ")
    (threeFiles_platform _ (by simp)) d d' h h'

/-- **C135, violated.**  With a record of another platform in the archive, the report of platform C gets another background
temperature: the value of the day of the other platform's report. -/
theorem C135_background_violation : ∃ d d' l l', checkedMonth (runOver threeFiles) sampleLib (1990, 2) = .ok (d, l) ∧
    checkedMonth (runOver withoutB) sampleLib (1990, 2) = .ok (d', l') ∧
    recordsOf (some "C        ") (recordsFor (sampleEnv withoutB) [(1990, 1), (1990, 2), (1990, 3)]) =
      recordsOf (some "C        ") (recordsFor (sampleEnv threeFiles) [(1990, 1), (1990, 2), (1990, 3)]) ∧
    (reportsOf (some "C        ") d.reps).map (fun r => r.ext "OSTIA") = [some (some (-3383 / 20))] ∧
    (reportsOf (some "C        ") d'.reps).map (fun r => r.ext "OSTIA") = [some (some (-1383 / 20))] := by
  obtain ⟨d, l, h⟩ := runOver_checked threeFiles (by simp)
  obtain ⟨d', l', h'⟩ := runOver_checked withoutB (by simp)
  have key : ∀ l : List Report, (reportsOf (some "C        ") l).map (fun r => r.ext "OSTIA") =
      ((l.map fun r => (r.id, r.ext "OSTIA")).filter fun p => decide (p.1 = some "C        ")).map (·.2) := by
    intro l
    unfold reportsOf
    rw [List.filter_map, List.map_map]
    rfl
  refine ⟨d, d', l, l', h, h', threeFiles_platform _ (by simp), ?_, ?_⟩
  · have e := runOver_seen _ h
    rw [threeFiles_read, Option.map_some, Option.some.injEq] at e
    rw [key, ← e]
    decide +kernel
  · have e := runOver_seen _ h'
    rw [withoutB_read, Option.map_some, Option.some.injEq] at e
    rw [key, ← e]
    decide +kernel

end MarineQC
