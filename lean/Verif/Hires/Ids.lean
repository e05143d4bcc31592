import Verif.Hires.Files

/-!
# The list of drifters that the programs leave
-/

namespace MarineQC

open Spec

variable {F : Type} [LinearOrder F] [Zero F]

/-- The line of the list for a voyage. -/
def idLine : Except Err (List Report) → List Char
  | .ok (r :: _) =>
    match r.id with
    | some i => idFileLine i.toList
    | none => []
  | _ => []

/-- The text of the list. -/
def idText (G : Geo) (d : Deck) (es : List (Option String × List Nat)) : List Char := es.flatMap fun e => idLine (d.voyage G e.2)

theorem idLine_bones (v : Except Err (List Report)) : idLine (v.map (List.map bones)) = idLine v := by
  rcases v with e | _ | ⟨r, v⟩ <;> rfl

theorem idText_bare {G : Geo} {d : Deck} (hq : BoneFilter d.filter) (es : List (Option String × List Nat)) :
    idText G d.bare es = idText G d es := by
  unfold idText
  congr 1
  funext e
  rw [voyage_bones hq, idLine_bones]

theorem drifterRounds_text {fmt : Rat → List Char} {flags : List (String × List String)} {G : Geo} {runid dir : List Char} {y m : Int}
    {d : Deck} : ∀ (es : List (Option String × List Nat)) (fs : FileSys), (drifterRounds fmt flags G runid dir y m d es fs).2.2 = none →
      (drifterRounds fmt flags G runid dir y m d es fs).1 = idText G d es := by
  intro es
  induction es with
  | nil => intro fs _; rfl
  | cons e es ih =>
    intro fs h
    unfold drifterRounds at h ⊢
    have h1 : (drifterRound fmt flags G runid dir y m d e.2 fs).1 = idLine (d.voyage G e.2) := by
      unfold drifterRound idLine
      rcases d.voyage G e.2 with x | _ | ⟨r, v⟩
      · rfl
      · rfl
      · dsimp only
        cases r.id <;> rfl
    obtain ⟨s, f1, x, e1⟩ : ∃ s f1 x, drifterRound fmt flags G runid dir y m d e.2 fs = (s, f1, x) := ⟨_, _, _, rfl⟩
    rw [e1] at h1 h ⊢
    cases x with
    | some x => cases h
    | none =>
      dsimp only at h1 h ⊢
      rw [ih f1 h, h1]
      rfl

theorem hiresRounds_text {G : Geo} {runid dir : List Char} {y m : Int} {d : Deck} :
    ∀ (es : List (Option String × List Nat)) (fs : FileSys), (hiresRounds G runid dir y m d es fs).2.2 = none →
      (hiresRounds G runid dir y m d es fs).1 = idText G d es := by
  intro es
  induction es with
  | nil => intro fs _; rfl
  | cons e es ih =>
    intro fs h
    unfold hiresRounds at h ⊢
    have h1 : (hiresRound G runid dir y m d e.2 fs).1 = idLine (d.voyage G e.2) := by
      unfold hiresRound idLine
      rcases d.voyage G e.2 with x | _ | ⟨r, v⟩
      · rfl
      · rfl
      · dsimp only
        cases r.id <;> rfl
    obtain ⟨s, f1, x, e1⟩ : ∃ s f1 x, hiresRound G runid dir y m d e.2 fs = (s, f1, x) := ⟨_, _, _, rfl⟩
    rw [e1] at h1 h ⊢
    cases x with
    | some x => cases h
    | none =>
      dsimp only at h1 h ⊢
      rw [ih f1 h, h1]
      rfl

/-- The text of the list of a month's reports. -/
def idList (E : RunEnv F) (d : Deck) : List Char := idText E.geo (d.addFilter drifterFilter) (E.order d.idtracker)

theorem idList_near {E : RunEnv F} {d d' : Deck} (h : DeckNear d d') : idList E d = idList E d' := by
  unfold idList
  have hn : DeckNear (d.addFilter drifterFilter) (d'.addFilter drifterFilter) := ⟨h.reps, h.index⟩
  rw [← idText_bare (d := d.addFilter drifterFilter) bone_drifters, deckNear_bare hn rfl,
    idText_bare (d := d'.addFilter drifterFilter) bone_drifters, h.index]

theorem main_list {fmt : Rat → List Char} {dflags vflags : List (String × List String)} {E : RunEnv F} {m : Int × Int} {d : Deck}
    (hb : IsBase E.out) (hm : 0 ≤ m.1 ∧ 0 ≤ m.2) {fs fs1 : FileSys}
    (h : outputStage fmt dflags vflags E.geo E.runid E.out E.order true m.1 m.2 d fs = (fs1, none)) :
    fs1.file (idFilePath (monthDir E.out m.1 m.2)) = some (idList E d) := by
  unfold outputStage at h
  rw [safeMakeDir_eq _ hb hm.1 hm.2] at h
  dsimp only at h
  obtain ⟨-, h⟩ := thenDo_none h
  rw [if_pos rfl] at h
  unfold drifterOutput at h
  split_ifs at h
  · dsimp only at h
    obtain ⟨h1, h2⟩ := Prod.mk.inj h
    rw [← h1, drifterRounds_text _ _ h2]
    show (if _ then _ else _) = _
    rw [if_pos rfl]
    rfl
  · cases h

theorem hires_list {E : RunEnv F} {m : Int × Int} {d : Deck}
    (hb : IsBase E.out) (hm : 0 ≤ m.1 ∧ 0 ≤ m.2) {fs fs1 : FileSys}
    (h : hiresOutput E.geo E.runid E.out E.order true m.1 m.2 d fs = (fs1, none)) :
    fs1.file (idFilePath (monthDir E.out m.1 m.2)) = some (idList E d) := by
  unfold hiresOutput at h
  rw [safeMakeDir_eq _ hb hm.1 hm.2] at h
  dsimp only at h
  obtain ⟨-, h⟩ := thenDo_none h
  rw [if_pos rfl] at h
  unfold hiresDrifters at h
  split_ifs at h
  · dsimp only at h
    obtain ⟨h1, h2⟩ := Prod.mk.inj h
    rw [← h1, hiresRounds_text _ _ h2]
    show (if _ then _ else _) = _
    rw [if_pos rfl]
    rfl
  · cases h

theorem idPath_inj {out : List Char} {m k : Int × Int} (hm : 0 ≤ m.1) (hk : 0 ≤ k.1)
    (h : idFilePath (monthDir out m.1 m.2) = idFilePath (monthDir out k.1 k.2)) : m = k := by
  obtain ⟨x, ex⟩ := idFile_in (monthDir out m.1 m.2)
  obtain ⟨x', ex'⟩ := idFile_in (monthDir out k.1 k.2)
  exact inMonth_inj out x x' m.1 m.2 k.1 k.2 hm hk (by rw [← ex, ← ex', h])

theorem id_ne_voyage (dir dir' runid pre i : List Char) (y m : Int) : idFilePath dir ≠ voyagePath runid dir' y m pre i := by
  intro h
  have := congrArg List.getLast? h
  rw [voyagePath_last, idFile_last] at this
  exact absurd this (by decide)

theorem id_ne_deck (dir dir' runid pre : List Char) (y m : Int) : idFilePath dir ≠ deckPath runid dir' y m false pre := by
  intro h
  have := congrArg List.getLast? h
  rw [deckPath_last, idFile_last] at this
  exact absurd this (by decide)

/-- The output of another month leaves the list alone. -/
theorem main_list_else {fmt : Rat → List Char} {dflags vflags : List (String × List String)} {E : RunEnv F} {m k : Int × Int} {d : Deck}
    {t : Bool} (hb : IsBase E.out) (hm : 0 ≤ m.1 ∧ 0 ≤ m.2) (hk : 0 ≤ k.1) (hmk : k ≠ m) (fs : FileSys) :
    (outputStage fmt dflags vflags E.geo E.runid E.out E.order t m.1 m.2 d fs).1.file (idFilePath (monthDir E.out k.1 k.2)) =
      fs.file (idFilePath (monthDir E.out k.1 k.2)) := by
  have hne : idFilePath (monthDir E.out k.1 k.2) ≠ idFilePath (monthDir E.out m.1 m.2) := fun h => hmk (idPath_inj hk hm.1 h)
  unfold outputStage
  rw [safeMakeDir_eq _ hb hm.1 hm.2]
  dsimp only
  have hd : ∀ gs : FileSys, (deckWrite fmt deckVars dflags E.runid (monthDir E.out m.1 m.2) m.1 m.2 false d.reps gs).1.file
      (idFilePath (monthDir E.out k.1 k.2)) = gs.file (idFilePath (monthDir E.out k.1 k.2)) := by
    intro gs
    unfold deckWrite
    unfold thenDo
    split
    · rw [deckQc_leaves dflags (fun b _ => id_ne_deck _ _ _ _ _ _)]
      exact writeFile_keeps gs _ (id_ne_deck _ _ _ _ _ _)
    · exact writeFile_keeps gs _ (id_ne_deck _ _ _ _ _ _)
  have drift : ∀ gs : FileSys, (drifterOutput fmt vflags E.geo E.runid (monthDir E.out m.1 m.2) m.1 m.2 E.order d gs).1.file
      (idFilePath (monthDir E.out k.1 k.2)) = gs.file (idFilePath (monthDir E.out k.1 k.2)) := by
    intro gs
    unfold drifterOutput
    split_ifs
    · show (if _ then _ else _) = _
      rw [if_neg hne, rounds_leave (fun b _ i => id_ne_voyage _ _ _ _ _ _ _) (fun i => id_ne_voyage _ _ _ _ _ _ _)]
      show (if _ then _ else _) = _
      rw [if_neg hne]
    · rfl
  unfold thenDo
  split
  · split_ifs
    · rw [drift, hd, makeDir_file, makeDir_file]
    · rw [hd, makeDir_file, makeDir_file]
  · rw [hd, makeDir_file, makeDir_file]

theorem hires_list_else {E : RunEnv F} {m k : Int × Int} {d : Deck}
    {t : Bool} (hb : IsBase E.out) (hm : 0 ≤ m.1 ∧ 0 ≤ m.2) (hk : 0 ≤ k.1) (hmk : k ≠ m) (fs : FileSys) :
    (hiresOutput E.geo E.runid E.out E.order t m.1 m.2 d fs).1.file (idFilePath (monthDir E.out k.1 k.2)) =
      fs.file (idFilePath (monthDir E.out k.1 k.2)) := by
  refine (hiresOutput_leaves hb hm fs).1 _ ?_ (fun _ h => hmk (idPath_inj hk hm.1 h))
  rintro ⟨q, -, h | ⟨i, h⟩⟩
  · exact id_ne_deck _ _ _ _ _ _ h
  · exact id_ne_voyage _ _ _ _ _ _ _ h

/-- Both programs leave the same lists. -/
theorem lists_same {E : RunEnv F} {clim : Arr3} (hb : IsBase E.out) (ht : E.read.tracking = true) {k : Int × Int} (hk : 0 ≤ k.1) :
    ∀ (l : List (Int × Int)), (∀ m ∈ l, 0 ≤ m.1 ∧ 0 ≤ m.2) → ∀ (lib : ClimLib Arr3) (fs fs' fs1 fs2 : FileSys),
      k ∈ l ∨ fs'.file (idFilePath (monthDir E.out k.1 k.2)) = fs.file (idFilePath (monthDir E.out k.1 k.2)) →
      runMonths E l lib fs = (fs1, none) → hiresRun E clim l fs' = (fs2, none) →
      fs2.file (idFilePath (monthDir E.out k.1 k.2)) = fs1.file (idFilePath (monthDir E.out k.1 k.2)) := by
  intro l
  induction l with
  | nil =>
    intro _ lib fs fs' fs1 fs2 h0 h1 h2
    cases h1
    cases h2
    rcases h0 with h0 | h0
    · cases h0
    · exact h0
  | cons m l ih =>
    intro hm lib fs fs' fs1 fs2 h0 h1 h2
    unfold runMonths at h1
    unfold hiresRun at h2
    cases e1 : checkedMonth E lib m with
    | error x => rw [e1] at h1; cases h1
    | ok a =>
      obtain ⟨d, lib'⟩ := a
      cases e2 : hiresChecked E clim m with
      | error x => rw [e2] at h2; cases h2
      | ok d' =>
        rw [e1] at h1
        rw [e2] at h2
        dsimp only at h1 h2
        have hn := checked_near e1 e2
        obtain ⟨a1, b1⟩ := thenDo_none h1
        obtain ⟨a2, b2⟩ := thenDo_none h2
        rw [ht] at a1 b1 a2 b2
        refine ih (fun q hq => hm q (by simp [hq])) lib' _ _ _ _ ?_ b1 b2
        by_cases hkm : k = m
        · right
          subst hkm
          rw [hires_list hb (hm k (by simp)) (Prod.ext rfl a2), main_list hb (hm k (by simp)) (Prod.ext rfl a1), idList_near hn]
        · rcases h0 with h0 | h0
          · exact .inl ((List.mem_cons.mp h0).resolve_left hkm)
          · right
            rw [hires_list_else hb (hm m (by simp)) hk hkm, main_list_else hb (hm m (by simp)) hk hkm]
            exact h0

end MarineQC
