import Verif.Hires.Decks
import Verif.TrackOnly.Files

/-!
# The files of the program for high resolution
-/

namespace MarineQC

open Spec

variable {F : Type} [LinearOrder F] [Zero F]

/-! ## Names -/

theorem suffix_label {a b runid : List Char} (h : a ++ (runid ++ ".csv".toList) = b ++ (runid ++ ".csv".toList)) : a = b :=
  List.append_cancel_right h

/-- The name of a file, without its directory, in the three parts that can be told apart. -/
def nameOf (pre rest : List Char) (y m : Int) : List Char := pre ++ (intText y ++ zeroPad 2 m ++ '_' :: rest)

theorem deckPath_name (runid dir pre : List Char) (y m : Int) :
    deckPath runid dir y m false pre = dir ++ '/' :: nameOf pre (runid ++ ".csv".toList) y m := by
  unfold deckPath nameOf
  simp [List.append_assoc]

theorem voyagePath_name (runid dir pre i : List Char) (y m : Int) :
    voyagePath runid dir y m pre i = dir ++ '/' :: nameOf pre (i ++ '_' :: (runid ++ ".csv".toList)) y m := by
  unfold voyagePath nameOf
  simp [List.append_assoc]

theorem nameOf_inj {out pre pre' rest rest' : List Char} {y m y' m' : Int} (hp : Beginning pre) (hp' : Beginning pre')
    (hy : 0 ≤ y) (hm : 0 ≤ m) (hy' : 0 ≤ y')
    (h : monthDir out y m ++ '/' :: nameOf pre rest y m = monthDir out y' m' ++ '/' :: nameOf pre' rest' y' m') :
    (y, m) = (y', m') ∧ pre = pre' ∧ rest = rest' := by
  have e := inMonth_inj out _ _ y m y' m' hy hy' h
  cases e
  have h := List.append_cancel_left h
  simp only [List.cons.injEq, true_and] at h
  obtain ⟨d1, d2⟩ := yearMonth_digits y m hy hm
  obtain ⟨q1, -, q3⟩ := split_at_digits pre pre' (intText y ++ zeroPad 2 m) (intText y ++ zeroPad 2 m) rest rest' hp hp' d1 d1 d2 d2 h
  exact ⟨rfl, q1, q3⟩

theorem sst_beginning : Beginning "SST_qc_".toList := by
  unfold Beginning
  decide

theorem hiresFile_name {runid out p : List Char} {months : List (Int × Int)} (h : HiresFlagFile runid out months p) :
    ∃ m ∈ months, ∃ c, (c = [] ∨ ∃ i, c = i ++ ['_']) ∧
      p = monthDir out m.1 m.2 ++ '/' :: nameOf "SST_qc_".toList (c ++ ("hires_".toList ++ (runid ++ ".csv".toList))) m.1 m.2 := by
  obtain ⟨m, hm, h | ⟨i, h⟩⟩ := h
  · refine ⟨m, hm, [], .inl rfl, ?_⟩
    rw [h, deckPath_name]
    simp [List.append_assoc]
  · refine ⟨m, hm, i ++ ['_'], .inr ⟨i, rfl⟩, ?_⟩
    rw [h, voyagePath_name]
    simp [List.append_assoc]

theorem mainFile_not_hires {runid out p : List Char} {months : List (Int × Int)} (hm : ∀ m ∈ months, 0 ≤ m.1 ∧ 0 ≤ m.2)
    (h : MainFile runid out months p) : ¬ HiresFlagFile runid out months p := by
  intro hh
  obtain ⟨k, hk, c, hc, e⟩ := hiresFile_name hh
  have hdeck : ∀ m ∈ months, ∀ pre, Beginning pre → p ≠ deckPath runid (monthDir out m.1 m.2) m.1 m.2 false pre := by
    intro m hmm pre hpre e'
    rw [deckPath_name, e] at e'
    obtain ⟨-, -, q⟩ := nameOf_inj sst_beginning hpre (hm k hk).1 (hm k hk).2 (hm m hmm).1 e'
    have := congrArg List.length q
    simp at this
    omega
  rcases h with ⟨m, hmm, h | ⟨b, hb, h⟩⟩ | ⟨m, hmm, h⟩ | ⟨m, hmm, i, h⟩ | ⟨m, hmm, b, hb, i, hi, h⟩
  · exact hdeck m hmm _ deck_beginnings.1 h
  · exact hdeck m hmm _ (deck_beginnings.2.1 b hb) h
  · have l1 : p.getLast? = some 'v' := by
      obtain ⟨m', -, h' | ⟨i, h'⟩⟩ := hh
      · rw [h', deckPath_last]
      · rw [h', voyagePath_last]
    rw [h, idFile_last] at l1
    exact absurd l1 (by decide)
  · rw [voyagePath_name, e] at h
    obtain ⟨-, q, -⟩ := nameOf_inj sst_beginning deck_beginnings.1 (hm k hk).1 (hm k hk).2 (hm m hmm).1 h
    exact absurd q (by decide)
  · rw [voyagePath_name, e] at h
    obtain ⟨-, -, q⟩ := nameOf_inj sst_beginning (deck_beginnings.2.2 b hb) (hm k hk).1 (hm k hk).2 (hm m hmm).1 h
    have q' : c ++ "hires".toList ++ ['_'] = i ++ ['_'] := by
      apply suffix_label (runid := runid)
      have : (c ++ "hires".toList ++ ['_']) ++ (runid ++ ".csv".toList) = c ++ ("hires_".toList ++ (runid ++ ".csv".toList)) := by
        simp [List.append_assoc]
      rw [this, q]
      simp [List.append_assoc]
    have q'' := List.append_cancel_right q'
    apply hi
    rcases hc with rfl | ⟨j, rfl⟩
    · exact .inl q''.symm
    · refine .inr ⟨j, ?_⟩
      rw [← q'']
      simp [List.append_assoc]

/-! ## What is written where -/

theorem deckQc_leaves {runid dir : List Char} {y m : Int} {reps : List Report} (flags : List (String × List String)) {p : List Char}
    (hp : ∀ b ∈ flags, p ≠ deckPath runid dir y m false (b.1.toList ++ "_qc_".toList)) :
    ∀ fs : FileSys, (deckWriteQc runid dir y m false reps flags fs).1.file p = fs.file p := by
  induction flags with
  | nil => intro fs; rfl
  | cons b l ih =>
    intro fs
    unfold deckWriteQc
    have hs := writeFile_keeps fs (tableLines reps (reps.filter (inMonth y m))
      (fun r => printQcBlock r b.1 b.2 true true) (fun r => printQcBlock r b.1 b.2 false true)) (hp b (by simp))
    unfold thenDo
    split
    · rw [ih (fun c hc => hp c (by simp [hc]))]
      exact hs
    · exact hs

theorem deckQc_dir {runid dir : List Char} {y m : Int} {reps : List Report} (flags : List (String × List String)) :
    ∀ fs : FileSys, (deckWriteQc runid dir y m false reps flags fs).1.dir = fs.dir := by
  induction flags with
  | nil => intro fs; rfl
  | cons b l ih =>
    intro fs
    unfold deckWriteQc
    have hs := writeFile_dir (fs := fs) (p := deckPath runid dir y m false (b.1.toList ++ "_qc_".toList))
      (L := tableLines reps (reps.filter (inMonth y m))
      (fun r => printQcBlock r b.1 b.2 true true) (fun r => printQcBlock r b.1 b.2 false true)) rfl
    unfold thenDo
    split
    · rw [ih]
      exact hs
    · exact hs

theorem voyageQc_dir {runid dir : List Char} {y m : Int} {v : List Report} (flags : List (String × List String)) :
    ∀ fs : FileSys, (voyageWriteQc runid dir y m v flags fs).1.dir = fs.dir := by
  induction flags with
  | nil => intro fs; rfl
  | cons b l ih =>
    intro fs
    unfold voyageWriteQc
    cases v with
    | nil => rfl
    | cons a v =>
      dsimp only
      cases a.id with
      | none => rfl
      | some i =>
        dsimp only
        unfold thenDo
        have hs := writeFile_dir (fs := fs) (p := voyagePath runid dir y m (b.1.toList ++ "_qc_".toList) i.toList)
          (L := tableLines (a :: v) ((a :: v).filter (inMonth y m))
          (fun r => printQcBlock r b.1 b.2 true true) (fun r => printQcBlock r b.1 b.2 false true)) rfl
        split
        · rw [ih]
          exact hs
        · exact hs

theorem hiresRounds_leave {runid dir : List Char} {y m : Int} {G : Geo} {d : Deck} {p : List Char}
    (hp : ∀ i, p ≠ voyagePath (hiresLabel runid) dir y m "SST_qc_".toList i) (es : List (Option String × List Nat)) :
    ∀ fs : FileSys, (hiresRounds G runid dir y m d es fs).2.1.file p = fs.file p ∧
      (hiresRounds G runid dir y m d es fs).2.1.dir = fs.dir := by
  have hr : ∀ (l : List Nat) (fs : FileSys), (hiresRound G runid dir y m d l fs).2.1.file p = fs.file p ∧
      (hiresRound G runid dir y m d l fs).2.1.dir = fs.dir := by
    intro l fs
    unfold hiresRound
    cases d.voyage G l with
    | error e => exact ⟨rfl, rfl⟩
    | ok v =>
      cases v with
      | nil => exact ⟨rfl, rfl⟩
      | cons a v =>
        dsimp only
        cases a.id with
        | none => exact ⟨rfl, rfl⟩
        | some i =>
          refine ⟨voyageQc_leaves (runid := hiresLabel runid) (v := a :: v) hiresFlags ?_ (Prod.mk.eta (p := voyageWriteQc
            (hiresLabel runid) dir y m (a :: v) hiresFlags fs)).symm, voyageQc_dir hiresFlags fs⟩
          intro b hb i
          rw [List.mem_singleton.mp hb]
          exact hp i
  induction es with
  | nil => intro fs; exact ⟨rfl, rfl⟩
  | cons e es ih =>
    intro fs
    unfold hiresRounds
    have h1 := hr e.2 fs
    obtain ⟨s, f1, x, e1⟩ : ∃ s f1 x, hiresRound G runid dir y m d e.2 fs = (s, f1, x) := ⟨_, _, _, rfl⟩
    rw [e1] at h1 ⊢
    cases x with
    | some x => exact h1
    | none =>
      dsimp only at h1 ⊢
      rw [(ih f1).1, (ih f1).2]
      exact h1

/-- The output of a month: files other than its own are left alone, and no directory is made besides those of the month. -/
theorem hiresOutput_leaves {G : Geo} {runid out : List Char} {order : List (Option String × List Nat) → List (Option String × List Nat)}
    {tracking : Bool} {m : Int × Int} {d : Deck} (hb : IsBase out) (hm : 0 ≤ m.1 ∧ 0 ≤ m.2) (fs : FileSys) :
    (∀ p, ¬ HiresFlagFile runid out [m] p → (tracking = true → p ≠ idFilePath (monthDir out m.1 m.2)) →
      (hiresOutput G runid out order tracking m.1 m.2 d fs).1.file p = fs.file p) ∧
    (hiresOutput G runid out order tracking m.1 m.2 d fs).1.dir =
      (makeDir (makeDir fs (out ++ '/' :: intText m.1)) (monthDir out m.1 m.2)).dir := by
  unfold hiresOutput
  rw [safeMakeDir_eq _ hb hm.1 hm.2]
  dsimp only
  generalize hg : makeDir (makeDir fs (out ++ '/' :: intText m.1)) (monthDir out m.1 m.2) = gs
  have hgf : gs.file = fs.file := by rw [← hg, makeDir_file, makeDir_file]
  have drift : ∀ gs : FileSys, (∀ p, (∀ i, p ≠ voyagePath (hiresLabel runid) (monthDir out m.1 m.2) m.1 m.2 "SST_qc_".toList i) →
      p ≠ idFilePath (monthDir out m.1 m.2) →
      (hiresDrifters G runid (monthDir out m.1 m.2) m.1 m.2 order d gs).1.file p = gs.file p) ∧
      (hiresDrifters G runid (monthDir out m.1 m.2) m.1 m.2 order d gs).1.dir = gs.dir := by
    intro gs
    unfold hiresDrifters
    split_ifs
    · constructor
      · intro p hv hi
        show (if _ then _ else _) = _
        rw [if_neg hi, (hiresRounds_leave hv _ _).1]
        show (if _ then _ else _) = _
        rw [if_neg hi]
      · have := (hiresRounds_leave (runid := runid) (dir := monthDir out m.1 m.2) (y := m.1) (m := m.2) (G := G)
          (d := d.addFilter drifterFilter) (p := idFilePath (monthDir out m.1 m.2)) (by
            intro i h
            have := congrArg List.getLast? h
            rw [voyagePath_last, idFile_last] at this
            exact absurd this (by decide)) (order d.idtracker) (gs.put (idFilePath (monthDir out m.1 m.2)) [])).2
        exact this
    · exact ⟨fun _ _ _ => rfl, rfl⟩
  have hd := deckQc_dir (runid := hiresLabel runid) (dir := monthDir out m.1 m.2) (y := m.1) (m := m.2) (reps := d.reps) hiresFlags gs
  constructor
  · intro p hp hi
    have hf : (deckWriteQc (hiresLabel runid) (monthDir out m.1 m.2) m.1 m.2 false d.reps hiresFlags gs).1.file p = gs.file p := by
      apply deckQc_leaves
      intro b hb e
      rw [List.mem_singleton.mp hb] at e
      exact hp ⟨m, by simp, .inl e⟩
    unfold thenDo
    split
    · split_ifs with ht
      · rw [(drift _).1 p (fun i e => hp ⟨m, by simp, .inr ⟨i, e⟩⟩) (hi ht), ← hgf]
        exact hf
      · rw [← hgf]
        exact hf
    · rw [← hgf]
      exact hf
  · unfold thenDo
    split
    · split_ifs with ht
      · rw [(drift _).2]
        exact hd
      · exact hd
    · exact hd

theorem hires_leaves {E : RunEnv F} {clim : Arr3} (hb : IsBase E.out) {p : List Char} :
    ∀ (l : List (Int × Int)), (∀ m ∈ l, 0 ≤ m.1 ∧ 0 ≤ m.2) → ¬ HiresFlagFile E.runid E.out l p →
      (E.read.tracking = true → ¬ DrifterList E.out l p) → ∀ fs : FileSys, (hiresRun E clim l fs).1.file p = fs.file p := by
  intro l
  induction l with
  | nil => intro _ _ _ fs; rfl
  | cons m l ih =>
    intro hm hp hi fs
    unfold hiresRun
    cases hiresChecked E clim m with
    | error x => rfl
    | ok d =>
      dsimp only
      have ho := (hiresOutput_leaves (G := E.geo) (runid := E.runid) (order := E.order) (tracking := E.read.tracking) (d := d) hb
        (hm m (by simp)) fs).1 p
        (by rintro ⟨k, hk, h⟩; rw [List.mem_singleton.mp hk] at h; exact hp ⟨m, by simp, h⟩)
        (fun ht h => hi ht ⟨m, by simp, h⟩)
      unfold thenDo
      split
      · rw [ih (fun k hk => hm k (by simp [hk])) (by rintro ⟨k, hk, h⟩; exact hp ⟨k, by simp [hk], h⟩)
          (fun ht => by rintro ⟨k, hk, h⟩; exact hi ht ⟨k, by simp [hk], h⟩)]
        exact ho
      · exact ho

/-- Directories: none is removed, and none is made besides those of the months. -/
theorem hires_dirs {E : RunEnv F} {clim : Arr3} (hb : IsBase E.out) {p : List Char} :
    ∀ (l : List (Int × Int)), (∀ m ∈ l, 0 ≤ m.1 ∧ 0 ≤ m.2) →
      (∀ m ∈ l, p ≠ E.out ++ '/' :: intText m.1 ∧ p ≠ monthDir E.out m.1 m.2) → ∀ fs : FileSys,
      (hiresRun E clim l fs).1.dir p = fs.dir p := by
  intro l
  induction l with
  | nil => intro _ _ fs; rfl
  | cons m l ih =>
    intro hm hp fs
    unfold hiresRun
    cases hiresChecked E clim m with
    | error x => rfl
    | ok d =>
      dsimp only
      have else' : ∀ (fs : FileSys) (q : List Char), p ≠ q → (makeDir fs q).dir p = fs.dir p := by
        intro fs q h
        unfold makeDir
        split
        · rfl
        · show (p == q || fs.dir p) = fs.dir p
          simp [h]
      have ho : (hiresOutput E.geo E.runid E.out E.order E.read.tracking m.1 m.2 d fs).1.dir p = fs.dir p := by
        rw [(hiresOutput_leaves (G := E.geo) (runid := E.runid) (order := E.order) (tracking := E.read.tracking) (d := d) hb
          (hm m (by simp)) fs).2, else' _ _ (hp m (by simp)).2, else' _ _ (hp m (by simp)).1]
      unfold thenDo
      split
      · rw [ih (fun k hk => hm k (by simp [hk])) (fun k hk => hp k (by simp [hk]))]
        exact ho
      · exact ho

end MarineQC
