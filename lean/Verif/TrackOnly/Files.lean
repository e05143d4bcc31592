import Verif.TrackOnly.Texts
import Verif.TrackOnly.Reading
import Verif.Base.RunFiles

/-! # The files of the two programs, side by side -/

namespace MarineQC

open Spec

variable {F : Type} [LinearOrder F] [Zero F]

/-- What two files with the same name have in common; `V` says that it is a file of variables of a drifter, and `S` is known of
its reports. -/
def FileAlike (fmt : Rat → List Char) (S : Report → Prop) (V : Prop) (a b : Option (List Char)) : Prop :=
  a = b ∨ V ∧ ∃ l l' : List Report, l.map shadow = l'.map shadow ∧ (∀ r ∈ l', Bare r) ∧ (∀ r ∈ l, S r) ∧
    a = some (variableText fmt voyageVars l) ∧
    b = some (variableText fmt voyageVars l')

/-- The file systems of the two programs.  Nothing is said of the files in `D`. -/
structure Along (fmt : Rat → List Char) (S : Report → Prop) (D V : List Char → Prop) (fs gs : FileSys) : Prop where
  dir : gs.dir = fs.dir
  file : ∀ p, ¬ D p → FileAlike fmt S (V p) (fs.file p) (gs.file p)

variable {fmt : Rat → List Char} {S : Report → Prop} {D V : List Char → Prop}

theorem FileAlike.isSome {V : Prop} {a b : Option (List Char)} (h : FileAlike fmt S V a b) : b.isSome = a.isSome := by
  rcases h with rfl | ⟨-, l, l', -, -, -, rfl, rfl⟩ <;> rfl

theorem Along.can {fs gs : FileSys} (h : Along fmt S D V fs gs) (p : List Char) : canWrite gs p = canWrite fs p := by
  unfold canWrite
  rw [h.dir]

theorem Along.put {fs gs : FileSys} (h : Along fmt S D V fs gs) (p s t : List Char) (ht : FileAlike fmt S (V p) (some s) (some t)) :
    Along fmt S D V (fs.put p s) (gs.put p t) := by
  refine ⟨h.dir, fun q hq => ?_⟩
  unfold FileSys.put
  dsimp only
  split_ifs with c
  · exact c ▸ ht
  · exact h.file q hq

theorem Along.write {fs gs fs' : FileSys} (h : Along fmt S D V fs gs) {p : List Char} {L L' : List (Except Err (List Char))}
    (hL : (writeLines L').2 = (writeLines L).2)
    (ht : (writeLines L).2 = none → FileAlike fmt S (V p) (some (writeLines L).1) (some (writeLines L').1))
    (hw : writeFile fs p L = (fs', none)) : ∃ gs', writeFile gs p L' = (gs', none) ∧ Along fmt S D V fs' gs' := by
  unfold writeFile at hw ⊢
  rw [h.can]
  split_ifs at hw ⊢ with c
  · rw [Prod.mk.injEq] at hw
    obtain ⟨rfl, e⟩ := hw
    exact ⟨_, Prod.ext rfl (by dsimp only; rw [hL, e]), h.put _ _ _ (ht e)⟩
  · cases hw

theorem thenDo_none {s : FileSys × Option Err} {f : FileSys → FileSys × Option Err} {fs' : FileSys}
    (h : thenDo s f = (fs', none)) : s.2 = none ∧ f s.1 = (fs', none) := by
  unfold thenDo at h
  obtain ⟨a, e⟩ := s
  cases e with
  | none => exact ⟨rfl, h⟩
  | some e => cases h

theorem thenDo_ok {a : FileSys} (f : FileSys → FileSys × Option Err) : thenDo (a, none) f = f a := rfl

theorem along_voyageQc (runid dir : List Char) (y m : Int) (v : List Report) (flags : List (String × List String)) :
    ∀ {fs gs fs' : FileSys}, Along fmt S D V fs gs → voyageWriteQc runid dir y m v flags fs = (fs', none) →
      ∃ gs', voyageWriteQc runid dir y m v flags gs = (gs', none) ∧ Along fmt S D V fs' gs' := by
  induction flags with
  | nil =>
    intro fs gs fs' h hw
    cases hw
    exact ⟨gs, rfl, h⟩
  | cons b l ih =>
    intro fs gs fs' h hw
    unfold voyageWriteQc at hw ⊢
    cases v with
    | nil => cases hw
    | cons a v =>
      dsimp only at hw ⊢
      cases hi : a.id with
      | none => rw [hi] at hw; cases hw
      | some i =>
        rw [hi] at hw
        dsimp only at hw ⊢
        obtain ⟨h1, h2⟩ := thenDo_none hw
        obtain ⟨g, g1, g2⟩ := h.write rfl (fun _ => Or.inl rfl) (Prod.ext rfl h1)
        rw [g1, thenDo_ok]
        exact ih g2 h2

theorem along_voyage {runid dir : List Char} {y m : Int} {v v' : List Report} (hv : v.map shadow = v'.map shadow)
    (hbare : ∀ r ∈ v', Bare r) (hS : ∀ r ∈ v, S r) {flags : List (String × List String)} (hk : ∀ b ∈ flags, KeptType b.1)
    (hV : ∀ i, V (voyagePath runid dir y m "Variables_".toList i)) {fs gs fs' : FileSys}
    (h : Along fmt S D V fs gs) (hw : voyageWrite fmt flags runid dir y m v fs = (fs', none)) :
    ∃ gs', voyageWrite fmt flags runid dir y m v' gs = (gs', none) ∧ Along fmt S D V fs' gs' := by
  unfold voyageWrite at hw ⊢
  cases v with
  | nil => cases hw
  | cons a v =>
    cases v' with
    | nil => cases hv
    | cons a' v' =>
      have hi : a'.id = a.id := by
        rw [List.map_cons, List.map_cons, List.cons.injEq] at hv
        rw [← shadow_id a', ← hv.1, shadow_id]
      dsimp only at hw ⊢
      rw [hi]
      cases ei : a.id with
      | none => rw [ei] at hw; cases hw
      | some i =>
        rw [ei] at hw
        dsimp only at hw ⊢
        obtain ⟨h1, h2⟩ := thenDo_none hw
        have hn : (writeLines (tableLines (a :: v) ((a :: v).filter (inMonth y m))
            (fun r => printVariableBlock fmt r voyageVars true true)
            (fun r => printVariableBlock fmt r voyageVars false true))).2 = none := by
          unfold writeFile at h1
          split_ifs at h1
          exact h1
        obtain ⟨t1, t2⟩ := variables_alike fmt y m hv hn
        obtain ⟨g, g1, g2⟩ := h.write (L' := tableLines (a' :: v') ((a' :: v').filter (inMonth y m))
            (fun r => printVariableBlock fmt r voyageVars true true)
            (fun r => printVariableBlock fmt r voyageVars false true)) (by rw [t1, t2])
          (fun _ => Or.inr ⟨hV (safeFilename i.toList), _, _, filter_alike y m hv,
            fun r hr => hbare r (List.mem_filter.mp hr).1,
            fun r hr => hS r (List.mem_filter.mp hr).1, by rw [t1], by rw [t2]⟩) (Prod.ext rfl h1)
        rw [g1, thenDo_ok]
        rw [voyageQc_alike runid dir y m hv hk]
        exact along_voyageQc runid dir y m (a :: v) flags g2 h2

theorem along_round {runid dir : List Char} {y m : Int} {G : Geo} {d d' : Deck} (hd : d.dim = d'.dim)
    (hbare : ∀ r ∈ d'.reps, Bare r) (hS : ∀ l v, d.voyage G l = .ok v → ∀ r ∈ v, S r) (hq : KeptFilter d.filter)
    (hq' : KeptFilter d'.filter) {flags : List (String × List String)} (hk : ∀ b ∈ flags, KeptType b.1)
    (hV : ∀ i, V (voyagePath runid dir y m "Variables_".toList i)) (l : List Nat) {s : List Char} {fs gs fs' : FileSys}
    (h : Along fmt S D V fs gs) (hw : drifterRound fmt flags G runid dir y m d l fs = (s, fs', none)) :
    ∃ gs', drifterRound fmt flags G runid dir y m d' l gs = (s, gs', none) ∧ Along fmt S D V fs' gs' := by
  have hv := voyage_shadow G hq l
  rw [hd, voyage_shadow G hq' l] at hv
  unfold drifterRound at hw ⊢
  cases e : d.voyage G l with
  | error x => rw [e] at hw; cases hw
  | ok v =>
    rw [e] at hw hv
    obtain ⟨v', e', hv'⟩ := exMap_ok_iff.mp hv
    rw [e']
    cases v with
    | nil =>
      cases hw
      cases v' with
      | nil => exact ⟨gs, rfl, h⟩
      | cons b v' => cases hv'
    | cons a v =>
      cases v' with
      | nil => cases hv'
      | cons a' v' =>
        have hi : a'.id = a.id := by
          rw [List.map_cons, List.map_cons, List.cons.injEq] at hv'
          rw [← shadow_id a', hv'.1, shadow_id]
        dsimp only at hw ⊢
        rw [hi]
        cases ei : a.id with
        | none =>
          rw [ei] at hw
          cases hw
          exact ⟨gs, rfl, h⟩
        | some i =>
          rw [ei] at hw
          dsimp only at hw ⊢
          rw [Prod.mk.injEq] at hw
          obtain ⟨rfl, hw⟩ := hw
          obtain ⟨g, g1, g2⟩ := along_voyage (v' := a' :: v') hv'.symm (bare_voyage e' hbare) (hS l _ e) hk hV h hw
          exact ⟨g, by rw [g1], g2⟩

theorem along_rounds {runid dir : List Char} {y m : Int} {G : Geo} {d d' : Deck} (hd : d.dim = d'.dim)
    (hbare : ∀ r ∈ d'.reps, Bare r) (hS : ∀ l v, d.voyage G l = .ok v → ∀ r ∈ v, S r) (hq : KeptFilter d.filter)
    (hq' : KeptFilter d'.filter) {flags : List (String × List String)} (hk : ∀ b ∈ flags, KeptType b.1)
    (hV : ∀ i, V (voyagePath runid dir y m "Variables_".toList i)) (es : List (Option String × List Nat)) :
    ∀ {s : List Char} {fs gs fs' : FileSys}, Along fmt S D V fs gs →
      drifterRounds fmt flags G runid dir y m d es fs = (s, fs', none) →
      ∃ gs', drifterRounds fmt flags G runid dir y m d' es gs = (s, gs', none) ∧ Along fmt S D V fs' gs' := by
  induction es with
  | nil =>
    intro s fs gs fs' h hw
    cases hw
    exact ⟨gs, rfl, h⟩
  | cons e es ih =>
    intro s fs gs fs' h hw
    unfold drifterRounds at hw ⊢
    obtain ⟨s1, f1, x, h1⟩ : ∃ s1 f1 x, drifterRound fmt flags G runid dir y m d e.2 fs = (s1, f1, x) := ⟨_, _, _, rfl⟩
    rw [h1] at hw
    cases x with
    | some x => cases hw
    | none =>
      dsimp only at hw
      obtain ⟨g, g1, g2⟩ := along_round hd hbare hS hq hq' hk hV e.2 h h1
      rw [g1]
      dsimp only
      obtain ⟨s2, f2, x2, h2⟩ : ∃ s2 f2 x2, drifterRounds fmt flags G runid dir y m d es f1 = (s2, f2, x2) := ⟨_, _, _, rfl⟩
      rw [h2] at hw
      simp only [Prod.mk.injEq] at hw
      obtain ⟨rfl, rfl, rfl⟩ := hw
      obtain ⟨k, k1, k2⟩ := ih g2 h2
      exact ⟨k, by rw [k1], k2⟩

theorem along_drifters {runid dir : List Char} {y m : Int} {G : Geo} {d d' : Deck} (hd : DeckAlike d d')
    (hbare : ∀ r ∈ d'.reps, Bare r) (hS : ∀ l v, (d.addFilter drifterFilter).voyage G l = .ok v → ∀ r ∈ v, S r)
    {flags : List (String × List String)} (hk : ∀ b ∈ flags, KeptType b.1)
    (hV : ∀ i, V (voyagePath runid dir y m "Variables_".toList i))
    (order : List (Option String × List Nat) → List (Option String × List Nat)) {fs gs fs' : FileSys}
    (h : Along fmt S D V fs gs) (hw : drifterOutput fmt flags G runid dir y m order d fs = (fs', none)) :
    ∃ gs', drifterOutput fmt flags G runid dir y m order d' gs = (gs', none) ∧ Along fmt S D V fs' gs' := by
  unfold drifterOutput at hw ⊢
  rw [h.can]
  split_ifs at hw ⊢ with c
  · dsimp only at hw ⊢
    obtain ⟨s, f1, x, h1⟩ : ∃ s f1 x, drifterRounds fmt flags G runid dir y m (d.addFilter drifterFilter) (order d.idtracker)
      (fs.put (idFilePath dir) []) = (s, f1, x) := ⟨_, _, _, rfl⟩
    rw [h1] at hw
    simp only [Prod.mk.injEq] at hw
    obtain ⟨rfl, rfl⟩ := hw
    have e : (d.addFilter drifterFilter).dim = (d'.addFilter drifterFilter).dim :=
      deckAlike_dim ⟨hd.reps, hd.index⟩ rfl
    obtain ⟨g, g1, g2⟩ := along_rounds e hbare hS kept_drifters kept_drifters hk hV (order d.idtracker) (h.put _ _ _ (Or.inl rfl)) h1
    rw [hd.index, g1]
    exact ⟨_, rfl, g2.put _ _ _ (Or.inl rfl)⟩
  · cases hw

/-! ## Directories -/

theorem along_makeDir {fs gs : FileSys} (h : Along fmt S D V fs gs) {p : List Char} (hp : ¬ D p) :
    Along fmt S D V (makeDir fs p) (makeDir gs p) := by
  have hs := (h.file p hp).isSome
  unfold makeDir
  rw [h.dir, hs]
  split_ifs
  · exact h
  · exact ⟨rfl, h.file⟩

theorem completions_month {out : List Char} (hb : IsBase out) {y m : Int} (hy : 0 ≤ y) (hm : 0 ≤ m) :
    buildCompletions out [intText y, zeroPad 2 m] = [out ++ '/' :: intText y, monthDir out y m] := by
  rw [C81_completions out _ hb (by
    intro s hs
    simp only [List.mem_cons, List.not_mem_nil, or_false] at hs
    rcases hs with rfl | rfl
    · exact (zeroPad_name _ hy).2
    · exact (zeroPad_name _ hm).1)]
  simp [List.range_succ, monthDir]

theorem safeMakeDir_eq (fs : FileSys) {out : List Char} (hb : IsBase out) {y m : Int} (hy : 0 ≤ y) (hm : 0 ≤ m) :
    safeMakeDir fs out y m = (makeDir (makeDir fs (out ++ '/' :: intText y)) (monthDir out y m), some (monthDir out y m)) := by
  unfold safeMakeDir safeMakeDirGeneric
  rw [completions_month hb hy hm]
  rfl

/-! ## The files of the deck -/

theorem writeFile_elsewhere {fs fs' : FileSys} {p q : List Char} {L : List (Except Err (List Char))} {x : Option Err}
    (h : writeFile fs p L = (fs', x)) (hq : q ≠ p) : fs'.file q = fs.file q ∧ fs'.dir = fs.dir := by
  unfold writeFile at h
  split_ifs at h
  · cases h
    exact ⟨if_neg hq, rfl⟩
  · cases h
    exact ⟨rfl, rfl⟩

theorem writeFile_keeps (fs : FileSys) {p q : List Char} (L : List (Except Err (List Char))) (hq : q ≠ p) :
    (writeFile fs p L).1.file q = fs.file q := (writeFile_elsewhere rfl hq).1

theorem writeFile_dir {fs fs' : FileSys} {p : List Char} {L : List (Except Err (List Char))} {x : Option Err}
    (h : writeFile fs p L = (fs', x)) : fs'.dir = fs.dir := by
  unfold writeFile at h
  split_ifs at h <;> cases h <;> rfl

theorem along_left {fs gs fs' : FileSys} (h : Along fmt S D V fs gs) (hd : fs'.dir = fs.dir)
    (hf : ∀ p, ¬ D p → fs'.file p = fs.file p) : Along fmt S D V fs' gs :=
  ⟨by rw [hd]; exact h.dir, fun p hp => by rw [hf p hp]; exact h.file p hp⟩

theorem along_deckQc {runid dir : List Char} {y m : Int} {reps : List Report} (flags : List (String × List String))
    (hD : ∀ b ∈ flags, D (deckPath runid dir y m false (b.1.toList ++ "_qc_".toList))) :
    ∀ {fs gs fs' : FileSys}, Along fmt S D V fs gs → deckWriteQc runid dir y m false reps flags fs = (fs', none) →
      Along fmt S D V fs' gs := by
  induction flags with
  | nil =>
    intro fs gs fs' h hw
    cases hw
    exact h
  | cons b l ih =>
    intro fs gs fs' h hw
    unfold deckWriteQc at hw
    obtain ⟨h1, h2⟩ := thenDo_none hw
    refine ih (fun c hc => hD c (by simp [hc])) (along_left h (writeFile_dir rfl) ?_) h2
    intro p hp
    exact (writeFile_elsewhere rfl (by rintro rfl; exact hp (hD b (by simp)))).1

theorem along_deck {runid dir : List Char} {y m : Int} {reps : List Report} {vars : List VarName}
    {flags : List (String × List String)} (hD : D (deckPath runid dir y m false "Variables_".toList))
    (hD' : ∀ b ∈ flags, D (deckPath runid dir y m false (b.1.toList ++ "_qc_".toList))) {fs gs fs' : FileSys}
    (h : Along fmt S D V fs gs) (hw : deckWrite fmt vars flags runid dir y m false reps fs = (fs', none)) :
    Along fmt S D V fs' gs := by
  unfold deckWrite at hw
  obtain ⟨h1, h2⟩ := thenDo_none hw
  refine along_deckQc flags hD' (along_left h (writeFile_dir rfl) ?_) h2
  intro p hp
  exact (writeFile_elsewhere rfl (by rintro rfl; exact hp hD)).1

/-! ## The runs -/

theorem deckFile_not_dir {runid out : List Char} {months : List (Int × Int)} (hm : ∀ m ∈ months, 0 ≤ m.1 ∧ 0 ≤ m.2)
    {y m : Int} (hy : 0 ≤ y) :
    ¬ DeckFile runid out months (out ++ '/' :: intText y) ∧ ¬ DeckFile runid out months (monthDir out y m) := by
  constructor
  · rintro ⟨k, hk, h⟩
    obtain ⟨x, e⟩ : ∃ x, out ++ '/' :: intText y = monthDir out k.1 k.2 ++ '/' :: x := by
      rcases h with h | ⟨b, -, h⟩
      · obtain ⟨x, e⟩ := deckPath_in runid (monthDir out k.1 k.2) "Variables_".toList k.1 k.2
        exact ⟨x, h.trans e⟩
      · obtain ⟨x, e⟩ := deckPath_in runid (monthDir out k.1 k.2) (b.1.toList ++ "_qc_".toList) k.1 k.2
        exact ⟨x, h.trans e⟩
    exact inMonth_not_year out x k.1 k.2 y hy e.symm
  · rintro ⟨k, hk, h⟩
    obtain ⟨x, e⟩ : ∃ x, monthDir out y m = monthDir out k.1 k.2 ++ '/' :: x := by
      rcases h with h | ⟨b, -, h⟩
      · obtain ⟨x, e⟩ := deckPath_in runid (monthDir out k.1 k.2) "Variables_".toList k.1 k.2
        exact ⟨x, h.trans e⟩
      · obtain ⟨x, e⟩ := deckPath_in runid (monthDir out k.1 k.2) (b.1.toList ++ "_qc_".toList) k.1 k.2
        exact ⟨x, h.trans e⟩
    exact inMonth_not_month out x k.1 k.2 y m (hm k hk).1 hy e.symm

theorem along_output {E : RunEnv F} (hdf : E.dflags.Perm deckFlags) (hvf : E.vflags.Perm voyageFlags) (hb : IsBase E.out)
    {months : List (Int × Int)} (hm : ∀ m ∈ months, 0 ≤ m.1 ∧ 0 ≤ m.2) {m : Int × Int} (hmem : m ∈ months) {d d' : Deck}
    (hd : DeckAlike d d') (hbare : ∀ r ∈ d'.reps, Bare r)
    (hS : ∀ l v, (d.addFilter drifterFilter).voyage E.geo l = .ok v → ∀ r ∈ v, S r) {fs gs fs' : FileSys}
    (h : Along E.fmt S (DeckFile E.runid E.out months) (DrifterVariables E.runid E.out months) fs gs)
    (hw : outputStage E.fmt E.dflags E.vflags E.geo E.runid E.out E.order E.read.tracking m.1 m.2 d fs = (fs', none)) :
    ∃ gs', trackOnlyOutput E.fmt E.vflags E.geo E.runid E.out E.order E.read.tracking m.1 m.2 d' gs = (gs', none) ∧
      Along E.fmt S (DeckFile E.runid E.out months) (DrifterVariables E.runid E.out months) fs' gs' := by
  obtain ⟨hy, hmo⟩ := hm m hmem
  unfold outputStage at hw
  unfold trackOnlyOutput
  rw [safeMakeDir_eq _ hb hy hmo] at hw ⊢
  dsimp only at hw ⊢
  obtain ⟨n1, n2⟩ := deckFile_not_dir (runid := E.runid) (out := E.out) hm (y := m.1) (m := m.2) hy
  have h1 := along_makeDir (along_makeDir h n1) n2
  obtain ⟨w1, w2⟩ := thenDo_none hw
  have h2 := along_deck (S := S) (D := DeckFile E.runid E.out months) (V := DrifterVariables E.runid E.out months)
    (runid := E.runid) (dir := monthDir E.out m.1 m.2) (y := m.1) (m := m.2)
    ⟨m, hmem, Or.inl rfl⟩ (fun b hb => ⟨m, hmem, Or.inr ⟨b, hdf.mem_iff.mp hb, rfl⟩⟩) h1 (Prod.ext rfl w1)
  split_ifs at w2 ⊢ with ht
  · exact along_drifters hd hbare hS (kept_voyageFlags hvf) (fun i => ⟨m, hmem, i, rfl⟩) E.order h2 w2
  · rw [Prod.mk.injEq] at w2
    obtain ⟨rfl, -⟩ := w2
    exact ⟨_, rfl, h2⟩

theorem along_run {E : RunEnv F} (hdf : E.dflags.Perm deckFlags) (hvf : E.vflags.Perm voyageFlags) (hb : IsBase E.out)
    {months : List (Int × Int)} (hm : ∀ m ∈ months, 0 ≤ m.1 ∧ 0 ≤ m.2)
    (hS : ∀ m ∈ months, ∀ lib lib' d, checkedMonth E lib m = .ok (d, lib') →
      ∀ l v, (d.addFilter drifterFilter).voyage E.geo l = .ok v → ∀ r ∈ v, S r) :
    ∀ (l : List (Int × Int)) (_ : ∀ m ∈ l, m ∈ months) (lib : ClimLib Arr3) (fs gs fs' : FileSys),
      Along E.fmt S (DeckFile E.runid E.out months) (DrifterVariables E.runid E.out months) fs gs →
      runMonths E l lib fs = (fs', none) →
      ∃ gs', trackOnlyRun E l lib gs = (gs', none) ∧
        Along E.fmt S (DeckFile E.runid E.out months) (DrifterVariables E.runid E.out months) fs' gs' := by
  intro l
  induction l with
  | nil =>
    intro _ lib fs gs fs' h hw
    unfold runMonths at hw
    cases hw
    exact ⟨gs, rfl, h⟩
  | cons m l ih =>
    intro hl lib fs gs fs' h hw
    unfold runMonths at hw
    unfold trackOnlyRun
    cases e : checkedMonth E lib m with
    | error x => rw [e] at hw; cases hw
    | ok a =>
      obtain ⟨d, lib'⟩ := a
      rw [e] at hw
      dsimp only at hw
      obtain ⟨d', e', hd, hbare⟩ := checked_alike e
      rw [e']
      dsimp only
      obtain ⟨w1, w2⟩ := thenDo_none hw
      obtain ⟨g, g1, g2⟩ := along_output hdf hvf hb hm (hl m (by simp)) hd hbare (hS m (hl m (by simp)) _ _ _ e) h (Prod.ext rfl w1)
      rw [g1, thenDo_ok]
      exact ih (fun k hk => hl k (by simp [hk])) lib' _ _ _ g2 w2

/-! ## What the second program leaves alone -/

theorem voyageQc_leaves {runid dir : List Char} {y m : Int} {v : List Report} (flags : List (String × List String)) {p : List Char}
    (hp : ∀ b ∈ flags, ∀ i, p ≠ voyagePath runid dir y m (b.1.toList ++ "_qc_".toList) i) :
    ∀ {fs fs' : FileSys} {x : Option Err}, voyageWriteQc runid dir y m v flags fs = (fs', x) → fs'.file p = fs.file p := by
  induction flags with
  | nil =>
    intro fs fs' x h
    cases h
    rfl
  | cons b l ih =>
    intro fs fs' x h
    unfold voyageWriteQc at h
    cases v with
    | nil => cases h; rfl
    | cons a v =>
      dsimp only at h
      cases hi : a.id with
      | none => rw [hi] at h; cases h; rfl
      | some i =>
        rw [hi] at h
        dsimp only at h
        unfold thenDo at h
        have hs := writeFile_keeps fs (tableLines (a :: v) ((a :: v).filter (inMonth y m))
          (fun r => printQcBlock r b.1 b.2 true true) (fun r => printQcBlock r b.1 b.2 false true))
          (hp b (by simp) i.toList)
        split at h
        · rw [ih (fun c hc => hp c (by simp [hc])) h]
          exact hs
        · rw [h] at hs
          exact hs

theorem voyage_leaves {runid dir : List Char} {y m : Int} {v : List Report} {flags : List (String × List String)} {p : List Char}
    (hp : ∀ b ∈ flags, ∀ i, p ≠ voyagePath runid dir y m (b.1.toList ++ "_qc_".toList) i)
    (hp' : ∀ i, p ≠ voyagePath runid dir y m "Variables_".toList i) {fs fs' : FileSys} {x : Option Err}
    (h : voyageWrite fmt flags runid dir y m v fs = (fs', x)) : fs'.file p = fs.file p := by
  unfold voyageWrite at h
  cases v with
  | nil => cases h; rfl
  | cons a v =>
    dsimp only at h
    cases hi : a.id with
    | none => rw [hi] at h; cases h; rfl
    | some i =>
      rw [hi] at h
      dsimp only at h
      unfold thenDo at h
      have hs := writeFile_keeps fs (tableLines (a :: v) ((a :: v).filter (inMonth y m))
        (fun r => printVariableBlock fmt r voyageVars true true) (fun r => printVariableBlock fmt r voyageVars false true))
        (hp' (safeFilename i.toList))
      split at h
      · rw [voyageQc_leaves flags hp h]
        exact hs
      · rw [h] at hs
        exact hs

theorem rounds_leave {runid dir : List Char} {y m : Int} {G : Geo} {d : Deck} {flags : List (String × List String)} {p : List Char}
    (hp : ∀ b ∈ flags, ∀ i, p ≠ voyagePath runid dir y m (b.1.toList ++ "_qc_".toList) i)
    (hp' : ∀ i, p ≠ voyagePath runid dir y m "Variables_".toList i) (es : List (Option String × List Nat)) :
    ∀ fs : FileSys, (drifterRounds fmt flags G runid dir y m d es fs).2.1.file p = fs.file p := by
  have hr : ∀ (l : List Nat) (fs : FileSys), (drifterRound fmt flags G runid dir y m d l fs).2.1.file p = fs.file p := by
    intro l fs
    unfold drifterRound
    cases d.voyage G l with
    | error e => rfl
    | ok v =>
      cases v with
      | nil => rfl
      | cons a v =>
        dsimp only
        cases a.id with
        | none => rfl
        | some i => exact voyage_leaves (fmt := fmt) (v := a :: v) hp hp' (Prod.mk.eta (p := voyageWrite fmt flags runid dir y m (a :: v) fs)).symm
  induction es with
  | nil => intro fs; rfl
  | cons e es ih =>
    intro fs
    unfold drifterRounds
    have h1 := hr e.2 fs
    obtain ⟨s, f1, x, e1⟩ : ∃ s f1 x, drifterRound fmt flags G runid dir y m d e.2 fs = (s, f1, x) := ⟨_, _, _, rfl⟩
    rw [e1] at h1 ⊢
    cases x with
    | some x => exact h1
    | none =>
      dsimp only at h1 ⊢
      rw [ih f1, h1]

theorem trackOnly_leaves {E : RunEnv F} (hvf : E.vflags.Perm voyageFlags) (hb : IsBase E.out)
    {months : List (Int × Int)} (hm : ∀ m ∈ months, 0 ≤ m.1 ∧ 0 ≤ m.2) {p : List Char} (hp : DeckFile E.runid E.out months p) :
    ∀ (l : List (Int × Int)) (_ : ∀ m ∈ l, m ∈ months) (lib : ClimLib Arr3) (fs : FileSys),
      (trackOnlyRun E l lib fs).1.file p = fs.file p := by
  obtain ⟨k, hk, hp⟩ := hp
  obtain ⟨pre, hpre, rfl⟩ : ∃ pre, Beginning pre ∧ p = deckPath E.runid (monthDir E.out k.1 k.2) k.1 k.2 false pre := by
    rcases hp with rfl | ⟨b, hb, rfl⟩
    · exact ⟨_, deck_beginnings.1, rfl⟩
    · exact ⟨_, deck_beginnings.2.1 b hb, rfl⟩
  have hv : ∀ m ∈ months, ∀ pre', Beginning pre' → ∀ i, deckPath E.runid (monthDir E.out k.1 k.2) k.1 k.2 false pre ≠
      voyagePath E.runid (monthDir E.out m.1 m.2) m.1 m.2 pre' i := by
    intro m hmm pre' hpre' i h
    obtain ⟨x, ex⟩ := deckPath_in E.runid (monthDir E.out k.1 k.2) pre k.1 k.2
    obtain ⟨x', ex'⟩ := voyagePath_in E.runid (monthDir E.out m.1 m.2) pre' i m.1 m.2
    have := inMonth_inj E.out x x' k.1 k.2 m.1 m.2 (hm k hk).1 (hm m hmm).1 (by rw [← ex, ← ex', h])
    obtain ⟨k1, k2⟩ := k
    obtain ⟨m1, m2⟩ := m
    cases this
    exact deck_voyage_path _ _ pre pre' i _ _ hpre hpre' (hm _ hk).1 (hm _ hk).2 h
  have hi : ∀ dir, deckPath E.runid (monthDir E.out k.1 k.2) k.1 k.2 false pre ≠ idFilePath dir := by
    intro dir h
    have := congrArg List.getLast? h
    rw [deckPath_last, idFile_last] at this
    exact absurd this (by decide)
  intro l
  induction l with
  | nil => intro _ lib fs; rfl
  | cons m l ih =>
    intro hl lib fs
    unfold trackOnlyRun
    cases trackOnlyChecked E lib m with
    | error x => rfl
    | ok a =>
      obtain ⟨d, lib'⟩ := a
      dsimp only
      have hmm := hl m (by simp)
      have ho : (trackOnlyOutput E.fmt E.vflags E.geo E.runid E.out E.order E.read.tracking m.1 m.2 d fs).1.file
          (deckPath E.runid (monthDir E.out k.1 k.2) k.1 k.2 false pre) =
          fs.file (deckPath E.runid (monthDir E.out k.1 k.2) k.1 k.2 false pre) := by
        unfold trackOnlyOutput
        rw [safeMakeDir_eq _ hb (hm m hmm).1 (hm m hmm).2]
        dsimp only
        split_ifs
        · unfold drifterOutput
          split_ifs
          · show (if _ then _ else _) = _
            rw [if_neg (hi _), rounds_leave
              (fun b hb i => hv m hmm _ (deck_beginnings.2.2 b (hvf.mem_iff.mp hb)) i) (fun i => hv m hmm _ deck_beginnings.1 i)]
            show (if _ then _ else _) = _
            rw [if_neg (hi _), makeDir_file, makeDir_file]
          · rw [makeDir_file, makeDir_file]
        · rw [makeDir_file, makeDir_file]
      unfold thenDo
      split
      · rw [ih (fun k hk => hl k (by simp [hk]))]
        exact ho
      · exact ho

end MarineQC
