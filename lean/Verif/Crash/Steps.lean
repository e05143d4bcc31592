import Verif.Crash.Model

/-! # The main program, operation by operation (C125) -/

namespace MarineQC

open Spec

theorem runOps_fails {o : FileOp} {fs : FileSys} (h : o.run fs = none) (l : List FileOp) : runOps (o :: l) fs = (fs, false) := by
  rw [runOps, h]

theorem runOps_goes {o : FileOp} {fs g : FileSys} (h : o.run fs = some g) (l : List FileOp) : runOps (o :: l) fs = runOps l g := by
  rw [runOps, h]

theorem runOps_append (a b : List FileOp) (fs : FileSys) :
    runOps (a ++ b) fs = if (runOps a fs).2 then runOps b (runOps a fs).1 else ((runOps a fs).1, false) := by
  induction a generalizing fs with
  | nil => simp [runOps]
  | cons o a ih =>
    rw [List.cons_append]
    rcases h : o.run fs with _ | g
    · rw [runOps_fails h, runOps_fails h]
      simp
    · rw [runOps_goes h, runOps_goes h, ih]

theorem andThen_run (P Q : FileProg) (fs : FileSys) : (P.andThen Q).run fs = thenDo (P.run fs) Q.run := by
  unfold FileProg.andThen FileProg.run thenDo
  cases hP : P.err with
  | some e =>
    simp only
    cases (runOps P.ops fs).2 <;> simp [*]
  | none =>
    simp only [runOps_append]
    cases (runOps P.ops fs).2 <;> simp

theorem fileSys_put_put (fs : FileSys) (p s t : List Char) : (fs.put p s).put p t = fs.put p t := by
  unfold FileSys.put
  congr 1
  funext q
  simp only
  split <;> rfl

theorem fileSys_put_comm (fs : FileSys) {p q : List Char} (h : p ≠ q) (s t : List Char) :
    (fs.put p s).put q t = (fs.put q t).put p s := by
  unfold FileSys.put
  congr 1
  funext x
  simp only
  split <;> split <;> simp_all

theorem runOps_text (p : List Char) (s : List Char) (fs : FileSys) (t : List Char) :
    runOps (s.map (.put p)) (fs.put p t) = (fs.put p (t ++ s), true) := by
  induction s generalizing t with
  | nil => simp [runOps]
  | cons c s ih =>
    simp only [List.map_cons, runOps, FileOp.run]
    rw [show ((fs.put p t).file p).getD [] = t by simp [FileSys.put], fileSys_put_put, ih]
    simp [List.append_assoc]

theorem fileProg_run (p : List Char) (l : List (Except Err (List Char))) (fs : FileSys) :
    (fileProg p l).run fs = writeFile fs p l := by
  unfold fileProg FileProg.run writeFile
  by_cases hc : canWrite fs p = true
  · simp only [runOps, FileOp.run, hc, if_true, runOps_text, List.nil_append]
  · simp [runOps, FileOp.run, hc]

theorem deckQcProg_run (runid dir : List Char) (year month : Int) (reps : List Report) (flags : List (String × List String))
    (fs : FileSys) : (deckQcProg runid dir year month reps flags).run fs = deckWriteQc runid dir year month false reps flags fs := by
  induction flags generalizing fs with
  | nil => rfl
  | cons b l ih =>
    rw [deckQcProg, deckWriteQc, andThen_run, fileProg_run]
    congr 1
    funext g
    exact ih g

theorem deckProg_run (fmt : Rat → List Char) (flags : List (String × List String)) (runid dir : List Char) (year month : Int)
    (reps : List Report) (fs : FileSys) :
    (deckProg fmt flags runid dir year month reps).run fs = deckWrite fmt deckVars flags runid dir year month false reps fs := by
  rw [deckProg, deckWrite, andThen_run, fileProg_run]
  congr 1
  funext g
  exact deckQcProg_run ..

theorem voyageQcProg_run (runid dir : List Char) (year month : Int) (reps : List Report) (flags : List (String × List String))
    (fs : FileSys) : (voyageQcProg runid dir year month reps flags).run fs = voyageWriteQc runid dir year month reps flags fs := by
  induction flags generalizing fs with
  | nil => cases reps <;> rfl
  | cons b l ih =>
    cases reps with
    | nil => rfl
    | cons r v =>
      rw [voyageQcProg, voyageWriteQc]
      cases hr : r.id with
      | none => rfl
      | some ident =>
        simp only
        rw [andThen_run, fileProg_run]
        congr 1
        funext g
        exact ih g

theorem voyageProg_run (fmt : Rat → List Char) (flags : List (String × List String)) (runid dir : List Char) (year month : Int)
    (reps : List Report) (fs : FileSys) :
    (voyageProg fmt flags runid dir year month reps).run fs = voyageWrite fmt flags runid dir year month reps fs := by
  unfold voyageProg voyageWrite
  cases reps with
  | nil => rfl
  | cons r v =>
    simp only
    cases r.id with
    | none => rfl
    | some ident =>
      simp only
      rw [andThen_run, fileProg_run]
      congr 1
      funext g
      exact voyageQcProg_run ..

/-! ## The file of identifiers -/

theorem voyagePath_not_id (runid dir dir' pre ident : List Char) (year month : Int) :
    voyagePath runid dir year month pre ident ≠ idFilePath dir' := by
  intro h
  have := congrArg List.getLast? h
  rw [show (voyagePath runid dir year month pre ident).getLast? = some 'v' by
    unfold voyagePath
    rw [← List.cons_append, ← List.append_assoc, List.getLast?_append]
    rfl] at this
  rw [show (idFilePath dir').getLast? = some 't' by
    unfold idFilePath
    simp [List.getLast?_append]] at this
  cases this

theorem writeFile_put (fs : FileSys) (p q : List Char) (h : p ≠ q) (t : List Char) (l : List (Except Err (List Char))) :
    writeFile (fs.put q t) p l = ((writeFile fs p l).1.put q t, (writeFile fs p l).2) := by
  unfold writeFile
  have : canWrite (fs.put q t) p = canWrite fs p := rfl
  rw [this]
  split
  · rw [fileSys_put_comm _ h.symm]
  · rfl

theorem thenDo_put (s : FileSys × Option Err) (q t : List Char) (f : FileSys → FileSys × Option Err)
    (hf : ∀ g, f (g.put q t) = ((f g).1.put q t, (f g).2)) :
    thenDo (s.1.put q t, s.2) f = ((thenDo s f).1.put q t, (thenDo s f).2) := by
  obtain ⟨g, x⟩ := s
  cases x with
  | none => exact hf g
  | some e => rfl

theorem voyageWriteQc_put (runid dir dir' : List Char) (year month : Int) (reps : List Report) (flags : List (String × List String))
    (fs : FileSys) (t : List Char) : voyageWriteQc runid dir year month reps flags (fs.put (idFilePath dir') t) =
      ((voyageWriteQc runid dir year month reps flags fs).1.put (idFilePath dir') t, (voyageWriteQc runid dir year month reps flags fs).2) := by
  induction flags generalizing fs with
  | nil => cases reps <;> rfl
  | cons b l ih =>
    cases reps with
    | nil => rfl
    | cons r v =>
      rw [voyageWriteQc, voyageWriteQc]
      cases r.id with
      | none => rfl
      | some ident =>
        simp only
        rw [writeFile_put _ _ _ (voyagePath_not_id _ _ _ _ _ _ _)]
        exact thenDo_put _ _ _ _ ih

theorem voyageWrite_put (fmt : Rat → List Char) (flags : List (String × List String)) (runid dir dir' : List Char) (year month : Int)
    (reps : List Report) (fs : FileSys) (t : List Char) : voyageWrite fmt flags runid dir year month reps (fs.put (idFilePath dir') t) =
      ((voyageWrite fmt flags runid dir year month reps fs).1.put (idFilePath dir') t, (voyageWrite fmt flags runid dir year month reps fs).2) := by
  unfold voyageWrite
  cases reps with
  | nil => rfl
  | cons r v =>
    simp only
    cases r.id with
    | none => rfl
    | some ident =>
      simp only
      rw [writeFile_put _ _ _ (voyagePath_not_id _ _ _ _ _ _ _)]
      exact thenDo_put _ _ _ _ fun g => voyageWriteQc_put ..

theorem drifterRound_put (fmt : Rat → List Char) (flags : List (String × List String)) (G : Geo) (runid dir : List Char)
    (year month : Int) (d : Deck) (l : List Nat) (fs : FileSys) (t : List Char) :
    drifterRound fmt flags G runid dir year month d l (fs.put (idFilePath dir) t) =
      ((drifterRound fmt flags G runid dir year month d l fs).1, (drifterRound fmt flags G runid dir year month d l fs).2.1.put (idFilePath dir) t,
        (drifterRound fmt flags G runid dir year month d l fs).2.2) := by
  unfold drifterRound
  cases d.voyage G l with
  | error e => rfl
  | ok v =>
    cases v with
    | nil => rfl
    | cons r v =>
      simp only
      cases r.id with
      | none => rfl
      | some ident =>
        simp only
        rw [voyageWrite_put]

theorem drifterRounds_put (fmt : Rat → List Char) (flags : List (String × List String)) (G : Geo) (runid dir : List Char)
    (year month : Int) (d : Deck) (es : List (Option String × List Nat)) (fs : FileSys) (t : List Char) :
    drifterRounds fmt flags G runid dir year month d es (fs.put (idFilePath dir) t) =
      ((drifterRounds fmt flags G runid dir year month d es fs).1,
        (drifterRounds fmt flags G runid dir year month d es fs).2.1.put (idFilePath dir) t,
        (drifterRounds fmt flags G runid dir year month d es fs).2.2) := by
  induction es generalizing fs with
  | nil => rfl
  | cons e es ih =>
    rw [drifterRounds, drifterRounds, drifterRound_put]
    rcases drifterRound fmt flags G runid dir year month d e.2 fs with ⟨s, f, x⟩
    cases x with
    | some x => rfl
    | none => simp only; rw [ih]

theorem drifterRoundProg_run (fmt : Rat → List Char) (flags : List (String × List String)) (G : Geo) (runid dir : List Char)
    (year month : Int) (d : Deck) (l : List Nat) (fs : FileSys) (t : List Char) :
    (drifterRoundProg fmt flags G runid dir year month d l).run (fs.put (idFilePath dir) t) =
      ((drifterRound fmt flags G runid dir year month d l fs).2.1.put (idFilePath dir) (t ++ (drifterRound fmt flags G runid dir year month d l fs).1),
        (drifterRound fmt flags G runid dir year month d l fs).2.2) := by
  unfold drifterRoundProg drifterRound
  cases d.voyage G l with
  | error e => simp [FileProg.run, runOps]
  | ok v =>
    cases v with
    | nil => simp [FileProg.run, runOps]
    | cons r v =>
      simp only
      cases r.id with
      | none => simp [FileProg.run, runOps]
      | some ident =>
        simp only
        rw [andThen_run]
        simp only [FileProg.run, runOps_text, if_true, thenDo]
        have := voyageProg_run fmt flags runid dir year month (r :: v) (fs.put (idFilePath dir) (t ++ idFileLine ident.toList))
        rw [voyageWrite_put] at this
        exact this

theorem drifterRoundsProg_run (fmt : Rat → List Char) (flags : List (String × List String)) (G : Geo) (runid dir : List Char)
    (year month : Int) (d : Deck) (es : List (Option String × List Nat)) (fs : FileSys) (t : List Char) :
    (drifterRoundsProg fmt flags G runid dir year month d es).run (fs.put (idFilePath dir) t) =
      ((drifterRounds fmt flags G runid dir year month d es fs).2.1.put (idFilePath dir)
          (t ++ (drifterRounds fmt flags G runid dir year month d es fs).1),
        (drifterRounds fmt flags G runid dir year month d es fs).2.2) := by
  induction es generalizing fs t with
  | nil => simp [drifterRoundsProg, drifterRounds, FileProg.run, runOps]
  | cons e es ih =>
    rw [drifterRoundsProg, drifterRounds, andThen_run, drifterRoundProg_run]
    rcases drifterRound fmt flags G runid dir year month d e.2 fs with ⟨s, f, x⟩
    cases x with
    | some x => rfl
    | none =>
      simp only [thenDo]
      rw [ih, List.append_assoc]

theorem drifterProg_run (fmt : Rat → List Char) (flags : List (String × List String)) (G : Geo) (runid dir : List Char)
    (year month : Int) (order : List (Option String × List Nat) → List (Option String × List Nat)) (d : Deck) (fs : FileSys) :
    (drifterProg fmt flags G runid dir year month order d).run fs = drifterOutput fmt flags G runid dir year month order d fs := by
  unfold drifterProg drifterOutput
  rw [andThen_run]
  by_cases hc : canWrite fs (idFilePath dir) = true
  · simp only [FileProg.run, runOps, FileOp.run, hc, if_true, thenDo]
    have := drifterRoundsProg_run fmt flags G runid dir year month (d.addFilter drifterFilter) (order d.idtracker) fs []
    rw [drifterRounds_put]
    simp only [FileProg.run] at this
    rw [this, fileSys_put_put, List.nil_append]
  · simp only [FileProg.run, runOps, FileOp.run, hc, thenDo]
    simp

theorem runOps_mkdirs (l : List (List Char)) (fs : FileSys) : runOps (l.map .mkdir) fs = (l.foldl makeDir fs, true) := by
  induction l generalizing fs with
  | nil => rfl
  | cons p l ih => exact ih _

theorem outputProg_run (fmt : Rat → List Char) (dflags vflags : List (String × List String)) (G : Geo) (runid out : List Char)
    (order : List (Option String × List Nat) → List (Option String × List Nat)) (tracking : Bool) (year month : Int)
    (d : Deck) (fs : FileSys) : (outputProg fmt dflags vflags G runid out order tracking year month d).run fs =
      outputStage fmt dflags vflags G runid out order tracking year month d fs := by
  unfold outputProg outputStage safeMakeDir safeMakeDirGeneric
  simp only
  rw [andThen_run]
  simp only [FileProg.run, runOps_mkdirs, if_true, thenDo]
  cases (buildCompletions out [intText year, zeroPad 2 month]).getLast? with
  | none => rfl
  | some dir =>
    simp only
    have h1 := andThen_run (deckProg fmt dflags runid dir year month d.reps)
      (if tracking then drifterProg fmt vflags G runid dir year month order d else ⟨[], none⟩)
      ((buildCompletions out [intText year, zeroPad 2 month]).foldl makeDir fs)
    rw [deckProg_run] at h1
    refine Eq.trans h1 ?_
    unfold thenDo
    split
    · cases tracking with
      | true => exact drifterProg_run ..
      | false => rfl
    · rfl

variable {F : Type} [LinearOrder F] [Zero F]

/-- **C125.**  A run of the main program over any months, done one operation on the file system at a time, leaves the same file system
and stops with the same exception, if any, as the run as a whole. -/
theorem C125_operations (E : RunEnv F) (months : List (Int × Int)) (lib : ClimLib Arr3) (fs : FileSys) :
    (monthsProg E months lib).run fs = runMonths E months lib fs := by
  induction months generalizing lib fs with
  | nil => rfl
  | cons m l ih =>
    rw [monthsProg, runMonths]
    cases checkedMonth E lib m with
    | error e => rfl
    | ok x =>
      obtain ⟨d, lib'⟩ := x
      simp only
      rw [andThen_run, outputProg_run]
      congr 1
      funext g
      exact ih lib' g

end MarineQC
