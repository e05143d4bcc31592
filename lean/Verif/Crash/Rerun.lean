import Verif.Crash.Steps
import Verif.Wrapper.Run
import Mathlib.Logic.Relation

/-! # A run of the main program that is killed and started again (C126) -/

namespace MarineQC

open Spec

/-- Every text goes to a file that has been opened before, or to one of `S`. -/
def ProperFrom (S : List (List Char)) : List FileOp → Prop
  | [] => True
  | .mkdir _ :: l => ProperFrom S l
  | .openw p :: l => ProperFrom (p :: S) l
  | .put p _ :: l => p ∈ S ∧ ProperFrom S l

theorem proper_mono {S T : List (List Char)} (h : ∀ p ∈ S, p ∈ T) (l : List FileOp) (hl : ProperFrom S l) : ProperFrom T l := by
  induction l generalizing S T with
  | nil => trivial
  | cons o l ih =>
    cases o with
    | mkdir p => exact ih h hl
    | openw p =>
      refine ih (S := p :: S) (T := p :: T) ?_ hl
      intro q hq
      rcases List.mem_cons.mp hq with rfl | hq
      · simp
      · exact List.mem_cons_of_mem _ (h q hq)
    | put p c => exact ⟨h p hl.1, ih h hl.2⟩

theorem proper_append {S : List (List Char)} (a b : List FileOp) (ha : ProperFrom S a) (hb : ProperFrom S b) : ProperFrom S (a ++ b) := by
  induction a generalizing S with
  | nil => exact hb
  | cons o a ih =>
    cases o with
    | mkdir p => exact ih ha hb
    | openw p => exact ih ha (proper_mono (fun q hq => List.mem_cons_of_mem _ hq) b hb)
    | put p c => exact ⟨ha.1, ih ha.2 hb⟩

theorem proper_put {S : List (List Char)} {l : List FileOp} {p : List Char} {c : Char} (hl : ProperFrom S l) (h : .put p c ∈ l) :
    p ∈ S ∨ .openw p ∈ l := by
  induction l generalizing S with
  | nil => cases h
  | cons o l ih =>
    cases o with
    | mkdir q => exact (ih hl (by simpa using h)).imp id (by simp)
    | openw q =>
      rcases ih hl (by simpa using h) with h | h
      · rcases List.mem_cons.mp h with rfl | h
        · exact .inr (by simp)
        · exact .inl h
      · exact .inr (by simp [h])
    | put q d =>
      rcases List.mem_cons.mp h with h | h
      · cases h; exact .inl hl.1
      · exact (ih hl.2 h).imp id (by simp)

theorem proper_andThen {S : List (List Char)} (P Q : FileProg) (hP : ProperFrom S P.ops) (hQ : ProperFrom S Q.ops) :
    ProperFrom S (P.andThen Q).ops := by
  unfold FileProg.andThen
  cases P.err with
  | none => exact proper_append _ _ hP hQ
  | some e => exact hP

theorem proper_text {S : List (List Char)} (p : List Char) (hp : p ∈ S) (s : List Char) : ProperFrom S (s.map (.put p)) := by
  induction s with
  | nil => trivial
  | cons c s ih => exact ⟨hp, ih⟩

theorem proper_file (S : List (List Char)) (p : List Char) (l : List (Except Err (List Char))) : ProperFrom S (fileProg p l).ops :=
  proper_text p (by simp) _

/-- Where the directories and the files of a run of the main program are. -/
def OpOk : FileOp → Prop
  | .mkdir p => p.getLast? ≠ some 'v' ∧ p.getLast? ≠ some 't'
  | .openw p => p.getLast? = some 'v' ∨ p.getLast? = some 't'
  | .put p _ => p.getLast? = some 'v' ∨ p.getLast? = some 't'

theorem opOk_andThen (P Q : FileProg) (hP : ∀ o ∈ P.ops, OpOk o) (hQ : ∀ o ∈ Q.ops, OpOk o) : ∀ o ∈ (P.andThen Q).ops, OpOk o := by
  unfold FileProg.andThen
  cases P.err with
  | none =>
    intro o ho
    rcases List.mem_append.mp ho with h | h
    · exact hP o h
    · exact hQ o h
  | some e => exact hP

theorem opOk_file (p : List Char) (hp : p.getLast? = some 'v' ∨ p.getLast? = some 't') (l : List (Except Err (List Char))) :
    ∀ o ∈ (fileProg p l).ops, OpOk o := by
  intro o ho
  rcases List.mem_cons.mp ho with rfl | ho
  · exact hp
  · obtain ⟨c, -, rfl⟩ := List.mem_map.mp ho
    exact hp

theorem csv_last (s : List Char) : (s ++ ".csv".toList).getLast? = some 'v' := by
  rw [List.getLast?_append]
  rfl

theorem deckPath_csv (runid dir : List Char) (year month : Int) (test : Bool) (pre : List Char) :
    (deckPath runid dir year month test pre).getLast? = some 'v' := by
  unfold deckPath
  have : dir ++ '/' :: ((if test then "Test_".toList else []) ++ (pre ++ intText year ++ zeroPad 2 month ++ '_' :: runid ++ ".csv".toList)) =
      (dir ++ '/' :: ((if test then "Test_".toList else []) ++ (pre ++ intText year ++ zeroPad 2 month ++ '_' :: runid))) ++ ".csv".toList := by
    simp only [List.append_assoc, List.cons_append]
  rw [this, csv_last]

theorem voyagePath_csv (runid dir pre i : List Char) (y m : Int) : (voyagePath runid dir y m pre i).getLast? = some 'v' := by
  unfold voyagePath
  have : dir ++ '/' :: (pre ++ intText y ++ zeroPad 2 m ++ '_' :: i ++ '_' :: runid ++ ".csv".toList) =
      (dir ++ '/' :: (pre ++ intText y ++ zeroPad 2 m ++ '_' :: i ++ '_' :: runid)) ++ ".csv".toList := by
    simp only [List.append_assoc, List.cons_append]
  rw [this, csv_last]

theorem idFilePath_txt (dir : List Char) : (idFilePath dir).getLast? = some 't' := by
  unfold idFilePath
  rw [List.getLast?_append]
  rfl

theorem deckQc_good (S : List (List Char)) (runid dir : List Char) (year month : Int) (reps : List Report) (flags : List (String × List String)) :
    ProperFrom S (deckQcProg runid dir year month reps flags).ops ∧ ∀ o ∈ (deckQcProg runid dir year month reps flags).ops, OpOk o := by
  induction flags with
  | nil => exact ⟨trivial, by simp [deckQcProg]⟩
  | cons b l ih =>
    exact ⟨proper_andThen _ _ (proper_file ..) ih.1, opOk_andThen _ _ (opOk_file _ (.inl (deckPath_csv ..)) _) ih.2⟩

theorem voyageQc_good (S : List (List Char)) (runid dir : List Char) (year month : Int) (reps : List Report) (flags : List (String × List String)) :
    ProperFrom S (voyageQcProg runid dir year month reps flags).ops ∧ ∀ o ∈ (voyageQcProg runid dir year month reps flags).ops, OpOk o := by
  induction flags with
  | nil => cases reps <;> exact ⟨trivial, by simp [voyageQcProg]⟩
  | cons b l ih =>
    cases reps with
    | nil => exact ⟨trivial, by simp [voyageQcProg]⟩
    | cons r v =>
      rw [voyageQcProg]
      cases r.id with
      | none => exact ⟨trivial, by simp⟩
      | some ident =>
        exact ⟨proper_andThen _ _ (proper_file ..) ih.1, opOk_andThen _ _ (opOk_file _ (.inl (voyagePath_csv ..)) _) ih.2⟩

theorem voyage_good (S : List (List Char)) (fmt : Rat → List Char) (flags : List (String × List String)) (runid dir : List Char)
    (year month : Int) (reps : List Report) :
    ProperFrom S (voyageProg fmt flags runid dir year month reps).ops ∧ ∀ o ∈ (voyageProg fmt flags runid dir year month reps).ops, OpOk o := by
  unfold voyageProg
  cases reps with
  | nil => exact ⟨trivial, by simp⟩
  | cons r v =>
    simp only
    cases r.id with
    | none => exact ⟨trivial, by simp⟩
    | some ident =>
      have ih := voyageQc_good S runid dir year month (r :: v) flags
      exact ⟨proper_andThen _ _ (proper_file ..) ih.1, opOk_andThen _ _ (opOk_file _ (.inl (voyagePath_csv ..)) _) ih.2⟩

theorem rounds_good (S : List (List Char)) (fmt : Rat → List Char) (flags : List (String × List String)) (G : Geo) (runid dir : List Char)
    (year month : Int) (d : Deck) (hS : idFilePath dir ∈ S) (es : List (Option String × List Nat)) :
    ProperFrom S (drifterRoundsProg fmt flags G runid dir year month d es).ops ∧
      ∀ o ∈ (drifterRoundsProg fmt flags G runid dir year month d es).ops, OpOk o := by
  induction es with
  | nil => exact ⟨trivial, by simp [drifterRoundsProg]⟩
  | cons e es ih =>
    have key : ProperFrom S (drifterRoundProg fmt flags G runid dir year month d e.2).ops ∧
        ∀ o ∈ (drifterRoundProg fmt flags G runid dir year month d e.2).ops, OpOk o := by
      unfold drifterRoundProg
      cases d.voyage G e.2 with
      | error x => exact ⟨trivial, by simp⟩
      | ok v =>
        cases v with
        | nil => exact ⟨trivial, by simp⟩
        | cons r v =>
          simp only
          cases r.id with
          | none => exact ⟨trivial, by simp⟩
          | some ident =>
            have hv := voyage_good S fmt flags runid dir year month (r :: v)
            refine ⟨proper_andThen _ _ (proper_text _ hS _) hv.1, opOk_andThen _ _ ?_ hv.2⟩
            intro o ho
            obtain ⟨c, -, rfl⟩ := List.mem_map.mp ho
            exact .inr (idFilePath_txt dir)
    exact ⟨proper_andThen _ _ key.1 ih.1, opOk_andThen _ _ key.2 ih.2⟩

theorem pathJoin_last (a b : List Char) (hb : b ≠ []) : (pathJoin a b).getLast? = b.getLast? := by
  obtain ⟨c, hc⟩ : ∃ c, b.getLast? = some c := by
    cases h : b.getLast? with
    | none => exact absurd (List.getLast?_eq_none_iff.mp h) hb
    | some c => exact ⟨c, rfl⟩
  unfold pathJoin
  split
  · rfl
  · split
    · rw [List.getLast?_append, hc]; rfl
    · rw [List.getLast?_append, List.getLast?_cons, hc]; rfl

theorem completion_last (out : List Char) (l : List (List Char)) (hl : ∀ s ∈ l, s ≠ [] ∧ 'v' ∉ s ∧ 't' ∉ s) :
    ∀ p ∈ buildCompletions out l, p.getLast? ≠ some 'v' ∧ p.getLast? ≠ some 't' := by
  induction l generalizing out with
  | nil => simp [buildCompletions]
  | cons s l ih =>
    intro p hp
    rw [buildCompletions] at hp
    rcases List.mem_cons.mp hp with rfl | hp
    · obtain ⟨h1, h2, h3⟩ := hl s (by simp)
      rw [pathJoin_last _ _ h1]
      exact ⟨fun h => h2 (List.mem_of_getLast? h), fun h => h3 (List.mem_of_getLast? h)⟩
    · exact ih _ (fun t ht => hl t (by simp [ht])) p hp

theorem proper_mkdirs (S : List (List Char)) (l : List (List Char)) : ProperFrom S (l.map .mkdir) := by
  induction l with
  | nil => trivial
  | cons p l ih => exact ih

theorem output_good (fmt : Rat → List Char) (dflags vflags : List (String × List String)) (G : Geo) (runid out : List Char)
    (order : List (Option String × List Nat) → List (Option String × List Nat)) (tracking : Bool) (year month : Int) (d : Deck) :
    ProperFrom [] (outputProg fmt dflags vflags G runid out order tracking year month d).ops ∧
      ∀ o ∈ (outputProg fmt dflags vflags G runid out order tracking year month d).ops, OpOk o := by
  unfold outputProg
  simp only
  have hm : ∀ o ∈ (buildCompletions out [intText year, zeroPad 2 month]).map FileOp.mkdir, OpOk o := by
    intro o ho
    obtain ⟨p, hp, rfl⟩ := List.mem_map.mp ho
    refine completion_last out _ ?_ p hp
    intro s hs
    rcases List.mem_pair.mp hs with rfl | rfl
    · refine ⟨intText_ne_nil _, ?_, ?_⟩ <;> intro h <;> rcases intText_chars _ _ h with h | h <;> revert h <;> decide
    · refine ⟨(isName_pad _).1, ?_, ?_⟩ <;> intro h <;> rcases zeroPad_chars _ _ _ h with h | h <;> revert h <;> decide
  generalize (buildCompletions out [intText year, zeroPad 2 month]).getLast? = x
  cases x with
  | none => exact ⟨proper_andThen _ _ (proper_mkdirs ..) trivial, opOk_andThen _ _ hm (by simp)⟩
  | some dir =>
    have h1 := deckQc_good [] runid dir year month d.reps dflags
    have h2 : ProperFrom [] (if tracking then drifterProg fmt vflags G runid dir year month order d else ⟨[], none⟩).ops ∧
        ∀ o ∈ (if tracking then drifterProg fmt vflags G runid dir year month order d else ⟨[], none⟩).ops, OpOk o := by
      cases tracking with
      | false => exact ⟨trivial, by simp⟩
      | true =>
        have h3 := rounds_good [idFilePath dir] fmt vflags G runid dir year month (d.addFilter drifterFilter) (by simp) (order d.idtracker)
        rw [if_pos rfl]
        refine ⟨h3.1, opOk_andThen _ _ ?_ h3.2⟩
        intro o ho
        obtain rfl := List.mem_singleton.mp ho
        exact .inr (idFilePath_txt dir)
    exact ⟨proper_andThen _ _ (proper_mkdirs ..) (proper_andThen _ _ (proper_andThen _ _ (proper_file ..) h1.1) h2.1),
      opOk_andThen _ _ hm (opOk_andThen _ _ (opOk_andThen _ _ (opOk_file _ (.inl (deckPath_csv ..)) _) h1.2) h2.2)⟩

variable {F : Type} [LinearOrder F] [Zero F]

theorem months_good (E : RunEnv F) (months : List (Int × Int)) (lib : ClimLib Arr3) :
    ProperFrom [] (monthsProg E months lib).ops ∧ ∀ o ∈ (monthsProg E months lib).ops, OpOk o := by
  induction months generalizing lib with
  | nil => exact ⟨trivial, by simp [monthsProg]⟩
  | cons m l ih =>
    rw [monthsProg]
    cases checkedMonth E lib m with
    | error e => exact ⟨trivial, by simp⟩
    | ok x =>
      have h := output_good E.fmt E.dflags E.vflags E.geo E.runid E.out E.order E.read.tracking m.1 m.2 x.1
      exact ⟨proper_andThen _ _ h.1 (ih _).1, opOk_andThen _ _ h.2 (ih _).2⟩

/-! ## Started again -/

/-- A file system that differs from `base` in files among `O` and directories not ending as files do, only. -/
structure Like (O : List Char → Prop) (base f : FileSys) : Prop where
  file : ∀ p, ¬ O p → f.file p = base.file p
  dir : ∀ p, O p → f.dir p = base.dir p
  more : ∀ p, base.dir p = true → f.dir p = true

theorem makeDir_files (fs : FileSys) (p : List Char) : (makeDir fs p).file = fs.file := by
  unfold makeDir
  split <;> rfl

theorem makeDir_more (fs : FileSys) (p q : List Char) (h : fs.dir q = true) : (makeDir fs p).dir q = true := by
  unfold makeDir
  split
  · exact h
  · simp [h]

theorem makeDir_else (fs : FileSys) (p q : List Char) (h : q ≠ p) : (makeDir fs p).dir q = fs.dir q := by
  unfold makeDir
  split
  · rfl
  · simp [h]

/-- An operation that writes to files in `O` only and makes no directory of such a name. -/
def OpApart (O : List Char → Prop) : FileOp → Prop
  | .mkdir p => ¬ O p
  | .openw p => O p
  | .put p _ => O p

theorem like_op {O : List Char → Prop} {base f g : FileSys} {o : FileOp} (ho : OpApart O o) (h : Like O base f) (hr : o.run f = some g) :
    Like O base g := by
  cases o with
  | mkdir p =>
    cases hr
    refine ⟨fun q hq => by rw [makeDir_files]; exact h.file q hq, fun q hq => ?_, fun q hq => makeDir_more _ _ _ (h.more q hq)⟩
    rw [makeDir_else _ _ _ (fun e => by subst e; exact ho hq)]
    exact h.dir q hq
  | openw p =>
    simp only [FileOp.run] at hr
    split at hr
    · cases hr
      refine ⟨fun q hq => ?_, h.dir, h.more⟩
      simp only [FileSys.put]
      rw [if_neg (fun e => by subst e; exact hq ho)]
      exact h.file q hq
    · cases hr
  | put p c =>
    cases hr
    refine ⟨fun q hq => ?_, h.dir, h.more⟩
    simp only [FileSys.put]
    rw [if_neg (fun e => by subst e; exact hq ho)]
    exact h.file q hq

theorem like_run {O : List Char → Prop} {base : FileSys} (l : List FileOp) (hl : ∀ o ∈ l, OpApart O o) :
    ∀ f, Like O base f → Like O base (runOps l f).1 := by
  induction l with
  | nil => exact fun f h => h
  | cons o l ih =>
    intro f h
    rcases hr : o.run f with _ | g
    · rw [runOps_fails hr]; exact h
    · rw [runOps_goes hr]
      exact ih (fun q hq => hl q (by simp [hq])) g (like_op (hl o (by simp)) h hr)

/-- The same operations on two file systems that are alike. -/
theorem same_files {O : List Char → Prop} {base : FileSys} (l : List FileOp) (hl : ∀ o ∈ l, OpApart O o) :
    ∀ (S : List (List Char)) (f g : FileSys), ProperFrom S l → Like O base f → Like O base g → (∀ p, f.dir p = true → g.dir p = true) →
      (∀ p ∈ S, f.file p = g.file p) → (runOps l f).2 = true →
      (runOps l g).2 = true ∧ ∀ p, p ∈ S ∨ .openw p ∈ l → (runOps l f).1.file p = (runOps l g).1.file p := by
  induction l with
  | nil => intro S f g _ _ _ _ hS _; exact ⟨rfl, fun p hp => hS p (hp.resolve_right (by simp))⟩
  | cons o l ih =>
    intro S f g hp hf hg hd hS hr
    have ho := hl o (by simp)
    have hl' := fun q hq => hl q (List.mem_cons_of_mem _ hq)
    cases o with
    | mkdir q =>
      have rf : (FileOp.mkdir q).run f = some (makeDir f q) := rfl
      have rg : (FileOp.mkdir q).run g = some (makeDir g q) := rfl
      rw [runOps_goes rf] at hr ⊢
      rw [runOps_goes rg]
      obtain ⟨a, b⟩ := ih hl' S _ _ hp (like_op ho hf rf) (like_op ho hg rg) (by
        intro p h
        by_cases e : p = q
        · subst e
          by_cases hgp : g.dir p = true
          · exact makeDir_more _ _ _ hgp
          · have hfp : f.dir p ≠ true := fun h => hgp (hd p h)
            unfold makeDir at h ⊢
            split at h
            · exact absurd h hfp
            · rename_i hc
              simp only [Bool.or_eq_true, Bool.not_eq_true', not_or, Bool.not_eq_true, Bool.not_eq_false] at hc
              have h1 : (g.file p).isSome = false := by
                rw [hg.file p ho, ← hf.file p ho]
                exact hc.1.2
              have h2 : g.dir (parentOf p) = true := hd _ hc.2
              simp [h1, h2, hgp]
        · rw [makeDir_else _ _ _ e] at h ⊢
          exact hd p h) (by simp only [makeDir_files]; exact hS) hr
      exact ⟨a, fun p h => b p (by simpa using h)⟩
    | openw q =>
      have hcf : canWrite f q = true := by
        by_contra hc
        rw [runOps_fails (by simp [FileOp.run, hc])] at hr
        cases hr
      have hcg : canWrite g q = true := by
        unfold canWrite at hcf ⊢
        rw [Bool.and_eq_true, Bool.not_eq_true'] at hcf ⊢
        refine ⟨hd _ hcf.1, ?_⟩
        rw [hg.dir q ho, ← hf.dir q ho]
        exact hcf.2
      have rf : (FileOp.openw q).run f = some (f.put q []) := by simp [FileOp.run, hcf]
      have rg : (FileOp.openw q).run g = some (g.put q []) := by simp [FileOp.run, hcg]
      rw [runOps_goes rf] at hr ⊢
      rw [runOps_goes rg]
      obtain ⟨a, b⟩ := ih hl' (q :: S) _ _ hp (like_op ho hf rf) (like_op ho hg rg) hd (by
        intro p h
        simp only [FileSys.put]
        split
        · rfl
        · rename_i e
          exact hS p ((List.mem_cons.mp h).resolve_left e)) hr
      refine ⟨a, fun p h => b p ?_⟩
      rcases h with h | h
      · exact .inl (List.mem_cons_of_mem _ h)
      · rcases List.mem_cons.mp h with h | h
        · cases h; exact .inl (by simp)
        · exact .inr h
    | put q c =>
      have rf : (FileOp.put q c).run f = some (f.put q ((f.file q).getD [] ++ [c])) := rfl
      have rg : (FileOp.put q c).run g = some (g.put q ((g.file q).getD [] ++ [c])) := rfl
      rw [runOps_goes rf] at hr ⊢
      rw [runOps_goes rg]
      obtain ⟨a, b⟩ := ih hl' S _ _ hp.2 (like_op ho hf rf) (like_op ho hg rg) hd (by
        intro p h
        simp only [FileSys.put]
        rw [hS q hp.1]
        split
        · rfl
        · exact hS p h) hr
      exact ⟨a, fun p h => b p (by simpa using h)⟩

theorem killed_like {O : List Char → Prop} {base : FileSys} (P : FileProg) (hP : ∀ o ∈ P.ops, OpApart O o) {f g : FileSys}
    (h : Killed P f g) (hf : Like O base f) : Like O base g := by
  obtain ⟨n, hd, hfile⟩ := h
  have hl := like_run (P.ops.take n) (fun o ho => hP o (List.mem_of_mem_take ho)) f hf
  refine ⟨fun p hp => ?_, fun p hp => by rw [hd]; exact hl.dir p hp, fun p hp => by rw [hd]; exact hl.more p hp⟩
  rcases hfile p with h | ⟨h, -⟩
  · rw [h]; exact hl.file p hp
  · exact absurd (hP _ (List.mem_of_mem_take h)) hp

/-- **C126.**  A run of the main program may be killed at any point, any number of times, and started again: if the run completes when it
is not killed, then it completes when it is started again on what the killed runs have left, and then every file on the disk, whether it
belongs to the output or not, is as if the run had never been killed. -/
theorem C126_restart (E : RunEnv F) (months : List (Int × Int)) (lib : ClimLib Arr3) (fs fs' g : FileSys)
    (hrun : runMonths E months lib fs = (fs', none)) (hkill : Relation.ReflTransGen (Killed (monthsProg E months lib)) fs g) :
    ∃ g', runMonths E months lib g = (g', none) ∧ g'.file = fs'.file := by
  obtain ⟨hp, hok⟩ := months_good E months lib
  rw [← C125_operations] at hrun ⊢
  generalize monthsProg E months lib = P at *
  have hap : ∀ o ∈ P.ops, OpApart (fun p => .openw p ∈ P.ops) o := by
    intro o ho
    cases o with
    | mkdir p => exact fun h => (hok _ h).elim (hok _ ho).1 (hok _ ho).2
    | openw p => exact ho
    | put p c => exact (proper_put hp ho).resolve_left (by simp)
  have h0 : Like (fun p => .openw p ∈ P.ops) fs fs := ⟨fun _ _ => rfl, fun _ _ => rfl, fun _ h => h⟩
  have hg : Like (fun p => .openw p ∈ P.ops) fs g := by
    induction hkill with
    | refl => exact h0
    | tail _ hk ih => exact killed_like P hap hk ih
  unfold FileProg.run at hrun ⊢
  obtain ⟨e1, e2⟩ := Prod.mk.inj hrun
  have hok : (runOps P.ops fs).2 = true := by
    by_contra hc
    rw [if_neg hc] at e2
    cases e2
  rw [if_pos hok] at e2
  obtain ⟨k1, k2⟩ := same_files P.ops hap [] fs g hp h0 hg hg.more (by simp) hok
  refine ⟨_, by rw [if_pos k1, e2], ?_⟩
  funext p
  rw [← e1]
  by_cases h : .openw p ∈ P.ops
  · exact (k2 p (.inr h)).symm
  · rw [(like_run P.ops hap g hg).file p h, (like_run P.ops hap fs h0).file p h]

end MarineQC
