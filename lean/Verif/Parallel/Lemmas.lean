import Verif.Parallel.Model
import Verif.Crash.Rerun
import Verif.Wrapper.Schedule

/-! # Runs of the main program at the same time: lemmas -/

namespace MarineQC

open Spec

/-! ## A program of the pool does what the list of operations does -/

theorem opsAct_run (e : Option Err) (l : List FileOp) (fs : FileSys) :
    (opsAct (.stop e) l).run fs = ((runOps l fs).1, if (runOps l fs).2 then e else some .other) := by
  induction l generalizing fs with
  | nil => rfl
  | cons o l ih =>
    cases o with
    | mkdir p => exact ih _
    | openw p =>
      rw [opsAct, Act.run, runOps, FileOp.run]
      by_cases h : canWrite fs p = true
      · rw [if_pos h, if_pos h]
        exact ih _
      · rw [if_neg h, if_neg h]
        rfl
    | put p c => exact ih _

theorem act_run (P : FileProg) (fs : FileSys) : P.act.run fs = P.run fs := opsAct_run ..

theorem opsAct_within {inp priv dirs : List Char → Prop} (e : Option Err) (l : List FileOp)
    (hl : ∀ o ∈ l, match o with
      | .mkdir p => dirs p
      | .openw p => priv p
      | .put p _ => priv p) (g : FileSys) : (opsAct (.stop e) l).Within inp priv dirs g := by
  induction l generalizing g with
  | nil => trivial
  | cons o l ih =>
    have h := hl o (by simp)
    have ih := ih fun o ho => hl o (List.mem_cons_of_mem _ ho)
    cases o with
    | mkdir p => exact ⟨h, ih _⟩
    | openw p => exact ⟨h, ih _, by simp [Act.run]⟩
    | put p c => exact ⟨h, ih _⟩

/-- A program that sees what it would see alone, running to its end. -/
theorem run_alone {inp priv dirs : List Char → Prop} (hpd : ∀ p, priv p → ¬ dirs p) (n : Nat) (a : Act) (fs g g' : FileSys)
    (hn : a.steps g = n) (hw : a.Within inp priv dirs g) (hr : a.run g = (g', none)) (hv : View inp priv dirs fs g) :
    ∃ fs', a.run fs = (fs', none) ∧ View inp priv dirs fs' g' ∧ Touches priv dirs fs fs' := by
  induction n generalizing a fs g with
  | zero =>
    obtain ⟨e, rfl⟩ := steps_stop hn
    obtain ⟨rfl, rfl⟩ := Prod.mk.inj hr
    exact ⟨fs, rfl, hv, Touches.refl ..⟩
  | succ n ih =>
    obtain ⟨c1, c2, c3, c4, c5, c6⟩ := step_alone hpd a fs g g' hw hr hv
    obtain ⟨fs', d1, d2, d3⟩ := ih (a.step g).1 (a.step fs).2 (a.step g).2 (by rw [c6, hn]; rfl) c2 c3 c4
    refine ⟨fs', ?_, d2, touches_trans c5 d3⟩
    rw [← d1, ← c1]
    cases a with
    | openw p k =>
      simp only [Act.run, Act.step]
      split <;> rfl
    | _ => rfl

/-! ## Where the files of a run are -/

/-- The directory of a month. -/
def placeOf (out : List Char) (m : Int × Int) : List Char := pathJoin (pathJoin out (intText m.1)) (zeroPad 2 m.2)

/-- The paths of the files of a run over the months `l`. -/
def OwnPath (out : List Char) (l : List (Int × Int)) (p : List Char) : Prop :=
  (∃ m ∈ l, ∃ x, p = placeOf out m ++ '/' :: x) ∧ (p.getLast? = some 'v' ∨ p.getLast? = some 't')

/-- What the directories that are made do not end in. -/
def DirPath (p : List Char) : Prop := p.getLast? ≠ some 'v' ∧ p.getLast? ≠ some 't'

theorem own_not_dir (out : List Char) (l : List (Int × Int)) (p : List Char) (h : OwnPath out l p) : ¬ DirPath p :=
  fun hd => h.2.elim hd.1 hd.2

theorem place_form (out : List Char) : ∃ q : List Char, ∀ m : Int × Int, placeOf out m = q ++ (intText m.1 ++ '/' :: zeroPad 2 m.2) := by
  have head : ∀ l : List Char, '/' ∉ l → l.head? ≠ some '/' := fun l hl hh => hl (List.mem_of_head? hh)
  have hs : ∀ n : Int, '/' ∉ intText n := by
    intro n hc
    rcases intText_chars _ _ hc with h | h <;> revert h <;> decide
  have hz : ∀ n : Int, '/' ∉ zeroPad 2 n := by
    intro n hc
    rcases zeroPad_chars 2 n _ hc with h | h <;> revert h <;> decide
  have last : ∀ (a : List Char) (n : Int), ¬ (a ++ intText n = [] ∨ (a ++ intText n).getLast? = some '/') := by
    rintro a n (h | h)
    · exact intText_ne_nil n (List.append_eq_nil_iff.mp h).2
    · rw [List.getLast?_append_of_ne_nil _ (intText_ne_nil n)] at h
      exact hs n (List.mem_of_getLast? h)
  by_cases ho : out = [] ∨ out.getLast? = some '/'
  · refine ⟨out, fun m => ?_⟩
    unfold placeOf pathJoin
    rw [if_neg (head _ (hz m.2)), if_neg (head _ (hs m.1)), if_pos ho, if_neg (last _ _), List.append_assoc]
  · refine ⟨out ++ ['/'], fun m => ?_⟩
    unfold placeOf pathJoin
    rw [if_neg (head _ (hz m.2)), if_neg (head _ (hs m.1)), if_neg ho]
    have := last (out ++ ['/']) m.1
    rw [List.append_assoc, List.singleton_append] at this
    rw [if_neg this]
    simp

theorem slash_split {a b x y : List Char} (ha : '/' ∉ a) (hb : '/' ∉ b) (h : a ++ '/' :: x = b ++ '/' :: y) : a = b ∧ x = y := by
  induction a generalizing b with
  | nil =>
    cases b with
    | nil => simpa using h
    | cons c b => simp only [List.nil_append, List.cons_append, List.cons.injEq] at h; exact absurd (by rw [h.1]; simp) hb
  | cons c a ih =>
    cases b with
    | nil => simp only [List.nil_append, List.cons_append, List.cons.injEq] at h; exact absurd (by rw [h.1]; simp) ha
    | cons d b =>
      simp only [List.cons_append, List.cons.injEq] at h
      obtain ⟨h1, h2⟩ := ih (fun h => ha (by simp [h])) (fun h => hb (by simp [h])) h.2
      exact ⟨by rw [h.1, h1], h2⟩

/-- Files in the directories of different months are different. -/
theorem place_apart (out : List Char) (m m' : Int × Int) (x y : List Char) (h : placeOf out m ++ '/' :: x = placeOf out m' ++ '/' :: y) :
    m = m' := by
  obtain ⟨q, hq⟩ := place_form out
  have hs : ∀ n : Int, '/' ∉ intText n := by
    intro n hc
    rcases intText_chars _ _ hc with h | h <;> revert h <;> decide
  have hz : ∀ n : Int, '/' ∉ zeroPad 2 n := by
    intro n hc
    rcases zeroPad_chars 2 n _ hc with h | h <;> revert h <;> decide
  have key : placeOf out m = placeOf out m' := by
    rw [hq, hq] at h ⊢
    simp only [List.append_assoc, List.append_cancel_left_eq, List.cons_append] at h ⊢
    obtain ⟨h1, h2⟩ := slash_split (hs _) (hs _) h
    obtain ⟨h3, -⟩ := slash_split (hz _) (hz _) h2
    rw [h1, h3]
  have := C80_directories_distinct ⟨fun _ => none, fun _ => false⟩ out m.1 m.2 m'.1 m'.2 (by
    show some (placeOf out m) = some (placeOf out m')
    rw [key])
  exact Prod.ext this.1 this.2

/-- The operations write to files in one directory. -/
structure WritesIn (dir : List Char) (P : FileProg) : Prop where
  all : ∀ o ∈ P.ops, match o with
    | .mkdir _ => True
    | .openw p => ∃ x, p = dir ++ '/' :: x
    | .put p _ => ∃ x, p = dir ++ '/' :: x

theorem writesIn_andThen {dir : List Char} {P Q : FileProg} (hP : WritesIn dir P) (hQ : WritesIn dir Q) : WritesIn dir (P.andThen Q) := by
  unfold FileProg.andThen
  cases P.err with
  | none => exact ⟨fun o ho => (List.mem_append.mp ho).elim (hP.all o) (hQ.all o)⟩
  | some e => exact hP

theorem writesIn_nil (dir : List Char) (e : Option Err) : WritesIn dir ⟨[], e⟩ := ⟨fun o ho => by cases ho⟩

theorem writesIn_file {dir p : List Char} (hp : ∃ x, p = dir ++ '/' :: x) (l : List (Except Err (List Char))) : WritesIn dir (fileProg p l) := by
  refine ⟨fun o ho => ?_⟩
  rcases List.mem_cons.mp ho with rfl | ho
  · exact hp
  · obtain ⟨c, -, rfl⟩ := List.mem_map.mp ho
    exact hp

theorem writesIn_deckQc (runid dir : List Char) (year month : Int) (reps : List Report) (flags : List (String × List String)) :
    WritesIn dir (deckQcProg runid dir year month reps flags) := by
  induction flags with
  | nil => exact writesIn_nil ..
  | cons b l ih => exact writesIn_andThen (writesIn_file ⟨_, rfl⟩ _) ih

theorem writesIn_voyageQc (runid dir : List Char) (year month : Int) (reps : List Report) (flags : List (String × List String)) :
    WritesIn dir (voyageQcProg runid dir year month reps flags) := by
  induction flags with
  | nil => exact writesIn_nil ..
  | cons b l ih =>
    cases reps with
    | nil => exact writesIn_nil ..
    | cons r v =>
      unfold voyageQcProg
      dsimp only
      cases r.id with
      | none => exact writesIn_nil ..
      | some i => exact writesIn_andThen (writesIn_file ⟨_, rfl⟩ _) ih

theorem writesIn_voyage (fmt : Rat → List Char) (flags : List (String × List String)) (runid dir : List Char) (year month : Int)
    (reps : List Report) : WritesIn dir (voyageProg fmt flags runid dir year month reps) := by
  cases reps with
  | nil => exact writesIn_nil ..
  | cons r v =>
    unfold voyageProg
    dsimp only
    cases r.id with
    | none => exact writesIn_nil ..
    | some i => exact writesIn_andThen (writesIn_file ⟨_, rfl⟩ _) (writesIn_voyageQc ..)

theorem idFilePath_in (dir : List Char) : ∃ x, idFilePath dir = dir ++ '/' :: x := ⟨"ID_file.txt".toList, rfl⟩

theorem writesIn_rounds (fmt : Rat → List Char) (flags : List (String × List String)) (G : Geo) (runid dir : List Char) (year month : Int)
    (d : Deck) (es : List (Option String × List Nat)) : WritesIn dir (drifterRoundsProg fmt flags G runid dir year month d es) := by
  induction es with
  | nil => exact writesIn_nil ..
  | cons e es ih =>
    refine writesIn_andThen ?_ ih
    unfold drifterRoundProg
    rcases d.voyage G e.2 with e | v
    · exact writesIn_nil ..
    · rcases v with _ | ⟨r, v⟩
      · exact writesIn_nil ..
      · dsimp only
        cases r.id with
        | none => exact writesIn_nil ..
        | some i =>
          refine writesIn_andThen ⟨fun o ho => ?_⟩ (writesIn_voyage ..)
          obtain ⟨c, -, rfl⟩ := List.mem_map.mp ho
          exact idFilePath_in dir

theorem writesIn_output (fmt : Rat → List Char) (dflags vflags : List (String × List String)) (G : Geo) (runid out : List Char)
    (order : List (Option String × List Nat) → List (Option String × List Nat)) (tracking : Bool) (year month : Int) (d : Deck) :
    WritesIn (placeOf out (year, month)) (outputProg fmt dflags vflags G runid out order tracking year month d) := by
  unfold outputProg
  refine writesIn_andThen ⟨fun o ho => ?_⟩ ?_
  · obtain ⟨p, -, rfl⟩ := List.mem_map.mp ho
    trivial
  · show WritesIn _ ((deckProg fmt dflags runid (placeOf out (year, month)) year month d.reps).andThen _)
    refine writesIn_andThen (writesIn_andThen (writesIn_file ⟨_, rfl⟩ _) (writesIn_deckQc ..)) ?_
    cases tracking with
    | false => exact writesIn_nil ..
    | true =>
      show WritesIn _ (drifterProg fmt vflags G runid (placeOf out (year, month)) year month order d)
      refine writesIn_andThen ⟨fun o ho => ?_⟩ (writesIn_rounds ..)
      obtain rfl := List.mem_singleton.mp ho
      exact idFilePath_in _

variable {F : Type} [LinearOrder F] [Zero F]

/-- Every operation of a run is on a file of its own or makes a directory. -/
theorem months_own (E : RunEnv F) (months : List (Int × Int)) (lib : ClimLib Arr3) : ∀ o ∈ (monthsProg E months lib).ops,
    match o with
    | .mkdir p => DirPath p
    | .openw p => OwnPath E.out months p
    | .put p _ => OwnPath E.out months p := by
  have hok := (months_good E months lib).2
  have hin : ∀ (months : List (Int × Int)) (lib : ClimLib Arr3), ∀ o ∈ (monthsProg E months lib).ops,
      match o with
      | .mkdir _ => True
      | .openw p => ∃ m ∈ months, ∃ x, p = placeOf E.out m ++ '/' :: x
      | .put p _ => ∃ m ∈ months, ∃ x, p = placeOf E.out m ++ '/' :: x := by
    intro months
    induction months with
    | nil => intro lib o ho; cases ho
    | cons m l ih =>
      intro lib o ho
      rw [monthsProg] at ho
      cases hc : checkedMonth E lib m with
      | error e => rw [hc] at ho; cases ho
      | ok x =>
        rw [hc] at ho
        have h1 := writesIn_output E.fmt E.dflags E.vflags E.geo E.runid E.out E.order E.read.tracking m.1 m.2 x.1
        have key : o ∈ (outputProg E.fmt E.dflags E.vflags E.geo E.runid E.out E.order E.read.tracking m.1 m.2 x.1).ops ∨
            o ∈ (monthsProg E l x.2).ops := by
          simp only at ho
          unfold FileProg.andThen at ho
          split at ho
          · exact List.mem_append.mp ho
          · exact .inl ho
        rcases key with h | h
        · have := h1.all o h
          cases o with
          | mkdir p => trivial
          | openw p => exact ⟨m, by simp, this⟩
          | put p c => exact ⟨m, by simp, this⟩
        · have := ih x.2 o h
          cases o with
          | mkdir p => trivial
          | openw p => obtain ⟨k, hk, hx⟩ := this; exact ⟨k, by simp [hk], hx⟩
          | put p c => obtain ⟨k, hk, hx⟩ := this; exact ⟨k, by simp [hk], hx⟩
  intro o ho
  have h1 := hok o ho
  have h2 := hin months lib o ho
  cases o with
  | mkdir p => exact h1
  | openw p => exact ⟨h2, h1⟩
  | put p c => exact ⟨h2, h1⟩

theorem months_within (E : RunEnv F) (lib : ClimLib Arr3) (l : List (Int × Int)) (g : FileSys) :
    (monthsProg E l lib).act.Within (fun _ => False) (OwnPath E.out l) DirPath g :=
  opsAct_within _ _ (months_own E l lib) g

theorem own_apart {out : List Char} {l l' : List (Int × Int)} (h : ∀ m ∈ l, m ∉ l') (p : List Char) (h1 : OwnPath out l p) : ¬ OwnPath out l' p := by
  rintro ⟨⟨m', hm', x', hx'⟩, -⟩
  obtain ⟨⟨m, hm, x, hx⟩, -⟩ := h1
  obtain rfl := place_apart out m m' x x' (hx.symm.trans hx')
  exact h m hm hm'

/-! ## One run after the other -/

theorem runs_in_turn (E : RunEnv F) (lib : ClimLib Arr3) (fs : FileSys) (parts : List (List (Int × Int))) (hap : Divided parts)
    (hall : ∀ l ∈ parts, (runMonths E l lib fs).2 = none) : ∀ f, (∀ l ∈ parts, View (fun _ => False) (OwnPath E.out l) DirPath f fs) →
    ∃ f', runMonths E parts.flatten lib f = (f', none) ∧
      (∀ l ∈ parts, View (fun _ => False) (OwnPath E.out l) DirPath f' (runMonths E l lib fs).1) ∧
      Touches (OwnPath E.out parts.flatten) DirPath f f' := by
  induction parts with
  | nil => exact fun f _ => ⟨f, rfl, by simp, Touches.refl ..⟩
  | cons l ls ih =>
    intro f hv
    obtain ⟨hl, hls⟩ := List.pairwise_cons.mp hap
    have hr : (monthsProg E l lib).act.run fs = ((runMonths E l lib fs).1, none) := by
      rw [act_run, C125_operations]
      exact Prod.ext rfl (hall l (by simp))
    obtain ⟨f1, r1, v1, t1⟩ := run_alone (own_not_dir E.out l) _ _ f fs _ rfl (months_within E lib l fs) hr (hv l (by simp))
    have hfl : ∀ m ∈ l, m ∉ ls.flatten := by
      intro m hm hc
      obtain ⟨l', hl', hm'⟩ := List.mem_flatten.mp hc
      exact hl l' hl' m hm hm'
    obtain ⟨f', r2, v2, t2⟩ := ih hls (fun k hk => hall k (by simp [hk])) f1 (by
      intro k hk
      refine view_other (hv k (by simp [hk])) t1 ?_
      rintro p (hp | hp | hp) hq
      · exact hp
      · exact own_apart (hl k hk) p hq hp
      · exact own_not_dir _ _ _ hq hp)
    refine ⟨f', ?_, ?_, ?_⟩
    · rw [List.flatten_cons, C108_months, ← C125_operations, ← act_run, r1]
      exact r2
    · intro k hk
      rcases List.mem_cons.mp hk with rfl | hk
      · refine view_other v1 t2 ?_
        rintro p (hp | hp | hp) hq
        · exact hp
        · exact own_apart hfl p hp hq
        · exact own_not_dir _ _ _ hq hp
      · exact v2 k hk
    · have hsub : ∀ k p, k = l ∨ k = ls.flatten → OwnPath E.out k p → OwnPath E.out (l :: ls).flatten p := by
        rintro k p hk ⟨⟨m, hm, hx⟩, h⟩
        refine ⟨⟨m, ?_, hx⟩, h⟩
        rw [List.flatten_cons, List.mem_append]
        rcases hk with rfl | rfl
        · exact .inl hm
        · exact .inr hm
      exact touches_trans ⟨fun p hp => t1.file p fun h => hp (hsub l p (.inl rfl) h), t1.more, t1.only⟩
        ⟨fun p hp => t2.file p fun h => hp (hsub _ p (.inr rfl) h), t2.more, t2.only⟩

/-! ## Runs at the same time -/

theorem together_pooled (E : RunEnv F) (lib : ClimLib Arr3) (fs : FileSys) (parts : List (List (Int × Int))) (hap : Divided parts)
    (hall : ∀ l ∈ parts, (runMonths E l lib fs).2 = none) (sched : List Nat) :
    Pooled (fun _ => False) DirPath (fun i p => ∃ l, parts[i]? = some l ∧ OwnPath E.out l p)
      (parts.map fun l => (monthsProg E l lib).act) fs (fun i => (runMonths E (parts[i]?.getD []) lib fs).1)
      (fun i => sched.count i) (runTogether E lib parts sched fs) := by
  refine pooled_run ?_ ?_ ?_ ?_ sched
  · rintro i k p ⟨l, hl, hp⟩ ⟨l', hl', hp'⟩
    by_contra hne
    obtain ⟨hi, rfl⟩ := List.getElem?_eq_some_iff.mp hl
    obtain ⟨hk, rfl⟩ := List.getElem?_eq_some_iff.mp hl'
    rcases Nat.lt_or_gt_of_ne hne with h | h
    · exact own_apart (List.pairwise_iff_getElem.mp hap i k hi hk h) p hp hp'
    · exact own_apart (List.pairwise_iff_getElem.mp hap k i hk hi h) p hp' hp
  · exact fun _ _ _ h => h
  · rintro i p ⟨l, -, hp⟩
    exact own_not_dir _ _ _ hp
  · intro i a ha
    rw [List.getElem?_map] at ha
    cases hl : parts[i]? with
    | none => rw [hl] at ha; cases ha
    | some l =>
      rw [hl] at ha
      simp only [Option.map_some, Option.some.injEq] at ha
      subst ha
      refine ⟨?_, ?_⟩
      · refine opsAct_within _ _ ?_ fs
        intro o ho
        have := months_own E l lib o ho
        cases o with
        | mkdir p => exact this
        | openw p => exact ⟨l, rfl, this⟩
        | put p c => exact ⟨l, rfl, this⟩
      · rw [act_run, C125_operations]
        exact Prod.ext rfl (hall l (List.mem_of_getElem? hl))

/-! ## Started again -/

/-- The program writes files of `O` only and makes directories outside of it only, whatever it reads. -/
def Act.Keeps (O : List Char → Prop) : Act → Prop
  | .stop _ => True
  | .isfile _ k => ∀ b, (k b).Keeps O
  | .read _ k => ∀ s, (k s).Keeps O
  | .mkdir p k => ¬ O p ∧ k.Keeps O
  | .openw p k => O p ∧ ∀ b, (k b).Keeps O
  | .write p _ k => O p ∧ k.Keeps O

theorem keeps_step {O : List Char → Prop} {base : FileSys} (a : Act) (ha : a.Keeps O) (fs : FileSys) (h : Like O base fs) :
    (a.step fs).1.Keeps O ∧ Like O base (a.step fs).2 := by
  cases a with
  | stop e => exact ⟨trivial, h⟩
  | isfile p k => exact ⟨ha _, h⟩
  | read p k => exact ⟨ha _, h⟩
  | mkdir p k => exact ⟨ha.2, like_op (o := .mkdir p) ha.1 h rfl⟩
  | openw p k =>
    simp only [Act.step]
    by_cases hc : canWrite fs p = true
    · rw [if_pos hc]
      exact ⟨ha.2 _, like_op (o := .openw p) ha.1 h (by rw [FileOp.run, if_pos hc])⟩
    · rw [if_neg hc]
      exact ⟨ha.2 _, h⟩
  | write p s k =>
    refine ⟨ha.2, fun q hq => ?_, h.dir, h.more⟩
    have : q ≠ p := by rintro rfl; exact hq ha.1
    show (if q = p then _ else fs.file q) = _
    rw [if_neg this]
    exact h.file q hq

theorem keeps_pool {O : List Char → Prop} {base : FileSys} (sched : List Nat) : ∀ (progs : List Act) (fs : FileSys),
    (∀ a ∈ progs, a.Keeps O) → Like O base fs → Like O base (runSchedule sched progs fs).2 := by
  induction sched with
  | nil => exact fun _ _ _ h => h
  | cons n l ih =>
    intro progs fs hp h
    show Like O base (runSchedule l (poolStep (progs, fs) n).1 (poolStep (progs, fs) n).2).2
    unfold poolStep
    cases hn : progs[n]? with
    | none => exact ih _ _ hp h
    | some a =>
      obtain ⟨k1, k2⟩ := keeps_step a (hp a (List.mem_of_getElem? hn)) fs h
      refine ih _ _ ?_ k2
      intro b hb
      rcases List.mem_or_eq_of_mem_set hb with hb | rfl
      · exact hp b hb
      · exact k1

theorem keeps_ops {O : List Char → Prop} (e : Option Err) (l : List FileOp) (hl : ∀ o ∈ l, OpApart O o) : (opsAct (.stop e) l).Keeps O := by
  induction l with
  | nil => trivial
  | cons o l ih =>
    have h := hl o (by simp)
    have ih := ih fun o ho => hl o (List.mem_cons_of_mem _ ho)
    cases o with
    | mkdir p => exact ⟨h, ih⟩
    | openw p =>
      refine ⟨h, fun b => ?_⟩
      cases b
      · trivial
      · exact ih
    | put p c => exact ⟨h, ih⟩

/-- The operations of a run do not depend on the background the months before have left. -/
theorem monthsProg_same (E : RunEnv F) : ∀ (l : List (Int × Int)) {lib lib' : ClimLib Arr3} (_ : SameClim lib lib'),
    monthsProg E l lib' = monthsProg E l lib
  | [], _, _, _ => rfl
  | ym :: l, lib, lib', h => by
    unfold monthsProg
    rcases checkedMonth_same E h ym with ⟨e, h1, h2⟩ | ⟨a, b, h1, h2, h3, h4⟩
    · rw [h1, h2]
    · rw [h1, h2]
      obtain ⟨d, la⟩ := a
      obtain ⟨d', lb⟩ := b
      simp only at h3 h4
      subst h3
      simp only
      rw [monthsProg_same E l h4]

theorem monthsProg_cons (E : RunEnv F) (lib : ClimLib Arr3) (m : Int × Int) (l : List (Int × Int)) :
    monthsProg E (m :: l) lib = (monthsProg E [m] lib).andThen (monthsProg E l lib) := by
  rw [monthsProg, monthsProg]
  cases h : checkedMonth E lib m with
  | error e => rfl
  | ok a =>
    obtain ⟨d, lib'⟩ := a
    simp only
    rw [monthsProg_same E l (checkedMonth_clim E lib m d lib' h), monthsProg]
    have : ∀ P Q : FileProg, (P.andThen ⟨[], none⟩).andThen Q = P.andThen Q := by
      rintro ⟨p, e⟩ Q
      cases e <;> simp [FileProg.andThen]
    rw [this]

/-- What part of the months opens, all of them open. -/
theorem opens_all (E : RunEnv F) (lib : ClimLib Arr3) (months : List (Int × Int)) (hok : (monthsProg E months lib).err = none) (o : FileOp) :
    ∀ l : List (Int × Int), (∀ m ∈ l, m ∈ months) → o ∈ (monthsProg E l lib).ops → o ∈ (monthsProg E months lib).ops := by
  have one : ∀ months : List (Int × Int), (monthsProg E months lib).err = none → ∀ m ∈ months, o ∈ (monthsProg E [m] lib).ops →
      o ∈ (monthsProg E months lib).ops := by
    intro months
    induction months with
    | nil => intro _ m hm; cases hm
    | cons k months ih =>
      intro he m hm ho
      rw [monthsProg_cons] at he ⊢
      have hk : (monthsProg E [k] lib).err = none := by
        cases hx : (monthsProg E [k] lib).err with
        | none => rfl
        | some x => unfold FileProg.andThen at he; rw [hx] at he; simp only at he; rw [hx] at he; cases he
      unfold FileProg.andThen at he ⊢
      rw [hk] at he ⊢
      simp only at he ⊢
      rcases List.mem_cons.mp hm with rfl | hm
      · exact List.mem_append_left _ ho
      · exact List.mem_append_right _ (ih he m hm ho)
  intro l
  induction l with
  | nil => intro _ h; cases h
  | cons k l ih =>
    intro hl ho
    rw [monthsProg_cons] at ho
    unfold FileProg.andThen at ho
    split at ho
    · rcases List.mem_append.mp ho with h | h
      · exact one months hok k (hl k (by simp)) h
      · exact ih (fun m hm => hl m (by simp [hm])) h
    · exact one months hok k (hl k (by simp)) ho

end MarineQC
