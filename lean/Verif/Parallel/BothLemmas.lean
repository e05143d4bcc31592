import Verif.Parallel.Props
import Verif.Wrapper.Restart

/-! # Tracking jobs and runs of the main program at the same time: lemmas -/

namespace MarineQC

open Spec

/-! ## Where programs stay -/

theorem within_mono {inp priv dirs inp' priv' dirs' : List Char → Prop} (h1 : ∀ p, inp p → inp' p) (h2 : ∀ p, priv p → priv' p)
    (h3 : ∀ p, dirs p → dirs' p) (a : Act) : ∀ g, a.Within inp priv dirs g → a.Within inp' priv' dirs' g := by
  induction a with
  | stop e => exact fun _ _ => trivial
  | isfile p k ih => exact fun g h => ⟨h1 p h.1, ih _ g h.2⟩
  | read p k ih => exact fun g h => ⟨h1 p h.1, ih _ g h.2⟩
  | mkdir p k ih => exact fun g h => ⟨h3 p h.1, ih _ h.2⟩
  | openw p k ih => exact fun g h => ⟨h2 p h.1, ih _ _ h.2.1, h.2.2⟩
  | write p s k ih => exact fun g h => ⟨h2 p h.1, ih _ h.2⟩

/-- A script of the wrapper. -/
def ScriptPath (trackOut p : List Char) : Prop := ∃ x, p = trackOut ++ "/TrackingQC/jobs/".toList ++ x

/-- What is for the tracking. -/
def TrackPath (trackOut p : List Char) : Prop := ∃ x, p = trackOut ++ "/TrackingQC".toList ++ x

theorem touches_weaken {priv dirs priv' dirs' : List Char → Prop} {a b : FileSys} (h : Touches priv dirs a b) (h1 : ∀ p, priv p → priv' p)
    (h2 : ∀ p, dirs p → dirs' p) : Touches priv' dirs' a b :=
  ⟨fun p hp => h.file p fun hq => hp (h1 p hq), h.more, fun q hq => (h.only q hq).imp id (h2 q)⟩

theorem safemake_touches {priv dirs : List Char → Prop} (p : List Char) (hp : dirs p) (fs : FileSys) : Touches priv dirs fs (safemake p fs).1 := by
  unfold safemake
  split
  · exact Touches.refl ..
  · split
    · refine ⟨fun q _ => by rw [mkdir_file], fun q hq => mkdir_dir.mpr (.inl hq), fun q hq => ?_⟩
      rcases mkdir_dir.mp hq with h | ⟨rfl, -⟩
      · exact .inl h
      · exact .inr hp
    · exact Touches.refl ..

theorem thenDo_touches {priv dirs : List Char → Prop} (fs : FileSys) (x : FileSys × Option Err) (k : FileSys → FileSys × Option Err)
    (hx : Touches priv dirs fs x.1) (hk : ∀ g, Touches priv dirs g (k g).1) : Touches priv dirs fs (thenDo x k).1 := by
  obtain ⟨g, e⟩ := x
  cases e with
  | none => exact touches_trans hx (hk g)
  | some e => exact hx

theorem jobDirs_dir {trackOut p : List Char} (h : p ∈ jobDirs trackOut) : DirPath p ∧ TrackPath trackOut p := by
  have key : ∀ s : List Char, s.getLast? = some 'C' ∨ s.getLast? = some 's' → DirPath (trackOut ++ s) := by
    intro s hs
    unfold DirPath
    rw [List.getLast?_append]
    rcases hs with hs | hs <;> rw [hs] <;> simp
  simp only [jobDirs, List.mem_cons, List.not_mem_nil, or_false] at h
  rcases h with rfl | rfl | rfl
  · exact ⟨key _ (by decide), [], by simp⟩
  · exact ⟨key _ (by decide), "/logs".toList, by rw [List.append_assoc]; congr 1⟩
  · exact ⟨key _ (by decide), "/jobs".toList, by rw [List.append_assoc]; congr 1⟩

theorem writeScript_touches (W : WrapperEnv) (rid : List Char) (j : Job) (fs : FileSys) :
    Touches (ScriptPath W.trackOut) (· ∈ jobDirs W.trackOut) fs (writeScript W rid j fs).1 := by
  unfold writeScript
  refine thenDo_touches _ _ _ (safemake_touches _ (by simp [jobDirs]) fs) fun g => ?_
  refine thenDo_touches _ _ _ (safemake_touches _ (by simp [jobDirs]) g) fun g => ?_
  refine thenDo_touches _ _ _ (safemake_touches _ (by simp [jobDirs]) g) fun g => ?_
  have key : ∀ p, ScriptPath W.trackOut p → ∀ g : FileSys,
      Touches (ScriptPath W.trackOut) (· ∈ jobDirs W.trackOut) g (writeFile g p [.ok (jobScript W rid j)]).1 := by
    intro p hp g
    unfold writeFile
    split
    · refine ⟨fun q hq => ?_, fun _ h => h, fun _ h => .inl h⟩
      have : q ≠ p := by rintro rfl; exact hq hp
      simp [FileSys.put, this]
    · exact Touches.refl ..
  refine key _ ⟨jobName W.runid rid j, ?_⟩ g
  rw [show "/TrackingQC/jobs/".toList = "/TrackingQC/jobs".toList ++ ['/'] by decide]
  simp only [List.append_assoc, List.singleton_append]

theorem submitAll_touches (W : WrapperEnv) (rid : List Char) (jobs : List Job) : ∀ fs,
    Touches (ScriptPath W.trackOut) (· ∈ jobDirs W.trackOut) fs (submitAll W rid jobs fs).2.1 := by
  induction jobs with
  | nil => exact fun fs => Touches.refl ..
  | cons j l ih =>
    intro fs
    have h := writeScript_touches W rid j fs
    rw [submitAll]
    rcases hw : writeScript W rid j fs with ⟨g, _ | e⟩
    · rw [hw] at h
      exact touches_trans h (ih g)
    · rw [hw] at h
      exact h

/-- The wrapper writes and makes directories for the tracking only. -/
theorem wrapper_touches (W : WrapperEnv) (y1 m1 y2 m2 gap : Int) (edge : String) (fs : FileSys) :
    Touches (ScriptPath W.trackOut) (· ∈ jobDirs W.trackOut) fs (wrapperMain W y1 m1 y2 m2 gap edge fs).2.1 := by
  unfold wrapperMain
  split
  · exact Touches.refl ..
  · split
    · exact Touches.refl ..
    · exact submitAll_touches ..

theorem place_dir (out : List Char) (hb : IsBase out) (m : Int × Int) : placeOf out m = monthDir out m.1 m.2 := by
  have h : IsBase (out ++ '/' :: intText m.1) := by
    refine ⟨by simp, ?_⟩
    obtain ⟨a, l, e⟩ : ∃ a l, intText m.1 = l ++ [a] := by
      obtain ⟨l, a, e⟩ := List.eq_nil_or_concat (intText m.1) |>.resolve_left (intText_ne_nil _)
      exact ⟨a, l, by rw [e, List.concat_eq_append]⟩
    have ha : a ≠ '/' := by
      rintro rfl
      exact no_slash_int m.1 (by rw [e]; simp)
    rw [e, show out ++ '/' :: (l ++ [a]) = (out ++ '/' :: l) ++ [a] by simp, List.getLast?_concat]
    simpa using ha
  unfold placeOf monthDir
  rw [pathJoin_name _ _ hb (isName_int _), pathJoin_name _ _ h (isName_pad _)]
  simp

variable {F : Type} [LinearOrder F] [Zero F]

/-! ## The directories a run makes -/

/-- No directory is made. -/
def NoMkdir (P : FileProg) : Prop := ∀ p, FileOp.mkdir p ∉ P.ops

theorem noMkdir_andThen {P Q : FileProg} (hP : NoMkdir P) (hQ : NoMkdir Q) : NoMkdir (P.andThen Q) := by
  unfold FileProg.andThen
  cases P.err with
  | none => exact fun p hp => (List.mem_append.mp hp).elim (hP p) (hQ p)
  | some e => exact hP

theorem noMkdir_nil (e : Option Err) : NoMkdir ⟨[], e⟩ := fun p hp => by cases hp

theorem noMkdir_file (p : List Char) (l : List (Except Err (List Char))) : NoMkdir (fileProg p l) := by
  intro q hq
  rcases List.mem_cons.mp hq with h | h
  · cases h
  · obtain ⟨c, -, h⟩ := List.mem_map.mp h
    cases h

theorem noMkdir_deckQc (runid dir : List Char) (year month : Int) (reps : List Report) (flags : List (String × List String)) :
    NoMkdir (deckQcProg runid dir year month reps flags) := by
  induction flags with
  | nil => exact noMkdir_nil _
  | cons b l ih => exact noMkdir_andThen (noMkdir_file _ _) ih

theorem noMkdir_voyageQc (runid dir : List Char) (year month : Int) (reps : List Report) (flags : List (String × List String)) :
    NoMkdir (voyageQcProg runid dir year month reps flags) := by
  induction flags with
  | nil => exact noMkdir_nil _
  | cons b l ih =>
    cases reps with
    | nil => exact noMkdir_nil _
    | cons r v =>
      unfold voyageQcProg
      dsimp only
      cases r.id with
      | none => exact noMkdir_nil _
      | some i => exact noMkdir_andThen (noMkdir_file _ _) ih

theorem noMkdir_voyage (fmt : Rat → List Char) (flags : List (String × List String)) (runid dir : List Char) (year month : Int)
    (reps : List Report) : NoMkdir (voyageProg fmt flags runid dir year month reps) := by
  cases reps with
  | nil => exact noMkdir_nil _
  | cons r v =>
    unfold voyageProg
    dsimp only
    cases r.id with
    | none => exact noMkdir_nil _
    | some i => exact noMkdir_andThen (noMkdir_file _ _) (noMkdir_voyageQc _ _ _ _ _ _)

theorem noMkdir_rounds (fmt : Rat → List Char) (flags : List (String × List String)) (G : Geo) (runid dir : List Char) (year month : Int)
    (d : Deck) (es : List (Option String × List Nat)) : NoMkdir (drifterRoundsProg fmt flags G runid dir year month d es) := by
  induction es with
  | nil => exact noMkdir_nil _
  | cons e es ih =>
    refine noMkdir_andThen ?_ ih
    unfold drifterRoundProg
    rcases d.voyage G e.2 with e | v
    · exact noMkdir_nil _
    · rcases v with _ | ⟨r, v⟩
      · exact noMkdir_nil _
      · dsimp only
        cases r.id with
        | none => exact noMkdir_nil _
        | some i =>
          refine noMkdir_andThen (fun p hp => ?_) (noMkdir_voyage _ _ _ _ _ _ _)
          obtain ⟨c, -, h⟩ := List.mem_map.mp hp
          cases h

/-- A run makes the directories of its years and months. -/
theorem months_mkdirs (E : RunEnv F) (hob : IsBase E.out) (q : List (Int × Int)) (lib : ClimLib Arr3) (p : List Char)
    (hp : .mkdir p ∈ (monthsProg E q lib).ops) : ∃ m ∈ q, ∃ z, p = E.out ++ '/' :: (intText m.1 ++ z) := by
  induction q generalizing lib with
  | nil => cases hp
  | cons m l ih =>
    rw [monthsProg] at hp
    cases hc : checkedMonth E lib m with
    | error e => rw [hc] at hp; cases hp
    | ok x =>
      rw [hc] at hp
      have key : .mkdir p ∈ (outputProg E.fmt E.dflags E.vflags E.geo E.runid E.out E.order E.read.tracking m.1 m.2 x.1).ops ∨
          .mkdir p ∈ (monthsProg E l x.2).ops := by
        simp only at hp
        unfold FileProg.andThen at hp
        split at hp
        · exact List.mem_append.mp hp
        · exact .inl hp
      rcases key with h | h
      · refine ⟨m, by simp, ?_⟩
        unfold outputProg at h
        rw [FileProg.andThen] at h
        rcases List.mem_append.mp h with h | h
        · obtain ⟨p', hp', h⟩ := List.mem_map.mp h
          cases h
          rw [C81_completions E.out _ hob (by
            intro s hs
            simp only [List.mem_cons, List.not_mem_nil, or_false] at hs
            rcases hs with rfl | rfl
            · exact isName_int _
            · exact isName_pad _)] at hp'
          simp [List.range_succ] at hp'
          rcases hp' with rfl | rfl
          · exact ⟨[], by simp⟩
          · exact ⟨_, rfl⟩
        · exfalso
          have : NoMkdir ((deckProg E.fmt E.dflags E.runid (placeOf E.out m) m.1 m.2 x.1.reps).andThen
              (if E.read.tracking then drifterProg E.fmt E.vflags E.geo E.runid (placeOf E.out m) m.1 m.2 E.order x.1 else ⟨[], none⟩)) := by
            refine noMkdir_andThen (noMkdir_andThen (noMkdir_file _ _) (noMkdir_deckQc _ _ _ _ _ _)) ?_
            cases E.read.tracking with
            | false => exact noMkdir_nil _
            | true =>
              show NoMkdir (drifterProg ..)
              refine noMkdir_andThen (fun o ho => ?_) (noMkdir_rounds _ _ _ _ _ _ _ _ _)
              cases List.mem_singleton.mp ho
          exact this p h
      · obtain ⟨k, hk, h⟩ := ih x.2 h
        exact ⟨k, by simp [hk], h⟩

/-- The run over these months opens this file for writing. -/
def Opens (E : RunEnv F) (lib : ClimLib Arr3) (q : List (Int × Int)) (p : List Char) : Prop := .openw p ∈ (monthsProg E q lib).ops

theorem opens_own {E : RunEnv F} {lib : ClimLib Arr3} {q : List (Int × Int)} {p : List Char} (h : Opens E lib q p) : OwnPath E.out q p :=
  months_own E q lib _ h

theorem opens_within (E : RunEnv F) (lib : ClimLib Arr3) (q : List (Int × Int)) (g : FileSys) :
    (monthsProg E q lib).act.Within (fun _ => False) (Opens E lib q) DirPath g := by
  refine opsAct_within _ _ (fun o ho => ?_) g
  have h := months_own E q lib o ho
  cases o with
  | mkdir p => exact h
  | openw p => exact ho
  | put p c => exact (proper_put (months_good E q lib).1 ho).resolve_left (by simp)

/-- Every operation of a run is one of a run over one of its months. -/
theorem ops_one (E : RunEnv F) (lib : ClimLib Arr3) (o : FileOp) (q : List (Int × Int)) (ho : o ∈ (monthsProg E q lib).ops) :
    ∃ m ∈ q, o ∈ (monthsProg E [m] lib).ops := by
  induction q with
  | nil => cases ho
  | cons k l ih =>
    rw [monthsProg_cons] at ho
    unfold FileProg.andThen at ho
    split at ho
    · rcases List.mem_append.mp ho with h | h
      · exact ⟨k, by simp, h⟩
      · obtain ⟨m, hm, h⟩ := ih h
        exact ⟨m, by simp [hm], h⟩
    · exact ⟨k, by simp, ho⟩

theorem run_err (E : RunEnv F) (lib : ClimLib Arr3) (q : List (Int × Int)) (fs : FileSys) (h : (runMonths E q lib fs).2 = none) :
    (monthsProg E q lib).err = none := by
  rw [← C125_operations] at h
  unfold FileProg.run at h
  by_contra hc
  simp only at h
  split at h
  · exact hc h
  · cases h

/-- Months that complete one by one complete in one run. -/
theorem singles_run (E : RunEnv F) (lib : ClimLib Arr3) (q : List (Int × Int)) (hn : q.Nodup) (fs : FileSys)
    (h : ∀ m ∈ q, (runMonths E [m] lib fs).2 = none) : (runMonths E q lib fs).2 = none := by
  obtain ⟨fs', h1, -⟩ := C134_at_once E lib (q.map fun m => [m]) (by
    unfold Divided
    rw [List.pairwise_map]
    exact hn.imp fun {a b} hab m hm hm' => hab (by
      rw [List.mem_singleton] at hm hm'
      rw [← hm, ← hm'])) fs (by
    intro l hl
    obtain ⟨m, hm, rfl⟩ := List.mem_map.mp hl
    exact h m hm)
  have e : (q.map fun m => [m]).flatten = q := by
    clear hn h h1
    induction q with
    | nil => rfl
    | cons a l ih => simp [ih]
  rw [e] at h1
  rw [h1]

section

variable (num : List Char → Option Rat) (ord : List (List Char) → List (List Char)) (E : RunEnv F) (hf : ∀ x, Plain (E.fmt x))
  (hfe : ∀ x, NoBlankEnd (E.fmt x) ∧ E.fmt x ≠ []) (hG : IsDistance E.geo)
  (elev : Int → Int → Rat → Rat → Rat → Rat → ℝ) (P : DriftParams) (hP : TrackParamsOk P) (W : WrapperEnv)
  (hopt : ∀ l, (W.options l).Perm l) (conf : List Char → Option TrackSettings) (hconf : conf W.config = some ⟨W.out, W.trackOut, W.runid, P⟩)
  (y1 m1 y2 m2 : Int) (hwords : WordsOnly W (runMonthId y1 m1 y2 m2)) (hbase : IsBase W.trackOut) (hrun : '/' ∉ W.runid)
  (hWo : W.out = E.out) (hob : IsBase E.out) (lib : ClimLib Arr3)

/-- The programs of a round. -/
noncomputable def bothProgs (l : List Job) (parts : List (List (Int × Int))) : List Act :=
  (l.map (jobScript W (runMonthId y1 m1 y2 m2))).map (scriptAct E.fmt num ord E.geo elev conf) ++
    parts.map fun q => (monthsProg E q lib).act

include hf hfe hG hP hopt hconf hwords hbase hrun hWo hob in
/-- Some jobs, and some runs of the main program over other months, at the same time. -/
theorem both_round (months : List (Int × Int)) (f1 : FileSys) (jobs : List Job) (rnd : Rat → Rat) (recs : Job → List Imma)
    (R : Job → List Report)
    (hapart : ∀ m ∈ months, ∀ x z, W.trackOut ++ "/TrackingQC".toList ++ x ≠ monthDir W.out m.1 m.2 ++ '/' :: z)
    (hid : ∀ j ∈ jobs, '/' ∉ j.ident.toList ∧ '*' ∉ j.ident.toList)
    (hmn : ∀ j ∈ jobs, (1 ≤ j.mn1 ∧ j.mn1 ≤ 12) ∧ 1 ≤ j.mn2 ∧ j.mn2 ≤ 12)
    (hdiff : ∀ j ∈ jobs, ∀ k ∈ jobs, j.ident = k.ident → j.yr2 = k.yr2 → j.mn2 = k.mn2 → j = k)
    (hjob : ∀ j ∈ jobs, ∃ arg k, Sendable j arg ∧ ((k : Nat) : Int) = 12 * (j.yr2 - j.yr1) + j.mn2 - j.mn1 ∧
      (∀ m ∈ monthList (j.yr1, j.mn1) k, m ∈ months) ∧
      readChunk num ord f1 W.out W.runid arg (monthList (j.yr1, j.mn1) k) = .ok (R j) ∧ ChunkFound rnd j.ident (recs j) (R j))
    (l : List Job) (hl : ∀ j ∈ l, j ∈ jobs) (hnd : l.Nodup) (parts : List (List (Int × Int))) (hdiv : Divided parts)
    (hnew : ∀ q ∈ parts, ∀ m ∈ q, m ∉ months ∧ ∀ x z, W.trackOut ++ "/TrackingQC".toList ++ x ≠ monthDir W.out m.1 m.2 ++ '/' :: z)
    (fs : FileSys) (hready : JobReady W.out W.trackOut W.runid (runMonthId y1 m1 y2 m2) months f1 jobs fs)
    (hall : ∀ q ∈ parts, (runMonths E q lib fs).2 = none) (s : List Nat → List Act × FileSys)
    (hs : ∀ sched, s sched = runSchedule sched (bothProgs num ord E elev W conf y1 m1 y2 m2 lib l parts) fs) :
    (∀ sched,
      Touches (fun p => (∃ j ∈ l, ∃ D ∈ trackingDirs W.trackOut j.yr2 j.mn2 (runMonthId y1 m1 y2 m2), p = resultPath W.runid j D) ∨
        ∃ q ∈ parts, Opens E lib q p)
        (fun p => DirPath p ∨ ∃ i ∈ jobs, p ∈ trackingDirs W.trackOut i.yr2 i.mn2 (runMonthId y1 m1 y2 m2)) fs (s sched).2 ∧
      JobReady W.out W.trackOut W.runid (runMonthId y1 m1 y2 m2) months f1 jobs (s sched).2 ∧
      (∀ (k : Nat) j e, l[k]? = some j → (s sched).1[k]? = some (Act.stop e) →
        e = none ∧ JobDone E.fmt E.geo elev P W.trackOut W.runid (runMonthId y1 m1 y2 m2) j (R j) (s sched).2) ∧
      (∀ j ∈ jobs, j ∉ l → JobDone E.fmt E.geo elev P W.trackOut W.runid (runMonthId y1 m1 y2 m2) j (R j) fs →
        JobDone E.fmt E.geo elev P W.trackOut W.runid (runMonthId y1 m1 y2 m2) j (R j) (s sched).2) ∧
      ∀ (k : Nat) q e, parts[k]? = some q → (s sched).1[l.length + k]? = some (Act.stop e) →
        e = none ∧ ∀ p, Opens E lib q p → (s sched).2.file p = (runMonths E q lib fs).1.file p) ∧
    ∃ N, ∀ sched : List Nat, (∀ k < l.length + parts.length, N ≤ sched.count k) → ∀ k < l.length + parts.length, ∃ e,
      (s sched).1[k]? = some (Act.stop e) := by
  obtain ⟨progs, hprogs⟩ : ∃ progs, progs = bothProgs num ord E elev W conf y1 m1 y2 m2 lib l parts := ⟨_, rfl⟩
  simp only [← hprogs] at hs
  have hlen : progs.length = l.length + parts.length := by rw [hprogs]; simp [bothProgs]
  have hgetj : ∀ (k : Nat) j, l[k]? = some j → progs[k]? = some (scriptAct E.fmt num ord E.geo elev conf (jobScript W (runMonthId y1 m1 y2 m2) j)) := by
    intro k j hk
    have hlt : k < l.length := (List.getElem?_eq_some_iff.mp hk).1
    rw [hprogs, bothProgs, List.getElem?_append_left (by simpa using hlt), List.getElem?_map, List.getElem?_map, hk]
    rfl
  have hgetq : ∀ (k : Nat) q, parts[k]? = some q → progs[l.length + k]? = some (monthsProg E q lib).act := by
    intro k q hk
    rw [hprogs, bothProgs, List.getElem?_append_right (by simp)]
    simp [hk]
  have hback : ∀ (k : Nat) (a : Act), progs[k]? = some a →
      (∃ j, l[k]? = some j ∧ a = scriptAct E.fmt num ord E.geo elev conf (jobScript W (runMonthId y1 m1 y2 m2) j)) ∨
      ∃ i q, k = l.length + i ∧ parts[i]? = some q ∧ a = (monthsProg E q lib).act := by
    intro k a hk
    by_cases hlt : k < l.length
    · left
      refine ⟨l[k], List.getElem?_eq_getElem hlt, ?_⟩
      rw [hgetj k _ (List.getElem?_eq_getElem hlt)] at hk
      exact (Option.some.inj hk).symm
    · right
      obtain ⟨i, rfl⟩ := Nat.exists_eq_add_of_le (Nat.le_of_not_lt hlt)
      have hi : i < parts.length := by
        have := (List.getElem?_eq_some_iff.mp hk).1
        omega
      refine ⟨i, parts[i], rfl, List.getElem?_eq_getElem hi, ?_⟩
      rw [hgetq i _ (List.getElem?_eq_getElem hi)] at hk
      exact (Option.some.inj hk).symm
  -- alone
  have alone : ∀ j ∈ l, ∃ g, (scriptAct E.fmt num ord E.geo elev conf (jobScript W (runMonthId y1 m1 y2 m2) j)).run fs = (g, none) ∧
      JobDone E.fmt E.geo elev P W.trackOut W.runid (runMonthId y1 m1 y2 m2) j (R j) g ∧
      (scriptAct E.fmt num ord E.geo elev conf (jobScript W (runMonthId y1 m1 y2 m2) j)).Within
        (fun p => ∃ m ∈ months, ∃ x, p = monthDir W.out m.1 m.2 ++ '/' :: x)
        (fun p => ∃ D ∈ trackingDirs W.trackOut j.yr2 j.mn2 (runMonthId y1 m1 y2 m2), p = resultPath W.runid j D)
        (fun q => ∃ i ∈ jobs, q ∈ trackingDirs W.trackOut i.yr2 i.mn2 (runMonthId y1 m1 y2 m2)) fs := by
    intro j hj
    obtain ⟨arg, k, h1, h2, h3, h4, h5⟩ := hjob j (hl j hj)
    obtain ⟨g, a1, -, a3, -⟩ := job_step E.fmt hf hfe num ord E.geo hG elev P hP W hopt conf hconf y1 m1 y2 m2 hwords hbase hrun months f1 jobs
      fs hready hapart j (hl j hj) arg h1 (hmn j (hl j hj)).1 (hmn j (hl j hj)).2 k h2 h3 rnd (recs j) (R j) h4 h5
    refine ⟨g, ?_, a3, ?_⟩
    · rw [C123_steps, a1]
      rfl
    · refine script_within E.fmt num ord E.geo elev P hP W hopt conf hconf y1 m1 y2 m2 hwords hbase months jobs fs j (hl j hj) arg h1
        (hmn j (hl j hj)).1 (hmn j (hl j hj)).2 k h2 h3 rnd (recs j) (R j) ?_ h5
      rw [← h4]
      exact readChunk_congr num ord fs f1 W.out W.runid arg _ fun m hm x => hready.input m (h3 m hm) x
  obtain ⟨priv, hpriv⟩ : ∃ priv : Nat → List Char → Prop, priv = fun k p => (∃ j, l[k]? = some j ∧
    ∃ D ∈ trackingDirs W.trackOut j.yr2 j.mn2 (runMonthId y1 m1 y2 m2), p = resultPath W.runid j D) ∨
    ∃ i q, k = l.length + i ∧ parts[i]? = some q ∧ Opens E lib q p := ⟨_, rfl⟩
  have last : ∀ (i : Job) D, (resultPath W.runid i D).getLast? = some 'v' := fun i D => voyagePath_last ..
  have below : ∀ (j : Job) D, D ∈ trackingDirs W.trackOut j.yr2 j.mn2 (runMonthId y1 m1 y2 m2) →
      ∃ x, resultPath W.runid j D = W.trackOut ++ "/TrackingQC".toList ++ x := by
    intro j D hD
    obtain ⟨z, hz⟩ := trackingDirs_below hD
    obtain ⟨w, hw⟩ := voyagePath_in W.runid D "Tracking_".toList (safeFilename j.ident.toList) j.yr2 j.mn2
    refine ⟨z ++ '/' :: w, ?_⟩
    unfold resultPath
    rw [hw, hz]
    simp [List.append_assoc]
  have hplace : ∀ m : Int × Int, placeOf E.out m = monthDir W.out m.1 m.2 := fun m => by rw [place_dir E.out hob, hWo]
  -- what is for the tracking is not for the months
  have track : ∀ q ∈ parts, ∀ p, Opens E lib q p → ¬ TrackPath W.trackOut p := by
    rintro q hq p ho ⟨y, hy⟩
    obtain ⟨⟨m, hm, x, hx⟩, -⟩ := opens_own ho
    exact (hnew q hq m hm).2 y x (by rw [← hy, hx, hplace])
  have hdiff' : ∀ i k p, priv i p → priv k p → i = k := by
    intro i k p hi hk
    rw [hpriv] at hi hk
    rcases hi with ⟨j, j1, D, hD, j3⟩ | ⟨i, q, rfl, hq, hp⟩ <;> rcases hk with ⟨j', j1', D', hD', j3'⟩ | ⟨k, q', rfl, hq', hp'⟩
    · have m := hl j (List.mem_of_getElem? j1)
      have m' := hl j' (List.mem_of_getElem? j1')
      rw [j3] at j3'
      obtain ⟨e1, e2, e3⟩ := resultPath_inj hrun (hid j m) (hid j' m') (hmn j m).2 (hmn j' m').2 j3'
      obtain rfl := hdiff j m j' m' e1 e2 e3
      obtain ⟨b1, b2⟩ := List.getElem?_eq_some_iff.mp j1
      obtain ⟨b1', b2'⟩ := List.getElem?_eq_some_iff.mp j1'
      exact (List.Nodup.getElem_inj_iff hnd).mp (b2.trans b2'.symm)
    · exact absurd (by rw [j3]; exact below j D hD) (track q' (List.mem_of_getElem? hq') p hp')
    · exact absurd (by rw [j3']; exact below j' D' hD') (track q (List.mem_of_getElem? hq) p hp)
    · by_contra hne
      have hne : i ≠ k := fun h => hne (by rw [h])
      obtain ⟨hi, rfl⟩ := List.getElem?_eq_some_iff.mp hq
      obtain ⟨hk, rfl⟩ := List.getElem?_eq_some_iff.mp hq'
      rcases Nat.lt_or_gt_of_ne hne with h | h
      · exact own_apart (List.pairwise_iff_getElem.mp hdiv i k hi hk h) p (opens_own hp) (opens_own hp')
      · exact own_apart (List.pairwise_iff_getElem.mp hdiv k i hk hi h) p (opens_own hp') (opens_own hp)
  have hpi : ∀ i p, priv i p → ¬ ∃ m ∈ months, ∃ x, p = monthDir W.out m.1 m.2 ++ '/' :: x := by
    rintro i p hi ⟨m, hm, x, hx⟩
    rw [hpriv] at hi
    rcases hi with ⟨j, -, D, hD, e⟩ | ⟨i, q, -, hq, ho⟩
    · obtain ⟨y, hy⟩ := below j D hD
      exact hapart m hm y x (by rw [← hx, e, hy])
    · obtain ⟨⟨m', hm', x', hx'⟩, -⟩ := opens_own ho
      rw [hx, ← hplace] at hx'
      obtain rfl := place_apart _ _ _ _ _ hx'
      exact (hnew q (List.mem_of_getElem? hq) m hm').1 hm
  have hpd : ∀ i p, priv i p → ¬ (DirPath p ∨ ∃ i ∈ jobs, p ∈ trackingDirs W.trackOut i.yr2 i.mn2 (runMonthId y1 m1 y2 m2)) := by
    rintro i p hi hp
    rw [hpriv] at hi
    rcases hi with ⟨j, -, D, -, e⟩ | ⟨i, q, -, hq, ho⟩
    · rcases hp with hp | ⟨j', -, hp⟩
      · exact hp.1 (by rw [e]; exact last j D)
      · exact trackingDirs_last hp (by rw [e]; exact last j D)
    · rcases hp with hp | ⟨j', -, hp⟩
      · exact own_not_dir _ _ _ (opens_own ho) hp
      · exact track q (List.mem_of_getElem? hq) p ho (trackingDirs_below hp)
  have pooled := pooled_run (inp := fun p => ∃ m ∈ months, ∃ x, p = monthDir W.out m.1 m.2 ++ '/' :: x)
    (dirs := fun p => DirPath p ∨ ∃ i ∈ jobs, p ∈ trackingDirs W.trackOut i.yr2 i.mn2 (runMonthId y1 m1 y2 m2))
    (progs := progs) (fs0 := fs) (last := fun k => ((progs[k]?.map fun a => (a.run fs).1).getD fs)) hdiff' hpi hpd (by
      intro k a hk
      rcases hback k a hk with ⟨j, j1, rfl⟩ | ⟨i, q, rfl, hq, rfl⟩
      · obtain ⟨g, a1, a2, a3⟩ := alone j (List.mem_of_getElem? j1)
        refine ⟨within_mono (fun _ h => h) (fun p hp => ?_) (fun p hp => .inr hp) _ _ a3, ?_⟩
        · rw [hpriv]
          exact .inl ⟨j, j1, hp⟩
        · rw [hk, a1]
          simp [a1]
      · refine ⟨within_mono (fun _ h => h.elim) (fun p hp => ?_) (fun p hp => .inl hp) _ _ (opens_within E lib q fs), ?_⟩
        · rw [hpriv]
          exact .inr ⟨i, q, rfl, hq, hp⟩
        · rw [hk]
          simp only [Option.map_some, Option.getD_some]
          rw [act_run, C125_operations]
          exact Prod.ext rfl (hall q (List.mem_of_getElem? hq)))
  refine ⟨fun sched => ?_, ?_⟩
  · have H := pooled sched
    rw [← hs] at H
    generalize s sched = s at H ⊢
    have hother : ∀ p, (∀ j ∈ l, ∀ D ∈ trackingDirs W.trackOut j.yr2 j.mn2 (runMonthId y1 m1 y2 m2), p ≠ resultPath W.runid j D) →
        (∀ q ∈ parts, ¬ Opens E lib q p) → s.2.file p = fs.file p := by
      intro p hp hq
      apply H.touches.file
      rintro ⟨k, -, hk⟩
      rw [hpriv] at hk
      rcases hk with ⟨j, j1, D, hD, e⟩ | ⟨i, q, -, h1, h2⟩
      · exact hp j (List.mem_of_getElem? j1) D hD e
      · exact hq q (List.mem_of_getElem? h1) h2
    refine ⟨touches_weaken H.touches ?_ fun _ h => h, ⟨H.touches.more _ hready.there, ?_, ?_, ?_⟩, ?_, ?_, ?_⟩
    · rintro p ⟨k, -, hk⟩
      rw [hpriv] at hk
      rcases hk with ⟨j, j1, h⟩ | ⟨i, q, -, h1, h2⟩
      · exact .inl ⟨j, List.mem_of_getElem? j1, h⟩
      · exact .inr ⟨q, List.mem_of_getElem? h1, h2⟩
    · intro i hi a ha
      rw [hother a, hready.clear i hi a ha]
      · intro j _ D _ e
        exact trackingDirs_last ha (by rw [e]; exact last j D)
      · exact fun q hq ho => track q hq a ho (trackingDirs_below ha)
    · intro i hi a ha
      rw [Bool.eq_false_iff]
      intro hc
      rcases H.touches.only _ hc with h | h | ⟨j', -, h⟩
      · rw [hready.free i hi a ha] at h; cases h
      · exact h.1 (last i a)
      · exact trackingDirs_last h (last i a)
    · intro m hm x
      rw [H.touches.file, hready.input m hm x]
      rintro ⟨k, -, hk⟩
      exact hpi k _ hk ⟨m, hm, x, rfl⟩
    · intro k j e hk hst
      obtain ⟨g, b1, b2, b3, -⟩ := H.each k _ hst
      obtain ⟨g', a1, ⟨R', order, v, c1, c2, c3, c4, c5⟩, -⟩ := alone j (List.mem_of_getElem? hk)
      rw [hgetj k j hk, Option.map_some, Option.getD_some, a1] at b2
      simp only [Act.run, Prod.mk.injEq] at b2
      obtain ⟨rfl, rfl⟩ := b2
      refine ⟨rfl, R', order, v, c1, c2, c3, c4, fun D hD => ?_⟩
      obtain ⟨t, t1, t2⟩ := c5 D hD
      refine ⟨t, ?_, t2⟩
      rw [b3.file _ (Or.inr (Or.inl ?_)), t1]
      rw [hpriv]
      exact .inl ⟨j, hk, D, wanted_dirs hD, rfl⟩
    · rintro i hi hil ⟨R', order, v, c1, c2, c3, c4, c5⟩
      refine ⟨R', order, v, c1, c2, c3, c4, fun D hD => ?_⟩
      obtain ⟨t, t1, t2⟩ := c5 D hD
      refine ⟨t, ?_, t2⟩
      rw [hother, t1]
      · intro j hj D' _ e
        obtain ⟨e1, e2, e3⟩ := resultPath_inj hrun (hid i hi) (hid j (hl j hj)) (hmn i hi).2 (hmn j (hl j hj)).2 e
        obtain rfl := hdiff i hi j (hl j hj) e1 e2 e3
        exact hil hj
      · exact fun q hq ho => track q hq _ ho (below i D (wanted_dirs hD))
    · intro k q e hk hst
      obtain ⟨g, b1, b2, b3, -⟩ := H.each _ _ hst
      rw [hgetq k q hk, Option.map_some, Option.getD_some, act_run, C125_operations] at b2
      obtain ⟨rfl, rfl⟩ := Prod.mk.inj b2
      refine ⟨rfl, fun p hp => b3.file p (.inr (.inl ?_))⟩
      rw [hpriv]
      exact .inr ⟨k, q, rfl, hk, hp⟩
  · refine ⟨(progs.map fun a => a.steps fs).sum, fun sched hsched k hk => ?_⟩
    have H := pooled sched
    rw [hs]
    have hk' : k < (runSchedule sched progs fs).1.length := by rw [H.len, hlen]; exact hk
    obtain ⟨g, -, -, -, b4⟩ := H.each k _ (List.getElem?_eq_getElem hk')
    have hkp : k < progs.length := by rw [hlen]; exact hk
    have := b4 _ (List.getElem?_eq_getElem hkp)
    have h1 : progs[k].steps fs ≤ (progs.map fun a => a.steps fs).sum :=
      List.le_sum_of_mem (List.mem_map.mpr ⟨_, List.getElem_mem hkp, rfl⟩)
    have h2 := hsched k hk
    obtain ⟨e, he⟩ := steps_stop (a := (runSchedule sched progs fs).1[k]) (g := g) (by omega)
    exact ⟨e, by rw [List.getElem?_eq_getElem hk', he]⟩

end

end MarineQC
