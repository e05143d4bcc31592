import Verif.Parallel.BothLemmas
import Verif.Wrapper.Sample
import Verif.Crash.Sample

/-! # The main program for further months while the jobs of the tracking run (C144) -/

namespace MarineQC

open Spec

variable {F : Type} [LinearOrder F] [Zero F]

/-- Several rounds: in each, some jobs and some runs of the main program at the same time, killed at its end if they have not come to their end. -/
noncomputable def bothRounds (num : List Char → Option Rat) (ord : List (List Char) → List (List Char)) (E : RunEnv F)
    (elev : Int → Int → Rat → Rat → Rat → Rat → ℝ) (W : WrapperEnv) (conf : List Char → Option TrackSettings) (y1 m1 y2 m2 : Int)
    (lib : ClimLib Arr3) (rounds : List (List Job × List (List (Int × Int)) × List Nat)) (fs : FileSys) : FileSys :=
  rounds.foldl (fun f r => (runSchedule r.2.2 (bothProgs num ord E elev W conf y1 m1 y2 m2 lib r.1 r.2.1) f).2) fs

/-- What is run in a round: some of the jobs, each once at most, and programs among which some of the months are divided. -/
structure Spec.RoundOk (jobs : List Job) (new : List (Int × Int)) (l : List Job) (parts : List (List (Int × Int))) : Prop where
  once : l.Nodup
  jobs : ∀ j ∈ l, j ∈ jobs
  divided : Divided parts
  nodup : ∀ q ∈ parts, q.Nodup
  months : ∀ q ∈ parts, ∀ m ∈ q, m ∈ new

/-- **C144, part.**  The system of C122: the main program and the wrapper complete.  Then the jobs of the tracking run, and at the same time the
main program runs for other months, `new`, divided among any number of programs; each of these months would have completed by itself at
the start.  There may have been any rounds `before` in which this was tried and everything was killed at any point.  For any order
of the operations of all programs on the file system: a job that comes to its end does so without error and its results are there as in C122; a
run of the main program that comes to its end does so without error, and every file in the directories of its months is as if it
had been run alone at the start, before the tracking; if every program has sufficiently many turns, all come to their end; the files of
the months that are tracked are as they were.  *Missing:* what is missing in C122. -/
theorem C144_both_partial (E : RunEnv F) (num : List Char → Option Rat) (rnd : Rat → Rat) (h : Numerals E.fmt num rnd)
    (hfe : ∀ x, NoBlankEnd (E.fmt x) ∧ E.fmt x ≠ []) (ord : List (List Char) → List (List Char)) (hord : ∀ l, (ord l).Perm l)
    (lib : ClimLib Arr3) (hE : RunReady E lib) (htr : E.read.tracking = true) (hbg : SoundBackground rnd E.read)
    (elev : Int → Int → Rat → Rat → Rat → Rat → ℝ) (P : DriftParams) (hP : TrackParamsOk P)
    (W : WrapperEnv) (hWo : W.out = E.out) (hWr : W.runid = E.runid) (hopt : ∀ l, (W.options l).Perm l) (hids : ∀ l, (W.ids l).Perm l)
    (conf : List Char → Option TrackSettings) (hconf : conf W.config = some ⟨E.out, W.trackOut, E.runid, P⟩)
    (y1 m1 y2 m2 : Int) (h1 : 1 ≤ m1 ∧ m1 ≤ 12) (h2 : 1 ≤ m2 ∧ m2 ≤ 12) (n : Nat) (hn : (n : Int) = 12 * (y2 - y1) + m2 - m1)
    (hwords : WordsOnly W (runMonthId y1 m1 y2 m2)) (gap : Nat) (hg1 : 1 ≤ gap) (hg2 : gap ≤ 10) (fs : FileSys)
    (ha : ∀ m ∈ monthList (y1, m1) n, ArchiveReady E.read m) (hd : ∀ m ∈ monthList (y1, m1) n, DriftersArchived E.read m)
    (hnames : ∀ m ∈ monthList (y1, m1) n, DrifterNames E.read m)
    (hrec : ∀ m ∈ monthList (y1, m1) n, ∀ i, drifterRecords E.read i m ≠ [] → ∀ k ∈ monthList (y1, m1) n, DrifterRecords rnd E.read i k)
    (ho : ∀ m ∈ monthList (y1, m1) n, OutputPlace E.runid E.out m.1 m.2 fs)
    (hplace : SystemPlace E.out W.trackOut (monthList (y1, m1) n) fs)
    (new : List (Int × Int)) (hnd : new.Nodup)
    (hnew : ∀ m ∈ new, m ∉ monthList (y1, m1) n ∧ (runMonths E [m] lib fs).2 = none ∧
      ∀ x z, W.trackOut ++ "/TrackingQC".toList ++ x ≠ E.out ++ '/' :: (intText m.1 ++ z)) :
    ∃ (fs1 : FileSys) (jobs : List Job) (fs2 : FileSys) (R : Job → List Report),
      runMonths E (monthList (y1, m1) n) lib fs = (fs1, none) ∧
      wrapperMain W y1 m1 y2 m2 gap "all" fs1 = (jobs.map (jobScript W (runMonthId y1 m1 y2 m2)), fs2, none) ∧ jobs.Nodup ∧
      (∀ j, j ∈ jobs ↔ ∃ i s u, IsChunk (recordActivity E.read (monthList (y1, m1) n) i) gap s u ∧
        j = chunkJob (y1, m1) (n + 1) gap i s u) ∧
      (∀ i s u, IsChunk (recordActivity E.read (monthList (y1, m1) n) i) gap s u →
        List.Forall₂ (TrackedAs rnd) (trackedRecords E.read (monthList (y1, m1) n) (chunkMonths (y1, m1) s u) i)
          (R (chunkJob (y1, m1) (n + 1) gap i s u))) ∧
      ∀ (before : List (List Job × List (List (Int × Int)) × List Nat)) (l : List Job) (parts : List (List (Int × Int))),
        (∀ r ∈ before, RoundOk jobs new r.1 r.2.1) → RoundOk jobs new l parts →
        ∀ now : List Nat → List Act × FileSys,
        (∀ sched, now sched = runSchedule sched (bothProgs num ord E elev W conf y1 m1 y2 m2 lib l parts)
          (bothRounds num ord E elev W conf y1 m1 y2 m2 lib before fs2)) →
        (∀ (sched : List Nat) (k : Nat) j e, l[k]? = some j → (now sched).1[k]? = some (Act.stop e) → e = none ∧
          JobDone E.fmt E.geo elev P W.trackOut E.runid (runMonthId y1 m1 y2 m2) j (R j) (now sched).2) ∧
        (∀ (sched : List Nat) (k : Nat) q e, parts[k]? = some q → (now sched).1[l.length + k]? = some (Act.stop e) → e = none ∧
          ∀ m ∈ q, ∀ x, (now sched).2.file (monthDir E.out m.1 m.2 ++ '/' :: x) =
            (runMonths E q lib fs).1.file (monthDir E.out m.1 m.2 ++ '/' :: x)) ∧
        (∃ N, ∀ sched : List Nat, (∀ k < l.length + parts.length, N ≤ sched.count k) → ∀ k < l.length + parts.length,
          (now sched).1[k]? = some (Act.stop none)) ∧
        ∀ sched, ∀ m ∈ monthList (y1, m1) n, ∀ x,
          (now sched).2.file (monthDir E.out m.1 m.2 ++ '/' :: x) = fs1.file (monthDir E.out m.1 m.2 ++ '/' :: x) := by
  obtain ⟨fs1, jobs, fs2, recs, R, a1, c1, c2, c3, c4, c5, c6, c7, c8, c9, c10, hrun⟩ := system_jobs E num rnd h hfe ord hord lib hE htr
    hbg W hWo hWr hids y1 m1 y2 m2 h1 h2 n hn gap hg1 hg2 fs ha hd hnames hrec ho hplace
  have hob : IsBase E.out := by
    obtain ⟨m, hm⟩ : ∃ m, m ∈ monthList (y1, m1) n := ⟨_, List.mem_map.mpr ⟨0, by simp, rfl⟩⟩
    exact (ho m hm).base
  have hplc : ∀ m : Int × Int, placeOf E.out m = monthDir E.out m.1 m.2 := place_dir E.out hob
  have apart : ∀ m ∈ new, ∀ x z, W.trackOut ++ "/TrackingQC".toList ++ x ≠ monthDir E.out m.1 m.2 ++ '/' :: z := by
    intro m hm x z e
    refine (hnew m hm).2.2 x ('/' :: zeroPad 2 m.2 ++ '/' :: z) ?_
    rw [e]
    simp [monthDir, List.append_assoc]
  refine ⟨fs1, jobs, fs2, R, a1, c1, c2, c3, c10, ?_⟩
  -- the directories that are made
  obtain ⟨dirs, hdirs⟩ : ∃ dirs : List Char → Prop, dirs = fun p => DirPath p ∧
    ((∃ m, (m ∈ monthList (y1, m1) n ∨ m ∈ new) ∧ ∃ z, p = E.out ++ '/' :: (intText m.1 ++ z)) ∨ p ∈ jobDirs W.trackOut) := ⟨_, rfl⟩
  have hdd : ∀ p, dirs p → DirPath p := fun p hp => by rw [hdirs] at hp; exact hp.1
  have hds : ∀ p, dirs p → ¬ ScriptPath W.trackOut p := by
    rintro p hp ⟨x, hx⟩
    rw [hdirs] at hp
    have e : p = W.trackOut ++ "/TrackingQC".toList ++ ("/jobs/".toList ++ x) := by
      rw [hx, show "/TrackingQC/jobs/".toList = "/TrackingQC".toList ++ "/jobs/".toList by decide]
      simp only [List.append_assoc]
    rcases hp.2 with ⟨m, hm, z, hz⟩ | hp
    · rcases hm with hm | hm
      · exact hplace.apart m hm _ z (e.symm.trans hz)
      · exact (hnew m hm).2.2 _ z (e.symm.trans hz)
    · exact jobPath_ne_dir W.trackOut x _ hp hx.symm
  have within : ∀ q, (∀ m ∈ q, m ∈ monthList (y1, m1) n ∨ m ∈ new) → ∀ g, (monthsProg E q lib).act.Within (fun _ => False) (Opens E lib q) dirs g := by
    intro q hq g
    refine opsAct_within _ _ (fun o ho => ?_) g
    have h := months_own E q lib o ho
    cases o with
    | mkdir p =>
      obtain ⟨m, hm, z, hz⟩ := months_mkdirs E hob q lib p ho
      rw [hdirs]
      exact ⟨h, .inl ⟨m, hq m hm, z, hz⟩⟩
    | openw p => exact ho
    | put p c => exact (proper_put (months_good E q lib).1 ho).resolve_left (by simp)
  have hod : ∀ q p, Opens E lib q p → ¬ dirs p := fun q p hp hd => own_not_dir _ _ _ (opens_own hp) (hdd p hd)
  -- the start, as seen by a run over new months
  have t1 : Touches (Opens E lib (monthList (y1, m1) n)) dirs fs fs1 := by
    obtain ⟨f, r1, -, r3⟩ := run_alone (hod _) _ (monthsProg E (monthList (y1, m1) n) lib).act fs fs fs1 rfl
      (within _ (fun m hm => .inl hm) fs) (by rw [act_run, C125_operations, a1]) ⟨fun _ _ => rfl, fun _ h => h, fun _ h => .inl h⟩
    rw [act_run, C125_operations, a1] at r1
    cases r1
    exact r3
  have t2 : Touches (ScriptPath W.trackOut) dirs fs1 fs2 := by
    have := wrapper_touches W y1 m1 y2 m2 gap "all" fs1
    rw [c1] at this
    refine touches_weaken this (fun _ h => h) fun p hp => ?_
    rw [hdirs]
    exact ⟨(jobDirs_dir hp).1, .inr hp⟩
  have ownScript : ∀ q, (∀ m ∈ q, m ∈ new) → ∀ p, OwnPath E.out q p → ¬ TrackPath W.trackOut p := by
    rintro q hq p ⟨⟨m, hm, x, hx⟩, -⟩ ⟨y, hy⟩
    exact apart m (hq m hm) y x (by rw [← hy, hx, hplc])
  have script : ∀ p, ScriptPath W.trackOut p → TrackPath W.trackOut p := by
    rintro p ⟨x, hx⟩
    refine ⟨"/jobs/".toList ++ x, ?_⟩
    rw [hx, show "/TrackingQC/jobs/".toList = "/TrackingQC".toList ++ "/jobs/".toList by decide]
    simp only [List.append_assoc]
  have start : ∀ q, (∀ m ∈ q, m ∈ new) → ∀ p, OwnPath E.out q p → fs2.file p = fs.file p := by
    intro q hq p hp
    rw [t2.file p fun h => ownScript q hq p hp (script p h), t1.file p fun h => own_apart (fun m hm => (hnew m (hq m hm)).1) p hp (opens_own h)]
  have view : ∀ q, (∀ m ∈ q, m ∈ new) → View (fun _ => False) (Opens E lib q) dirs fs2 fs := by
    intro q hq
    refine view_other (view_other ⟨fun _ _ => rfl, fun _ h => h, fun _ h => .inl h⟩ t1 ?_) t2 ?_
    · rintro p (hp | hp | hp) ho
      · exact hp
      · exact own_apart (fun m hm => (hnew m (hq m hm)).1) p (opens_own hp) (opens_own ho)
      · exact hod _ p ho hp
    · rintro p (hp | hp | hp) ho
      · exact hp
      · exact ownScript q hq p (opens_own hp) (script p ho)
      · exact hds p hp ho
  -- a run over new months after the tracking has been prepared
  have first : ∀ q, q.Nodup → (∀ m ∈ q, m ∈ new) → (runMonths E q lib fs).2 = none ∧ (runMonths E q lib fs2).2 = none ∧
      ∀ p, Opens E lib q p → (runMonths E q lib fs2).1.file p = (runMonths E q lib fs).1.file p := by
    intro q hqn hq
    have h0 := singles_run E lib q hqn fs fun m hm => (hnew m (hq m hm)).2.1
    obtain ⟨f, r1, r2, -⟩ := run_alone (hod q) _ (monthsProg E q lib).act fs2 fs (runMonths E q lib fs).1 rfl
      (within _ (fun m hm => .inr (hq m hm)) fs) (by rw [act_run, C125_operations]; exact Prod.ext rfl h0) (view q hq)
    rw [act_run, C125_operations] at r1
    rw [r1]
    exact ⟨h0, rfl, fun p hp => r2.file p (.inr (.inl hp))⟩
  -- what rounds leave
  obtain ⟨O, hO⟩ : ∃ O : List Char → Prop, O = fun p => Opens E lib new p ∨
    ∃ j ∈ jobs, ∃ D ∈ trackingDirs W.trackOut j.yr2 j.mn2 (runMonthId y1 m1 y2 m2), p = resultPath W.runid j D := ⟨_, rfl⟩
  have hOd : ∀ p, O p → ¬ DirPath p := by
    intro p hp hq
    rw [hO] at hp
    rcases hp with hp | ⟨j, -, D, -, rfl⟩
    · exact own_not_dir _ _ _ (opens_own hp) hq
    · exact hq.1 (voyagePath_last ..)
  have herr : (monthsProg E new lib).err = none := run_err E lib new fs (first new hnd fun _ h => h).1
  have opens : ∀ q, (∀ m ∈ q, m ∈ new) → ∀ p, Opens E lib q p → Opens E lib new p := fun q hq p hp => opens_all E lib new herr _ q hq hp
  have hOq : ∀ q, (∀ m ∈ q, m ∈ new) → ∀ o ∈ (monthsProg E q lib).ops, OpApart O o := by
    intro q hq o ho
    have h := months_own E q lib o ho
    cases o with
    | mkdir p => exact fun hp => hOd p hp h
    | openw p =>
      show O p
      rw [hO]
      exact .inl (opens q hq p ho)
    | put p c =>
      show O p
      rw [hO]
      exact .inl (opens q hq p ((proper_put (months_good E q lib).1 ho).resolve_left (by simp)))
  have base : ∀ f, Like O fs2 f → ∀ q, q.Nodup → (∀ m ∈ q, m ∈ new) → (runMonths E q lib f).2 = none ∧
      ∀ p, Opens E lib q p → (runMonths E q lib f).1.file p = (runMonths E q lib fs).1.file p := by
    intro f hf q hqn hq
    obtain ⟨-, f2, f3⟩ := first q hqn hq
    obtain ⟨g1, g2⟩ := run_like E lib O q fs2 f (hOq q hq) hf f2
    exact ⟨g1, fun p hp => by rw [g2 p (.inl hp), f3 p hp]⟩
  have round := fun l parts (hr : RoundOk jobs new l parts) f (hf : Like O fs2 f)
      (hj : JobReady W.out W.trackOut W.runid (runMonthId y1 m1 y2 m2) (monthList (y1, m1) n) fs1 jobs f) s hs =>
    both_round num ord E (fun x => (h.plain x).1) hfe hE.geo elev P hP W hopt conf (by rw [hconf, hWo, hWr])
      y1 m1 y2 m2 hwords hplace.base hrun hWo hob lib (monthList (y1, m1) n) fs1 jobs rnd recs R c5 c6 c7 c8 c9 l hr.jobs hr.once parts hr.divided
      (fun q hq m hm => ⟨(hnew m (hr.months q hq m hm)).1, by rw [hWo]; exact apart m (hr.months q hq m hm)⟩) f hj
      (fun q hq => (base f hf q (hr.nodup q hq) (hr.months q hq)).1) s hs
  have like : ∀ l parts, RoundOk jobs new l parts → ∀ f g, Like O fs2 f →
      Touches (fun p => (∃ j ∈ l, ∃ D ∈ trackingDirs W.trackOut j.yr2 j.mn2 (runMonthId y1 m1 y2 m2), p = resultPath W.runid j D) ∨
        ∃ q ∈ parts, Opens E lib q p)
        (fun p => DirPath p ∨ ∃ i ∈ jobs, p ∈ trackingDirs W.trackOut i.yr2 i.mn2 (runMonthId y1 m1 y2 m2)) f g → Like O fs2 g := by
    intro l parts hr f g hf t
    refine ⟨fun p hp => ?_, fun p hp => ?_, fun p hp => t.more p (hf.more p hp)⟩
    · rw [t.file p, hf.file p hp]
      rintro (⟨j, hj, hD⟩ | ⟨q, hq, ho⟩)
      · exact hp (by rw [hO]; exact .inr ⟨j, hr.jobs j hj, hD⟩)
      · exact hp (by rw [hO]; exact .inl (opens q (hr.months q hq) p ho))
    · rw [← hf.dir p hp, Bool.eq_iff_iff]
      refine ⟨fun hg => ?_, t.more p⟩
      rcases t.only p hg with h | h | ⟨i, -, h⟩
      · exact h
      · exact absurd h (hOd p hp)
      · exfalso
        rw [hO] at hp
        rcases hp with hp | ⟨j, -, D, -, rfl⟩
        · exact ownScript new (fun _ h => h) p (opens_own hp) (trackingDirs_below h)
        · exact trackingDirs_last h (voyagePath_last ..)
  have rounds : ∀ before : List (List Job × List (List (Int × Int)) × List Nat), (∀ r ∈ before, RoundOk jobs new r.1 r.2.1) → ∀ f, Like O fs2 f →
      JobReady W.out W.trackOut W.runid (runMonthId y1 m1 y2 m2) (monthList (y1, m1) n) fs1 jobs f →
      Like O fs2 (bothRounds num ord E elev W conf y1 m1 y2 m2 lib before f) ∧
      JobReady W.out W.trackOut W.runid (runMonthId y1 m1 y2 m2) (monthList (y1, m1) n) fs1 jobs
        (bothRounds num ord E elev W conf y1 m1 y2 m2 lib before f) := by
    intro before
    induction before with
    | nil => exact fun _ f hf hj => ⟨hf, hj⟩
    | cons r rs ih =>
      intro hb f hf hj
      have hr := hb r (by simp)
      obtain ⟨r1, -⟩ := round r.1 r.2.1 hr f hf hj _ fun _ => rfl
      obtain ⟨b1, b2, -⟩ := r1 r.2.2
      exact ih (fun x hx => hb x (by simp [hx])) _ (like _ _ hr f _ hf b1) b2
  intro before l parts hb hr now hnow
  obtain ⟨b1, b2⟩ := rounds before hb fs2 ⟨fun _ _ => rfl, fun _ _ => rfl, fun _ h => h⟩ c4
  obtain ⟨r1, N, r2⟩ := round l parts hr _ b1 b2 now hnow
  have partDone : ∀ (sched : List Nat) (k : Nat) q e, parts[k]? = some q → (now sched).1[l.length + k]? = some (Act.stop e) → e = none ∧
      ∀ m ∈ q, ∀ x, (now sched).2.file (monthDir E.out m.1 m.2 ++ '/' :: x) =
        (runMonths E q lib fs).1.file (monthDir E.out m.1 m.2 ++ '/' :: x) := by
    intro sched k q e hk hst
    have hq : q ∈ parts := List.mem_of_getElem? hk
    obtain ⟨t, -, -, -, p5⟩ := r1 sched
    obtain ⟨e1, e2⟩ := p5 k q e hk hst
    refine ⟨e1, fun m hm x => ?_⟩
    have hsub := hr.months q hq
    obtain ⟨g1, g2⟩ := base _ b1 q (hr.nodup q hq) hsub
    rw [← hplc]
    by_cases ho : Opens E lib q (placeOf E.out m ++ '/' :: x)
    · rw [e2 _ ho, g2 _ ho]
    · have other : ∀ q', (∀ k ∈ q', k ∈ new) → Opens E lib q' (placeOf E.out m ++ '/' :: x) → m ∈ q' := by
        intro q' _ hc
        obtain ⟨⟨m', hm', x', hx'⟩, -⟩ := opens_own hc
        obtain rfl := place_apart _ _ _ _ _ hx'
        exact hm'
      have hres : ∀ j ∈ jobs, ∀ D ∈ trackingDirs W.trackOut j.yr2 j.mn2 (runMonthId y1 m1 y2 m2), placeOf E.out m ++ '/' :: x ≠ resultPath W.runid j D := by
        intro j _ D hD he
        obtain ⟨z, hz⟩ := trackingDirs_below hD
        obtain ⟨w, hw⟩ := voyagePath_in W.runid D "Tracking_".toList (safeFilename j.ident.toList) j.yr2 j.mn2
        refine apart m (hsub m hm) (z ++ '/' :: w) x ?_
        rw [← hplc, he]
        unfold resultPath
        rw [hw, hz]
        simp [List.append_assoc]
      have hOn : ¬ Opens E lib new (placeOf E.out m ++ '/' :: x) := by
        intro hc
        obtain ⟨m', hm', hc'⟩ := ops_one E lib _ new hc
        have := other [m'] (by simpa using hm') hc'
        rw [List.mem_singleton] at this
        subst this
        exact ho (opens_all E lib q (run_err E lib q fs (first q (hr.nodup q hq) hsub).1) _ [m] (by simpa using hm) hc')
      rw [t.file]
      · rw [b1.file]
        · have h0 : Like (Opens E lib new) fs fs := ⟨fun _ _ => rfl, fun _ _ => rfl, fun _ h => h⟩
          have hops : ∀ o ∈ (monthsProg E q lib).ops, OpApart (Opens E lib new) o := by
            intro o ho
            have h := months_own E q lib o ho
            cases o with
            | mkdir p => exact fun hp => own_not_dir _ _ _ (opens_own hp) h
            | openw p => exact opens q hsub p ho
            | put p c => exact opens q hsub p ((proper_put (months_good E q lib).1 ho).resolve_left (by simp))
          have h1 : (runMonths E q lib fs).1 = (runOps (monthsProg E q lib).ops fs).1 := by rw [← C125_operations]; rfl
          rw [h1, (like_run (monthsProg E q lib).ops hops fs h0).file _ hOn]
          rw [t2.file, t1.file]
          · intro hc
            obtain ⟨⟨m', hm', x', hx'⟩, -⟩ := opens_own hc
            obtain rfl := place_apart _ _ _ _ _ hx'
            exact (hnew m (hsub m hm)).1 hm'
          · intro hc
            obtain ⟨y, hy⟩ := script _ hc
            exact apart m (hsub m hm) y x (by rw [← hy, hplc])
        · rw [hO]
          rintro (hc | ⟨j, hj, D, hD, hc⟩)
          · exact hOn hc
          · exact hres j hj D hD hc
      · rintro (⟨j, hj, D, hD, hc⟩ | ⟨q', hq', hc⟩)
        · exact hres j (hr.jobs j hj) D hD hc
        · exact hOn (opens q' (hr.months q' hq') _ hc)
  refine ⟨fun sched k j e hk hst => ?_, partDone, ⟨N, fun sched hc k hk => ?_⟩, fun sched => ?_⟩
  · rw [← hWr]
    exact (r1 sched).2.2.1 k j e hk hst
  · obtain ⟨e, he⟩ := r2 sched hc k hk
    rw [he]
    by_cases hlt : k < l.length
    · rw [((r1 sched).2.2.1 k _ e (List.getElem?_eq_getElem hlt) he).1]
    · obtain ⟨i, rfl⟩ := Nat.exists_eq_add_of_le (Nat.le_of_not_lt hlt)
      rw [((r1 sched).2.2.2.2 i _ e (List.getElem?_eq_getElem (by omega)) he).1]
  · rw [← hWo]
    exact (r1 sched).2.1.input

/-- Non-vacuity of C144: in the sample, February is checked and tracked, and the main program runs for March while the job of the first
drifter runs.  Both were started before and killed after a few operations.  There is an order in which both come to their end, and
then the results of the job are there, and the files of March as well. -/
example : ∃ (fs1 : FileSys) (jobs : List Job) (fs2 : FileSys) (R : List Report) (sched : List Nat),
    runMonths sampleTrackRun [(1990, 2)] sampleLib (oneDir "/out".toList) = (fs1, none) ∧
    wrapperMain sampleWrapper 1990 2 1990 2 1 "all" fs1 = (jobs.map (jobScript sampleWrapper (runMonthId 1990 2 1990 2)), fs2, none) ∧
    ⟨"D1       ", 1990, 2, 1990, 2, ["start_edge_case", "end_edge_case"]⟩ ∈ jobs ∧
    ∀ now : List Act × FileSys, now = runSchedule sched (bothProgs (fun s => match parseInt s with
          | .ok n => some (n : Rat)
          | .error _ => none) (fun l => l) sampleTrackRun (fun _ _ _ _ _ _ => 0) sampleWrapper sampleConf 1990 2 1990 2 sampleLib
          [⟨"D1       ", 1990, 2, 1990, 2, ["start_edge_case", "end_edge_case"]⟩] [[(1990, 3)]])
        (bothRounds (fun s => match parseInt s with
          | .ok n => some (n : Rat)
          | .error _ => none) (fun l => l) sampleTrackRun (fun _ _ _ _ _ _ => 0) sampleWrapper sampleConf 1990 2 1990 2 sampleLib
          [([⟨"D1       ", 1990, 2, 1990, 2, ["start_edge_case", "end_edge_case"]⟩], [[(1990, 3)]], [0, 1, 1, 1, 0, 1, 1, 0])] fs2) →
      JobDone (fun x => intText ⌊x⌋) planeGeo (fun _ _ _ _ _ _ => 0) driftParams "/out".toList "base".toList (runMonthId 1990 2 1990 2)
        ⟨"D1       ", 1990, 2, 1990, 2, ["start_edge_case", "end_edge_case"]⟩ R now.2 ∧
      ∀ m ∈ [((1990 : Int), (3 : Int))], ∀ x, now.2.file (monthDir sampleTrackRun.out m.1 m.2 ++ '/' :: x) =
        (runMonths sampleTrackRun [(1990, 3)] sampleLib (oneDir "/out".toList)).1.file (monthDir sampleTrackRun.out m.1 m.2 ++ '/' :: x) := by
  have sub : ∀ m ∈ [((1990 : Int), (2 : Int))], m ∈ [((1990 : Int), (2 : Int)), (1990, 3)] := by decide
  have key := C144_both_partial sampleTrackRun _ _ floor_numerals (fun x => intText_end _) (fun l => l)
    (fun _ => List.Perm.refl _) sampleLib sampleTrackRun_ready rfl sampleTrackRun_background (fun _ _ _ _ _ _ => 0) driftParams driftParams_ok
    sampleWrapper rfl rfl (fun l => List.reverse_perm l) (fun l => List.Perm.refl l) sampleConf rfl 1990 2 1990 2 (by decide) (by decide) 0
    (by decide) (by refine ⟨?_, ?_, ?_, ?_⟩ <;> (unfold IsWord; decide +kernel)) 1 (by decide) (by decide) (oneDir "/out".toList)
  rw [show monthList (1990, 2) 0 = [((1990 : Int), (2 : Int))] by decide] at key
  obtain ⟨fs1, jobs, fs2, R, k1, k2, k3, k4, -, k6⟩ := key
    (fun m hm => { (sampleRun_archive m (sub m hm)).1 with }) (fun m hm => { (sampleRun_archive m (sub m hm)).2 with })
    (fun m hm => sampleTrackRun_names m (sub m hm)) (fun _ _ i _ k hk => sampleTrackRun_records i k (sub k hk))
    (fun m hm => sampleRun_place m (sub m hm))
    { sampleSystem_place with
      empty := fun _ _ _ => rfl
      apart := fun m hm => sampleSystem_place.apart m (sub m hm) }
    [(1990, 3)] (by decide) (by
      intro m hm
      obtain rfl := List.mem_singleton.mp hm
      exact ⟨by decide, sampleMonth_run _ (by decide), sampleSystem_place.apart _ (by decide)⟩)
  have c1 : IsChunk [1] 1 0 0 := (C10_chunks_characterised 1 (by omega) (by omega) [1] (by decide) 0 0).mp (by decide)
  have j1 : (⟨"D1       ", 1990, 2, 1990, 2, ["start_edge_case", "end_edge_case"]⟩ : Job) ∈ jobs := (k4 _).mpr ⟨"D1       ", 0, 0, by
    rw [show recordActivity sampleTrackRun.read [(1990, 2)] "D1       " = [1] by decide +kernel]; exact c1, by decide +kernel⟩
  have ok : RoundOk jobs [(1990, 3)] [⟨"D1       ", 1990, 2, 1990, 2, ["start_edge_case", "end_edge_case"]⟩] [[(1990, 3)]] :=
    ⟨by decide, fun j hj => by rw [List.mem_singleton.mp hj]; exact j1, by simp [Divided], by decide, by decide⟩
  obtain ⟨e1, e2, ⟨N, e3⟩, -⟩ := k6 [([⟨"D1       ", 1990, 2, 1990, 2, ["start_edge_case", "end_edge_case"]⟩], [[(1990, 3)]],
    [0, 1, 1, 1, 0, 1, 1, 0])] _ _ (by intro r hr; obtain rfl := List.mem_singleton.mp hr; exact ok) ok _ fun _ => rfl
  have stops := e3 (List.replicate N 0 ++ List.replicate N 1) (by
    intro k hk
    have hk : k < 2 := hk
    have : k = 0 ∨ k = 1 := by omega
    rcases this with rfl | rfl <;> simp [List.count_append, List.count_replicate])
  refine ⟨fs1, jobs, fs2, R ⟨"D1       ", 1990, 2, 1990, 2, ["start_edge_case", "end_edge_case"]⟩, List.replicate N 0 ++ List.replicate N 1,
    k1, k2, j1, ?_⟩
  rintro now rfl
  exact ⟨(e1 _ 0 _ none rfl (stops 0 (by decide))).2, (e2 _ 0 _ none rfl (stops 1 (by decide))).2⟩

end MarineQC
