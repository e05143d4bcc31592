import Verif.Wrapper.System
import Verif.Wrapper.Together

/-!
# Jobs at the same time, killed and started again (C124)

The tracking jobs that the wrapper submits are run by a batch scheduler, several at a time; it may kill them and they are then
submitted again.  Here the jobs are interleaved at the level of their operations on the file system, over any number of rounds.
-/

namespace MarineQC

open Spec

variable {F : Type} [LinearOrder F] [Zero F]

/-- The scripts of the jobs of each round. -/
def Spec.scriptRounds (W : WrapperEnv) (rid : List Char) (rounds : List (List Job × List Nat)) : List (List (List Char) × List Nat) :=
  rounds.map fun r => (r.1.map (jobScript W rid), r.2)

/-- In every round some of these jobs are run, each of them once at most. -/
def Spec.RoundsOf (jobs : List Job) (rounds : List (List Job × List Nat)) : Prop :=
  ∀ r ∈ rounds, r.1.Nodup ∧ ∀ j ∈ r.1, j ∈ jobs

/-- **C124, part.**  The system of C122 with its jobs running at the same time, killed at any point and started again any number of
times.  The main program and the wrapper complete as in C122.  Then, after any rounds `before`, some of the jobs `l` are run at the
same time, and after them any rounds `after`; in each round the operations of the jobs on the file system come in any order, and a
job that has not come to its end is killed.  Every job of `l` that comes to its end does so without error, and if it is not started
again, then at the end of all rounds every directory asked for holds exactly the table of C122: nothing is left of what it, or any
other job, has written before it was killed.  If every job has sufficiently many turns, all come to their end.  The files of the
months are as the main program has left them, at the end of all rounds.  A file is read in one step, a text is written one character
at a time.  *Missing:* what is missing in C122. -/
theorem C124_together_partial (E : RunEnv F) (num : List Char → Option Rat) (rnd : Rat → Rat) (h : Numerals E.fmt num rnd)
    (hfe : ∀ x, NoBlankEnd (E.fmt x) ∧ E.fmt x ≠ []) (ord : List (List Char) → List (List Char)) (hord : ∀ l, (ord l).Perm l)
    (lib : ClimLib Arr3) (hE : RunReady E lib) (htr : E.read.tracking = true) (hbg : SoundBackground rnd E.read)
    (elev : Int → Int → Rat → Rat → Rat → Rat → ℝ) (P : DriftParams) (hP : TrackParamsOk P)
    (W : WrapperEnv) (hWo : W.out = E.out) (hWr : W.runid = E.runid) (hopt : ∀ l, (W.options l).Perm l) (hids : ∀ l, (W.ids l).Perm l)
    (conf : List Char → Option TrackSettings) (hconf : conf W.config = some ⟨E.out, W.trackOut, E.runid, P⟩)
    (y1 m1 y2 m2 : Int) (h1 : 1 ≤ m1 ∧ m1 ≤ 12) (h2 : 1 ≤ m2 ∧ m2 ≤ 12) (n : Nat) (hn : (n : Int) = 12 * (y2 - y1) + m2 - m1)
    (hwords : WordsOnly W (runMonthId y1 m1 y2 m2)) (gap : Nat) (hg1 : 1 ≤ gap) (hg2 : gap ≤ 10) (fs : FileSys)
    (ha : ∀ m ∈ monthList (y1, m1) n, ArchiveReady E.read m) (hd : ∀ m ∈ monthList (y1, m1) n, DriftersArchived E.read m)
    (hnames : ∀ m ∈ monthList (y1, m1) n, DrifterNames E.read m)
    (hrec : ∀ m ∈ monthList (y1, m1) n, ∀ i, drifterRecords E.read i m ≠ [] → ∀ k ∈ monthList (y1, m1) n, DrifterRecords rnd E.read i k)
    (ho : ∀ m ∈ monthList (y1, m1) n, OutputPlace E.runid E.out m.1 m.2 fs)
    (hplace : SystemPlace E.out W.trackOut (monthList (y1, m1) n) fs) :
    ∃ (fs1 : FileSys) (jobs : List Job) (fs2 : FileSys) (R : Job → List Report),
      runMonths E (monthList (y1, m1) n) lib fs = (fs1, none) ∧
      wrapperMain W y1 m1 y2 m2 gap "all" fs1 = (jobs.map (jobScript W (runMonthId y1 m1 y2 m2)), fs2, none) ∧ jobs.Nodup ∧
      (∀ j, j ∈ jobs ↔ ∃ i s u, IsChunk (recordActivity E.read (monthList (y1, m1) n) i) gap s u ∧
        j = chunkJob (y1, m1) (n + 1) gap i s u) ∧
      (∀ i s u, IsChunk (recordActivity E.read (monthList (y1, m1) n) i) gap s u →
        List.Forall₂ (TrackedAs rnd) (trackedRecords E.read (monthList (y1, m1) n) (chunkMonths (y1, m1) s u) i)
          (R (chunkJob (y1, m1) (n + 1) gap i s u))) ∧
      ∀ (before after : List (List Job × List Nat)) (l : List Job), RoundsOf jobs before → RoundsOf jobs after → l.Nodup → (∀ j ∈ l, j ∈ jobs) →
        ∀ (now : List Nat → List Act × FileSys) (final : List Nat → FileSys),
        (∀ sched, now sched = runSchedule sched
          ((l.map (jobScript W (runMonthId y1 m1 y2 m2))).map (scriptAct E.fmt num ord E.geo elev conf))
          (runRounds E.fmt num ord E.geo elev conf (scriptRounds W (runMonthId y1 m1 y2 m2) before) fs2)) →
        (∀ sched, final sched = runRounds E.fmt num ord E.geo elev conf (scriptRounds W (runMonthId y1 m1 y2 m2) after) (now sched).2) →
        (∀ (sched : List Nat) (k : Nat) j e, l[k]? = some j → (now sched).1[k]? = some (Act.stop e) → e = none ∧
          ((∀ r ∈ after, j ∉ r.1) →
            JobDone E.fmt E.geo elev P W.trackOut E.runid (runMonthId y1 m1 y2 m2) j (R j) (final sched))) ∧
        (∃ N, ∀ sched : List Nat, (∀ k < l.length, N ≤ sched.count k) → ∀ k < l.length, (now sched).1[k]? = some (Act.stop none)) ∧
        ∀ sched, ∀ m ∈ monthList (y1, m1) n, ∀ x,
          (final sched).file (monthDir E.out m.1 m.2 ++ '/' :: x) = fs1.file (monthDir E.out m.1 m.2 ++ '/' :: x) := by
  obtain ⟨fs1, jobs, fs2, recs, R, a1, c1, c2, c3, c4, c5, c6, c7, c8, c9, c10, hrun⟩ := system_jobs E num rnd h hfe ord hord lib hE htr
    hbg W hWo hWr hids y1 m1 y2 m2 h1 h2 n hn gap hg1 hg2 fs ha hd hnames hrec ho hplace
  have round := round_run E.fmt (fun x => (h.plain x).1) hfe num ord E.geo hE.geo elev P hP W hopt conf (by rw [hconf, hWo, hWr])
    y1 m1 y2 m2 hwords hplace.base hrun (monthList (y1, m1) n) fs1 jobs rnd recs R c5 c6 c7 c8 c9
  have rounds : ∀ rs : List (List Job × List Nat), RoundsOf jobs rs → ∀ g,
      JobReady W.out W.trackOut W.runid (runMonthId y1 m1 y2 m2) (monthList (y1, m1) n) fs1 jobs g →
      JobReady W.out W.trackOut W.runid (runMonthId y1 m1 y2 m2) (monthList (y1, m1) n) fs1 jobs
        (runRounds E.fmt num ord E.geo elev conf (scriptRounds W (runMonthId y1 m1 y2 m2) rs) g) ∧
      ∀ j ∈ jobs, (∀ r ∈ rs, j ∉ r.1) → JobDone E.fmt E.geo elev P W.trackOut W.runid (runMonthId y1 m1 y2 m2) j (R j) g →
        JobDone E.fmt E.geo elev P W.trackOut W.runid (runMonthId y1 m1 y2 m2) j (R j)
          (runRounds E.fmt num ord E.geo elev conf (scriptRounds W (runMonthId y1 m1 y2 m2) rs) g) := by
    intro rs
    induction rs with
    | nil => intro _ g hg; exact ⟨hg, fun _ _ _ hd => hd⟩
    | cons r rs ih =>
      intro hrs g hg
      obtain ⟨r1, -⟩ := round r.1 (hrs r (by simp)).2 (hrs r (by simp)).1 g hg
      obtain ⟨r1, -, r3⟩ := r1 r.2
      obtain ⟨i1, i2⟩ := ih (fun q hq => hrs q (by simp [hq])) _ r1
      exact ⟨i1, fun j hj hn hd => i2 j hj (fun q hq => hn q (by simp [hq])) (r3 j hj (hn r (by simp)) hd)⟩
  refine ⟨fs1, jobs, fs2, R, a1, c1, c2, c3, c10, ?_⟩
  intro before after l hb haft hnd hl now final hnow hfinal
  obtain ⟨b1, -⟩ := rounds before hb fs2 c4
  obtain ⟨r1, N, r2⟩ := round l hl hnd _ b1
  simp only [← hnow] at r1 r2
  refine ⟨?_, ⟨N, ?_⟩, ?_⟩
  · intro sched k j e hk hs
    obtain ⟨p1, p2, -⟩ := r1 sched
    obtain ⟨q1, q2⟩ := p2 k j e hk hs
    refine ⟨q1, fun hn => ?_⟩
    rw [hfinal, ← hWr]
    exact (rounds after haft _ p1).2 j (hl j (List.mem_of_getElem? hk)) hn q2
  · intro sched hc k hk
    obtain ⟨e, he⟩ := r2 sched hc k hk
    rw [he, ((r1 sched).2.1 k _ e (List.getElem?_eq_getElem hk) he).1]
  · intro sched
    rw [hfinal, ← hWo]
    exact (rounds after haft _ (r1 sched).1).1.input

end MarineQC
