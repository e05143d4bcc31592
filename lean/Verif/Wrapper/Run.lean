import Verif.Wrapper.Read
import Verif.Wrapper.Jobs
import Verif.Tracking.Main

/-! # The scripts, run one after the other -/

namespace MarineQC

open Spec

/-- The file for the results of a job in a directory. -/
def Spec.resultPath (runid : List Char) (j : Job) (D : List Char) : List Char :=
  voyagePath runid D j.yr2 j.mn2 "Tracking_".toList (safeFilename j.ident.toList)

theorem first_sep_inj {a a' d d' : List Char} (c : Char) (h : c ∉ a) (h' : c ∉ a') (e : a ++ c :: d = a' ++ c :: d') : a = a' ∧ d = d' := by
  have e' := congrArg List.reverse e
  simp only [List.reverse_append, List.reverse_cons, List.append_assoc, List.singleton_append] at e'
  obtain ⟨e1, e2⟩ := last_sep_inj c (by simpa using h) (by simpa using h') e'
  exact ⟨List.reverse_inj.mp e2, List.reverse_inj.mp e1⟩

theorem resultPath_inj {runid D D' : List Char} {j k : Job} (hrun : '/' ∉ runid) (hj : '/' ∉ j.ident.toList ∧ '*' ∉ j.ident.toList)
    (hk : '/' ∉ k.ident.toList ∧ '*' ∉ k.ident.toList) (mj : 1 ≤ j.mn2 ∧ j.mn2 ≤ 12) (mk : 1 ≤ k.mn2 ∧ k.mn2 ≤ 12)
    (e : resultPath runid j D = resultPath runid k D') : j.ident = k.ident ∧ j.yr2 = k.yr2 ∧ j.mn2 = k.mn2 := by
  have e0 := e
  unfold resultPath voyagePath at e
  rw [safe_id _ hj.1 hj.2, safe_id _ hk.1 hk.2] at e
  have slash : ∀ l : Job, '/' ∉ l.ident.toList →
      '/' ∉ "Tracking_".toList ++ intText l.yr2 ++ zeroPad 2 l.mn2 ++ '_' :: l.ident.toList ++ '_' :: runid ++ ".csv".toList := by
    intro l hl
    have k1 : '/' ∉ intText l.yr2 := fun h => by
      rcases intText_chars _ _ h with h | h <;> revert h <;> decide
    have k2 : '/' ∉ zeroPad 2 l.mn2 := fun h => by
      rcases zeroPad_chars _ _ _ h with h | h <;> revert h <;> decide
    simp only [List.mem_append, List.mem_cons, k1, k2, hl, hrun]
    decide
  obtain ⟨-, e⟩ := last_sep_inj '/' (slash j hj.1) (slash k hk.1) e
  have e := List.append_cancel_right e
  have e := List.append_cancel_right e
  simp only [List.append_assoc] at e
  have e := List.append_cancel_left e
  rw [← List.append_assoc, ← List.append_assoc] at e
  obtain ⟨a, b⟩ := first_sep_inj '_' (yearMonth_underscore _ _) (yearMonth_underscore _ _) e
  obtain ⟨a1, a2⟩ := yearMonth_text_inj mj mk a
  exact ⟨String.toList_inj.mp b, a1, a2⟩

theorem wanted_dirs {out rid D : List Char} {y m : Int} {edge : List String} (h : Wanted out y m edge rid D) : D ∈ trackingDirs out y m rid := by
  rcases h with ⟨-, rfl⟩ | ⟨-, rfl⟩ | ⟨-, rfl⟩ <;> simp [trackingDirs]

/-- A directory for results, as a path below `TrackingQC`. -/
theorem trackingDirs_below {out rid a : List Char} {y m : Int} (h : a ∈ trackingDirs out y m rid) :
    ∃ x, a = out ++ "/TrackingQC".toList ++ x := by
  have e : "/TrackingQC/".toList = "/TrackingQC".toList ++ ['/'] := by decide
  simp only [trackingDirs, trackingDir, List.mem_cons, List.not_mem_nil, or_false] at h
  rcases h with rfl | rfl | rfl | rfl | rfl
  · exact ⟨[], by rw [List.append_nil]⟩
  all_goals rw [e]; simp only [List.append_assoc]; exact ⟨_, rfl⟩

theorem getLast_zeroPad (a : List Char) (m : Int) : (a ++ '/' :: zeroPad 2 m).getLast? ≠ some 'v' := by
  intro h
  have hne : zeroPad 2 m ≠ [] := (isName_pad m).1
  rw [List.getLast?_append_of_ne_nil _ (by simp), List.getLast?_cons_of_ne_nil hne] at h
  rcases zeroPad_chars _ _ _ (List.mem_of_getLast? h) with h | h <;> revert h <;> decide

theorem runMonthId_chars (y1 m1 y2 m2 : Int) : ∀ c ∈ runMonthId y1 m1 y2 m2, c = '-' ∨ c.isDigit = true := by
  intro c hc
  unfold runMonthId at hc
  simp only [List.mem_append, List.mem_cons] at hc
  rcases hc with (hc | hc) | hc | hc | hc
  · exact intText_chars _ _ hc
  · exact zeroPad_chars _ _ _ hc
  · exact Or.inl hc
  · exact intText_chars _ _ hc
  · exact zeroPad_chars _ _ _ hc

theorem trackingDirs_last {out a : List Char} {y m y1 m1 y2 m2 : Int} (h : a ∈ trackingDirs out y m (runMonthId y1 m1 y2 m2)) :
    a.getLast? ≠ some 'v' := by
  have hne : runMonthId y1 m1 y2 m2 ≠ [] := by simp [runMonthId]
  have hrid : ∀ b : List Char, (b ++ runMonthId y1 m1 y2 m2).getLast? ≠ some 'v' := by
    intro b h
    rw [List.getLast?_append_of_ne_nil _ hne] at h
    rcases runMonthId_chars _ _ _ _ _ (List.mem_of_getLast? h) with h | h <;> revert h <;> decide
  simp only [trackingDirs, List.mem_cons, List.not_mem_nil, or_false] at h
  rcases h with rfl | rfl | rfl | rfl | rfl
  · rw [List.getLast?_append_of_ne_nil _ (by decide)]; decide
  · rw [List.getLast?_append_of_ne_nil _ (intText_ne_nil _)]
    intro h
    rcases intText_chars _ _ (List.mem_of_getLast? h) with h | h <;> revert h <;> decide
  · exact getLast_zeroPad _ _
  · exact hrid _
  · exact hrid _

/-- Before a job: the directory is there, its directories and files are free, and the files of the months are as the main program
has left them. -/
structure JobReady (out trackOut runid rid : List Char) (months : List (Int × Int)) (f1 : FileSys) (jobs : List Job) (fs : FileSys) : Prop where
  there : fs.dir trackOut = true
  clear : ∀ j ∈ jobs, ∀ a ∈ trackingDirs trackOut j.yr2 j.mn2 rid, fs.file a = none
  free : ∀ j ∈ jobs, ∀ a ∈ trackingDirs trackOut j.yr2 j.mn2 rid, fs.dir (resultPath runid j a) = false
  input : ∀ m ∈ months, ∀ x, fs.file (monthDir out m.1 m.2 ++ '/' :: x) = f1.file (monthDir out m.1 m.2 ++ '/' :: x)

/-- A job is over: the table of the reports it has read is in every directory asked for. -/
def Spec.JobDone (fmt : Rat → List Char) (G : Geo) (elev : Int → Int → Rat → Rat → Rat → Rat → ℝ) (P : DriftParams)
    (trackOut runid rid : List Char) (j : Job) (R : List Report) (fs : FileSys) : Prop :=
  ∃ R' order v, trackingChecks G elev P R = .ok R' ∧ order.Perm (List.range R.length) ∧ InTime R' order ∧ VoyageOf G R' order v ∧
    ∀ D, Wanted trackOut j.yr2 j.mn2 j.edge rid D → HoldsTable fs (resultPath runid j D) (trackingTable fmt v)

section

variable (fmt : Rat → List Char) (hf : ∀ x, Plain (fmt x)) (hfe : ∀ x, NoBlankEnd (fmt x) ∧ fmt x ≠ [])
  (num : List Char → Option Rat) (ord : List (List Char) → List (List Char)) (G : Geo) (hG : IsDistance G)
  (elev : Int → Int → Rat → Rat → Rat → Rat → ℝ) (P : DriftParams) (hP : TrackParamsOk P) (W : WrapperEnv)
  (hopt : ∀ l, (W.options l).Perm l) (conf : List Char → Option TrackSettings) (hconf : conf W.config = some ⟨W.out, W.trackOut, W.runid, P⟩)
  (y1 m1 y2 m2 : Int) (hwords : WordsOnly W (runMonthId y1 m1 y2 m2)) (hbase : IsBase W.trackOut) (hrun : '/' ∉ W.runid)

include hopt hconf hwords in
theorem runScript_job (j : Job) (arg : List Char) (hj : Sendable j arg) (hm1 : 1 ≤ j.mn1 ∧ j.mn1 ≤ 12) (hm2 : 1 ≤ j.mn2 ∧ j.mn2 ≤ 12)
    (k : Nat) (hk : (k : Int) = 12 * (j.yr2 - j.yr1) + j.mn2 - j.mn1) (fs : FileSys) :
    runScript fmt num ord G elev conf (jobScript W (runMonthId y1 m1 y2 m2) j) fs =
      ((trackingMain fmt num ord G elev P W.out W.trackOut W.runid arg (runMonthId y1 m1 y2 m2) (monthList (j.yr1, j.mn1) k) j.yr2 j.mn2
        j.edge fs).1, [(trackingMain fmt num ord G elev P W.out W.trackOut W.runid arg (runMonthId y1 m1 y2 m2)
          (monthList (j.yr1, j.mn1) k) j.yr2 j.mn2 j.edge fs).2]) := by
  obtain ⟨ws, a1, a2⟩ := C120_arguments_partial W hopt _ hwords j arg hj
  unfold runScript
  rw [a1]
  simp only [List.foldl_cons, List.foldl_nil, List.head?_cons, List.tail_cons, if_true, List.nil_append]
  unfold trackingProgram
  rw [a2]
  simp only
  rw [hconf, monthsBetween_ok _ _ _ _ hm1 hm2 k hk]

include hf hfe hG hP hopt hconf hwords hbase hrun in
theorem job_step (months : List (Int × Int)) (f1 : FileSys) (jobs : List Job) (fs : FileSys)
    (hready : JobReady W.out W.trackOut W.runid (runMonthId y1 m1 y2 m2) months f1 jobs fs)
    (hapart : ∀ m ∈ months, ∀ x z, W.trackOut ++ "/TrackingQC".toList ++ x ≠ monthDir W.out m.1 m.2 ++ '/' :: z)
    (j : Job) (hj : j ∈ jobs) (arg : List Char) (hs : Sendable j arg)
    (hm1 : 1 ≤ j.mn1 ∧ j.mn1 ≤ 12) (hm2 : 1 ≤ j.mn2 ∧ j.mn2 ≤ 12) (k : Nat) (hk : (k : Int) = 12 * (j.yr2 - j.yr1) + j.mn2 - j.mn1)
    (hsub : ∀ m ∈ monthList (j.yr1, j.mn1) k, m ∈ months) (rnd : Rat → Rat) (recs : List Imma) (R : List Report)
    (hR : readChunk num ord f1 W.out W.runid arg (monthList (j.yr1, j.mn1) k) = .ok R) (hF : ChunkFound rnd j.ident recs R) :
    ∃ fs', runScript fmt num ord G elev conf (jobScript W (runMonthId y1 m1 y2 m2) j) fs = (fs', [none]) ∧
      JobReady W.out W.trackOut W.runid (runMonthId y1 m1 y2 m2) months f1 jobs fs' ∧
      JobDone fmt G elev P W.trackOut W.runid (runMonthId y1 m1 y2 m2) j R fs' ∧
      ∀ p, (∀ D, p ≠ resultPath W.runid j D) → fs'.file p = fs.file p := by
  rw [runScript_job fmt num ord G elev P W hopt conf hconf y1 m1 y2 m2 hwords j arg hs hm1 hm2 k hk fs]
  have hR' : readChunk num ord fs W.out W.runid arg (monthList (j.yr1, j.mn1) k) = .ok R := by
    rw [← hR]
    exact readChunk_congr num ord fs f1 W.out W.runid arg _ fun m hm x => hready.input m (hsub m hm) x
  obtain ⟨fs', R', order, v, a1, a2, a3, a4, a5, a6, a7, a8, a9⟩ := C97_main fmt hf hfe num ord G hG elev P hP W.out W.trackOut W.runid arg
    (runMonthId y1 m1 y2 m2) (monthList (j.yr1, j.mn1) k) j.yr2 j.mn2 j.edge hrun (runMonthId_slash _ _ _ _) hbase fs R hR' hF.some
    hF.trackable hF.timed j.ident hF.ident hF.writable hready.there (hready.clear j hj) (hready.free j hj)
  have last : ∀ (i : Job) D, (resultPath W.runid i D).getLast? = some 'v' := fun i D => voyagePath_last ..
  refine ⟨fs', by rw [a1], ⟨a9, ?_, ?_, ?_⟩, ⟨R', order, v, a2, a3, a4, a5, a6⟩, fun p hp => a7 p fun D _ => hp D⟩
  · intro i hi a ha
    rw [a7 a, hready.clear i hi a ha]
    rintro D - e
    exact trackingDirs_last ha (by rw [e]; exact last j D)
  · intro i hi a ha
    rw [Bool.eq_false_iff]
    intro hc
    rcases a8 _ hc with h | h
    · exact trackingDirs_last h (last i a)
    · rw [hready.free i hi a ha] at h; cases h
  · intro m hm x
    rw [a7, hready.input m hm x]
    intro D hD e
    obtain ⟨z, hz⟩ := trackingDirs_below (wanted_dirs hD)
    obtain ⟨w, hw⟩ := voyagePath_in W.runid D "Tracking_".toList (safeFilename j.ident.toList) j.yr2 j.mn2
    refine hapart m hm (z ++ '/' :: w) x ?_
    rw [e, hw, hz]
    simp [List.append_assoc]

include hf hfe hG hP hopt hconf hwords hbase hrun in
/-- All jobs in any order. -/
theorem jobs_run (months : List (Int × Int)) (f1 : FileSys) (jobs : List Job) (rnd : Rat → Rat) (recs : Job → List Imma)
    (R : Job → List Report)
    (hapart : ∀ m ∈ months, ∀ x z, W.trackOut ++ "/TrackingQC".toList ++ x ≠ monthDir W.out m.1 m.2 ++ '/' :: z)
    (hid : ∀ j ∈ jobs, '/' ∉ j.ident.toList ∧ '*' ∉ j.ident.toList)
    (hmn : ∀ j ∈ jobs, (1 ≤ j.mn1 ∧ j.mn1 ≤ 12) ∧ 1 ≤ j.mn2 ∧ j.mn2 ≤ 12)
    (hdiff : ∀ j ∈ jobs, ∀ k ∈ jobs, j.ident = k.ident → j.yr2 = k.yr2 → j.mn2 = k.mn2 → j = k)
    (hjob : ∀ j ∈ jobs, ∃ arg k, Sendable j arg ∧ ((k : Nat) : Int) = 12 * (j.yr2 - j.yr1) + j.mn2 - j.mn1 ∧
      (∀ m ∈ monthList (j.yr1, j.mn1) k, m ∈ months) ∧
      readChunk num ord f1 W.out W.runid arg (monthList (j.yr1, j.mn1) k) = .ok (R j) ∧ ChunkFound rnd j.ident (recs j) (R j)) :
    ∀ (l : List Job), (∀ j ∈ l, j ∈ jobs) → ∀ fs, JobReady W.out W.trackOut W.runid (runMonthId y1 m1 y2 m2) months f1 jobs fs →
    ∃ fs', runScripts fmt num ord G elev conf (l.map (jobScript W (runMonthId y1 m1 y2 m2))) fs = (fs', l.map fun _ => none) ∧
      (∀ j ∈ jobs, (j ∈ l ∨ JobDone fmt G elev P W.trackOut W.runid (runMonthId y1 m1 y2 m2) j (R j) fs) →
        JobDone fmt G elev P W.trackOut W.runid (runMonthId y1 m1 y2 m2) j (R j) fs') ∧
      JobReady W.out W.trackOut W.runid (runMonthId y1 m1 y2 m2) months f1 jobs fs' := by
  intro l
  induction l with
  | nil => intro _ fs hready; exact ⟨fs, rfl, fun j _ h => h.resolve_left (by simp), hready⟩
  | cons j l ih =>
    intro hl fs hready
    have hj := hl j (by simp)
    obtain ⟨arg, k, h1, h2, h3, h4, h5⟩ := hjob j hj
    obtain ⟨f2, a1, a2, a3, a4⟩ := job_step fmt hf hfe num ord G hG elev P hP W hopt conf hconf y1 m1 y2 m2 hwords hbase hrun months f1 jobs
      fs hready hapart j hj arg h1 (hmn j hj).1 (hmn j hj).2 k h2 h3 rnd (recs j) (R j) h4 h5
    obtain ⟨f3, b1, b2, b3⟩ := ih (fun i hi => hl i (by simp [hi])) f2 a2
    refine ⟨f3, ?_, ?_, b3⟩
    · rw [List.map_cons, runScripts]
      simp only [a1, b1]
      rfl
    · intro i hi hdone
      apply b2 i hi
      by_cases hij : i = j
      · subst hij
        exact Or.inr a3
      · rcases hdone with h | ⟨R', order, v, c1, c2, c3, c4, c5⟩
        · rcases List.mem_cons.mp h with h | h
          · exact absurd h hij
          · exact Or.inl h
        · refine Or.inr ⟨R', order, v, c1, c2, c3, c4, fun D hD => ?_⟩
          obtain ⟨s, s1, s2⟩ := c5 D hD
          refine ⟨s, ?_, s2⟩
          rw [a4, s1]
          intro D' e
          obtain ⟨e1, e2, e3⟩ := resultPath_inj hrun (hid i hi) (hid j hj) (hmn i hi).2 (hmn j hj).2 e
          exact hij (hdiff i hi j hj e1 e2 e3)

end

end MarineQC
