import Verif.Wrapper.Lists
import Verif.Files.Dates

/-! # The jobs that are submitted (C121) -/

namespace MarineQC

open Spec

namespace Spec

/-- The chunks that a mode asks for, in a series of `n` months: all of them; those that have `gap` months of the series before and
after them; those that are followed by exactly `gap` months; and, for `noend` as the program has it, those that have `gap` months
after them or fewer than `gap` months before them (C70). -/
def ModeWants (mode : String) (n gap s e : Nat) : Prop :=
  mode = "all" ∨ (mode = "standard" ∧ gap ≤ s ∧ e + 1 + gap ≤ n) ∨ (mode = "new" ∧ e + 1 + gap = n) ∨
    (mode = "noend" ∧ (e + 1 + gap ≤ n ∨ s < gap))

instance (mode : String) (n gap s e : Nat) : Decidable (ModeWants mode n gap s e) := by unfold ModeWants; infer_instance

open Classical in
/-- The months in which a drifter reported, as a series of ones and zeros. -/
noncomputable def activity (reps : Int × Int → List Report) (months : List (Int × Int)) (i : String) : List Int :=
  months.map fun m => if ReportedIn (reps m) i then 1 else 0

/-- The job for a chunk of an identifier: the first and the last month, and the labels. -/
def chunkJob (t : Int × Int) (n gap : Nat) (ident : String) (s e : Nat) : Job :=
  ⟨ident, (monthsLater s t).1, (monthsLater s t).2, (monthsLater e t).1, (monthsLater e t).2, labels n gap s e⟩

/-- The file with the script of a job. -/
def jobPath (W : WrapperEnv) (rid : List Char) (j : Job) : List Char :=
  W.trackOut ++ "/TrackingQC/jobs/".toList ++ jobName W.runid rid j

/-- The directories for the jobs. -/
def jobDirs (trackOut : List Char) : List (List Char) :=
  [trackOut ++ "/TrackingQC".toList, trackOut ++ "/TrackingQC/logs".toList, trackOut ++ "/TrackingQC/jobs".toList]

/-- The directory for the results of the tracking is there, and nothing is in the way of the jobs. -/
structure JobPlace (trackOut : List Char) (fs : FileSys) : Prop where
  there : fs.dir trackOut = true
  free : ∀ a ∈ jobDirs trackOut, fs.file a = none
  scripts : ∀ x, fs.dir (trackOut ++ "/TrackingQC/jobs/".toList ++ x) = false

end Spec

/-! ## Scripts -/

theorem safemake_ok (fs : FileSys) (folder : List Char) (hf : fs.file folder = none) (hp : fs.dir (parentOf folder) = true) :
    ∃ fs', safemake folder fs = (fs', none) ∧ fs'.file = fs.file ∧ ∀ q, fs'.dir q = true ↔ q = folder ∨ fs.dir q = true := by
  unfold safemake
  by_cases hd : fs.dir folder = true
  · refine ⟨fs, by simp [hd], rfl, fun q => ⟨Or.inr, ?_⟩⟩
    rintro (rfl | h)
    · exact hd
    · exact h
  · have hd' : fs.dir folder = false := by simpa using hd
    refine ⟨makeDir fs folder, by simp [hd', hf, hp], ?_, ?_⟩
    · unfold makeDir
      simp [hd', hf, hp]
    · intro q
      unfold makeDir
      simp [hd', hf, hp]

theorem jobPath_eq (W : WrapperEnv) (rid : List Char) (j : Job) :
    W.trackOut ++ "/TrackingQC/jobs".toList ++ '/' :: jobName W.runid rid j = jobPath W rid j := by
  unfold jobPath
  rw [show "/TrackingQC/jobs/".toList = "/TrackingQC/jobs".toList ++ ['/'] by decide]
  simp

theorem jobPath_ne_dir (trackOut x a : List Char) (ha : a ∈ jobDirs trackOut) : trackOut ++ "/TrackingQC/jobs/".toList ++ x ≠ a := by
  simp only [jobDirs, List.mem_cons, List.not_mem_nil, or_false] at ha
  rcases ha with rfl | rfl | rfl <;> intro e <;> rw [List.append_assoc] at e <;> have e := List.append_cancel_left e <;> simp at e

theorem writeScript_ok (W : WrapperEnv) (rid : List Char) (j : Job) (hj : '/' ∉ jobName W.runid rid j) (fs : FileSys)
    (h : JobPlace W.trackOut fs) :
    ∃ fs', writeScript W rid j fs = (fs', none) ∧ JobPlace W.trackOut fs' ∧
      (∀ p, fs'.file p = if p = jobPath W rid j then some (jobScript W rid j) else fs.file p) ∧
      ∀ q, fs'.dir q = true ↔ q ∈ jobDirs W.trackOut ∨ fs.dir q = true := by
  have e1 : "/TrackingQC".toList = '/' :: "TrackingQC".toList := by decide
  have e2 : "/TrackingQC/logs".toList = "/TrackingQC".toList ++ '/' :: "logs".toList := by decide
  have e3 : "/TrackingQC/jobs".toList = "/TrackingQC".toList ++ '/' :: "jobs".toList := by decide
  have p1 : parentOf (W.trackOut ++ "/TrackingQC".toList) = W.trackOut := by
    rw [e1, parentOf_join W.trackOut "TrackingQC".toList (by decide)]
  have p2 : parentOf (W.trackOut ++ "/TrackingQC/logs".toList) = W.trackOut ++ "/TrackingQC".toList := by
    rw [e2, ← List.append_assoc, parentOf_join (W.trackOut ++ "/TrackingQC".toList) "logs".toList (by decide)]
  have p3 : parentOf (W.trackOut ++ "/TrackingQC/jobs".toList) = W.trackOut ++ "/TrackingQC".toList := by
    rw [e3, ← List.append_assoc, parentOf_join (W.trackOut ++ "/TrackingQC".toList) "jobs".toList (by decide)]
  obtain ⟨f1, a1, a2, a3⟩ := safemake_ok fs (W.trackOut ++ "/TrackingQC".toList) (h.free _ (by simp [jobDirs])) (by rw [p1]; exact h.there)
  obtain ⟨f2, b1, b2, b3⟩ := safemake_ok f1 (W.trackOut ++ "/TrackingQC/logs".toList) (by rw [a2]; exact h.free _ (by simp [jobDirs]))
    (by rw [p2, a3]; exact Or.inl rfl)
  obtain ⟨f3, c1, c2, c3⟩ := safemake_ok f2 (W.trackOut ++ "/TrackingQC/jobs".toList) (by rw [b2, a2]; exact h.free _ (by simp [jobDirs]))
    (by rw [p3, b3, a3]; exact Or.inr (Or.inl rfl))
  have hdir : ∀ q, f3.dir q = true ↔ q ∈ jobDirs W.trackOut ∨ fs.dir q = true := by
    intro q
    rw [c3, b3, a3]
    simp only [jobDirs, List.mem_cons, List.not_mem_nil, or_false]
    have : ∀ A B C D : Prop, C ∨ B ∨ A ∨ D ↔ (A ∨ B ∨ C) ∨ D := by intros; tauto
    exact this _ _ _ _
  have hno : ∀ x, f3.dir (W.trackOut ++ "/TrackingQC/jobs/".toList ++ x) = false := by
    intro x
    rw [Bool.eq_false_iff, ne_eq, hdir]
    rintro (hc | hc)
    · exact jobPath_ne_dir W.trackOut x _ hc rfl
    · rw [h.scripts] at hc; cases hc
  have hw : canWrite f3 (jobPath W rid j) = true := by
    unfold canWrite
    rw [← jobPath_eq, parent_of_join _ _ hj, (c3 _).mpr (Or.inl rfl), jobPath_eq]
    unfold jobPath
    rw [hno]
    rfl
  refine ⟨f3.put (jobPath W rid j) (jobScript W rid j), ?_, ⟨?_, ?_, ?_⟩, ?_, ?_⟩
  · unfold writeScript
    rw [a1]
    simp only [thenDo]
    rw [b1]
    simp only
    rw [c1]
    simp only
    rw [jobPath_eq]
    unfold writeFile
    rw [if_pos hw]
    simp [writeLines]
  · exact (hdir _).mpr (Or.inr h.there)
  · intro a ha
    show (if a = jobPath W rid j then _ else f3.file a) = none
    rw [if_neg fun e => jobPath_ne_dir W.trackOut _ a ha e.symm, c2, b2, a2]
    exact h.free a ha
  · exact hno
  · intro p
    show (if p = jobPath W rid j then _ else f3.file p) = _
    rw [c2, b2, a2]
  · exact hdir

theorem submitAll_ok (W : WrapperEnv) (rid : List Char) (jobs : List Job) : ∀ (_ : ∀ j ∈ jobs, '/' ∉ jobName W.runid rid j)
    (fs : FileSys) (_ : JobPlace W.trackOut fs),
    ∃ fs', submitAll W rid jobs fs = (jobs.map (jobScript W rid), fs', none) ∧
      (∀ p, (∀ j ∈ jobs, p ≠ jobPath W rid j) → fs'.file p = fs.file p) ∧
      (∀ j ∈ jobs, (∀ k ∈ jobs, jobName W.runid rid k = jobName W.runid rid j → k = j) →
        fs'.file (jobPath W rid j) = some (jobScript W rid j)) ∧
      (∀ q, fs'.dir q = true → q ∈ jobDirs W.trackOut ∨ fs.dir q = true) ∧ ∀ q, fs.dir q = true → fs'.dir q = true := by
  induction jobs with
  | nil => intro _ fs _; exact ⟨fs, rfl, fun _ _ => rfl, by simp, fun _ h => Or.inr h, fun _ h => h⟩
  | cons j jobs ih =>
    intro hj fs h
    obtain ⟨f1, a1, a2, a3, a4⟩ := writeScript_ok W rid j (hj j (by simp)) fs h
    obtain ⟨f2, b1, b2, b3, b4, b5⟩ := ih (fun k hk => hj k (by simp [hk])) f1 a2
    refine ⟨f2, ?_, ?_, ?_, ?_, fun q hq => b5 q ((a4 q).mpr (Or.inr hq))⟩
    · rw [submitAll, a1]
      simp only
      rw [b1]
      rfl
    · intro p hp
      rw [b2 p fun k hk => hp k (by simp [hk]), a3, if_neg (hp j (by simp))]
    · intro k hk hu
      by_cases hm : ∃ i ∈ jobs, jobName W.runid rid i = jobName W.runid rid k
      · obtain ⟨i, hi, e⟩ := hm
        have := hu i (by simp [hi]) e
        subst this
        exact b3 i hi fun l hl => hu l (by simp [hl])
      · have hkj : k = j := by
          rcases List.mem_cons.mp hk with rfl | hk
          · rfl
          · exact absurd ⟨k, hk, rfl⟩ hm
        subst hkj
        rw [b2, a3, if_pos rfl]
        intro i hi e
        refine hm ⟨i, hi, ?_⟩
        unfold jobPath at e
        exact (List.append_cancel_left e).symm
    · intro q hq
      rcases b4 q hq with h | h
      · exact Or.inl h
      · exact (a4 q).mp h

/-! ## Chunks -/

theorem submissions_mode (mode : String) (hm : mode ∈ ["standard", "all", "new", "noend"]) (t : Int × Int) (ht : 1 ≤ t.2 ∧ t.2 ≤ 12)
    (n : Nat) (c : YMCounter) (hc : c.months = monthList t n) (hlen : c.counter.length = n + 1)
    (h01 : ∀ x ∈ c.counter, x = 0 ∨ x = 1) (gap : Nat) (hg1 : 1 ≤ gap) (hg2 : gap ≤ 10) :
    ∃ L, Chunking c.counter gap L ∧ submissions mode c gap = .ok ((L.filter fun p => decide (ModeWants mode (n + 1) gap p.1 p.2)).map
      fun p => ((monthsLater p.1 t).1, (monthsLater p.1 t).2, (monthsLater p.2 t).1, (monthsLater p.2 t).2, labels (n + 1) gap p.1 p.2)) := by
  obtain ⟨months, counter⟩ := c
  simp only at hc hlen h01 ⊢
  subst hc
  obtain ⟨L, H, hr⟩ := C11_yield_dates t ht n counter hlen h01 gap hg1 hg2
  refine ⟨L, H, ?_⟩
  unfold submissions
  rw [hr, if_neg (by
    simp only [List.mem_cons, List.not_mem_nil, or_false] at hm
    rcases hm with rfl | rfl | rfl | rfl <;> simp)]
  simp only [except_bind_ok, except_pure, List.filter_map]
  congr 2
  apply List.filter_congr
  intro p hp
  have hp2 := data_lt (H.ends_have_data p hp).2.1
  have m1 : "start_edge_case" ∈ labels (n + 1) gap p.1 p.2 ↔ p.1 < gap := by simp [labels]
  have m3 : "new" ∈ labels (n + 1) gap p.1 p.2 ↔ n + 1 = p.2 + 1 + gap := by simp [labels]
  have m4 : "regular" ∈ labels (n + 1) gap p.1 p.2 ↔ gap ≤ p.1 ∧ p.2 + 1 + gap ≤ n + 1 := by simp [labels]
  rw [Bool.eq_iff_iff, decide_eq_true_iff]
  unfold ModeWants
  simp only [Function.comp, submitted, Bool.or_eq_true, Bool.and_eq_true, beq_iff_eq, List.contains_iff_mem, m1, m3, m4]
  simp only [List.mem_cons, List.not_mem_nil, or_false] at hm
  rcases hm with rfl | rfl | rfl | rfl <;> simp <;> omega

open Classical in
theorem counter_activity {reps : Int × Int → List Report} {months : List (Int × Int)} {D : List (String × YMCounter)}
    (h : Listed reps months D) {e : String × YMCounter} (he : e ∈ D) : e.2.counter = activity reps months e.1 := by
  apply List.ext_getElem?
  intro k
  unfold activity
  rw [List.getElem?_map]
  cases hk : months[k]? with
  | none =>
    rw [Option.map_none, List.getElem?_eq_none_iff, h.length e he]
    exact List.getElem?_eq_none_iff.mp hk
  | some m =>
    obtain ⟨h1, h2⟩ := h.flag e he k m hk
    by_cases hr : ReportedIn (reps m) e.1
    · rw [h1 hr]; simp [hr]
    · rw [h2 hr]; simp [hr]

theorem activity_binary (reps : Int × Int → List Report) (months : List (Int × Int)) (i : String) :
    ∀ x ∈ activity reps months i, x = 0 ∨ x = 1 := by
  intro x hx
  obtain ⟨m, -, rfl⟩ := List.mem_map.mp hx
  split
  · exact Or.inr rfl
  · exact Or.inl rfl

theorem activity_data {reps : Int × Int → List Report} {months : List (Int × Int)} {i : String} {k : Nat} :
    Data (activity reps months i) k ↔ ∃ m, months[k]? = some m ∧ ReportedIn (reps m) i := by
  unfold Data activity
  rw [List.getElem?_map]
  cases months[k]? with
  | none => simp
  | some m => simp

theorem chunkJob_inj {t : Int × Int} (ht : 1 ≤ t.2 ∧ t.2 ≤ 12) {n gap : Nat} {i i' : String} {s s' e e' : Nat}
    (h : chunkJob t n gap i s e = chunkJob t n gap i' s' e') : i = i' ∧ s = s' ∧ e = e' := by
  unfold chunkJob at h
  injection h with h1 h2 h3 h4 h5 h6
  exact ⟨h1, monthsLater_inj ht (Prod.ext h2 h3), monthsLater_inj ht (Prod.ext h4 h5)⟩

/-- The jobs of one identifier. -/
theorem idJobs_ok (mode : String) (hm : mode ∈ ["standard", "all", "new", "noend"]) (t : Int × Int) (ht : 1 ≤ t.2 ∧ t.2 ≤ 12)
    (n : Nat) (reps : Int × Int → List Report) (D : List (String × YMCounter)) (h : Listed reps (monthList t n) D) (gap : Nat)
    (hg1 : 1 ≤ gap) (hg2 : gap ≤ 10) (e : String × YMCounter) (he : e ∈ D) :
    ∃ js : List Job, (do
        let s ← submissions mode e.2 gap
        return s.map fun t => (⟨e.1, t.1, t.2.1, t.2.2.1, t.2.2.2.1, t.2.2.2.2⟩ : Job) : Except Err (List Job)) = .ok js ∧ js.Nodup ∧
      ∀ j, j ∈ js ↔ ∃ s u, IsChunk (activity reps (monthList t n) e.1) gap s u ∧ ModeWants mode (n + 1) gap s u ∧
        j = chunkJob t (n + 1) gap e.1 s u := by
  have hc := counter_activity h he
  obtain ⟨L, H, hL⟩ := submissions_mode mode hm t ht n e.2 (h.range e he) (by rw [h.length e he]; simp [monthList])
    (by rw [hc]; exact activity_binary _ _ _) gap hg1 hg2
  rw [hL]
  have hmap : ∀ M : List (Nat × Nat), (M.map fun p => ((monthsLater p.1 t).1, (monthsLater p.1 t).2, (monthsLater p.2 t).1,
      (monthsLater p.2 t).2, labels (n + 1) gap p.1 p.2)).map (fun t => (⟨e.1, t.1, t.2.1, t.2.2.1, t.2.2.2.1, t.2.2.2.2⟩ : Job)) =
      M.map fun p => chunkJob t (n + 1) gap e.1 p.1 p.2 := by
    intro M
    rw [List.map_map]
    rfl
  refine ⟨_, rfl, ?_, ?_⟩
  · rw [hmap]
    apply List.Nodup.map
    · intro p q hpq
      obtain ⟨-, h1, h2⟩ := chunkJob_inj ht hpq
      exact Prod.ext h1 h2
    · apply List.Nodup.filter
      apply List.Pairwise.imp_of_mem ?_ H.separated
      rintro p q hp - hpq rfl
      have := (H.ends_have_data p hp).2.2
      omega
  · intro j
    rw [hmap]
    simp only [List.mem_map, List.mem_filter, decide_eq_true_eq]
    constructor
    · rintro ⟨⟨s, u⟩, ⟨hp, hw⟩, rfl⟩
      refine ⟨s, u, ?_, hw, rfl⟩
      rw [← hc, ← mem_iff_isChunk H]
      exact hp
    · rintro ⟨s, u, hk, hw, rfl⟩
      refine ⟨(s, u), ⟨?_, hw⟩, rfl⟩
      rw [mem_iff_isChunk H, hc]
      exact hk

theorem jobs_ok (mode : String) (hm : mode ∈ ["standard", "all", "new", "noend"]) (t : Int × Int) (ht : 1 ≤ t.2 ∧ t.2 ≤ 12)
    (n : Nat) (reps : Int × Int → List Report) (D : List (String × YMCounter)) (h : Listed reps (monthList t n) D) (gap : Nat)
    (hg1 : 1 ≤ gap) (hg2 : gap ≤ 10) : ∀ D' : List (String × YMCounter), (∀ e ∈ D', e ∈ D) → (D'.map (·.1)).Nodup →
    ∃ ll : List (List Job), (D'.mapM fun (e : String × YMCounter) => (do
        let s ← submissions mode e.2 gap
        return s.map fun t => (⟨e.1, t.1, t.2.1, t.2.2.1, t.2.2.2.1, t.2.2.2.2⟩ : Job) : Except Err (List Job))) = .ok ll ∧
      ll.flatten.Nodup ∧
      ∀ j, j ∈ ll.flatten ↔ ∃ e ∈ D', ∃ s u, IsChunk (activity reps (monthList t n) e.1) gap s u ∧ ModeWants mode (n + 1) gap s u ∧
        j = chunkJob t (n + 1) gap e.1 s u := by
  intro D'
  induction D' with
  | nil => intro _ _; exact ⟨[], rfl, List.nodup_nil, by simp⟩
  | cons e D' ih =>
    intro h1 h2
    rw [List.map_cons, List.nodup_cons] at h2
    obtain ⟨js, a1, a2, a3⟩ := idJobs_ok mode hm t ht n reps D h gap hg1 hg2 e (h1 e (by simp))
    obtain ⟨ll, b1, b2, b3⟩ := ih (fun x hx => h1 x (by simp [hx])) h2.2
    refine ⟨js :: ll, ?_, ?_, ?_⟩
    · rw [List.mapM_cons, a1]
      simp only [except_bind_ok]
      rw [b1]
      rfl
    · rw [List.flatten_cons, List.nodup_append]
      refine ⟨a2, b2, ?_⟩
      rintro j hj j' hj' rfl
      obtain ⟨s, u, -, -, e1⟩ := (a3 j).mp hj
      obtain ⟨e', he', s', u', -, -, e2⟩ := (b3 j).mp hj'
      obtain ⟨hi, -, -⟩ := chunkJob_inj ht (e1.symm.trans e2)
      exact h2.1 (by rw [hi]; exact List.mem_map.mpr ⟨e', he', rfl⟩)
    · intro j
      rw [List.flatten_cons, List.mem_append, a3, b3]
      simp

/-! ## The names of scripts -/

theorem last_sep_inj {a a' d d' : List Char} (c : Char) (h : c ∉ d) (h' : c ∉ d') (e : a ++ c :: d = a' ++ c :: d') : a = a' ∧ d = d' := by
  induction a generalizing a' with
  | nil =>
    cases a' with
    | nil => exact ⟨rfl, (List.cons.inj e).2⟩
    | cons x a' =>
      obtain ⟨-, e⟩ := List.cons.inj e
      exact absurd (by rw [e]; simp) h
  | cons x a ih =>
    cases a' with
    | nil =>
      obtain ⟨-, e⟩ := List.cons.inj e
      exact absurd (by rw [← e]; simp) h'
    | cons y a' =>
      have e1 := (List.cons.inj e).1
      have e2 := ih (List.cons.inj e).2
      exact ⟨by rw [e1, e2.1], e2.2⟩

theorem intText_chars (n : Int) : ∀ c ∈ intText n, c = '-' ∨ c.isDigit = true := by
  intro c hc
  unfold intText at hc
  split at hc
  · rcases List.mem_cons.mp hc with rfl | hc
    · exact Or.inl rfl
    · exact Or.inr (natText_digits _ c hc)
  · exact Or.inr (natText_digits _ c hc)

theorem yearMonth_text_inj {y m y' m' : Int} (h : 1 ≤ m ∧ m ≤ 12) (h' : 1 ≤ m' ∧ m' ≤ 12)
    (e : intText y ++ zeroPad 2 m = intText y' ++ zeroPad 2 m') : y = y' ∧ m = m' := by
  obtain ⟨k, rfl⟩ := Int.eq_ofNat_of_zero_le (show 0 ≤ m by omega)
  obtain ⟨k', rfl⟩ := Int.eq_ofNat_of_zero_le (show 0 ≤ m' by omega)
  have z := zeroPad_two k (by omega)
  have z' := zeroPad_two k' (by omega)
  obtain ⟨e1, e2⟩ := List.append_inj' e (by rw [z, z']; rfl)
  refine ⟨intText_inj _ _ e1, ?_⟩
  have hk : k < 13 := by omega
  have hk' : k' < 13 := by omega
  have : ∀ a < 13, ∀ b < 13, zeroPad 2 (a : Nat) = zeroPad 2 (b : Nat) → a = b := by decide +kernel
  rw [this k hk k' hk' e2]

theorem yearMonth_underscore (y m : Int) : '_' ∉ intText y ++ zeroPad 2 m := by
  intro h
  rcases List.mem_append.mp h with h | h
  · rcases intText_chars y _ h with h | h
    · revert h; decide
    · revert h; decide
  · rcases zeroPad_chars 2 m _ h with h | h
    · revert h; decide
    · revert h; decide

theorem jobName_inj {runid rid : List Char} {j k : Job} (hj : (1 ≤ j.mn1 ∧ j.mn1 ≤ 12) ∧ 1 ≤ j.mn2 ∧ j.mn2 ≤ 12)
    (hk : (1 ≤ k.mn1 ∧ k.mn1 ≤ 12) ∧ 1 ≤ k.mn2 ∧ k.mn2 ≤ 12) (h : jobName runid rid j = jobName runid rid k) :
    withoutBlanks j.ident.toList = withoutBlanks k.ident.toList ∧ j.yr1 = k.yr1 ∧ j.mn1 = k.mn1 ∧ j.yr2 = k.yr2 ∧ j.mn2 = k.mn2 := by
  have key : ∀ j : Job, jobName runid rid j = ((("Tracking_job_".toList ++ withoutBlanks j.ident.toList) ++ '_' ::
      (intText j.yr1 ++ zeroPad 2 j.mn1)) ++ '_' :: (intText j.yr2 ++ zeroPad 2 j.mn2)) ++ '_' :: (rid ++ '_' :: runid) := by
    intro j
    unfold jobName
    simp only [List.append_assoc, List.cons_append]
  rw [key, key] at h
  have h := List.append_cancel_right h
  obtain ⟨h, h2⟩ := last_sep_inj '_' (yearMonth_underscore _ _) (yearMonth_underscore _ _) h
  obtain ⟨h, h1⟩ := last_sep_inj '_' (yearMonth_underscore _ _) (yearMonth_underscore _ _) h
  obtain ⟨a1, a2⟩ := yearMonth_text_inj hj.1 hk.1 h1
  obtain ⟨b1, b2⟩ := yearMonth_text_inj hj.2 hk.2 h2
  exact ⟨List.append_cancel_left h, a1, a2, b1, b2⟩

theorem runMonthId_slash (y1 m1 y2 m2 : Int) : '/' ∉ runMonthId y1 m1 y2 m2 := by
  have key : ∀ y m : Int, '/' ∉ intText y ∧ '/' ∉ zeroPad 2 m := by
    intro y m
    constructor <;> intro h
    · rcases intText_chars y _ h with h | h <;> revert h <;> decide
    · rcases zeroPad_chars 2 m _ h with h | h <;> revert h <;> decide
  have k1 := fun y => (key y 0).1
  have k2 := fun m => (key 0 m).2
  unfold runMonthId
  simp [k1, k2]

theorem jobName_slash {runid rid : List Char} {j : Job} (h1 : '/' ∉ runid) (h2 : '/' ∉ rid) (h3 : '/' ∉ j.ident.toList) :
    '/' ∉ jobName runid rid j := by
  have key : ∀ y m : Int, '/' ∉ intText y ∧ '/' ∉ zeroPad 2 m := by
    intro y m
    constructor <;> intro h
    · rcases intText_chars y _ h with h | h <;> revert h <;> decide
    · rcases zeroPad_chars 2 m _ h with h | h <;> revert h <;> decide
  have hb : '/' ∉ withoutBlanks j.ident.toList := fun h => h3 (List.mem_of_mem_filter h)
  have k1 := fun y => (key y 0).1
  have k2 := fun m => (key 0 m).2
  unfold jobName
  simp only [List.mem_append, List.mem_cons, k1, k2, h1, h2, hb]
  decide

/-! ## C121 -/

namespace Spec

/-- A drifter that reported in one of the months. -/
def ReportedDuring (reps : Int × Int → List Report) (months : List (Int × Int)) (i : String) : Prop := ∃ m ∈ months, ReportedIn (reps m) i

end Spec

/-- **C121, part.**  Given the lists of the identifiers (C119), the wrapper of the tracking program completes.  It submits one
script for every group of months of every drifter that the mode asks for, once each, and no other: groups are separated by `gap` or
more months without reports, and a script names the identifier, the first and last month of its group and the labels of it.  It
makes three directories and writes no files except the scripts; if identifiers that differ still differ when blanks are removed, the
file of every script holds its text.  *Missing:* runs in which something is in the way of the directories or the scripts, and
identifiers with a slash; for gaps over ten months the groups are not right (C10). -/
theorem C121_jobs_partial (W : WrapperEnv) (hW : ∀ l, (W.ids l).Perm l) (mode : String) (hm : mode ∈ ["standard", "all", "new", "noend"])
    (y1 m1 y2 m2 : Int) (h1 : 1 ≤ m1 ∧ m1 ≤ 12) (n gap : Nat) (hg1 : 1 ≤ gap) (hg2 : gap ≤ 10)
    (reps : Int × Int → List Report) (fs : FileSys) (D : List (String × YMCounter)) (hD : wrapperIds fs W.out y1 m1 y2 m2 = .ok D)
    (hL : Listed reps (monthList (y1, m1) n) D) (hP : JobPlace W.trackOut fs) (hrun : '/' ∉ W.runid)
    (hids : ∀ i, ReportedDuring reps (monthList (y1, m1) n) i → '/' ∉ i.toList) :
    ∃ (jobs : List Job) (fs' : FileSys),
      wrapperMain W y1 m1 y2 m2 gap mode fs = (jobs.map (jobScript W (runMonthId y1 m1 y2 m2)), fs', none) ∧ jobs.Nodup ∧
      (∀ j, j ∈ jobs ↔ ∃ i s u, IsChunk (activity reps (monthList (y1, m1) n) i) gap s u ∧ ModeWants mode (n + 1) gap s u ∧
        j = chunkJob (y1, m1) (n + 1) gap i s u) ∧
      (∀ p, (∀ j ∈ jobs, p ≠ jobPath W (runMonthId y1 m1 y2 m2) j) → fs'.file p = fs.file p) ∧
      (∀ q, fs'.dir q = true → q ∈ jobDirs W.trackOut ∨ fs.dir q = true) ∧ (∀ q, fs.dir q = true → fs'.dir q = true) ∧
      ((∀ i k, ReportedDuring reps (monthList (y1, m1) n) i → ReportedDuring reps (monthList (y1, m1) n) k →
          withoutBlanks i.toList = withoutBlanks k.toList → i = k) →
        ∀ j ∈ jobs, fs'.file (jobPath W (runMonthId y1 m1 y2 m2) j) = some (jobScript W (runMonthId y1 m1 y2 m2) j)) := by
  have hmem : ∀ e, e ∈ W.ids D ↔ e ∈ D := fun e => (hW D).mem_iff
  obtain ⟨ll, a1, a2, a3⟩ := jobs_ok mode hm (y1, m1) h1 n reps D hL gap hg1 hg2 (W.ids D) (fun e he => (hmem e).mp he)
    (((hW D).map _).nodup_iff.mpr hL.once)
  have hjobs : ∀ j, j ∈ ll.flatten ↔ ∃ i s u, IsChunk (activity reps (monthList (y1, m1) n) i) gap s u ∧ ModeWants mode (n + 1) gap s u ∧
      j = chunkJob (y1, m1) (n + 1) gap i s u := by
    intro j
    rw [a3]
    constructor
    · rintro ⟨e, -, s, u, h⟩
      exact ⟨e.1, s, u, h⟩
    · rintro ⟨i, s, u, h⟩
      obtain ⟨m, hm', hr⟩ := activity_data.mp h.1.1
      obtain ⟨e, he, rfl⟩ := List.mem_map.mp ((hL.all i).mpr ⟨m, List.mem_of_getElem? hm', hr⟩)
      exact ⟨e, (hmem e).mpr he, s, u, h⟩
  have hseen : ∀ j ∈ ll.flatten, ReportedDuring reps (monthList (y1, m1) n) j.ident := by
    intro j hj
    obtain ⟨i, s, u, hc, -, rfl⟩ := (hjobs j).mp hj
    obtain ⟨m, hm', hr⟩ := activity_data.mp hc.1
    exact ⟨m, List.mem_of_getElem? hm', hr⟩
  obtain ⟨fs', b1, b2, b3, b4, b5⟩ := submitAll_ok W (runMonthId y1 m1 y2 m2) ll.flatten
    (fun j hj => jobName_slash hrun (runMonthId_slash _ _ _ _) (hids _ (hseen j hj))) fs hP
  refine ⟨ll.flatten, fs', ?_, a2, hjobs, b2, b4, b5, ?_⟩
  · unfold wrapperMain
    have hm' : mode = "standard" ∨ mode = "all" ∨ mode = "new" ∨ mode = "noend" := by simpa using hm
    rw [if_neg (not_not.mpr hm'), hD]
    simp only [except_bind_ok, wrapperJobs]
    rw [a1]
    simp only [except_bind_ok, except_pure]
    exact b1
  · intro hu j hj
    apply b3 j hj
    intro k hk e
    obtain ⟨i, s, u, hc, hw, rfl⟩ := (hjobs j).mp hj
    obtain ⟨i', s', u', hc', hw', rfl⟩ := (hjobs k).mp hk
    have v : ∀ r, 1 ≤ (monthsLater r (y1, m1)).2 ∧ (monthsLater r (y1, m1)).2 ≤ 12 := fun r => (monthsLater_valid r h1).1
    obtain ⟨f1, f2, f3, f4, f5⟩ := jobName_inj ⟨v s', v u'⟩ ⟨v s, v u⟩ e
    have g1 := hu i' i (hseen _ hk) (hseen _ hj) f1
    have g2 := monthsLater_inj (t := (y1, m1)) h1 (Prod.ext f2 f3)
    have g3 := monthsLater_inj (t := (y1, m1)) h1 (Prod.ext f4 f5)
    rw [g1, g2, g3]

end MarineQC
