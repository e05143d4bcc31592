import Verif.Wrapper.StepModel

/-! # Programs that run at the same time and do not get in each other's way -/

namespace MarineQC

/-- Run alone from this file system, the program reads files of `inp` only, makes directories of `dirs` only and writes files of `priv`
only; a file that cannot be opened for writing makes it fail. -/
def Act.Within (inp priv dirs : List Char → Prop) : Act → FileSys → Prop
  | .stop _, _ => True
  | .isfile p k, g => inp p ∧ (k (g.file p).isSome).Within inp priv dirs g
  | .read p k, g => inp p ∧ (k (g.file p)).Within inp priv dirs g
  | .mkdir p k, g => dirs p ∧ k.Within inp priv dirs (makeDir g p)
  | .openw p k, g => priv p ∧ (k true).Within inp priv dirs (g.put p []) ∧ ((k false).run g).2 ≠ none
  | .write p s k, g => priv p ∧ k.Within inp priv dirs (g.append p s)

/-- The number of operations of a program that runs alone. -/
def Act.steps : Act → FileSys → Nat
  | .stop _, _ => 0
  | .isfile p k, g => (k (g.file p).isSome).steps g + 1
  | .read p k, g => (k (g.file p)).steps g + 1
  | .mkdir p k, g => k.steps (makeDir g p) + 1
  | .openw p k, g => (if canWrite g p then (k true).steps (g.put p []) else (k false).steps g) + 1
  | .write p s k, g => k.steps (g.append p s) + 1

/-- What a program sees of the file system all share, compared with the one it would see alone. -/
structure View (inp priv dirs : List Char → Prop) (fs g : FileSys) : Prop where
  file : ∀ p, inp p ∨ priv p ∨ dirs p → fs.file p = g.file p
  more : ∀ q, g.dir q = true → fs.dir q = true
  only : ∀ q, fs.dir q = true → g.dir q = true ∨ dirs q

/-- What a step of a program does to the file system. -/
structure Touches (priv dirs : List Char → Prop) (fs fs' : FileSys) : Prop where
  file : ∀ p, ¬ priv p → fs'.file p = fs.file p
  more : ∀ q, fs.dir q = true → fs'.dir q = true
  only : ∀ q, fs'.dir q = true → fs.dir q = true ∨ dirs q

theorem Touches.refl (priv dirs : List Char → Prop) (fs : FileSys) : Touches priv dirs fs fs :=
  ⟨fun _ _ => rfl, fun _ h => h, fun _ h => Or.inl h⟩

theorem mkdir_file (fs : FileSys) (p : List Char) : (makeDir fs p).file = fs.file := by
  unfold makeDir
  split <;> rfl

theorem mkdir_dir {fs : FileSys} {p q : List Char} :
    (makeDir fs p).dir q = true ↔ fs.dir q = true ∨ (q = p ∧ fs.dir p = false ∧ fs.file p = none ∧ fs.dir (parentOf p) = true) := by
  unfold makeDir
  by_cases h : (fs.dir p || (fs.file p).isSome || !fs.dir (parentOf p)) = true
  · rw [if_pos h]
    constructor
    · exact Or.inl
    · rintro (h' | ⟨-, a, b, c⟩)
      · exact h'
      · rw [a, b, c] at h; cases h
  · rw [if_neg h]
    simp only [Bool.or_eq_true, not_or, Bool.not_eq_true, Bool.not_eq_true', Bool.not_eq_false, Option.isSome_eq_false_iff,
      Option.isNone_iff_eq_none] at h
    obtain ⟨⟨a, b⟩, c⟩ := h
    simp only [Bool.or_eq_true, beq_iff_eq, a, b, c, and_true]
    exact Or.comm

theorem put_dir (fs : FileSys) (p s : List Char) : (fs.put p s).dir = fs.dir := rfl

theorem put_file (fs : FileSys) (p s q : List Char) : (fs.put p s).file q = if q = p then some s else fs.file q := rfl

theorem view_makeDir {inp priv dirs : List Char → Prop} {fs g : FileSys} (h : View inp priv dirs fs g) {p : List Char} (hp : dirs p) :
    View inp priv dirs (makeDir fs p) (makeDir g p) ∧ Touches priv dirs fs (makeDir fs p) := by
  refine ⟨⟨?_, ?_, ?_⟩, ?_, ?_, ?_⟩
  · intro q hq
    rw [mkdir_file, mkdir_file, h.file q hq]
  · intro q hq
    rcases mkdir_dir.mp hq with hq | ⟨rfl, a, b, c⟩
    · exact mkdir_dir.mpr (Or.inl (h.more q hq))
    · by_cases hd : fs.dir q = true
      · exact mkdir_dir.mpr (Or.inl hd)
      · exact mkdir_dir.mpr (Or.inr ⟨rfl, by simpa using hd, by rw [h.file q (Or.inr (Or.inr hp)), b], h.more _ c⟩)
  · intro q hq
    rcases mkdir_dir.mp hq with hq | ⟨rfl, -⟩
    · rcases h.only q hq with hq | hq
      · exact Or.inl (mkdir_dir.mpr (Or.inl hq))
      · exact Or.inr hq
    · exact Or.inr hp
  · intro q _
    rw [mkdir_file]
  · intro q hq
    exact mkdir_dir.mpr (Or.inl hq)
  · intro q hq
    rcases mkdir_dir.mp hq with hq | ⟨rfl, -⟩
    · exact Or.inl hq
    · exact Or.inr hp

theorem view_put {inp priv dirs : List Char → Prop} {fs g : FileSys} (h : View inp priv dirs fs g) {p : List Char} (hp : priv p) (s : List Char) :
    View inp priv dirs (fs.put p s) (g.put p s) ∧ Touches priv dirs fs (fs.put p s) := by
  refine ⟨⟨?_, h.more, h.only⟩, ?_, fun _ h => h, fun _ h => Or.inl h⟩
  · intro q hq
    rw [put_file, put_file, h.file q hq]
  · intro q hq
    rw [put_file, if_neg]
    rintro rfl
    exact hq hp

/-- One step of a program, in company and alone. -/
theorem step_alone {inp priv dirs : List Char → Prop} (hpd : ∀ p, priv p → ¬ dirs p) (a : Act) (fs g g' : FileSys)
    (hw : a.Within inp priv dirs g) (hr : a.run g = (g', none)) (hv : View inp priv dirs fs g) :
    (a.step fs).1 = (a.step g).1 ∧ (a.step g).1.Within inp priv dirs (a.step g).2 ∧ (a.step g).1.run (a.step g).2 = (g', none) ∧
      View inp priv dirs (a.step fs).2 (a.step g).2 ∧ Touches priv dirs fs (a.step fs).2 ∧
      (a.step g).1.steps (a.step g).2 = a.steps g - 1 := by
  cases a with
  | stop e => exact ⟨rfl, hw, hr, hv, Touches.refl _ _ _, rfl⟩
  | isfile p k =>
    refine ⟨?_, hw.2, hr, hv, Touches.refl _ _ _, rfl⟩
    simp only [Act.step, hv.file p (Or.inl hw.1)]
  | read p k =>
    refine ⟨?_, hw.2, hr, hv, Touches.refl _ _ _, rfl⟩
    simp only [Act.step, hv.file p (Or.inl hw.1)]
  | mkdir p k => exact ⟨rfl, hw.2, hr, (view_makeDir hv hw.1).1, (view_makeDir hv hw.1).2, rfl⟩
  | openw p k =>
    obtain ⟨w1, w2, w3⟩ := hw
    have hc : canWrite g p = true := by
      by_contra hc
      simp only [Act.run, if_neg hc] at hr
      rw [hr] at w3
      exact w3 rfl
    have hc' : canWrite fs p = true := by
      simp only [canWrite, Bool.and_eq_true, Bool.not_eq_true'] at hc ⊢
      refine ⟨hv.more _ hc.1, ?_⟩
      rw [Bool.eq_false_iff]
      intro hd
      rcases hv.only p hd with h | h
      · rw [hc.2] at h; cases h
      · exact hpd p w1 h
    simp only [Act.run, if_pos hc] at hr
    simp only [Act.step, if_pos hc, if_pos hc', Act.steps]
    exact ⟨trivial, w2, hr, (view_put hv w1 []).1, (view_put hv w1 []).2, rfl⟩
  | write p s k =>
    refine ⟨rfl, hw.2, hr, ?_, ?_, rfl⟩
    · simp only [Act.step, FileSys.append, hv.file p (Or.inr (Or.inl hw.1))]
      exact (view_put hv hw.1 _).1
    · exact (view_put hv hw.1 _).2

/-- A step of another program is not seen. -/
theorem view_other {inp priv priv' dirs : List Char → Prop} {fs fs' g : FileSys} (h : View inp priv dirs fs g)
    (ht : Touches priv' dirs fs fs') (hdis : ∀ p, inp p ∨ priv p ∨ dirs p → ¬ priv' p) : View inp priv dirs fs' g := by
  refine ⟨?_, ?_, ?_⟩
  · intro p hp
    rw [ht.file p (hdis p hp), h.file p hp]
  · intro q hq
    exact ht.more q (h.more q hq)
  · intro q hq
    rcases ht.only q hq with hq | hq
    · exact h.only q hq
    · exact Or.inr hq

theorem touches_trans {priv dirs : List Char → Prop} {a b c : FileSys} (h : Touches priv dirs a b) (h' : Touches priv dirs b c) :
    Touches priv dirs a c := by
  refine ⟨?_, ?_, ?_⟩
  · intro p hp
    rw [h'.file p hp, h.file p hp]
  · intro q hq
    exact h'.more q (h.more q hq)
  · intro q hq
    rcases h'.only q hq with hq | hq
    · exact h.only q hq
    · exact Or.inr hq

theorem steps_stop {a : Act} {g : FileSys} (h : a.steps g = 0) : ∃ e, a = .stop e := by
  cases a <;> first | exact ⟨_, rfl⟩ | exact absurd h (Nat.succ_ne_zero _)

/-- The state of programs that run at the same time: every one is where it would be alone. -/
structure Pooled (inp dirs : List Char → Prop) (priv : Nat → List Char → Prop) (progs : List Act) (fs0 : FileSys) (last : Nat → FileSys)
    (done : Nat → Nat) (s : List Act × FileSys) : Prop where
  len : s.1.length = progs.length
  touches : Touches (fun p => ∃ i, i < progs.length ∧ priv i p) dirs fs0 s.2
  each : ∀ i a, s.1[i]? = some a → ∃ g, a.Within inp (priv i) dirs g ∧ a.run g = (last i, none) ∧ View inp (priv i) dirs s.2 g ∧
    ∀ a0, progs[i]? = some a0 → a.steps g ≤ a0.steps fs0 - done i

section

variable {inp dirs : List Char → Prop} {priv : Nat → List Char → Prop} {progs : List Act} {fs0 : FileSys} {last : Nat → FileSys}
  (hdiff : ∀ i k p, priv i p → priv k p → i = k) (hpi : ∀ i p, priv i p → ¬ inp p) (hpd : ∀ i p, priv i p → ¬ dirs p)

include hdiff hpi hpd in
theorem pooled_step {done : Nat → Nat} {s : List Act × FileSys} (h : Pooled inp dirs priv progs fs0 last done s) (n : Nat) :
    Pooled inp dirs priv progs fs0 last (fun i => done i + if i = n then 1 else 0) (poolStep s n) := by
  unfold poolStep
  cases hn : s.1[n]? with
  | none =>
    refine ⟨h.len, h.touches, fun i a ha => ?_⟩
    obtain ⟨g, a1, a2, a3, a4⟩ := h.each i a ha
    refine ⟨g, a1, a2, a3, fun a0 h0 => ?_⟩
    have : i ≠ n := by rintro rfl; rw [hn] at ha; cases ha
    simpa [this] using a4 a0 h0
  | some b =>
    obtain ⟨g, b1, b2, b3, b4⟩ := h.each n b hn
    obtain ⟨c1, c2, c3, c4, c5, c6⟩ := step_alone (hpd n) b s.2 g (last n) b1 b2 b3
    have hlt : n < s.1.length := (List.getElem?_eq_some_iff.mp hn).1
    refine ⟨by simp [h.len], ?_, ?_⟩
    · refine touches_trans h.touches ⟨fun p hp => c5.file p fun hq => hp ⟨n, by rw [← h.len]; exact hlt, hq⟩, c5.more, c5.only⟩
    · intro i a ha
      by_cases hi : i = n
      · subst hi
        simp only [List.getElem?_set_self hlt, Option.some.injEq] at ha
        subst ha
        refine ⟨(b.step g).2, by rw [c1]; exact c2, by rw [c1]; exact c3, c4, fun a0 h0 => ?_⟩
        rw [c1, c6]
        have := b4 a0 h0
        simp only [if_true]
        omega
      · simp only [List.getElem?_set_ne (Ne.symm hi)] at ha
        obtain ⟨g', a1, a2, a3, a4⟩ := h.each i a ha
        refine ⟨g', a1, a2, view_other a3 c5 ?_, fun a0 h0 => by simpa [hi] using a4 a0 h0⟩
        rintro p (hp | hp | hp) hq
        · exact hpi n p hq hp
        · exact hi (hdiff i n p hp hq)
        · exact hpd n p hq hp

include hdiff hpi hpd in
theorem pooled_run (hstart : ∀ i a, progs[i]? = some a → a.Within inp (priv i) dirs fs0 ∧ a.run fs0 = (last i, none)) (sched : List Nat) :
    Pooled inp dirs priv progs fs0 last (fun i => sched.count i) (runSchedule sched progs fs0) := by
  have key : ∀ (sched : List Nat) (done : Nat → Nat) (s : List Act × FileSys), Pooled inp dirs priv progs fs0 last done s →
      Pooled inp dirs priv progs fs0 last (fun i => done i + sched.count i) (sched.foldl poolStep s) := by
    intro sched
    induction sched with
    | nil => intro done s h; simpa using h
    | cons n l ih =>
      intro done s h
      have := ih _ _ (pooled_step hdiff hpi hpd h n)
      rw [List.foldl_cons]
      convert this using 2
      rename_i i
      rw [List.count_cons]
      by_cases h : n = i
      · subst h
        simp
        omega
      · rw [if_neg (by simpa using h), if_neg (fun e => h e.symm)]
        omega
  have h0 : Pooled inp dirs priv progs fs0 last (fun _ => 0) (progs, fs0) := by
    refine ⟨rfl, Touches.refl _ _ _, fun i a ha => ⟨fs0, (hstart i a ha).1, (hstart i a ha).2, ⟨fun _ _ => rfl, fun _ h => h, fun _ h => Or.inl h⟩, ?_⟩⟩
    intro a0 h0
    rw [ha] at h0
    simp only [Option.some.injEq] at h0
    subst h0
    exact Nat.le_refl _
  have := key sched _ _ h0
  unfold runSchedule
  simpa using this

end

end MarineQC
