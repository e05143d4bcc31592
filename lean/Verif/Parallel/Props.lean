import Verif.Parallel.Lemmas
import Verif.Crash.Sample

/-! # Runs of the main program at the same time (C134) -/

namespace MarineQC

open Spec

variable {F : Type} [LinearOrder F] [Zero F]

/-- **C134**, a program of the pool: it does to the file system what the run does. -/
theorem C134_alone (E : RunEnv F) (lib : ClimLib Arr3) (l : List (Int × Int)) (fs : FileSys) :
    (monthsProg E l lib).act.run fs = runMonths E l lib fs := by
  rw [act_run, C125_operations]

/-- **C134.**  The months of a run may be divided among programs that run at the same time.  No month is given to two of them, and each program
completes when it runs alone.  Then one run over all months completes, and for any order of the operations of the programs: a program that
comes to its end does so without error, and the files in the directories of its months are those of the one run; when all programs have
come to their end, every file on the disk is as after the one run.  If every program has sufficiently many turns, all come to their
end. -/
theorem C134_at_once (E : RunEnv F) (lib : ClimLib Arr3) (parts : List (List (Int × Int))) (hap : Divided parts) (fs : FileSys)
    (hall : ∀ l ∈ parts, (runMonths E l lib fs).2 = none) :
    ∃ fs', runMonths E parts.flatten lib fs = (fs', none) ∧
      (∀ (sched : List Nat) (k : Nat) (e : Option Err), (runTogether E lib parts sched fs).1[k]? = some (Act.stop e) → e = none ∧
        ∀ l, parts[k]? = some l → ∀ m ∈ l, ∀ dir, (safeMakeDir fs E.out m.1 m.2).2 = some dir → ∀ x,
          (runTogether E lib parts sched fs).2.file (dir ++ '/' :: x) = fs'.file (dir ++ '/' :: x)) ∧
      (∀ sched, (∀ k < parts.length, ∃ e, (runTogether E lib parts sched fs).1[k]? = some (Act.stop e)) →
        (runTogether E lib parts sched fs).2.file = fs'.file) ∧
      ∃ N, ∀ sched : List Nat, (∀ k < parts.length, N ≤ sched.count k) → ∀ k < parts.length,
        (runTogether E lib parts sched fs).1[k]? = some (Act.stop none) := by
  obtain ⟨fs', r1, v1, t1⟩ := runs_in_turn E lib fs parts hap hall fs fun l _ => ⟨fun _ _ => rfl, fun _ h => h, fun _ h => Or.inl h⟩
  have pool := together_pooled E lib fs parts hap hall
  -- a file of a program that has come to its end
  have done : ∀ (sched : List Nat) (k : Nat) (e : Option Err) l, (runTogether E lib parts sched fs).1[k]? = some (Act.stop e) → parts[k]? = some l →
      e = none ∧ ∀ p, OwnPath E.out l p → (runTogether E lib parts sched fs).2.file p = fs'.file p := by
    intro sched k e l hk hl
    obtain ⟨g, -, a2, a3, -⟩ := (pool sched).each k _ hk
    obtain ⟨rfl, rfl⟩ := Prod.mk.inj a2
    refine ⟨rfl, fun p hp => ?_⟩
    rw [a3.file p (.inr (.inl ⟨l, hl, hp⟩)), (v1 l (List.mem_of_getElem? hl)).file p (.inr (.inl hp))]
    simp only [hl, Option.getD_some]
  have part : ∀ (sched : List Nat) (k : Nat) (e : Option Err), (runTogether E lib parts sched fs).1[k]? = some (Act.stop e) → ∃ l, parts[k]? = some l := by
    intro sched k e hk
    have h1 := (List.getElem?_eq_some_iff.mp hk).1
    rw [(pool sched).len, List.length_map] at h1
    exact ⟨_, List.getElem?_eq_getElem h1⟩
  -- a file of no program
  have other : ∀ sched p, ¬ OwnPath E.out parts.flatten p → (runTogether E lib parts sched fs).2.file p = fs'.file p := by
    intro sched p hp
    rw [t1.file p hp]
    refine (pool sched).touches.file p ?_
    rintro ⟨i, -, l, hl, ⟨m, hm, hx⟩, h⟩
    exact hp ⟨⟨m, List.mem_flatten.mpr ⟨l, List.mem_of_getElem? hl, hm⟩, hx⟩, h⟩
  refine ⟨fs', r1, ?_, ?_, ?_⟩
  · intro sched k e hk
    obtain ⟨l, hl⟩ := part sched k e hk
    refine ⟨(done sched k e l hk hl).1, fun l' hl' m hm dir hd x => ?_⟩
    rw [hl] at hl'
    obtain rfl := Option.some.inj hl'
    have hd : placeOf E.out m = dir := Option.some.inj hd
    subst hd
    by_cases hp : OwnPath E.out parts.flatten (placeOf E.out m ++ '/' :: x)
    · exact (done sched k e l hk hl).2 _ ⟨⟨m, hm, x, rfl⟩, hp.2⟩
    · exact other sched _ hp
  · intro sched hk
    funext p
    by_cases hp : OwnPath E.out parts.flatten p
    · obtain ⟨⟨m, hm, hx⟩, h⟩ := hp
      obtain ⟨l, hl, hml⟩ := List.mem_flatten.mp hm
      obtain ⟨k, hlt, rfl⟩ := List.getElem_of_mem hl
      obtain ⟨e, he⟩ := hk k hlt
      exact (done sched k e _ he (List.getElem?_eq_getElem hlt)).2 p ⟨⟨m, hml, hx⟩, h⟩
    · exact other sched p hp
  · refine ⟨((parts.map fun l => (monthsProg E l lib).act.steps fs)).sum, fun sched hN k hk => ?_⟩
    have h0 := pool sched
    have hlen : k < (runTogether E lib parts sched fs).1.length := by rw [h0.len, List.length_map]; exact hk
    obtain ⟨g, -, a2, -, a4⟩ := h0.each k _ (List.getElem?_eq_getElem hlen)
    have h1 := a4 ((monthsProg E parts[k] lib).act) (by rw [List.getElem?_map, List.getElem?_eq_getElem hk]; rfl)
    have h2 : (monthsProg E parts[k] lib).act.steps fs ≤ (parts.map fun l => (monthsProg E l lib).act.steps fs).sum :=
      List.single_le_sum (by simp) _ (List.mem_map.mpr ⟨parts[k], List.getElem_mem hk, rfl⟩)
    obtain ⟨e, he⟩ := steps_stop (a := (runTogether E lib parts sched fs).1[k]) (g := g) (by have := hN k hk; omega)
    rw [he] at a2
    obtain ⟨-, rfl⟩ := Prod.mk.inj a2
    rw [List.getElem?_eq_getElem hlen, he]

/-- **C134**, for others: at every moment, whether or not the programs complete, every file outside the directories of their months is as it was,
and every directory is still there. -/
theorem C134_others (E : RunEnv F) (lib : ClimLib Arr3) (parts : List (List (Int × Int))) (fs : FileSys) (sched : List Nat) :
    (∀ p, (∀ l ∈ parts, ∀ m ∈ l, ∀ dir x, (safeMakeDir fs E.out m.1 m.2).2 = some dir → p ≠ dir ++ '/' :: x) →
      (runTogether E lib parts sched fs).2.file p = fs.file p) ∧
    ∀ q, fs.dir q = true → (runTogether E lib parts sched fs).2.dir q = true := by
  have h : Like (OwnPath E.out parts.flatten) fs (runTogether E lib parts sched fs).2 := by
    refine keeps_pool sched _ fs ?_ ⟨fun _ _ => rfl, fun _ _ => rfl, fun _ h => h⟩
    intro a ha
    obtain ⟨l, hl, rfl⟩ := List.mem_map.mp ha
    refine keeps_ops _ _ fun o ho => ?_
    have h1 := months_own E l lib o ho
    have sub : ∀ p, OwnPath E.out l p → OwnPath E.out parts.flatten p := fun p ⟨⟨m, hm, hx⟩, h⟩ =>
      ⟨⟨m, List.mem_flatten.mpr ⟨l, hl, hm⟩, hx⟩, h⟩
    cases o with
    | mkdir p => exact fun hp => own_not_dir _ _ _ hp h1
    | openw p => exact sub p h1
    | put p c => exact sub p h1
  refine ⟨fun p hp => h.file p ?_, h.more⟩
  rintro ⟨⟨m, hm, x, hx⟩, -⟩
  obtain ⟨l, hl, hml⟩ := List.mem_flatten.mp hm
  exact hp l hl m hml _ x rfl hx

/-- A run that completes, started on what other runs over the same months have left. -/
theorem run_like (E : RunEnv F) (lib : ClimLib Arr3) (O : List Char → Prop) (l : List (Int × Int)) (fs g : FileSys)
    (hO : ∀ o ∈ (monthsProg E l lib).ops, OpApart O o) (hg : Like O fs g) (hrun : (runMonths E l lib fs).2 = none) :
    (runMonths E l lib g).2 = none ∧ ∀ p, (.openw p ∈ (monthsProg E l lib).ops ∨ ¬ O p) →
      (runMonths E l lib g).1.file p = (runMonths E l lib fs).1.file p := by
  have hp := (months_good E l lib).1
  rw [← C125_operations] at hrun ⊢
  rw [← C125_operations]
  generalize monthsProg E l lib = P at *
  have h0 : Like O fs fs := ⟨fun _ _ => rfl, fun _ _ => rfl, fun _ h => h⟩
  unfold FileProg.run at hrun ⊢
  simp only at hrun ⊢
  have hok : (runOps P.ops fs).2 = true := by
    by_contra hc
    rw [if_neg hc] at hrun
    cases hrun
  rw [if_pos hok] at hrun
  obtain ⟨a, b⟩ := same_files P.ops hO [] fs g hp h0 hg hg.more (by simp) hok
  refine ⟨by rw [if_pos a, hrun], fun p hp => ?_⟩
  rcases hp with hp | hp
  · exact (b p (.inr hp)).symm
  · rw [(like_run P.ops hO g hg).file p hp, (like_run P.ops hO fs h0).file p hp]

/-- **C134**, with interruptions.  Before, the months may have been divided in other ways among programs that ran at the same time and were
killed at any point, any number of times.  Then a run over all months, and programs that run at the same time, complete as if this had not
happened, and leave every file on the disk as if this had not happened. -/
theorem C134_restart (E : RunEnv F) (lib : ClimLib Arr3) (parts : List (List (Int × Int))) (hap : Divided parts) (fs g : FileSys)
    (hall : ∀ l ∈ parts, (runMonths E l lib fs).2 = none) (hkill : KilledRounds E lib parts.flatten fs g) :
    ∃ fs', runMonths E parts.flatten lib fs = (fs', none) ∧
      (∃ g', runMonths E parts.flatten lib g = (g', none) ∧ g'.file = fs'.file) ∧
      (∀ (sched : List Nat) (k : Nat) (e : Option Err), (runTogether E lib parts sched g).1[k]? = some (Act.stop e) → e = none) ∧
      (∀ sched, (∀ k < parts.length, ∃ e, (runTogether E lib parts sched g).1[k]? = some (Act.stop e)) →
        (runTogether E lib parts sched g).2.file = fs'.file) ∧
      ∃ N, ∀ sched : List Nat, (∀ k < parts.length, N ≤ sched.count k) → ∀ k < parts.length,
        (runTogether E lib parts sched g).1[k]? = some (Act.stop none) := by
  obtain ⟨fs', r1, -⟩ := C134_at_once E lib parts hap fs hall
  have herr : (monthsProg E parts.flatten lib).err = none := by
    have h := congrArg Prod.snd ((C125_operations E parts.flatten lib fs).trans r1)
    unfold FileProg.run at h
    by_contra hc
    simp only at h
    split at h
    · exact hc h
    · cases h
  obtain ⟨hp, hok⟩ := months_good E parts.flatten lib
  have hO : ∀ o ∈ (monthsProg E parts.flatten lib).ops, OpApart (fun p => .openw p ∈ (monthsProg E parts.flatten lib).ops) o := by
    intro o ho
    cases o with
    | mkdir p => exact fun h => (hok _ h).elim (hok _ ho).1 (hok _ ho).2
    | openw p => exact ho
    | put p c => exact (proper_put hp ho).resolve_left (by simp)
  have hOl : ∀ l, (∀ m ∈ l, m ∈ parts.flatten) → ∀ o ∈ (monthsProg E l lib).ops,
      OpApart (fun p => .openw p ∈ (monthsProg E parts.flatten lib).ops) o :=
    fun l hl o ho => hO o (opens_all E lib _ herr o l hl ho)
  have hg : Like (fun p => .openw p ∈ (monthsProg E parts.flatten lib).ops) fs g := by
    unfold KilledRounds at hkill
    induction hkill with
    | refl => exact ⟨fun _ _ => rfl, fun _ _ => rfl, fun _ h => h⟩
    | @tail f g _ hk ih =>
      obtain ⟨parts', -, hsub, sched, hd, hf⟩ := hk
      have hl := keeps_pool sched (parts'.map fun l => (monthsProg E l lib).act) f (by
        intro a ha
        obtain ⟨l, hl, rfl⟩ := List.mem_map.mp ha
        exact keeps_ops _ _ (hOl l (hsub l hl))) ih
      refine ⟨fun p hp => ?_, fun p hp => by rw [hd]; exact hl.dir p hp, fun p hp => by rw [hd]; exact hl.more p hp⟩
      rcases hf p with h | ⟨⟨l, hl', ho⟩, -⟩
      · rw [h]; exact hl.file p hp
      · exact absurd (opens_all E lib _ herr _ l (hsub l hl') ho) hp
  have hallg : ∀ l ∈ parts, (runMonths E l lib g).2 = none := fun l hl =>
    (run_like E lib _ l fs g (hOl l fun m hm => List.mem_flatten.mpr ⟨l, hl, hm⟩) hg (hall l hl)).1
  obtain ⟨g', s1, s2, s3, s4⟩ := C134_at_once E lib parts hap g hallg
  have same : g'.file = fs'.file := by
    funext p
    have h := (run_like E lib _ parts.flatten fs g hO hg (by rw [r1])).2 p (em _)
    rw [s1, r1] at h
    exact h
  exact ⟨fs', r1, ⟨g', s1, same⟩, fun sched k e h => (s2 sched k e h).1, fun sched h => by rw [s3 sched h, same], s4⟩

/-- The first three operations of the sample run over one month. -/
theorem sampleMonth_first (m : Int × Int) (hm : m ∈ [((1990 : Int), (2 : Int)), (1990, 3)]) {a b : List Char}
    (h : buildCompletions sampleTrackRun.out [intText m.1, zeroPad 2 m.2] = [a, b]) :
    (monthsProg sampleTrackRun [m] sampleLib).ops.take 3 =
      [.mkdir a, .mkdir b, .openw (deckPath sampleTrackRun.runid b m.1 m.2 false "Variables_".toList)] := by
  obtain ⟨d, lib', hd⟩ := archive_checked sampleTrackRun sampleLib sampleTrackRun_ready m { (sampleRun_archive m hm).1 with }
  rw [monthsProg, hd]
  exact andThen_take (l := [_, _, _]) (outputProg_first _ _ _ _ _ _ _ _ _ _ _ h)

theorem act_of_take {P : FileProg} {l : List FileOp} (h : P.ops.take l.length = l) : ∃ r, P.act = opsAct (opsAct (.stop P.err) r) l := by
  refine ⟨P.ops.drop l.length, ?_⟩
  unfold FileProg.act
  conv_lhs => rw [← List.take_append_drop l.length P.ops, h]
  generalize P.ops.drop l.length = r
  clear h
  induction l with
  | nil => rfl
  | cons o l ih =>
    cases o with
    | mkdir p => simp only [List.cons_append, opsAct, ih]
    | openw p => simp only [List.cons_append, opsAct, ih]
    | put p c => simp only [List.cons_append, opsAct, ih]

theorem sampleMonth_run (m : Int × Int) (hm : m ∈ [((1990 : Int), (2 : Int)), (1990, 3)]) :
    (runMonths sampleTrackRun [m] sampleLib (oneDir "/out".toList)).2 = none := by
  obtain ⟨fs', _, h, -⟩ := C111_run_partial sampleTrackRun sampleLib sampleTrackRun_ready [m] (oneDir "/out".toList)
    (by simp) (fun k hk => { (sampleRun_archive k (by rw [List.mem_singleton.mp hk]; exact hm)).1 with })
    (fun k hk _ => { (sampleRun_archive k (by rw [List.mem_singleton.mp hk]; exact hm)).2 with })
    (fun k hk => sampleRun_place k (by rw [List.mem_singleton.mp hk]; exact hm))
  rw [h]

theorem four_steps (a b c p q : List Char) (x y : Act) (fs : FileSys) :
    (runSchedule [0, 1, 0, 0] [opsAct x [.mkdir a, .mkdir b, .openw p], opsAct y [.mkdir a, .mkdir c, .openw q]] fs).2 =
      (runOps [.mkdir a, .mkdir b, .openw p] fs).1 := by
  have twice : makeDir (makeDir fs a) a = makeDir fs a := by
    unfold makeDir
    by_cases h : (fs.dir a || (fs.file a).isSome || !fs.dir (parentOf a)) = true
    · rw [if_pos h, if_pos h]
    · rw [if_neg h]
      simp
  have e : (runSchedule [0, 1, 0, 0] [opsAct x [.mkdir a, .mkdir b, .openw p], opsAct y [.mkdir a, .mkdir c, .openw q]] fs).2 =
      ((Act.openw p fun t => if t then x else .stop (some .other)).step (makeDir (makeDir (makeDir fs a) a) b)).2 := rfl
  have e' : (runOps [.mkdir a, .mkdir b, .openw p] fs).1 =
      ((Act.openw p fun t => if t then x else .stop (some .other)).step (makeDir (makeDir (makeDir fs a) a) b)).2 := by
    rw [twice]
    simp only [runOps, FileOp.run, Act.step]
    by_cases hc : canWrite (makeDir (makeDir fs a) b) p = true
    · rw [if_pos hc, if_pos hc]
    · rw [if_neg hc, if_neg hc]
  rw [e, ← e']

theorem sample_together : (runTogether sampleTrackRun sampleLib [[(1990, 2)], [(1990, 3)]] [0, 1, 0, 0] (oneDir "/out".toList)).2 =
    (runOps [.mkdir "/out/1990".toList, .mkdir "/out/1990/02".toList, .openw "/out/1990/02/Variables_199002_base.csv".toList]
      (oneDir "/out".toList)).1 := by
  obtain ⟨r, hr⟩ := act_of_take (l := [_, _, _]) (sampleMonth_first (1990, 2) (by decide) (a := "/out/1990".toList)
    (b := "/out/1990/02".toList) (by decide +kernel))
  obtain ⟨t, ht⟩ := act_of_take (l := [_, _, _]) (sampleMonth_first (1990, 3) (by decide) (a := "/out/1990".toList)
    (b := "/out/1990/03".toList) (by decide +kernel))
  have e1 : deckPath sampleTrackRun.runid "/out/1990/02".toList 1990 2 false "Variables_".toList =
      "/out/1990/02/Variables_199002_base.csv".toList := by decide +kernel
  unfold runTogether
  rw [List.map_cons, List.map_cons, List.map_nil, hr, ht, e1]
  exact four_steps ..

/-- Non-vacuity of C134: the two months of the sample run, one program for each.  Both are killed, the first after three operations and the
second after one: this leaves an empty file and no directory for March. -/
example : Divided [[(1990, 2)], [(1990, 3)]] ∧
    (∀ l ∈ [[((1990 : Int), (2 : Int))], [(1990, 3)]], (runMonths sampleTrackRun l sampleLib (oneDir "/out".toList)).2 = none) ∧
    ∃ g, KilledRounds sampleTrackRun sampleLib [[((1990 : Int), (2 : Int))], [(1990, 3)]].flatten (oneDir "/out".toList) g ∧
      g.file "/out/1990/02/Variables_199002_base.csv".toList = some [] ∧ g.dir "/out/1990/03".toList = false := by
  have hd : Divided [[(1990, 2)], [(1990, 3)]] := by unfold Divided; decide
  refine ⟨hd, ?_, (runOps [.mkdir "/out/1990".toList, .mkdir "/out/1990/02".toList,
    .openw "/out/1990/02/Variables_199002_base.csv".toList] (oneDir "/out".toList)).1, Relation.ReflTransGen.single
      ⟨[[(1990, 2)], [(1990, 3)]], hd, by decide, [0, 1, 0, 0], by rw [sample_together], fun _ => Or.inl (by rw [sample_together])⟩, ?_, ?_⟩
  · intro l hl
    rcases List.mem_pair.mp hl with rfl | rfl
    · exact sampleMonth_run _ (by decide)
    · exact sampleMonth_run _ (by decide)
  · decide +kernel
  · decide +kernel

end MarineQC
