import Verif.Wrapper.Steps
import Verif.Wrapper.Schedule
import Verif.Wrapper.Run

/-! # The scripts, run at the same time -/

namespace MarineQC

open Spec

/-! ## What a script touches -/

section

variable {inp priv dirs : List Char → Prop}

theorem within_anyFile (no yes : Act) (g : FileSys) (l : List (List Char)) (hl : ∀ p ∈ l, inp p)
    (hno : l.any (fun p => (g.file p).isSome) = false → no.Within inp priv dirs g)
    (hyes : l.any (fun p => (g.file p).isSome) = true → yes.Within inp priv dirs g) : (anyFileAct no yes l).Within inp priv dirs g := by
  induction l with
  | nil => exact hno rfl
  | cons p l ih =>
    refine ⟨hl p (by simp), ?_⟩
    by_cases h : (g.file p).isSome = true
    · rw [h]
      exact hyes (by simp [h])
    · have h : (g.file p).isSome = false := by simpa using h
      rw [h]
      exact ih (fun q hq => hl q (by simp [hq])) (fun h' => hno (by rw [List.any_cons, h, h']; rfl))
        (fun h' => hyes (by rw [List.any_cons, h, h']; rfl))

theorem within_orStop {α : Type} (x : Except Err α) (k : α → Act) (g : FileSys) (h : ∀ a, x = .ok a → (k a).Within inp priv dirs g) :
    (orStop x k).Within inp priv dirs g := by
  cases x with
  | error e => trivial
  | ok a => exact h a rfl

theorem within_month (num : List Char → Option Rat) (order : List (List Char) → List (List Char)) (out runid target : List Char)
    (year month : Int) (k : List Report → Act) (g : FileSys) (hp : ∀ pre, inp (inputPath out runid target year month pre))
    (hk : ∀ reps, readMonth num order g out runid target year month = .ok reps → (k reps).Within inp priv dirs g) :
    (monthAct num order out runid target year month k).Within inp priv dirs g := by
  unfold monthAct
  apply within_anyFile
  · intro p hp'
    simp only [List.mem_cons, List.not_mem_nil, or_false] at hp'
    rcases hp' with rfl | rfl | rfl <;> exact hp _
  · intro h
    apply hk
    simp only [List.any_cons, List.any_nil, Bool.or_false, Bool.or_eq_false_iff, Option.isSome_eq_false_iff, Option.isNone_iff_eq_none] at h
    unfold readMonth
    rw [h.1, h.2.1, h.2.2]
  · intro _
    refine ⟨hp _, hp _, hp _, ?_⟩
    cases hv : g.file (inputPath out runid target year month "Variables_") with
    | none => trivial
    | some v =>
    cases hp' : g.file (inputPath out runid target year month "POS_qc_") with
    | none => trivial
    | some p =>
    cases hs : g.file (inputPath out runid target year month "SST_qc_") with
    | none => trivial
    | some s =>
    show Act.Within inp priv dirs (if countsRight (some v) (some p) (some s) = true then _ else _) g
    by_cases hc : countsRight (some v) (some p) (some s) = true
    · rw [if_pos hc]
      simp only [countsRight, Bool.and_eq_true, decide_eq_true_eq] at hc
      refine ⟨hp _, ?_⟩
      rw [hv]
      apply within_orStop
      intro r1 h1
      refine ⟨hp _, ?_⟩
      rw [hp']
      apply within_orStop
      intro r2 h2
      refine ⟨hp _, ?_⟩
      rw [hs]
      apply within_orStop
      intro r3 h3
      apply hk
      unfold readMonth
      rw [hv, hp', hs]
      simp only
      rw [if_neg (by tauto), h1, except_bind_ok, h2, except_bind_ok, h3]
    · rw [if_neg hc]
      trivial

theorem within_months (num : List Char → Option Rat) (order : List (List Char) → List (List Char)) (out runid target : List Char)
    (k : List Report → Act) (g : FileSys) (ms : List (Int × Int)) (l : List Report)
    (hp : ∀ m ∈ ms, ∀ pre, inp (inputPath out runid target m.1 m.2 pre))
    (hk : ∀ a, (ms.mapM fun (m : Int × Int) => readMonth num order g out runid target m.1 m.2) = .ok a →
      (k (l ++ a.flatten)).Within inp priv dirs g) : (monthsAct num order out runid target k ms l).Within inp priv dirs g := by
  induction ms generalizing l with
  | nil => simpa [monthsAct] using hk [] rfl
  | cons m ms ih =>
    rw [monthsAct]
    apply within_month _ _ _ _ _ _ _ _ _ (hp m (by simp))
    intro reps hr
    apply ih _ fun q hq => hp q (by simp [hq])
    intro a ha
    rw [List.append_assoc]
    apply hk (reps :: a)
    rw [List.mapM_cons, hr, except_bind_ok, ha, except_bind_ok]
    rfl

theorem within_text (p : List Char) (hp : priv p) (k : Act) (hk : ∀ g, k.Within inp priv dirs g) (s : List Char) (g : FileSys) :
    (textAct p k s).Within inp priv dirs g := by
  induction s generalizing g with
  | nil => exact hk g
  | cons c s ih => exact ⟨hp, ih _⟩

theorem within_lines (p : List Char) (hp : priv p) (k : Act) (hk : ∀ g, k.Within inp priv dirs g) (l : List (Except Err (List Char)))
    (g : FileSys) : (linesAct p k l).Within inp priv dirs g := by
  induction l generalizing g with
  | nil => exact hk g
  | cons x l ih =>
    cases x with
    | error e => trivial
    | ok s => exact within_text p hp _ ih s g

theorem within_mkdirs (k : Act) (hk : ∀ g, k.Within inp priv dirs g) (l : List (List Char)) (hl : ∀ p ∈ l, dirs p) (g : FileSys) :
    (mkdirsAct k l).Within inp priv dirs g := by
  induction l generalizing g with
  | nil => exact hk g
  | cons p l ih => exact ⟨hl p (by simp), ih (fun q hq => hl q (by simp [hq])) _⟩

theorem within_table (fmt : Rat → List Char) (runid dir : List Char) (year month : Int) (reps : List Report) (k : Act)
    (hk : ∀ g, k.Within inp priv dirs g) (ident : String) (hi : ∀ r ∈ reps, r.id = some ident)
    (hp : priv (voyagePath runid dir year month "Tracking_".toList (safeFilename ident.toList))) (g : FileSys) :
    (tableAct fmt runid dir year month reps k).Within inp priv dirs g := by
  unfold tableAct
  cases reps with
  | nil => trivial
  | cons r v =>
    simp only [hi r (by simp)]
    exact ⟨hp, within_lines _ hp k hk _ _, by simp [Act.run]⟩

theorem within_when (b : Bool) (f : Act → Act) (k : Act) (hf : b = true → ∀ g, (f k).Within inp priv dirs g) (hk : ∀ g, k.Within inp priv dirs g)
    (g : FileSys) : (whenAct b f k).Within inp priv dirs g := by
  unfold whenAct
  cases b
  · exact hk g
  · exact hf rfl g

end

theorem completions_last (out : List Char) (hb : IsBase out) (year month : Int) :
    (buildCompletions out ["TrackingQC".toList, intText year, zeroPad 2 month]).getLast? = some (trackingDir out year month) := by
  rw [C81_completions out _ hb (by
    intro s hs
    simp only [List.mem_cons, List.not_mem_nil, or_false] at hs
    rcases hs with rfl | rfl | rfl
    exacts [⟨by decide, by decide⟩, isName_int _, isName_pad _])]
  simp [List.range_succ, trackingDir]

theorem edge_completions (out : List Char) (year month : Int) (edge rid : List Char) (he : '/' ∉ edge) (hr : '/' ∉ rid) :
    buildCompletions (trackingDir out year month) [edge ++ '_' :: rid] = [trackingDir out year month ++ '/' :: (edge ++ '_' :: rid)] := by
  have hn : IsName (edge ++ '_' :: rid) := by
    refine ⟨by simp, ?_⟩
    simp only [List.mem_append, List.mem_cons, not_or]
    exact ⟨he, by decide, hr⟩
  simp [buildCompletions, pathJoin_name _ _ (trackingDir_isBase out year month) hn]

theorem within_edge {inp priv dirs : List Char → Prop} (fmt : Rat → List Char) (runid out : List Char) (hb : IsBase out) (year month : Int)
    (edge : String) (rid : List Char) (he : '/' ∉ edge.toList) (hr : '/' ∉ rid) (v : List Report) (k : Act)
    (hk : ∀ g, k.Within inp priv dirs g) (ident : String) (hi : ∀ r ∈ v, r.id = some ident)
    (hd : ∀ q ∈ buildCompletions out ["TrackingQC".toList, intText year, zeroPad 2 month], dirs q)
    (hd' : dirs (trackingDir out year month ++ '/' :: (edge.toList ++ '_' :: rid)))
    (hp : priv (voyagePath runid (trackingDir out year month ++ '/' :: (edge.toList ++ '_' :: rid)) year month "Tracking_".toList
      (safeFilename ident.toList))) (g : FileSys) :
    (edgeAct fmt runid out year month edge rid v k).Within inp priv dirs g := by
  unfold edgeAct
  simp only [completions_last out hb, Option.getD_some, edge_completions out year month edge.toList rid he hr, List.getLast?_singleton]
  apply within_mkdirs _ _ _ hd
  apply within_mkdirs _ _ _ (by simpa using hd')
  exact within_table _ _ _ _ _ _ _ hk ident hi hp

/-- The voyage of a drifter has the identifier of its reports. -/
theorem tracked_ids (G : Geo) (elev : Int → Int → Rat → Rat → Rat → Rat → ℝ) (P : DriftParams) (hP : TrackParamsOk P)
    (reps : List Report) (hdt : ∀ r ∈ reps, r.dt ≠ none) (ident : String) (hi : ∀ r ∈ reps, r.id = some ident)
    (reps' v : List Report) (h1 : trackingChecks G elev P reps = .ok reps') (h2 : wholeVoyage G reps' = .ok v) :
    ∀ s ∈ v, s.id = some ident := by
  obtain ⟨l1, l2⟩ := C93_only_flags G elev P hP.speed.2 reps reps' h1
  have back : ∀ r ∈ reps', ∃ r0 ∈ reps, OnlyFlags
      ["POSdrf_agr", "POSdrf_spd", "SSTdrf_tail1", "SSTdrf_tail2", "SSTdrf_bias", "SSTdrf_noise", "SSTdrf_short"] r0 r := by
    intro r hr
    obtain ⟨n, hn⟩ := List.mem_iff_getElem?.mp hr
    have hlt : n < reps.length := by rw [← l1]; exact (List.getElem?_eq_some_iff.mp hn).1
    exact ⟨_, List.getElem_mem hlt, l2 n _ _ (List.getElem?_eq_getElem hlt) hn⟩
  obtain ⟨order, o1, o2, o3⟩ := C97_whole G reps' v
    (by
      intro r hr
      obtain ⟨r0, a1, a2⟩ := back r hr
      rw [a2.dt]; exact hdt r0 a1)
    (by
      intro a ha b hb
      obtain ⟨a0, a1, a2⟩ := back a ha
      obtain ⟨b0, b1, b2⟩ := back b hb
      rw [a2.id, b2.id, hi _ a1, hi _ b1]) h2
  intro s hs
  obtain ⟨n, hn⟩ := List.mem_iff_getElem?.mp hs
  have hlt : n < order.length := by rw [← o3.1]; exact (List.getElem?_eq_some_iff.mp hn).1
  obtain ⟨r, s', a1, a2, a3⟩ := o3.2.2 n _ (List.getElem?_eq_getElem hlt)
  rw [hn] at a2
  injection a2 with a2
  subst a2
  obtain ⟨r0, b1, b2⟩ := back r (List.mem_of_getElem? a1)
  rw [a3.id, b2.id, hi _ b1]

section

variable (fmt : Rat → List Char) (hf : ∀ x, Plain (fmt x)) (hfe : ∀ x, NoBlankEnd (fmt x) ∧ fmt x ≠ [])
  (num : List Char → Option Rat) (ord : List (List Char) → List (List Char)) (G : Geo) (hG : IsDistance G)
  (elev : Int → Int → Rat → Rat → Rat → Rat → ℝ) (P : DriftParams) (hP : TrackParamsOk P) (W : WrapperEnv)
  (hopt : ∀ l, (W.options l).Perm l) (conf : List Char → Option TrackSettings) (hconf : conf W.config = some ⟨W.out, W.trackOut, W.runid, P⟩)
  (y1 m1 y2 m2 : Int) (hwords : WordsOnly W (runMonthId y1 m1 y2 m2)) (hbase : IsBase W.trackOut) (hrun : '/' ∉ W.runid)

include hopt hconf hwords in
theorem scriptAct_job (j : Job) (arg : List Char) (hj : Sendable j arg) (hm1 : 1 ≤ j.mn1 ∧ j.mn1 ≤ 12) (hm2 : 1 ≤ j.mn2 ∧ j.mn2 ≤ 12)
    (k : Nat) (hk : (k : Int) = 12 * (j.yr2 - j.yr1) + j.mn2 - j.mn1) :
    scriptAct fmt num ord G elev conf (jobScript W (runMonthId y1 m1 y2 m2) j) =
      trackingAct fmt num ord G elev P W.out W.trackOut W.runid arg (runMonthId y1 m1 y2 m2) (monthList (j.yr1, j.mn1) k) j.yr2 j.mn2
        j.edge := by
  obtain ⟨ws, a1, a2⟩ := C120_arguments_partial W hopt _ hwords j arg hj
  unfold scriptAct
  rw [a1]
  simp only [List.foldl_cons, List.foldl_nil, List.head?_cons, List.tail_cons, if_true, Act.andThen]
  unfold programAct
  rw [a2]
  simp only
  rw [hconf, monthsBetween_ok _ _ _ _ hm1 hm2 k hk]

include hP hopt hconf hwords hbase in
/-- A script reads files of the months, makes directories for results and writes files for the results of its job. -/
theorem script_within (months : List (Int × Int)) (jobs : List Job) (fs : FileSys) (j : Job) (hj : j ∈ jobs) (arg : List Char)
    (hs : Sendable j arg) (hm1 : 1 ≤ j.mn1 ∧ j.mn1 ≤ 12) (hm2 : 1 ≤ j.mn2 ∧ j.mn2 ≤ 12) (k : Nat)
    (hk : (k : Int) = 12 * (j.yr2 - j.yr1) + j.mn2 - j.mn1) (hsub : ∀ m ∈ monthList (j.yr1, j.mn1) k, m ∈ months) (rnd : Rat → Rat)
    (recs : List Imma) (R : List Report) (hR : readChunk num ord fs W.out W.runid arg (monthList (j.yr1, j.mn1) k) = .ok R)
    (hF : ChunkFound rnd j.ident recs R) :
    (scriptAct fmt num ord G elev conf (jobScript W (runMonthId y1 m1 y2 m2) j)).Within
      (fun p => ∃ m ∈ months, ∃ x, p = monthDir W.out m.1 m.2 ++ '/' :: x)
      (fun p => ∃ D ∈ trackingDirs W.trackOut j.yr2 j.mn2 (runMonthId y1 m1 y2 m2), p = resultPath W.runid j D)
      (fun q => ∃ i ∈ jobs, q ∈ trackingDirs W.trackOut i.yr2 i.mn2 (runMonthId y1 m1 y2 m2)) fs := by
  rw [scriptAct_job fmt num ord G elev P W hopt conf hconf y1 m1 y2 m2 hwords j arg hs hm1 hm2 k hk]
  unfold trackingAct
  apply within_months
  · intro m hm pre
    rw [inputPath_eq]
    obtain ⟨x, hx⟩ := voyagePath_in W.runid (monthDir W.out m.1 m.2) pre.toList (targetId arg) m.1 m.2
    exact ⟨m, hsub m hm, x, hx⟩
  · intro a ha
    have hRa : a.flatten = R := by
      unfold readChunk at hR
      rw [ha, except_bind_ok] at hR
      split at hR
      · cases hR
      · simpa [except_pure] using hR
    rw [List.nil_append, hRa, if_neg hF.some]
    apply within_orStop
    intro v hv
    obtain ⟨R', h1, h2⟩ := bind_ok_iff.mp hv
    have hid := tracked_ids G elev P hP R hF.timed j.ident hF.ident R' v h1 h2
    have hc : ∀ q ∈ buildCompletions W.trackOut ["TrackingQC".toList, intText j.yr2, zeroPad 2 j.mn2],
        ∃ i ∈ jobs, q ∈ trackingDirs W.trackOut i.yr2 i.mn2 (runMonthId y1 m1 y2 m2) := by
      intro q hq
      rw [mem_completions _ hbase] at hq
      refine ⟨j, hj, ?_⟩
      rcases hq with rfl | rfl | rfl <;> simp [trackingDirs]
    have hstart : trackingDir W.trackOut j.yr2 j.mn2 ++ '/' :: ("start_edge_case".toList ++ '_' :: runMonthId y1 m1 y2 m2) ∈
        trackingDirs W.trackOut j.yr2 j.mn2 (runMonthId y1 m1 y2 m2) := by simp [trackingDirs]
    have hend : trackingDir W.trackOut j.yr2 j.mn2 ++ '/' :: ("end_edge_case".toList ++ '_' :: runMonthId y1 m1 y2 m2) ∈
        trackingDirs W.trackOut j.yr2 j.mn2 (runMonthId y1 m1 y2 m2) := by simp [trackingDirs]
    have w3 : ∀ g, (whenAct (j.edge.contains "end_edge_case") (edgeAct fmt W.runid W.trackOut j.yr2 j.mn2 "end_edge_case"
        (runMonthId y1 m1 y2 m2) v) (.stop none)).Within (fun p => ∃ m ∈ months, ∃ x, p = monthDir W.out m.1 m.2 ++ '/' :: x)
      (fun p => ∃ D ∈ trackingDirs W.trackOut j.yr2 j.mn2 (runMonthId y1 m1 y2 m2), p = resultPath W.runid j D)
      (fun q => ∃ i ∈ jobs, q ∈ trackingDirs W.trackOut i.yr2 i.mn2 (runMonthId y1 m1 y2 m2)) g := by
      apply within_when
      · intro _
        exact within_edge _ _ _ hbase _ _ _ _ (by decide) (runMonthId_slash _ _ _ _) _ _ (fun _ => trivial) j.ident hid hc ⟨j, hj, hend⟩
          ⟨_, hend, rfl⟩
      · intro _; trivial
    have w2 := within_when (j.edge.contains "start_edge_case") (edgeAct fmt W.runid W.trackOut j.yr2 j.mn2 "start_edge_case"
        (runMonthId y1 m1 y2 m2) v) _ (fun _ => within_edge fmt W.runid _ hbase j.yr2 j.mn2 "start_edge_case" _ (by decide)
        (runMonthId_slash y1 m1 y2 m2) v _ w3 j.ident hid hc ⟨j, hj, hstart⟩ ⟨_, hstart, rfl⟩) w3
    apply within_when
    · intro _
      unfold plainAct
      simp only [completions_last W.trackOut hbase, Option.getD_some]
      apply within_mkdirs _ _ _ hc
      exact within_table _ _ _ _ _ _ _ w2 j.ident hid ⟨_, by simp [trackingDirs], rfl⟩
    · exact w2

include hf hfe hG hP hopt hconf hwords hbase hrun in
/-- Some jobs at the same time. -/
theorem round_run (months : List (Int × Int)) (f1 : FileSys) (jobs : List Job) (rnd : Rat → Rat) (recs : Job → List Imma)
    (R : Job → List Report)
    (hapart : ∀ m ∈ months, ∀ x z, W.trackOut ++ "/TrackingQC".toList ++ x ≠ monthDir W.out m.1 m.2 ++ '/' :: z)
    (hid : ∀ j ∈ jobs, '/' ∉ j.ident.toList ∧ '*' ∉ j.ident.toList)
    (hmn : ∀ j ∈ jobs, (1 ≤ j.mn1 ∧ j.mn1 ≤ 12) ∧ 1 ≤ j.mn2 ∧ j.mn2 ≤ 12)
    (hdiff : ∀ j ∈ jobs, ∀ k ∈ jobs, j.ident = k.ident → j.yr2 = k.yr2 → j.mn2 = k.mn2 → j = k)
    (hjob : ∀ j ∈ jobs, ∃ arg k, Sendable j arg ∧ ((k : Nat) : Int) = 12 * (j.yr2 - j.yr1) + j.mn2 - j.mn1 ∧
      (∀ m ∈ monthList (j.yr1, j.mn1) k, m ∈ months) ∧
      readChunk num ord f1 W.out W.runid arg (monthList (j.yr1, j.mn1) k) = .ok (R j) ∧ ChunkFound rnd j.ident (recs j) (R j))
    (l : List Job) (hl : ∀ j ∈ l, j ∈ jobs) (hnd : l.Nodup) (fs : FileSys)
    (hready : JobReady W.out W.trackOut W.runid (runMonthId y1 m1 y2 m2) months f1 jobs fs) :
    (∀ sched,
      JobReady W.out W.trackOut W.runid (runMonthId y1 m1 y2 m2) months f1 jobs
        (runSchedule sched ((l.map (jobScript W (runMonthId y1 m1 y2 m2))).map (scriptAct fmt num ord G elev conf)) fs).2 ∧
      (∀ (k : Nat) j e, l[k]? = some j →
        (runSchedule sched ((l.map (jobScript W (runMonthId y1 m1 y2 m2))).map (scriptAct fmt num ord G elev conf)) fs).1[k]? = some (Act.stop e) →
        e = none ∧ JobDone fmt G elev P W.trackOut W.runid (runMonthId y1 m1 y2 m2) j (R j)
          (runSchedule sched ((l.map (jobScript W (runMonthId y1 m1 y2 m2))).map (scriptAct fmt num ord G elev conf)) fs).2) ∧
      (∀ j ∈ jobs, j ∉ l → JobDone fmt G elev P W.trackOut W.runid (runMonthId y1 m1 y2 m2) j (R j) fs →
        JobDone fmt G elev P W.trackOut W.runid (runMonthId y1 m1 y2 m2) j (R j)
          (runSchedule sched ((l.map (jobScript W (runMonthId y1 m1 y2 m2))).map (scriptAct fmt num ord G elev conf)) fs).2)) ∧
    ∃ N, ∀ sched : List Nat, (∀ k < l.length, N ≤ sched.count k) → ∀ k < l.length, ∃ e,
      (runSchedule sched ((l.map (jobScript W (runMonthId y1 m1 y2 m2))).map (scriptAct fmt num ord G elev conf)) fs).1[k]? =
        some (Act.stop e) := by
  obtain ⟨progs, hprogs⟩ : ∃ progs, progs = (l.map (jobScript W (runMonthId y1 m1 y2 m2))).map (scriptAct fmt num ord G elev conf) := ⟨_, rfl⟩
  rw [← hprogs]
  have hget : ∀ (k : Nat) j, l[k]? = some j → progs[k]? = some (scriptAct fmt num ord G elev conf (jobScript W (runMonthId y1 m1 y2 m2) j)) := by
    intro k j hk
    rw [hprogs, List.getElem?_map, List.getElem?_map, hk]
    rfl
  have hback : ∀ (k : Nat) (a : Act), progs[k]? = some a →
      ∃ j, l[k]? = some j ∧ a = scriptAct fmt num ord G elev conf (jobScript W (runMonthId y1 m1 y2 m2) j) := by
    intro k a hk
    rw [hprogs, List.getElem?_map, List.getElem?_map] at hk
    cases h : l[k]? with
    | none => rw [h] at hk; cases hk
    | some j =>
      rw [h] at hk
      exact ⟨j, rfl, (Option.some.inj hk).symm⟩
  have hlen : progs.length = l.length := by rw [hprogs, List.length_map, List.length_map]
  -- alone
  have alone : ∀ j ∈ l, ∃ g, (scriptAct fmt num ord G elev conf (jobScript W (runMonthId y1 m1 y2 m2) j)).run fs = (g, none) ∧
      JobDone fmt G elev P W.trackOut W.runid (runMonthId y1 m1 y2 m2) j (R j) g ∧
      (scriptAct fmt num ord G elev conf (jobScript W (runMonthId y1 m1 y2 m2) j)).Within
        (fun p => ∃ m ∈ months, ∃ x, p = monthDir W.out m.1 m.2 ++ '/' :: x)
        (fun p => ∃ D ∈ trackingDirs W.trackOut j.yr2 j.mn2 (runMonthId y1 m1 y2 m2), p = resultPath W.runid j D)
        (fun q => ∃ i ∈ jobs, q ∈ trackingDirs W.trackOut i.yr2 i.mn2 (runMonthId y1 m1 y2 m2)) fs := by
    intro j hj
    obtain ⟨arg, k, h1, h2, h3, h4, h5⟩ := hjob j (hl j hj)
    obtain ⟨g, a1, -, a3, -⟩ := job_step fmt hf hfe num ord G hG elev P hP W hopt conf hconf y1 m1 y2 m2 hwords hbase hrun months f1 jobs
      fs hready hapart j (hl j hj) arg h1 (hmn j (hl j hj)).1 (hmn j (hl j hj)).2 k h2 h3 rnd (recs j) (R j) h4 h5
    refine ⟨g, ?_, a3, ?_⟩
    · rw [C123_steps, a1]
      rfl
    · refine script_within fmt num ord G elev P hP W hopt conf hconf y1 m1 y2 m2 hwords hbase months jobs fs j (hl j hj) arg h1
        (hmn j (hl j hj)).1 (hmn j (hl j hj)).2 k h2 h3 rnd (recs j) (R j) ?_ h5
      rw [← h4]
      exact readChunk_congr num ord fs f1 W.out W.runid arg _ fun m hm x => hready.input m (h3 m hm) x
  obtain ⟨priv, hpriv⟩ : ∃ priv : Nat → List Char → Prop, priv = fun k p => ∃ j, l[k]? = some j ∧
    ∃ D ∈ trackingDirs W.trackOut j.yr2 j.mn2 (runMonthId y1 m1 y2 m2), p = resultPath W.runid j D := ⟨_, rfl⟩
  have last : ∀ (i : Job) D, (resultPath W.runid i D).getLast? = some 'v' := fun i D => voyagePath_last ..
  have hdiff' : ∀ i k p, priv i p → priv k p → i = k := by
    intro i k p hi hk
    rw [hpriv] at hi hk
    obtain ⟨j, j1, D, -, j3⟩ := hi
    obtain ⟨j', j1', D', -, j3'⟩ := hk
    have m := hl j (List.mem_of_getElem? j1)
    have m' := hl j' (List.mem_of_getElem? j1')
    rw [j3] at j3'
    obtain ⟨e1, e2, e3⟩ := resultPath_inj hrun (hid j m) (hid j' m') (hmn j m).2 (hmn j' m').2 j3'
    obtain rfl := hdiff j m j' m' e1 e2 e3
    obtain ⟨b1, b2⟩ := List.getElem?_eq_some_iff.mp j1
    obtain ⟨b1', b2'⟩ := List.getElem?_eq_some_iff.mp j1'
    exact (List.Nodup.getElem_inj_iff hnd).mp (b2.trans b2'.symm)
  have hpi : ∀ i p, priv i p → ¬ ∃ m ∈ months, ∃ x, p = monthDir W.out m.1 m.2 ++ '/' :: x := by
    rintro i p hi ⟨m, hm, x, hx⟩
    rw [hpriv] at hi
    obtain ⟨j, -, D, hD, e⟩ := hi
    obtain ⟨z, hz⟩ := trackingDirs_below hD
    obtain ⟨w, hw⟩ := voyagePath_in W.runid D "Tracking_".toList (safeFilename j.ident.toList) j.yr2 j.mn2
    refine hapart m hm (z ++ '/' :: w) x ?_
    rw [← hx, e]
    unfold resultPath
    rw [hw, hz]
    simp [List.append_assoc]
  have hpd : ∀ i p, priv i p → ¬ ∃ i ∈ jobs, p ∈ trackingDirs W.trackOut i.yr2 i.mn2 (runMonthId y1 m1 y2 m2) := by
    rintro i p hi ⟨j', -, hp⟩
    rw [hpriv] at hi
    obtain ⟨j, -, D, -, e⟩ := hi
    exact trackingDirs_last hp (by rw [e]; exact last j D)
  have pooled := pooled_run (inp := fun p => ∃ m ∈ months, ∃ x, p = monthDir W.out m.1 m.2 ++ '/' :: x)
    (dirs := fun q => ∃ i ∈ jobs, q ∈ trackingDirs W.trackOut i.yr2 i.mn2 (runMonthId y1 m1 y2 m2))
    (progs := progs) (fs0 := fs) (last := fun k => ((progs[k]?.map fun a => (a.run fs).1).getD fs)) hdiff' hpi hpd (by
      intro k a hk
      obtain ⟨j, j1, rfl⟩ := hback k a hk
      obtain ⟨g, a1, a2, a3⟩ := alone j (List.mem_of_getElem? j1)
      refine ⟨?_, ?_⟩
      · have : priv k = fun p => ∃ D ∈ trackingDirs W.trackOut j.yr2 j.mn2 (runMonthId y1 m1 y2 m2), p = resultPath W.runid j D := by
          funext p
          rw [hpriv]
          apply propext
          constructor
          · rintro ⟨j', j1', h⟩
            rw [j1] at j1'
            obtain rfl := Option.some.inj j1'
            exact h
          · exact fun h => ⟨j, j1, h⟩
        rw [this]
        exact a3
      · rw [hk, a1]
        simp [a1])
  refine ⟨fun sched => ?_, ?_⟩
  · have H := pooled sched
    obtain ⟨s, hs⟩ : ∃ s, s = runSchedule sched progs fs := ⟨_, rfl⟩
    rw [← hs] at H ⊢
    have hother : ∀ p, (∀ j ∈ l, ∀ D, p ≠ resultPath W.runid j D) → s.2.file p = fs.file p := by
      intro p hp
      apply H.touches.file
      rintro ⟨k, -, hk⟩
      rw [hpriv] at hk
      obtain ⟨j, j1, D, -, e⟩ := hk
      exact hp j (List.mem_of_getElem? j1) D e
    refine ⟨⟨H.touches.more _ hready.there, ?_, ?_, ?_⟩, ?_, ?_⟩
    · intro i hi a ha
      rw [hother a, hready.clear i hi a ha]
      intro j _ D e
      exact trackingDirs_last ha (by rw [e]; exact last j D)
    · intro i hi a ha
      rw [Bool.eq_false_iff]
      intro hc
      rcases H.touches.only _ hc with h | ⟨j', -, h⟩
      · rw [hready.free i hi a ha] at h; cases h
      · exact trackingDirs_last h (last i a)
    · intro m hm x
      rw [H.touches.file, hready.input m hm x]
      rintro ⟨k, -, hk⟩
      exact hpi k _ hk ⟨m, hm, x, rfl⟩
    · intro k j e hk hst
      obtain ⟨g, b1, b2, b3, -⟩ := H.each k _ hst
      obtain ⟨g', a1, ⟨R', order, v, c1, c2, c3, c4, c5⟩, -⟩ := alone j (List.mem_of_getElem? hk)
      rw [hget k j hk, Option.map_some, Option.getD_some, a1] at b2
      simp only [Act.run, Prod.mk.injEq] at b2
      obtain ⟨rfl, rfl⟩ := b2
      refine ⟨rfl, R', order, v, c1, c2, c3, c4, fun D hD => ?_⟩
      obtain ⟨t, t1, t2⟩ := c5 D hD
      refine ⟨t, ?_, t2⟩
      rw [b3.file _ (Or.inr (Or.inl ?_)), t1]
      rw [hpriv]
      exact ⟨j, hk, D, wanted_dirs hD, rfl⟩
    · rintro i hi hil ⟨R', order, v, c1, c2, c3, c4, c5⟩
      refine ⟨R', order, v, c1, c2, c3, c4, fun D hD => ?_⟩
      obtain ⟨t, t1, t2⟩ := c5 D hD
      refine ⟨t, ?_, t2⟩
      rw [hother, t1]
      intro j hj D' e
      obtain ⟨e1, e2, e3⟩ := resultPath_inj hrun (hid i hi) (hid j (hl j hj)) (hmn i hi).2 (hmn j (hl j hj)).2 e
      obtain rfl := hdiff i hi j (hl j hj) e1 e2 e3
      exact hil hj
  · refine ⟨(progs.map fun a => a.steps fs).sum, fun sched hsched k hk => ?_⟩
    have H := pooled sched
    have hk' : k < (runSchedule sched progs fs).1.length := by rw [H.len, hlen]; exact hk
    obtain ⟨g, -, -, -, b4⟩ := H.each k _ (List.getElem?_eq_getElem hk')
    have hkp : k < progs.length := by rw [hlen]; exact hk
    have := b4 _ (List.getElem?_eq_getElem hkp)
    have h1 : progs[k].steps fs ≤ (progs.map fun a => a.steps fs).sum :=
      List.le_sum_of_mem (List.mem_map.mpr ⟨_, List.getElem_mem hkp, rfl⟩)
    have h2 := hsched k hk
    obtain ⟨e, he⟩ := steps_stop (a := (runSchedule sched progs fs).1[k]) (g := g) (by omega)
    exact ⟨e, by rw [List.getElem?_eq_getElem hk', he]⟩

end

end MarineQC
