import Verif.Wrapper.StepModel

/-! # A program done one operation at a time does what it does as a whole -/

namespace MarineQC

theorem run_andThen (a b : Act) (fs : FileSys) : (a.andThen b).run fs = b.run (a.run fs).1 := by
  induction a generalizing fs with
  | stop e => rfl
  | isfile p k ih => exact ih _ _
  | read p k ih => exact ih _ _
  | mkdir p k ih => exact ih _
  | openw p k ih =>
    simp only [Act.andThen, Act.run]
    split <;> exact ih _ _
  | write p s k ih => exact ih _

/-! ## Reading -/

theorem anyFileAct_run (no yes : Act) (l : List (List Char)) (fs : FileSys) :
    (anyFileAct no yes l).run fs = if l.any (fun p => (fs.file p).isSome) then yes.run fs else no.run fs := by
  induction l with
  | nil => rfl
  | cons p l ih =>
    simp only [anyFileAct, Act.run, List.any_cons]
    by_cases h : (fs.file p).isSome
    · simp [h]
    · rw [if_neg h, ih]
      simp [h]

/-- What follows a result. -/
def orStopRun {α : Type} (x : Except Err α) (k : α → FileSys × Option Err) (fs : FileSys) : FileSys × Option Err :=
  match x with
  | .ok a => k a
  | .error e => (fs, some e)

theorem orStop_run {α : Type} (x : Except Err α) (k : α → Act) (fs : FileSys) :
    (orStop x k).run fs = orStopRun x (fun a => (k a).run fs) fs := by
  cases x <;> rfl

theorem monthAct_run (num : List Char → Option Rat) (order : List (List Char) → List (List Char)) (out runid target : List Char)
    (year month : Int) (k : List Report → Act) (fs : FileSys) :
    (monthAct num order out runid target year month k).run fs =
      orStopRun (readMonth num order fs out runid target year month) (fun a => (k a).run fs) fs := by
  unfold monthAct readMonth
  simp only [anyFileAct_run, List.any_cons, List.any_nil, Bool.or_false]
  cases hv : fs.file (inputPath out runid target year month "Variables_") <;>
    cases hp : fs.file (inputPath out runid target year month "POS_qc_") <;>
    cases hs : fs.file (inputPath out runid target year month "SST_qc_") <;>
    simp only [Option.isSome_none, Option.isSome_some, Bool.or_false, Bool.or_true, Bool.or_self, if_true, Bool.false_eq_true, if_false, Act.run, hv, hp, hs, countsRight, orStopRun]
  rename_i v p s
  by_cases hc : (fileLines v).length = 0 ∨ (fileLines p).length ≠ (fileLines v).length ∨ (fileLines s).length ≠ (fileLines v).length
  · rw [if_pos hc, if_neg]
    · rfl
    · simp only [Bool.and_eq_true, decide_eq_true_eq, not_and]
      tauto
  · rw [if_neg hc, if_pos]
    · simp only [readAct, Act.run, hv, orStop_run, hp, hs]
      cases csvVariables num order v with
      | error e => rfl
      | ok reps =>
        simp only [orStopRun, except_bind_ok]
        cases csvFlags order "POS" p reps with
        | error e => rfl
        | ok reps =>
          simp only [orStopRun, except_bind_ok, orStop_run, Act.run, hs]
    · simp only [Bool.and_eq_true, decide_eq_true_eq]
      tauto

theorem monthsAct_run (num : List Char → Option Rat) (order : List (List Char) → List (List Char)) (out runid target : List Char)
    (k : List Report → Act) (fs : FileSys) (ms : List (Int × Int)) (l : List Report) :
    (monthsAct num order out runid target k ms l).run fs =
      orStopRun (ms.mapM fun (m : Int × Int) => readMonth num order fs out runid target m.1 m.2) (fun a => (k (l ++ a.flatten)).run fs) fs := by
  induction ms generalizing l with
  | nil => simp [monthsAct, orStopRun, List.mapM_nil, except_pure]
  | cons m ms ih =>
    rw [monthsAct, monthAct_run, List.mapM_cons]
    cases readMonth num order fs out runid target m.1 m.2 with
    | error e => rfl
    | ok reps =>
      simp only [orStopRun, except_bind_ok, ih]
      cases ms.mapM fun (m : Int × Int) => readMonth num order fs out runid target m.1 m.2 with
      | error e => rfl
      | ok a => simp only [except_bind_ok, except_pure, List.flatten_cons, List.append_assoc]

/-! ## Writing -/

theorem mkdirsAct_run (k : Act) (l : List (List Char)) (fs : FileSys) : (mkdirsAct k l).run fs = k.run (l.foldl makeDir fs) := by
  induction l generalizing fs with
  | nil => rfl
  | cons p l ih => exact ih _

theorem put_put (fs : FileSys) (p a b : List Char) : (fs.put p a).put p b = fs.put p b := by
  unfold FileSys.put
  congr 1
  funext q
  simp only
  split <;> rfl

theorem textAct_run (p : List Char) (k : Act) (s : List Char) (fs : FileSys) (t : List Char) :
    (textAct p k s).run (fs.put p t) = k.run (fs.put p (t ++ s)) := by
  induction s generalizing t with
  | nil => simp [textAct]
  | cons c s ih =>
    simp only [textAct, Act.run, FileSys.append]
    rw [show ((fs.put p t).file p).getD [] = t by simp [FileSys.put], put_put, ih]
    simp [List.append_assoc]

theorem linesAct_run (p : List Char) (k : Act) (l : List (Except Err (List Char))) (fs : FileSys) (t : List Char) :
    (linesAct p k l).run (fs.put p t) = thenDo (fs.put p (t ++ (writeLines l).1), (writeLines l).2) k.run := by
  induction l generalizing t with
  | nil => simp [linesAct, writeLines, thenDo]
  | cons x l ih =>
    cases x with
    | error e => simp [linesAct, writeLines, thenDo, Act.run]
    | ok s =>
      simp only [linesAct]
      rw [textAct_run, ih]
      simp [writeLines, List.append_assoc]

theorem tableAct_run (fmt : Rat → List Char) (runid dir : List Char) (year month : Int) (reps : List Report) (k : Act) (fs : FileSys) :
    (tableAct fmt runid dir year month reps k).run fs = thenDo (writeTracking fmt runid dir year month reps fs) k.run := by
  unfold tableAct writeTracking
  cases reps with
  | nil => rfl
  | cons r v =>
    simp only
    cases r.id with
    | none => rfl
    | some ident =>
      simp only [Act.run, writeFile]
      split
      · simp only [if_true]
        rw [linesAct_run]
        rfl
      · rfl

theorem completions_some (base x : List Char) (l : List (List Char)) : ∃ p, (buildCompletions base (x :: l)).getLast? = some p := by
  cases h : (buildCompletions base (x :: l)).getLast? with
  | some p => exact ⟨p, rfl⟩
  | none =>
    rw [List.getLast?_eq_none_iff] at h
    simp [buildCompletions] at h

theorem plainAct_run (fmt : Rat → List Char) (runid out : List Char) (year month : Int) (v : List Report) (k : Act) (fs : FileSys) :
    (plainAct fmt runid out year month v k).run fs =
      thenDo (writeInto fmt runid year month v (safeMakeTrackingDir fs out year month)) k.run := by
  obtain ⟨p, hp⟩ := completions_some out "TrackingQC".toList [intText year, zeroPad 2 month]
  unfold plainAct writeInto safeMakeTrackingDir safeMakeDirGeneric
  simp only [mkdirsAct_run, tableAct_run, hp, Option.getD_some]

theorem edgeAct_run (fmt : Rat → List Char) (runid out : List Char) (year month : Int) (edge : String) (rid : List Char) (v : List Report)
    (k : Act) (fs : FileSys) :
    (edgeAct fmt runid out year month edge rid v k).run fs =
      thenDo (writeInto fmt runid year month v (safeMakeEdgeDir fs out year month edge.toList rid)) k.run := by
  obtain ⟨p, hp⟩ := completions_some out "TrackingQC".toList [intText year, zeroPad 2 month]
  obtain ⟨q, hq⟩ := completions_some p (edge.toList ++ '_' :: rid) []
  unfold edgeAct writeInto safeMakeEdgeDir safeMakeTrackingDir safeMakeDirGeneric
  simp only [mkdirsAct_run, tableAct_run, hp, hq, Option.getD_some]

theorem whenAct_run (b : Bool) (f : Act → Act) (g : FileSys → FileSys × Option Err) (h : ∀ k fs, (f k).run fs = thenDo (g fs) k.run)
    (k : Act) (fs : FileSys) : (whenAct b f k).run fs = thenDo (whenDo b g fs) k.run := by
  unfold whenAct whenDo
  cases b
  · rfl
  · exact h k fs

theorem trackingAct_run (fmt : Rat → List Char) (num : List Char → Option Rat)
    (order : List (List Char) → List (List Char)) (G : Geo) (elev : Int → Int → Rat → Rat → Rat → Rat → ℝ) (P : DriftParams)
    (out trackOut runid arg runmonthid : List Char) (months : List (Int × Int)) (year month : Int) (edge : List String) (fs : FileSys) :
    (trackingAct fmt num order G elev P out trackOut runid arg runmonthid months year month edge).run fs =
      trackingMain fmt num order G elev P out trackOut runid arg runmonthid months year month edge fs := by
  unfold trackingAct trackingMain readChunk
  rw [monthsAct_run]
  cases months.mapM fun (m : Int × Int) => readMonth num order fs out runid (targetId arg) m.1 m.2 with
  | error e => rfl
  | ok l =>
    simp only [orStopRun, except_bind_ok, List.nil_append]
    by_cases hl : l.flatten = []
    · rw [if_pos hl, if_pos hl]
      rfl
    · rw [if_neg hl, if_neg hl]
      simp only [except_bind_ok, except_pure, orStop_run]
      cases trackingChecks G elev P l.flatten with
      | error e => rfl
      | ok reps =>
        simp only [except_bind_ok]
        cases wholeVoyage G reps with
        | error e => rfl
        | ok v =>
          have hstop : ∀ s : FileSys × Option Err, thenDo s (Act.stop none).run = s := by
            rintro ⟨f, _ | e⟩ <;> rfl
          simp only [orStopRun, trackingOutput]
          rw [whenAct_run _ _ _ fun k fs => plainAct_run fmt runid trackOut year month v k fs]
          congr 1
          funext fs
          rw [whenAct_run _ _ _ fun k fs => edgeAct_run fmt runid trackOut year month "start_edge_case" runmonthid v k fs]
          congr 1
          funext fs
          rw [whenAct_run _ _ _ fun k fs => edgeAct_run fmt runid trackOut year month "end_edge_case" runmonthid v k fs, hstop]

theorem programAct_run (fmt : Rat → List Char) (num : List Char → Option Rat)
    (order : List (List Char) → List (List Char)) (G : Geo) (elev : Int → Int → Rat → Rat → Rat → Rat → ℝ)
    (conf : List Char → Option TrackSettings) (ws : List (List Char)) (fs : FileSys) :
    (programAct fmt num order G elev conf ws).run fs = trackingProgram fmt num order G elev conf ws fs := by
  unfold programAct trackingProgram
  cases parseArgs ws with
  | error e => rfl
  | ok a =>
    simp only
    cases conf a.config with
    | none => rfl
    | some S =>
      rcases monthsBetween a.yr1 a.mn1 a.yr2 a.mn2 with e | _ | months
      · rfl
      · rfl
      · exact trackingAct_run ..

/-- C123: a script done one operation at a time, alone, does to the file system what it does as a whole, and raises what its last
call raises. -/
theorem C123_steps (fmt : Rat → List Char) (num : List Char → Option Rat)
    (order : List (List Char) → List (List Char)) (G : Geo) (elev : Int → Int → Rat → Rat → Rat → Rat → ℝ)
    (conf : List Char → Option TrackSettings) (script : List Char) (fs : FileSys) :
    (scriptAct fmt num order G elev conf script).run fs =
      ((runScript fmt num order G elev conf script fs).1, (runScript fmt num order G elev conf script fs).2.getLast?.join) := by
  unfold scriptAct runScript
  have key : ∀ (l : List (List (List Char))) (a : Act) (s : FileSys × List (Option Err)), a.run fs = (s.1, s.2.getLast?.join) →
      (l.foldl (fun a ws => a.andThen (
        if ws.head? = some (codeDir ++ "tracking_qc.py".toList) then programAct fmt num order G elev conf ws.tail
        else .stop (some .other))) a).run fs =
      ((l.foldl (fun (s : FileSys × List (Option Err)) ws =>
        if ws.head? = some (codeDir ++ "tracking_qc.py".toList) then
          let r := trackingProgram fmt num order G elev conf ws.tail s.1
          (r.1, s.2 ++ [r.2])
        else (s.1, s.2 ++ [some .other])) s).1, (l.foldl (fun (s : FileSys × List (Option Err)) ws =>
        if ws.head? = some (codeDir ++ "tracking_qc.py".toList) then
          let r := trackingProgram fmt num order G elev conf ws.tail s.1
          (r.1, s.2 ++ [r.2])
        else (s.1, s.2 ++ [some .other])) s).2.getLast?.join) := by
    intro l
    induction l with
    | nil => intro a s h; exact h
    | cons ws l ih =>
      intro a s h
      rw [List.foldl_cons, List.foldl_cons]
      apply ih
      rw [run_andThen, h]
      split
      · rw [programAct_run]
        simp
      · simp [Act.run]
  exact key _ _ (fs, []) rfl

end MarineQC
