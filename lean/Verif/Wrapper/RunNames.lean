import Verif.Wrapper.Jobs

/-!
# Job scripts of different runs of the wrapper (C121)

The run-month identifier is part of the name of every job script.  It tells runs over different months apart, so a later
run over other months does not overwrite the scripts of an earlier one.
-/

namespace MarineQC

theorem yearMonth_dash (y m : Int) (hy : 0 ≤ y) (hm : 0 ≤ m) : '-' ∉ intText y ++ zeroPad 2 m := by
  intro h
  rcases List.mem_append.mp h with h | h
  · exact intText_no_sep y hy '-' rfl h
  · obtain ⟨k, rfl⟩ := Int.eq_ofNat_of_zero_le hm
    have e : zeroPad 2 (k : Int) = List.replicate (2 - (natText k).length) '0' ++ natText k := by
      unfold zeroPad
      rw [if_neg (by omega)]
      rfl
    rw [e] at h
    rcases List.mem_append.mp h with h | h
    · exact absurd (List.eq_of_mem_replicate h) (by decide)
    · exact absurd (natText_digits k '-' h) (by decide)

theorem runMonthId_underscore (y1 m1 y2 m2 : Int) : '_' ∉ runMonthId y1 m1 y2 m2 := by
  unfold runMonthId
  intro h
  rcases List.mem_append.mp h with h | h
  · exact yearMonth_underscore y1 m1 h
  · rcases List.mem_cons.mp h with h | h
    · exact absurd h (by decide)
    · exact yearMonth_underscore y2 m2 h

theorem runMonthId_inj {y1 m1 y2 m2 y1' m1' y2' m2' : Int} (hy : 0 ≤ y1 ∧ 0 ≤ y1')
    (h1 : 1 ≤ m1 ∧ m1 ≤ 12) (h2 : 1 ≤ m2 ∧ m2 ≤ 12) (h1' : 1 ≤ m1' ∧ m1' ≤ 12) (h2' : 1 ≤ m2' ∧ m2' ≤ 12)
    (e : runMonthId y1 m1 y2 m2 = runMonthId y1' m1' y2' m2') : y1 = y1' ∧ m1 = m1' ∧ y2 = y2' ∧ m2 = m2' := by
  unfold runMonthId at e
  obtain ⟨e1, e2⟩ := split_at '-' _ _ _ _ (yearMonth_dash y1 m1 hy.1 (by omega)) (yearMonth_dash y1' m1' hy.2 (by omega)) e
  obtain ⟨a, b⟩ := yearMonth_text_inj h1 h1' e1
  obtain ⟨c, d⟩ := yearMonth_text_inj h2 h2' e2
  exact ⟨a, b, c, d⟩

/-- The part before the last separator. -/
theorem last_but_one (A B r r' e : List Char) (hr : '_' ∉ r) (hr' : '_' ∉ r')
    (h : A ++ '_' :: (r ++ '_' :: e) = B ++ '_' :: (r' ++ '_' :: e)) : r = r' := by
  have h : (A ++ '_' :: r) ++ '_' :: e = (B ++ '_' :: r') ++ '_' :: e := by
    simpa only [List.append_assoc, List.cons_append] using h
  have h := congrArg List.reverse (List.append_cancel_right h)
  simp only [List.reverse_append, List.reverse_cons, List.append_assoc, List.singleton_append] at h
  exact List.reverse_inj.mp (split_at '_' _ _ _ _ (by simpa using hr) (by simpa using hr') h).1

/-- **C121.** Job scripts that the wrapper writes in runs over different months (with the same configuration) have
different names, whatever the jobs. -/
theorem C121_runs (runid : List Char) (j j' : Job) (y1 m1 y2 m2 y1' m1' y2' m2' : Int) (hy : 0 ≤ y1 ∧ 0 ≤ y1')
    (h1 : 1 ≤ m1 ∧ m1 ≤ 12) (h2 : 1 ≤ m2 ∧ m2 ≤ 12) (h1' : 1 ≤ m1' ∧ m1' ≤ 12) (h2' : 1 ≤ m2' ∧ m2' ≤ 12)
    (hne : (y1, m1, y2, m2) ≠ (y1', m1', y2', m2')) :
    jobName runid (runMonthId y1 m1 y2 m2) j ≠ jobName runid (runMonthId y1' m1' y2' m2') j' := by
  intro e
  apply hne
  have shape : ∀ (j : Job) (r : List Char), ∃ A, jobName runid r j = A ++ '_' :: (r ++ '_' :: runid) := by
    intro j r
    refine ⟨"Tracking_job_".toList ++ withoutBlanks j.ident.toList ++
      '_' :: (intText j.yr1 ++ zeroPad 2 j.mn1 ++ '_' :: (intText j.yr2 ++ zeroPad 2 j.mn2)), ?_⟩
    unfold jobName
    generalize "Tracking_job_".toList = t
    simp only [List.append_assoc, List.cons_append]
  obtain ⟨A, hA⟩ := shape j (runMonthId y1 m1 y2 m2)
  obtain ⟨B, hB⟩ := shape j' (runMonthId y1' m1' y2' m2')
  rw [hA, hB] at e
  have e2 := last_but_one A B _ _ runid (runMonthId_underscore y1 m1 y2 m2) (runMonthId_underscore y1' m1' y2' m2') e
  obtain ⟨a, b, c, d⟩ := runMonthId_inj hy h1 h2 h1' h2' e2
  rw [a, b, c, d]

/-- Non-vacuity: the same job in a run over January to March 1990 and in one over January to April. -/
example : jobName "base".toList (runMonthId 1990 1 1990 3) ⟨"D1       ", 1990, 1, 1990, 2, ["regular"]⟩ =
      "Tracking_job_D1_199001_199002_199001-199003_base".toList ∧
    jobName "base".toList (runMonthId 1990 1 1990 4) ⟨"D1       ", 1990, 1, 1990, 2, ["regular"]⟩ =
      "Tracking_job_D1_199001_199002_199001-199004_base".toList := by decide +kernel

end MarineQC
