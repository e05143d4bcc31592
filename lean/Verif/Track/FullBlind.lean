import Verif.Track.FullAgain

/-!
# C150: the full track check does not depend on flags
-/

namespace MarineQC

open Spec

theorem writeFlags_zip {t f : String} {fl : List Int} {v m : List Report} (h : writeFlags v t f fl = .ok m) :
    m = List.zipWith (putFlag (t ++ f)) v fl ∧
      ∀ v', v'.length = v.length → writeFlags v' t f fl = .ok (List.zipWith (putFlag (t ++ f)) v' fl) := by
  unfold writeFlags at h ⊢
  induction v generalizing fl m with
  | nil =>
    rw [List.zip_nil_left] at h
    injection h with h
    refine ⟨by rw [List.zipWith_nil_left]; exact h.symm, fun v' hv => ?_⟩
    rw [List.eq_nil_of_length_eq_zero hv]
    rfl
  | cons r v ih =>
    cases fl with
    | nil =>
      injection h with h
      refine ⟨h.symm, fun v' hv => ?_⟩
      rw [List.zip_nil_right, List.zipWith_nil_right]
      rfl
    | cons x fl =>
      rw [List.zip_cons_cons, List.mapM_cons] at h
      obtain ⟨r', h1, h⟩ := bind_ok_iff.mp h
      obtain ⟨m', h2, h⟩ := bind_ok_iff.mp h
      injection h with h
      obtain ⟨e1, hs⟩ := setQc_putFlag h1
      obtain ⟨e2, ht⟩ := ih h2
      refine ⟨?_, fun v' hv => ?_⟩
      · rw [← h, e1, e2]; rfl
      · cases v' with
        | nil => cases hv
        | cons r2 v2 =>
          rw [List.zip_cons_cons, List.mapM_cons]
          exact bind_ok_iff.mpr ⟨_, hs r2, bind_ok_iff.mpr ⟨_, ht v2 (by simpa using hv), rfl⟩⟩

theorem put_flags_same (key : String) (fl : List Int) (v v' : List Report) (h : v'.length = v.length) :
    (List.zipWith (putFlag key) v' fl).map (fun r => r.qc key) =
      (List.zipWith (putFlag key) v fl).map (fun r => r.qc key) := by
  induction v generalizing v' fl with
  | nil => rw [List.eq_nil_of_length_eq_zero h]
  | cons r v ih =>
    cases v' with
    | nil => cases h
    | cons r' v' =>
      cases fl with
      | nil => rfl
      | cons x fl =>
        simp only [List.zipWith_cons_cons, List.map_cons]
        rw [ih fl v' (by simpa using h)]
        simp [putFlag]

/-- The reports of two voyages are the same but for flags and alternate differences. -/
def TwinVoyages (v v' : List Report) : Prop := v'.map unmarkedReport = v.map unmarkedReport

theorem TwinVoyages.len {v v' : List Report} (h : TwinVoyages v v') : v'.length = v.length := by
  simpa using congrArg List.length h

/-- One pass gives the same flags to reports that are alike. -/
theorem mds_alike {G : Geo} {v v1 v' : List Report} {fl : List Int} (h : mdsTrackCheck G v = .ok (fl, v1))
    (hv : TwinVoyages v v') : ∃ v1', mdsTrackCheck G v' = .ok (fl, v1') ∧ TwinVoyages v1 v1' := by
  have hlen := hv.len
  have hfl : v.length ≤ fl.length := by
    rcases (C46_pass_partial G v v1 fl h).1 with h | ⟨h, -, rfl⟩
    · omega
    · simp; omega
  have zl : ∀ (u : List Report) (x : Int), (u.map fun _ => x) = List.replicate u.length x := by
    intro u x; rw [List.map_const']
  unfold mdsTrackCheck at h
  cases hr : v.head? with
  | none =>
    rw [List.head?_eq_none_iff] at hr
    subst hr
    simp only [List.head?_nil, Except.ok.injEq, Prod.mk.injEq] at h
    obtain ⟨rfl, rfl⟩ := h
    rw [List.eq_nil_of_length_eq_zero hlen]
    exact ⟨[], rfl, rfl⟩
  | some r =>
    obtain ⟨r', d1, d2, d3⟩ := plain_head hv hr
    have d4 : earlyDeck720 r' = earlyDeck720 r := by unfold earlyDeck720; rw [d3]
    rw [hr] at h
    simp only at h
    unfold mdsTrackCheck
    rw [d1]
    simp only
    rw [d2, d3, d4, hlen]
    by_cases c1 : idIsGeneric r.id (r.getint "YR") = true
    · rw [if_pos c1] at h ⊢
      obtain ⟨w, w1, h⟩ := bind_ok_iff.mp h
      simp only [except_pure, Except.ok.injEq, Prod.mk.injEq] at h
      obtain ⟨h1, rfl⟩ := h
      rw [zl] at w1 h1
      rw [zl, hlen]
      obtain ⟨a1, a2⟩ := writeFlags_zip w1
      rw [a2 v' hlen, except_bind_ok, h1]
      refine ⟨_, rfl, ?_⟩
      unfold TwinVoyages
      rw [a1, ← h1, plain_put _ _ _ (by simp [hlen]), plain_put _ _ _ (by simp)]
      exact hv
    · rw [if_neg c1] at h ⊢
      by_cases c2 : v.length < 3 ∧ ¬ earlyDeck720 r = true
      · rw [if_pos c2] at h ⊢
        obtain ⟨w, w1, h⟩ := bind_ok_iff.mp h
        simp only [except_pure, Except.ok.injEq, Prod.mk.injEq] at h
        obtain ⟨h1, rfl⟩ := h
        rw [zl] at w1 h1
        rw [zl, zl, hlen]
        obtain ⟨a1, a2⟩ := writeFlags_zip w1
        rw [a2 v' hlen, except_bind_ok, h1]
        refine ⟨_, rfl, ?_⟩
        unfold TwinVoyages
        rw [a1, plain_put _ _ _ (by simp [hlen]), plain_put _ _ _ (by simp)]
        exact hv
      · rw [if_neg c2] at h ⊢
        obtain ⟨w, w1, h⟩ := bind_ok_iff.mp h
        obtain ⟨fl', f1, h⟩ := bind_ok_iff.mp h
        obtain ⟨w2, h2, h⟩ := bind_ok_iff.mp h
        simp only [except_pure, Except.ok.injEq, Prod.mk.injEq] at h
        obtain ⟨rfl, rfl⟩ := h
        obtain ⟨u, u1, u2⟩ := calcAlternate_same hv w1
        have lw := (calcAlternate_spec w1).1
        have lu : u.length = w.length := by simpa using congrArg List.length u2
        have f2 : trackFlags G mdsParams u = .ok fl' := by rw [← trackFlags_bare, u2, trackFlags_bare]; exact f1
        have lt : (fl'.take w.length).length = w.length := by rw [List.length_take]; omega
        have lz : ((w.map fun _ => (0 : Int))).length = w.length := by simp
        obtain ⟨a1, a2⟩ := writeBoth_put lt lz h2
        rw [u1, except_bind_ok, f2, except_bind_ok, zl u, lu, ← zl w, a2 u lu]
        refine ⟨_, rfl, ?_⟩
        unfold TwinVoyages
        rw [a1, plain_put _ _ _ (by simp; omega), plain_put _ _ _ (by simp; omega), plain_put _ _ _ (by simp; omega),
          plain_put _ _ _ (by simp; omega), plain_alternate u1, plain_alternate w1]
        exact hv

theorem unmarked_setDiff (r : Report) (d : Diff) : unmarkedReport (r.setDiff d) = (unmarkedReport r).setDiff d := by
  unfold unmarkedReport bareReport Report.setDiff Report.setAlt Report.setext
  simp only [Report.mk.injEq, true_and, and_true]
  funext k
  split_ifs <;> simp_all

theorem unmarked_clearDiff (r : Report) : unmarkedReport r.clearDiff = (unmarkedReport r).clearDiff := by
  unfold unmarkedReport bareReport Report.clearDiff Report.setAlt Report.setext
  simp only [Report.mk.injEq, true_and, and_true]
  funext k
  split_ifs <;> simp_all

theorem addReport_unmarked (G : Geo) (v : List Report) (r : Report) :
    addReport G (v.map unmarkedReport) (unmarkedReport r) =
      (addReport G v r >>= fun w => .ok (w.map unmarkedReport)) := by
  unfold addReport
  rw [List.getLast?_map]
  cases v.getLast? with
  | none =>
    simp only [Option.map_none]
    first
      | rfl
      | (rw [← unmarked_clearDiff]; rfl)
  | some l =>
    simp only [Option.map_some, sub_plain]
    cases r.sub G l with
    | error e => rfl
    | ok d =>
      simp only [except_bind_ok, except_pure, ← unmarked_setDiff, List.map_append]
      rfl

theorem build_unmarked (G : Geo) (l acc : List Report) :
    (l.map unmarkedReport).foldlM (addReport G) (acc.map unmarkedReport) =
      (l.foldlM (addReport G) acc >>= fun w => .ok (w.map unmarkedReport)) := by
  induction l generalizing acc with
  | nil => rfl
  | cons r l ih =>
    rw [List.map_cons, List.foldlM_cons, List.foldlM_cons, addReport_unmarked]
    cases addReport G acc r with
    | error e => rfl
    | ok w =>
      simp only [except_bind_ok]
      exact ih w

theorem pick_unmarked (v : List Report) (refs : List Nat) :
    refs.mapM (fun i : Nat => pyIndex (v.map unmarkedReport) (i : Int)) =
      (refs.mapM (fun i : Nat => pyIndex v (i : Int)) >>= fun w => .ok (w.map unmarkedReport)) := by
  induction refs with
  | nil => rfl
  | cons i l ih =>
    rw [List.mapM_cons, List.mapM_cons, ih, pyIndex_through]
    cases pyIndex v (i : Int) with
    | error e => rfl
    | ok r =>
      simp only [except_bind_ok]
      cases l.mapM (fun i : Nat => pyIndex v (i : Int)) <;> rfl

theorem rebuild_alike {G : Geo} {v v' w : List Report} {refs : List Nat} (hv : TwinVoyages v v')
    (h : rebuild G v refs = .ok w) : ∃ w', rebuild G v' refs = .ok w' ∧ TwinVoyages w w' := by
  have key : ∀ u, rebuild G (u.map unmarkedReport) refs
      = (rebuild G u refs >>= fun w => .ok (w.map unmarkedReport)) := by
    intro u
    unfold rebuild
    rw [pick_unmarked]
    cases refs.mapM (fun i : Nat => pyIndex u (i : Int)) with
    | error e => rfl
    | ok reps => exact build_unmarked G reps []
  have h1 := key v'
  rw [hv, key v, h] at h1
  obtain ⟨w', h2, h3⟩ := bind_ok_iff.mp h1.symm
  injection h3 with h3
  exact ⟨w', h2, h3⟩

theorem set_alike {refs : List Nat} {o o' v v' : List Report} (ho : TwinVoyages o o') (hv : TwinVoyages v v') :
    TwinVoyages ((refs.zip o).foldl (fun v p => v.set p.1 p.2) v) ((refs.zip o').foldl (fun v p => v.set p.1 p.2) v') := by
  induction refs generalizing o o' v v' with
  | nil => exact hv
  | cons i l ih =>
    cases o with
    | nil =>
      rw [List.eq_nil_of_length_eq_zero ho.len]
      exact hv
    | cons r o =>
      cases o' with
      | nil => cases ho
      | cons r' o' =>
        unfold TwinVoyages at ho
        rw [List.map_cons, List.map_cons] at ho
        injection ho with h1 h2
        rw [List.zip_cons_cons, List.zip_cons_cons, List.foldl_cons, List.foldl_cons]
        refine ih h2 ?_
        unfold TwinVoyages
        rw [List.map_set, List.map_set, h1, hv]

theorem fullPass_alike {G : Geo} {v v' v1 : List Report} {m m1 out : List Int} (hv : TwinVoyages v v')
    (h : fullPass G v m = .ok (v1, m1, out)) : ∃ v1', fullPass G v' m = .ok (v1', m1, out) ∧ TwinVoyages v1 v1' := by
  unfold fullPass at h
  obtain ⟨refs, h1, h⟩ := bind_ok_iff.mp h
  obtain ⟨temp, h2, h⟩ := bind_ok_iff.mp h
  obtain ⟨o, h3, h⟩ := bind_ok_iff.mp h
  obtain ⟨pairs, h4, h⟩ := bind_ok_iff.mp h
  simp only [except_pure, Except.ok.injEq, Prod.mk.injEq] at h
  obtain ⟨e1, e2, e3⟩ := h
  obtain ⟨temp', t1, t2⟩ := rebuild_alike hv h2
  obtain ⟨o1, o2⟩ := o
  obtain ⟨o2', t3, t4⟩ := mds_alike h3 t2
  unfold fullPass
  rw [hv.len, h1, except_bind_ok, t1, except_bind_ok, t3, except_bind_ok]
  simp only at h4 e1 e2 e3 ⊢
  rw [h4, except_bind_ok]
  refine ⟨_, by rw [e2, e3]; rfl, ?_⟩
  rw [← e1]
  exact set_alike t4 hv

theorem fullLoop_alike {G : Geo} (n : Nat) {v v' w : List Report} {m qcs m' : List Int} (hv : TwinVoyages v v')
    (h : fullLoop G n v m qcs = .ok (w, m')) : ∃ w', fullLoop G n v' m qcs = .ok (w', m') ∧ TwinVoyages w w' := by
  induction n generalizing v v' m qcs with
  | zero =>
    unfold fullLoop at h ⊢
    split at h
    · cases h
    · rename_i hq
      rw [if_neg hq]
      simp only [Except.ok.injEq, Prod.mk.injEq] at h
      obtain ⟨rfl, rfl⟩ := h
      exact ⟨v', rfl, hv⟩
  | succ n ih =>
    unfold fullLoop at h ⊢
    split at h
    · cases h
    · rename_i hq
      rw [if_neg hq]
      split at h
      · rename_i ha
        rw [if_pos ha]
        obtain ⟨⟨v1, m1, out⟩, h1, h⟩ := bind_ok_iff.mp h
        obtain ⟨v1', a1, a2⟩ := fullPass_alike hv h1
        rw [a1, except_bind_ok]
        exact ih a2 h
      · rename_i ha
        rw [if_neg ha]
        simp only [Except.ok.injEq, Prod.mk.injEq] at h
        obtain ⟨rfl, rfl⟩ := h
        exact ⟨v', rfl, hv⟩

/-- C150: what the full track check finds depends neither on any flags nor on the alternate differences left by an
earlier check: of two voyages with the same reports but for these, if the first is checked without an error, so is the
second, and the reports get the same flags. -/
theorem C150_blind (G : Geo) (v v' e : List Report) (hv : SameTrack v v') (h : mdsFullTrackCheck G v = .ok e) :
    ∃ e', mdsFullTrackCheck G v' = .ok e' ∧
      e'.map (fun r => r.getQc "POS" "bad_track") = e.map (fun r => r.getQc "POS" "bad_track") := by
  unfold mdsFullTrackCheck at h
  obtain ⟨⟨fl, v1⟩, h1, h⟩ := bind_ok_iff.mp h
  obtain ⟨v1', a1, a2⟩ := mds_alike h1 (plain_eq hv)
  have done : ∀ (w w' : List Report) (m : List Int), TwinVoyages w w' →
      writeFlags w "POS" "bad_track" (m.take w.length) = .ok e →
      ∃ e', writeFlags w' "POS" "bad_track" (m.take w'.length) = .ok e' ∧
        e'.map (fun r => r.getQc "POS" "bad_track") = e.map (fun r => r.getQc "POS" "bad_track") := by
    intro w w' m hw h
    obtain ⟨e1, k1⟩ := writeFlags_zip h
    rw [hw.len]
    refine ⟨_, k1 w' hw.len, ?_⟩
    have := congrArg (List.map fun o : Option Int => match o with | some v => v | none => 9)
      (put_flags_same ("POS" ++ "bad_track") (m.take w.length) w w' hw.len)
    rw [List.map_map, List.map_map] at this
    rw [e1]
    exact this
  unfold mdsFullTrackCheck
  rw [a1, except_bind_ok]
  simp only at h ⊢
  by_cases hl : fl.length > 0
  · rw [if_pos hl] at h ⊢
    obtain ⟨⟨w, m⟩, h2, h⟩ := bind_ok_iff.mp h
    obtain ⟨w', b1, b2⟩ := fullLoop_alike 4 a2 h2
    rw [b1, except_bind_ok]
    exact done w w' m b2 h
  · rw [if_neg hl] at h ⊢
    rw [except_bind_ok] at h ⊢
    exact done v1 v1' fl a2 h

/-- Non-vacuity of `C150_blind`: the same voyage with a report already flagged. -/
example : ∃ v v' : List Report, strayVoyage.foldlM (addReport planeGeo) [] = .ok v ∧ SameTrack v v' ∧
    (v.map fun r => r.getQc "POS" "bad_track") ≠ v'.map fun r => r.getQc "POS" "bad_track" := by
  obtain ⟨v, -, -, hv, -⟩ := C150_violation
  have hq : (strayVoyage.foldlM (addReport planeGeo) []).map (fun v => v.map fun r => r.getQc "POS" "bad_track")
      = .ok [9, 9, 9, 9, 9] := by decide +kernel
  rw [hv] at hq
  injection hq with hq
  have lv : v.length = 5 := by simpa using congrArg List.length hq
  refine ⟨v, List.zipWith (putFlag ("POS" ++ "bad_track")) v [1, 1, 1, 1, 1], hv, ?_, ?_⟩
  · have := sameReports_put ("POS" ++ "bad_track") v [1, 1, 1, 1, 1] lv.symm
    refine this.imp fun r r' h => ?_
    rw [h]
    exact ⟨rfl, fun _ _ => rfl⟩
  · simp only at hq
    rw [hq]
    match v, lv with
    | [a, b, c, d, f], _ => simp [putFlag, Report.getQc]

end MarineQC
