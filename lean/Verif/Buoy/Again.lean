import Verif.Voyage.Again
import Verif.Tracking.Model
import Verif.Buoy.Speed
import Verif.Buoy.TailProps
import Verif.Buoy.Bias

/-!
# C151: the checks of a drifter may be repeated and run in any order
-/

namespace MarineQC

/-- A call of one of the checks of the record of a drifter: `aground_check` (trackqc.py:143-287), `new_aground_check`
(290-424), `speed_check` (427-541), `new_speed_check` (544-677), `sst_tail_check` (680-893) and
`sst_biased_noisy_check` (896-1048), with its parameters. -/
inductive DrifterCall where
  | aground (win minPeriod maxPeriod : Int)
  | newAground (win minPeriod : Int)
  | speed (limit minPeriod maxPeriod : Rat)
  | newSpeed (P : IquamParams) (limit minPeriod : Rat)
  | tail (P : TailParams)
  | bias (P : BiasParams)

/-- The call made on a record (trackqc.py:143, 290, 427, 544, 680 and 896). -/
noncomputable def DrifterCall.perform (G : Geo) (elev : Int → Int → Rat → Rat → Rat → Rat → ℝ) :
    DrifterCall → List Report → Except Err (List Report)
  | .aground w a b, v => agroundCheck G w a b v
  | .newAground w a, v => newAgroundCheck G w a v
  | .speed l a b, v => speedCheck G l a b v
  | .newSpeed P l a, v => newSpeedCheck G P l a v
  | .tail P, v => sstTailCheck elev P v
  | .bias P, v => sstBiasedNoisyCheck elev P v

namespace Spec

/-- The flags a check of a drifter sets. -/
def drifterFlags : DrifterCall → List String
  | .aground .. => ["POSdrf_agr"]
  | .newAground .. => ["POSdrf_agr"]
  | .speed .. => ["POSdrf_spd"]
  | .newSpeed .. => ["POSdrf_spd"]
  | .tail _ => ["SSTdrf_tail1", "SSTdrf_tail2"]
  | .bias _ => ["SSTdrf_bias", "SSTdrf_noise", "SSTdrf_short"]

end Spec

open Spec

/-! ## Writing flags -/

theorem setQc_fails {r : Report} {t f : String} {x : Int} {e : Err} (h : r.setQc t f x = .error e) (s : Report) :
    s.setQc t f x = .error e := by
  unfold Report.setQc at h ⊢
  cases h1 : pyAssert (decide (x ∈ [0, 1, 2, 3, 4, 5, 6, 7, 8, 9])) with
  | error e' => rw [h1] at h; exact h
  | ok u =>
    rw [h1] at h
    cases h2 : pyAssert (decide (t ∈ specialQcTypes) || decide (t ∈ VARLIST)) with
    | error e' => rw [h2] at h; exact h
    | ok u => rw [h2] at h; cases h

theorem writeFlags_fails {t f : String} {fl : List Int} {v : List Report} {e : Err}
    (h : writeFlags v t f fl = .error e) (v' : List Report) (hv : v'.length = v.length) :
    writeFlags v' t f fl = .error e := by
  unfold writeFlags at h ⊢
  induction v generalizing v' fl with
  | nil => cases h
  | cons r v ih =>
    cases v' with
    | nil => cases hv
    | cons r' v' =>
      cases fl with
      | nil => cases h
      | cons x fl =>
        rw [List.zip_cons_cons, List.mapM_cons] at h ⊢
        cases h1 : r.setQc t f x with
        | error e' =>
          have h2 := setQc_fails h1 r'
          simp only [h1] at h
          simp only [h2]
          exact h
        | ok q =>
          have h2 := (setQc_putFlag h1).2 r'
          simp only [h1, except_bind_ok] at h
          simp only [h2, except_bind_ok]
          cases h3 : (v.zip fl).mapM (fun p : Report × Int => p.1.setQc t f p.2) with
          | error e' =>
            have h4 := ih (fl := fl) (v' := v') (by rw [h3]; rw [h3] at h; exact h) (by simpa using hv)
            rw [h4]; rfl
          | ok m => rw [h3] at h; cases h

/-- Writing several flags one after the other. -/
def writePlan (v : List Report) (ps : List ((String × String) × List Int)) : Except Err (List Report) :=
  ps.foldlM (fun v p => writeFlags v p.1.1 p.1.2 p.2) v

/-- The same as a function. -/
def putPlan (v : List Report) (ps : List (String × List Int)) : List Report :=
  ps.foldl (fun v p => List.zipWith (putFlag p.1) v p.2) v

/-- The names of the flags of a plan. -/
def planKeys (ps : List ((String × String) × List Int)) : List (String × List Int) :=
  ps.map fun p => (p.1.1 ++ p.1.2, p.2)

theorem writePlan_put (ps : List ((String × String) × List Int)) (v e : List Report)
    (hl : ∀ p ∈ ps, p.2.length = v.length) (h : writePlan v ps = .ok e) :
    e = putPlan v (planKeys ps) ∧
      ∀ v' : List Report, v'.length = v.length → writePlan v' ps = .ok (putPlan v' (planKeys ps)) := by
  induction ps generalizing v with
  | nil =>
    injection h with h
    exact ⟨h.symm, fun _ _ => rfl⟩
  | cons p ps ih =>
    unfold writePlan at h
    rw [List.foldlM_cons] at h
    obtain ⟨m, h1, h⟩ := bind_ok_iff.mp h
    have hp := hl p (by simp)
    obtain ⟨e1, hw⟩ := writeFlags_put _ _ p.2 v m hp h1
    have lm : m.length = v.length := by rw [e1]; simp [hp]
    obtain ⟨e2, hs⟩ := ih m (fun q hq => by rw [lm]; exact hl q (by simp [hq])) h
    refine ⟨by rw [e2, e1]; rfl, fun v' hv => ?_⟩
    unfold writePlan
    rw [List.foldlM_cons]
    refine bind_ok_iff.mpr ⟨_, hw v' hv, ?_⟩
    exact hs _ (by simp [hp, lm, hv])

theorem writePlan_fails (ps : List ((String × String) × List Int)) (v : List Report) (e : Err)
    (hl : ∀ p ∈ ps, p.2.length = v.length) (h : writePlan v ps = .error e) (v' : List Report)
    (hv : v'.length = v.length) : writePlan v' ps = .error e := by
  induction ps generalizing v v' with
  | nil => cases h
  | cons p ps ih =>
    unfold writePlan at h ⊢
    rw [List.foldlM_cons] at h ⊢
    have hp := hl p (by simp)
    cases h1 : writeFlags v p.1.1 p.1.2 p.2 with
    | error e' =>
      rw [writeFlags_fails h1 v' hv]
      rw [h1] at h
      exact h
    | ok m =>
      rw [h1] at h
      obtain ⟨e1, hw⟩ := writeFlags_put _ _ p.2 v m hp h1
      rw [hw v' hv]
      have lm : m.length = v.length := by rw [e1]; simp [hp]
      exact ih m (fun q hq => by rw [lm]; exact hl q (by simp [hq])) h _ (by simp [hp, lm, hv])

theorem putPlan_length (ps : List (String × List Int)) (v : List Report) (hl : ∀ p ∈ ps, p.2.length = v.length) :
    (putPlan v ps).length = v.length := by
  induction ps generalizing v with
  | nil => rfl
  | cons p ps ih =>
    have hp := hl p (by simp)
    have lm : (List.zipWith (putFlag p.1) v p.2).length = v.length := by simp [hp]
    exact (ih _ fun q hq => by rw [lm]; exact hl q (by simp [hq])).trans lm

theorem sameReports_trans {a b c : List Report} (h : SameReports a b) (h' : SameReports b c) : SameReports a c := by
  induction h generalizing c with
  | nil => exact h'
  | cons h _ ih =>
    cases h' with
    | cons g t => exact List.Forall₂.cons (by rw [g, h]) (ih t)

theorem sameReports_plan (ps : List (String × List Int)) (v : List Report) (hl : ∀ p ∈ ps, p.2.length = v.length) :
    SameReports v (putPlan v ps) := by
  induction ps generalizing v with
  | nil =>
    show SameReports v v
    exact List.forall₂_same.mpr fun _ _ => rfl
  | cons p ps ih =>
    have hp := hl p (by simp)
    have lm : (List.zipWith (putFlag p.1) v p.2).length = v.length := by simp [hp]
    exact sameReports_trans (sameReports_put p.1 v p.2 hp) (ih _ fun q hq => by rw [lm]; exact hl q (by simp [hq]))

theorem putPlan_past (ps : List (String × List Int)) (k : String) (xs : List Int) (v : List Report)
    (hk : ∀ p ∈ ps, p.1 ≠ k) :
    List.zipWith (putFlag k) (putPlan v ps) xs = putPlan (List.zipWith (putFlag k) v xs) ps := by
  induction ps generalizing v with
  | nil => rfl
  | cons p ps ih =>
    show List.zipWith (putFlag k) (putPlan (List.zipWith (putFlag p.1) v p.2) ps) xs = _
    rw [ih _ fun q hq => hk q (by simp [hq]), putFlags_comm (hk p (by simp)).symm]
    rfl

theorem putPlan_twice (ps : List (String × List Int)) (v : List Report) (hd : (ps.map (·.1)).Nodup) :
    putPlan (putPlan v ps) ps = putPlan v ps := by
  induction ps generalizing v with
  | nil => rfl
  | cons p ps ih =>
    rw [List.map_cons, List.nodup_cons] at hd
    show putPlan (List.zipWith (putFlag p.1) (putPlan (List.zipWith (putFlag p.1) v p.2) ps) p.2) ps = _
    rw [putPlan_past ps p.1 p.2 _ fun q hq hc => hd.1 (hc ▸ List.mem_map_of_mem hq), putFlags_again _ _ _ _ rfl,
      ih _ hd.2]
    rfl

theorem putPlan_comm (ps qs : List (String × List Int)) (v : List Report) (hd : ∀ p ∈ ps, ∀ q ∈ qs, p.1 ≠ q.1) :
    putPlan (putPlan v ps) qs = putPlan (putPlan v qs) ps := by
  induction qs generalizing v with
  | nil => rfl
  | cons q qs ih =>
    show putPlan (List.zipWith (putFlag q.1) (putPlan v ps) q.2) qs = _
    rw [putPlan_past ps q.1 q.2 v fun p hp => hd p hp q (by simp), ih _ fun p hp r hr => hd p hp r (by simp [hr])]
    rfl

theorem putFlags_other {k key : String} (hk : k ≠ key) (v : List Report) (xs : List Int) (hx : xs.length = v.length) :
    (List.zipWith (putFlag key) v xs).map (fun r => r.qc k) = v.map fun r => r.qc k := by
  induction v generalizing xs with
  | nil => simp
  | cons r v ih =>
    cases xs with
    | nil => cases hx
    | cons x xs =>
      rw [List.zipWith_cons_cons, List.map_cons, List.map_cons, ih xs (by simpa using hx)]
      congr 1
      exact if_neg hk

theorem putPlan_other (ps : List (String × List Int)) (k : String) (v : List Report)
    (hl : ∀ p ∈ ps, p.2.length = v.length) (hk : ∀ p ∈ ps, p.1 ≠ k) :
    (putPlan v ps).map (fun r => r.qc k) = v.map fun r => r.qc k := by
  induction ps generalizing v with
  | nil => rfl
  | cons p ps ih =>
    have hp := hl p (by simp)
    have lm : (List.zipWith (putFlag p.1) v p.2).length = v.length := by simp [hp]
    exact (ih _ (fun q hq => by rw [lm]; exact hl q (by simp [hq])) fun q hq => hk q (by simp [hq])).trans
      (putFlags_other (hk p (by simp)).symm v p.2 hp)

theorem putFlags_key (key : String) (v : List Report) (xs : List Int) (hx : xs.length = v.length) :
    (List.zipWith (putFlag key) v xs).map (fun r => r.qc key) = xs.map some := by
  induction v generalizing xs with
  | nil => rw [List.eq_nil_of_length_eq_zero hx]; rfl
  | cons r v ih =>
    cases xs with
    | nil => cases hx
    | cons x xs =>
      rw [List.zipWith_cons_cons, List.map_cons, List.map_cons, ih xs (by simpa using hx)]
      congr 1
      simp [putFlag]

/-- The flags a plan sets do not depend on the reports. -/
theorem putPlan_key (ps : List (String × List Int)) (v v' : List Report) (hl : ∀ p ∈ ps, p.2.length = v.length)
    (hv : v'.length = v.length) (k : String) (hk : k ∈ ps.map (·.1)) :
    (putPlan v' ps).map (fun r => r.qc k) = (putPlan v ps).map fun r => r.qc k := by
  induction ps generalizing v v' with
  | nil => simp at hk
  | cons p ps ih =>
    have hp := hl p (by simp)
    have lm : (List.zipWith (putFlag p.1) v p.2).length = v.length := by simp [hp]
    have lm' : (List.zipWith (putFlag p.1) v' p.2).length = v'.length := by simp [hp, hv]
    have hl' : ∀ q ∈ ps, q.2.length = (List.zipWith (putFlag p.1) v p.2).length := fun q hq => by
      rw [lm]; exact hl q (by simp [hq])
    have hl'' : ∀ q ∈ ps, q.2.length = (List.zipWith (putFlag p.1) v' p.2).length := fun q hq => by
      rw [lm', hv]; exact hl q (by simp [hq])
    by_cases hm : k ∈ ps.map (·.1)
    · exact ih _ _ hl' (lm'.trans (hv.trans lm.symm)) hm
    · rw [List.map_cons, List.mem_cons] at hk
      rcases hk with hk | hk
      · have ho : ∀ q ∈ ps, q.1 ≠ k := fun q hq hc => hm (hc ▸ List.mem_map_of_mem hq)
        refine (putPlan_other ps k _ hl'' ho).trans (Eq.trans ?_ (putPlan_other ps k _ hl' ho).symm)
        rw [hk, putFlags_key _ _ _ (by omega), putFlags_key _ _ _ hp]
      · exact absurd hk hm

/-! ## The flags do not depend on flags -/

theorem mapM_through {α β γ : Type} (g : α → β) (f : β → Except Err γ) (f' : α → Except Err γ)
    (h : ∀ a, f (g a) = f' a) (l : List α) : (l.map g).mapM f = l.mapM f' := by
  induction l with
  | nil => rfl
  | cons a l ih => rw [List.map_cons, List.mapM_cons, List.mapM_cons, ih, h]

theorem driftFixes_bare (v : List Report) : driftFixes (v.map bareReport) = driftFixes v := by
  unfold driftFixes
  rw [List.zipIdx_map, mapM_through (Prod.map bareReport id) driftAt driftAt fun _ => rfl]

theorem sstFilter_bare (elev : Int → Int → Rat → Rat → Rat → Rat → ℝ) (lim : ℝ) (mask : Option Rat → Bool)
    (v : List Report) : sstFilter (reportDaytime elev lim) mask (v.map bareReport) =
      sstFilter (reportDaytime elev lim) mask v := by
  unfold sstFilter
  rw [List.zipIdx_map, mapM_through (Prod.map bareReport id) _ (sstScreen (reportDaytime elev lim) mask) fun _ => rfl]

/-- A ship's copy of a report. -/
def shipForm (r : Report) : Report :=
  putFlag "POSiquam_track" { r with data := fun k => if k = "PT" then some 5 else r.data k } 0

theorem shipCopy_form (r : Report) : shipCopy r = .ok (shipForm r) := rfl

theorem shipCopies_form (v : List Report) : v.mapM shipCopy = .ok (v.map shipForm) := by
  induction v with
  | nil => rfl
  | cons r v ih =>
    rw [List.mapM_cons, shipCopy_form, ih]
    rfl

theorem addReport_bare (G : Geo) (v : List Report) (r : Report) :
    addReport G (v.map bareReport) (bareReport r) = (addReport G v r).map (List.map bareReport) := by
  unfold addReport
  rw [List.getLast?_map]
  cases v.getLast? with
  | none => rfl
  | some p =>
    simp only [Option.map_some, sub_bare]
    cases r.sub G p with
    | error e => rfl
    | ok d =>
      simp only [except_bind_ok]
      show Except.ok _ = Except.ok _
      rw [List.map_append]
      rfl

theorem addReports_bare (G : Geo) (l v : List Report) :
    (l.map bareReport).foldlM (addReport G) (v.map bareReport) =
      (l.foldlM (addReport G) v).map (List.map bareReport) := by
  induction l generalizing v with
  | nil => rfl
  | cons r l ih =>
    rw [List.map_cons, List.foldlM_cons, List.foldlM_cons, addReport_bare]
    cases addReport G v r with
    | error e => rfl
    | ok w => exact ih w

theorem readFlags_qc (v v' : List Report) (t f : String)
    (h : v'.map (fun r => r.qc (t ++ f)) = v.map fun r => r.qc (t ++ f)) : readFlags v' t f = readFlags v t f := by
  have h2 := congrArg (List.map fun x : Option Int => match x with | some q => q | none => 9) h
  rw [List.map_map, List.map_map] at h2
  exact h2

theorem iquam_reads (G : Geo) (P : IquamParams) (w w' : List Report) (h : w'.map bareReport = w.map bareReport) :
    (iquamTrackCheck G P w' >>= fun w => .ok (readFlags w "POS" "iquam_track")) =
      (iquamTrackCheck G P w >>= fun w => .ok (readFlags w "POS" "iquam_track")) := by
  have hl : w'.length = w.length := by simpa using congrArg List.length h
  have hf : iquamFlags G P w' = iquamFlags G P w := by rw [← iquamFlags_bare, h, iquamFlags_bare]
  unfold iquamTrackCheck
  rw [hf]
  cases h1 : iquamFlags G P w with
  | error e => rfl
  | ok fl =>
    have h2 := flags_length G id (.iquam P) w fl h1
    simp only [except_bind_ok]
    cases h3 : writeFlags w "POS" "iquam_track" fl with
    | error e => rw [writeFlags_fails h3 w' hl]
    | ok e =>
      obtain ⟨e1, hw⟩ := writeFlags_put _ _ fl w e h2 h3
      rw [hw w' hl, e1]
      simp only [except_bind_ok]
      refine congrArg Except.ok (readFlags_qc _ _ _ _ ?_)
      rw [putFlags_key _ _ _ (by omega), putFlags_key _ _ _ h2]

theorem shipScreen_bare (G : Geo) (P : IquamParams) (v : List Report) :
    shipScreen G P (v.map bareReport) = shipScreen G P v := by
  unfold shipScreen
  rw [shipCopies_form, shipCopies_form]
  simp only [except_bind_ok]
  have hb : ((v.map bareReport).map shipForm).map bareReport = (v.map shipForm).map bareReport := by
    rw [List.map_map, List.map_map, List.map_map]
    rfl
  have h1 := addReports_bare G ((v.map bareReport).map shipForm) []
  have h2 := addReports_bare G (v.map shipForm) []
  rw [hb, h2] at h1
  cases h3 : (v.map shipForm).foldlM (addReport G) [] with
  | error e =>
    cases h4 : ((v.map bareReport).map shipForm).foldlM (addReport G) [] with
    | error e' => rw [h3, h4] at h1; injection h1 with h1; rw [h1]
    | ok w' => rw [h3, h4] at h1; cases h1
  | ok w =>
    cases h4 : ((v.map bareReport).map shipForm).foldlM (addReport G) [] with
    | error e' => rw [h3, h4] at h1; cases h1
    | ok w' =>
      rw [h3, h4] at h1
      injection h1 with h1
      exact iquam_reads G P w w' h1.symm

/-- The flags a check calculates, with their places. -/
noncomputable def DrifterCall.plan (G : Geo) (elev : Int → Int → Rat → Rat → Rat → Rat → ℝ) (c : DrifterCall)
    (v : List Report) : Except Err (List ((String × String) × List Int)) :=
  match c with
  | .aground w a b => agroundFlags G w a b v >>= fun fl => .ok [(("POS", "drf_agr"), fl)]
  | .newAground w a => newAgroundFlags G w a v >>= fun fl => .ok [(("POS", "drf_agr"), fl)]
  | .speed l a b => speedFlags G l a b v >>= fun fl => .ok [(("POS", "drf_spd"), fl)]
  | .newSpeed P l a => newSpeedFlags G P l a v >>= fun fl => .ok [(("POS", "drf_spd"), fl)]
  | .tail P => do
    tailAssert P
    let f ← sstFilter (reportDaytime elev (-5 / 2)) (fun _ => false) v
    let fl ← tailFlags (tailTests P) P.longLen.toNat P.shortLen.toNat v.length f.2
    return [(("SST", "drf_tail1"), fl.1), (("SST", "drf_tail2"), fl.2)]
  | .bias P => do
    biasAssert P
    let f ← sstFilter (reportDaytime elev (-5 / 2)) (varianceMasked P.errLim) v
    let fl := biasFlags (biasTests P) P.nEval f.1 f.2
    return [(("SST", "drf_bias"), flagAll v fl.1), (("SST", "drf_noise"), flagAll v fl.2.1),
      (("SST", "drf_short"), flagAll v fl.2.2)]

theorem flagRange_length (fl : List Int) (i j : Nat) : (flagRange fl i j).length = fl.length := by
  unfold flagRange
  generalize List.range' i (j + 1 - i) = l
  induction l generalizing fl with
  | nil => rfl
  | cons a l ih =>
    rw [List.foldl_cons, ih]
    split <;> simp

theorem speedLoop_length (G : Geo) (limit minH : Rat) (l : List Fix)
    (win : Nat → Fix → Except Err (Option (Fix × Nat))) (k i : Nat) (fl fl' : List Int)
    (h : speedLoop G limit minH l win k i fl = .ok fl') : fl'.length = fl.length := by
  induction k generalizing i fl with
  | zero => cases h
  | succ k ih =>
    unfold speedLoop at h
    obtain ⟨e, -, h⟩ := bind_ok_iff.mp h
    obtain ⟨a, -, h⟩ := bind_ok_iff.mp h
    split at h
    · obtain ⟨b, -, h⟩ := bind_ok_iff.mp h
      match b, h with
      | none, h => exact ih _ _ h
      | some (b, j), h =>
        simp only at h
        split at h
        · rw [ih _ _ h, flagRange_length]
        · exact ih _ _ h
    · injection h with h
      rw [h]

theorem plan_bare (G : Geo) (elev : Int → Int → Rat → Rat → Rat → Rat → ℝ) (c : DrifterCall) (v : List Report) :
    c.plan G elev (v.map bareReport) = c.plan G elev v := by
  cases c with
  | aground w a b =>
    unfold DrifterCall.plan agroundFlags
    simp only [List.length_map, driftFixes_bare]
  | newAground w a =>
    unfold DrifterCall.plan newAgroundFlags
    simp only [List.length_map, driftFixes_bare]
  | speed l a b =>
    unfold DrifterCall.plan speedFlags
    simp only [List.length_map, driftFixes_bare]
  | newSpeed P l a =>
    unfold DrifterCall.plan newSpeedFlags
    simp only [List.length_map, driftFixes_bare, shipScreen_bare]
  | tail P =>
    unfold DrifterCall.plan
    simp only [List.length_map, sstFilter_bare]
  | bias P =>
    unfold DrifterCall.plan flagAll
    simp only [List.length_map, sstFilter_bare]

theorem startFlags_size {n : Nat} {obs : List SstObs} {s : Int} {x : List Int} (hx : startFlags n obs s = .ok x) :
    x.length = n := by
  unfold startFlags at hx
  split at hx
  · injection hx with hx; rw [← hx]; simp
  · obtain ⟨o, -, hx⟩ := bind_ok_iff.mp hx
    injection hx with hx; rw [← hx]; simp

theorem endFlags_size {n : Nat} {obs : List SstObs} {s : Int} {x : List Int} (hx : endFlags n obs s = .ok x) :
    x.length = n := by
  unfold endFlags at hx
  split at hx
  · injection hx with hx; rw [← hx]; simp
  · obtain ⟨o, -, hx⟩ := bind_ok_iff.mp hx
    injection hx with hx; rw [← hx]; simp

theorem tailFlags_length {T : TailTests} {a b n : Nat} {obs : List SstObs} {p : List Int × List Int}
    (h : tailFlags T a b n obs = .ok p) : p.1.length = n ∧ p.2.length = n := by
  unfold tailFlags at h
  split at h
  · injection h with h
    rw [← h]
    simp
  · obtain ⟨q, -, h⟩ := bind_ok_iff.mp h
    simp only at h
    obtain ⟨x, hx, h⟩ := bind_ok_iff.mp h
    obtain ⟨y, hy, h⟩ := bind_ok_iff.mp h
    injection h with h
    rw [← h]
    exact ⟨startFlags_size hx, endFlags_size hy⟩

theorem agroundFlags_length {G : Geo} {w a b : Int} {v : List Report} {fl : List Int}
    (h : agroundFlags G w a b v = .ok fl) : fl.length = v.length := by
  unfold agroundFlags at h
  iterate 5 obtain ⟨_, _, h⟩ := bind_ok_iff.mp h
  simp only at h
  split at h
  · injection h with h; rw [← h]; simp
  · iterate 3 obtain ⟨_, _, h⟩ := bind_ok_iff.mp h
    injection h with h; rw [← h, groundFlags_length]

theorem newAgroundFlags_length {G : Geo} {w a : Int} {v : List Report} {fl : List Int}
    (h : newAgroundFlags G w a v = .ok fl) : fl.length = v.length := by
  unfold newAgroundFlags at h
  iterate 3 obtain ⟨_, _, h⟩ := bind_ok_iff.mp h
  simp only at h
  split at h
  · injection h with h; rw [← h]; simp
  · iterate 3 obtain ⟨_, _, h⟩ := bind_ok_iff.mp h
    injection h with h; rw [← h, groundFlags_length]

theorem speedFlags_length {G : Geo} {l a b : Rat} {v : List Report} {fl : List Int}
    (h : speedFlags G l a b v = .ok fl) : fl.length = v.length := by
  unfold speedFlags at h
  iterate 4 obtain ⟨_, _, h⟩ := bind_ok_iff.mp h
  simp only at h
  split at h
  · injection h with h; rw [← h]; simp
  · obtain ⟨_, _, h⟩ := bind_ok_iff.mp h
    rw [speedLoop_length _ _ _ _ _ _ _ _ _ h]; simp

theorem newSpeedFlags_length {G : Geo} {P : IquamParams} {l a : Rat} {v : List Report} {fl : List Int}
    (h : newSpeedFlags G P l a v = .ok fl) : fl.length = v.length := by
  unfold newSpeedFlags at h
  iterate 2 obtain ⟨_, _, h⟩ := bind_ok_iff.mp h
  simp only at h
  split at h
  · injection h with h; rw [← h]; simp
  · iterate 2 obtain ⟨_, _, h⟩ := bind_ok_iff.mp h
    rw [speedLoop_length _ _ _ _ _ _ _ _ _ h]; simp

theorem drifter_perform_eq (G : Geo) (elev : Int → Int → Rat → Rat → Rat → Rat → ℝ) (c : DrifterCall)
    (v : List Report) : c.perform G elev v = c.plan G elev v >>= writePlan v := by
  have one : ∀ (t f : String) (fl : List Int), writePlan v [((t, f), fl)] = writeFlags v t f fl := by
    intro t f fl
    unfold writePlan
    rw [List.foldlM_cons]
    cases h : writeFlags v t f fl <;> rfl
  cases c with
  | aground w a b =>
    show agroundCheck G w a b v = (agroundFlags G w a b v >>= _) >>= _
    simp only [except_bind_assoc, except_bind_ok, one]
    rfl
  | newAground w a =>
    show newAgroundCheck G w a v = (newAgroundFlags G w a v >>= _) >>= _
    simp only [except_bind_assoc, except_bind_ok, one]
    rfl
  | speed l a b =>
    show speedCheck G l a b v = (speedFlags G l a b v >>= _) >>= _
    simp only [except_bind_assoc, except_bind_ok, one]
    rfl
  | newSpeed P l a =>
    show newSpeedCheck G P l a v = (newSpeedFlags G P l a v >>= _) >>= _
    simp only [except_bind_assoc, except_bind_ok, one]
    rfl
  | tail P =>
    show tailCheck _ _ P v = _
    unfold tailCheck DrifterCall.plan
    simp only [except_bind_assoc]
    refine congrArg _ (funext fun _ => congrArg _ (funext fun f => congrArg _ (funext fun fl => ?_)))
    show _ = writePlan v _
    unfold writePlan
    rw [List.foldlM_cons]
    refine congrArg _ (funext fun w => ?_)
    rw [List.foldlM_cons]
    cases h : writeFlags w "SST" "drf_tail2" fl.2 <;> rfl
  | bias P =>
    show biasCheck _ _ P v = _
    unfold biasCheck DrifterCall.plan
    simp only [except_bind_assoc]
    refine congrArg _ (funext fun _ => congrArg _ (funext fun f => ?_))
    show _ = writePlan v _
    unfold writePlan
    rw [List.foldlM_cons]
    cases h1 : writeFlags v "SST" "drf_bias" (flagAll v (biasFlags (biasTests P) P.nEval f.1 f.2).1) with
    | error e => rfl
    | ok w =>
      have lw : w.length = v.length := by
        rw [(writeFlags_put _ _ _ _ _ (by simp [flagAll]) h1).1]
        simp [flagAll]
      have fw : ∀ b, flagAll w b = flagAll v b := fun b => by unfold flagAll; rw [lw]
      simp only [except_bind_ok, fw]
      rw [List.foldlM_cons]
      cases h2 : writeFlags w "SST" "drf_noise" (flagAll v (biasFlags (biasTests P) P.nEval f.1 f.2).2.1) with
      | error e => rfl
      | ok x =>
        have lx : x.length = v.length := by
          rw [(writeFlags_put _ _ _ _ _ (by simp [flagAll, lw]) h2).1]
          simp [flagAll, lw]
        have fx : ∀ b, flagAll x b = flagAll v b := fun b => by unfold flagAll; rw [lx]
        simp only [except_bind_ok, fx]
        rw [List.foldlM_cons]
        cases h3 : writeFlags x "SST" "drf_short" (flagAll v (biasFlags (biasTests P) P.nEval f.1 f.2).2.2) <;> rfl

theorem plan_shape (G : Geo) (elev : Int → Int → Rat → Rat → Rat → Rat → ℝ) (c : DrifterCall) (v : List Report)
    (ps : List ((String × String) × List Int)) (h : c.plan G elev v = .ok ps) :
    (∀ p ∈ ps, p.2.length = v.length) ∧ (planKeys ps).map (·.1) = drifterFlags c := by
  cases c with
  | aground w a b =>
    obtain ⟨fl, h1, h⟩ := bind_ok_iff.mp h
    injection h with h
    rw [← h]
    exact ⟨by simpa using agroundFlags_length h1, rfl⟩
  | newAground w a =>
    obtain ⟨fl, h1, h⟩ := bind_ok_iff.mp h
    injection h with h
    rw [← h]
    exact ⟨by simpa using newAgroundFlags_length h1, rfl⟩
  | speed l a b =>
    obtain ⟨fl, h1, h⟩ := bind_ok_iff.mp h
    injection h with h
    rw [← h]
    exact ⟨by simpa using speedFlags_length h1, rfl⟩
  | newSpeed P l a =>
    obtain ⟨fl, h1, h⟩ := bind_ok_iff.mp h
    injection h with h
    rw [← h]
    exact ⟨by simpa using newSpeedFlags_length h1, rfl⟩
  | tail P =>
    obtain ⟨-, -, h⟩ := bind_ok_iff.mp h
    obtain ⟨f, -, h⟩ := bind_ok_iff.mp h
    obtain ⟨fl, h1, h⟩ := bind_ok_iff.mp h
    injection h with h
    rw [← h]
    exact ⟨by simpa using tailFlags_length h1, rfl⟩
  | bias P =>
    obtain ⟨-, -, h⟩ := bind_ok_iff.mp h
    obtain ⟨f, -, h⟩ := bind_ok_iff.mp h
    injection h with h
    rw [← h]
    exact ⟨by simp [flagAll], rfl⟩

/-- What a call does to the reports, and that it does the same to the same reports with other flags. -/
theorem drifter_sets (G : Geo) (elev : Int → Int → Rat → Rat → Rat → Rat → ℝ) (c : DrifterCall) (v e : List Report)
    (h : c.perform G elev v = .ok e) :
    ∃ ps : List (String × List Int), (∀ p ∈ ps, p.2.length = v.length) ∧ ps.map (·.1) = drifterFlags c ∧
      e = putPlan v ps ∧ ∀ v', SameReports v v' → c.perform G elev v' = .ok (putPlan v' ps) := by
  rw [drifter_perform_eq] at h
  obtain ⟨ps, h1, h⟩ := bind_ok_iff.mp h
  obtain ⟨hl, hk⟩ := plan_shape G elev c v ps h1
  obtain ⟨e1, hw⟩ := writePlan_put ps v e hl h
  refine ⟨planKeys ps, ?_, hk, e1, fun v' hv => ?_⟩
  · intro p hp
    obtain ⟨q, hq, rfl⟩ := List.mem_map.mp hp
    exact hl q hq
  · rw [drifter_perform_eq, ← plan_bare, bare_eq hv, plan_bare]
    exact bind_ok_iff.mpr ⟨ps, h1, hw v' hv.length_eq.symm⟩

/-- C151: what a check of a drifter finds does not depend on any flags: of two records with the same reports but for
flags, if the first is checked without an error, so is the second; it keeps its reports but for flags; the flags the
check sets get the same values in both, and the other flags of the second stay as they are.  If the check fails on the
first, it fails with the same error on the second. -/
theorem C151_blind (G : Geo) (elev : Int → Int → Rat → Rat → Rat → Rat → ℝ) (c : DrifterCall) (v v' : List Report)
    (hv : SameReports v v') :
    (∀ e : List Report, c.perform G elev v = .ok e → ∃ e' : List Report, c.perform G elev v' = .ok e' ∧
      SameReports v' e' ∧
      (∀ k ∈ drifterFlags c, e'.map (fun r => r.qc k) = e.map fun r => r.qc k) ∧
      (∀ k ∉ drifterFlags c, e'.map (fun r => r.qc k) = v'.map fun r => r.qc k)) ∧
    (∀ x, c.perform G elev v = .error x → c.perform G elev v' = .error x) := by
  refine ⟨fun e h => ?_, fun x h => ?_⟩
  · obtain ⟨ps, hl, hk, e1, hs⟩ := drifter_sets G elev c v e h
    have hl' : ∀ p ∈ ps, p.2.length = v'.length := fun p hp => by rw [hl p hp, hv.length_eq]
    refine ⟨_, hs v' hv, sameReports_plan ps v' hl', fun k hm => ?_, fun k hm => ?_⟩
    · rw [e1]
      exact putPlan_key ps v v' hl hv.length_eq.symm k (hk ▸ hm)
    · exact putPlan_other ps k v' hl' fun p hp hc => hm (hk ▸ hc ▸ List.mem_map_of_mem hp)
  · rw [drifter_perform_eq] at h ⊢
    rw [← plan_bare, bare_eq hv, plan_bare]
    cases h1 : c.plan G elev v with
    | error y => rw [h1] at h; exact h
    | ok ps =>
      rw [h1] at h
      exact writePlan_fails ps v x (plan_shape G elev c v ps h1).1 h v' hv.length_eq.symm

/-- C151: repeating a check of a drifter changes nothing. -/
theorem C151_twice (G : Geo) (elev : Int → Int → Rat → Rat → Rat → Rat → ℝ) (c : DrifterCall) (v e : List Report)
    (h : c.perform G elev v = .ok e) : c.perform G elev e = .ok e := by
  obtain ⟨ps, hl, hk, e1, hs⟩ := drifter_sets G elev c v e h
  have h2 := hs _ (sameReports_plan ps v hl)
  rw [putPlan_twice ps v (by rw [hk]; cases c <;> simp [drifterFlags]), ← e1] at h2
  exact h2

/-- C151: two checks of a drifter that set different flags give the same in either order. -/
theorem C151_order (G : Geo) (elev : Int → Int → Rat → Rat → Rat → Rat → ℝ) (a b : DrifterCall)
    (v e f : List Report) (hab : ∀ k ∈ drifterFlags a, k ∉ drifterFlags b) (h1 : a.perform G elev v = .ok e)
    (h2 : b.perform G elev e = .ok f) : ∃ g, b.perform G elev v = .ok g ∧ a.perform G elev g = .ok f := by
  obtain ⟨ps, hl, hk, e1, hs⟩ := drifter_sets G elev a v e h1
  obtain ⟨qs, hm, hj, e2, ht⟩ := drifter_sets G elev b e f h2
  have hp := sameReports_plan ps v hl
  rw [← e1] at hp
  have hm' : ∀ q ∈ qs, q.2.length = v.length := fun q hq => by rw [hm q hq, hp.length_eq]
  refine ⟨_, ht v (sameReports_symm hp), (hs _ (sameReports_plan qs v hm')).trans ?_⟩
  rw [e2, e1, putPlan_comm ps qs v]
  intro p hp q hq hc
  exact hab p.1 (hk ▸ List.mem_map_of_mem hp) (hj ▸ hc ▸ List.mem_map_of_mem hq)

/-- C151: a check of a drifter made after a check of the voyage (C148) that sets another flag may be made before it. -/
theorem C151_voyage_order (G : Geo) (elev : Int → Int → Rat → Rat → Rat → Rat → ℝ) (rnd : Rat → Rat) (a : VoyageCall)
    (b : DrifterCall) (v e f : List Report) (hab : voyageFlag a ∉ drifterFlags b) (h1 : a.perform G rnd v = .ok e)
    (h2 : b.perform G elev e = .ok f) : ∃ g, b.perform G elev v = .ok g ∧ a.perform G rnd g = .ok f := by
  obtain ⟨xs, hx, e1, hs⟩ := voyage_sets G rnd a v e h1
  obtain ⟨qs, hm, hj, e2, ht⟩ := drifter_sets G elev b e f h2
  have hp := sameReports_put (voyageFlag a) v xs hx
  rw [← e1] at hp
  have hm' : ∀ q ∈ qs, q.2.length = v.length := fun q hq => by rw [hm q hq, hp.length_eq]
  refine ⟨_, ht v (sameReports_symm hp), (hs _ (sameReports_plan qs v hm')).trans ?_⟩
  rw [e2, e1, putPlan_past]
  exact fun q hq hc => hab (hj ▸ hc ▸ List.mem_map_of_mem hq)

/-- C151: a check of the voyage made after a check of a drifter that sets other flags may be made before it. -/
theorem C151_drifter_order (G : Geo) (elev : Int → Int → Rat → Rat → Rat → Rat → ℝ) (rnd : Rat → Rat) (a : DrifterCall)
    (b : VoyageCall) (v e f : List Report) (hab : voyageFlag b ∉ drifterFlags a) (h1 : a.perform G elev v = .ok e)
    (h2 : b.perform G rnd e = .ok f) : ∃ g, b.perform G rnd v = .ok g ∧ a.perform G elev g = .ok f := by
  obtain ⟨ps, hl, hk, e1, hs⟩ := drifter_sets G elev a v e h1
  obtain ⟨ys, hy, e2, ht⟩ := voyage_sets G rnd b e f h2
  have hp := sameReports_plan ps v hl
  rw [← e1] at hp
  have hy' : ys.length = v.length := by rw [hy, hp.length_eq]
  refine ⟨_, ht v (sameReports_symm hp), (hs _ (sameReports_put _ v ys hy')).trans ?_⟩
  rw [e2, e1, putPlan_past]
  exact fun q hq hc => hab (hk ▸ hc ▸ List.mem_map_of_mem hq)

/-- C151: so may the methods of a voyage that make these checks on drifters only: repeating one changes nothing. -/
theorem C151_method_twice (G : Geo) (elev : Int → Int → Rat → Rat → Rat → Rat → ℝ) (c : DrifterCall)
    (v e : List Report) (h : buoyGuard G (c.perform G elev) false v = .ok e) :
    buoyGuard G (c.perform G elev) false e = .ok e := by
  cases v with
  | nil =>
    injection h with h
    rw [← h]; rfl
  | cons r v =>
    by_cases hp : r.getvar "PT" ≠ some 7
    · have h' : buoyGuard G (c.perform G elev) false (r :: v) = .ok (r :: v) := if_pos hp
      rw [h'] at h
      injection h with h
      rw [← h, h']
    · have h' : buoyGuard G (c.perform G elev) false (r :: v) = c.perform G elev (r :: v) := if_neg hp
      rw [h'] at h
      obtain ⟨ps, hl, -, e1, -⟩ := drifter_sets G elev c (r :: v) e h
      have hs := sameReports_plan ps (r :: v) hl
      rw [← e1] at hs
      have h2 := C151_twice G elev c _ e h
      cases hs with
      | @cons _ s _ u hr _ =>
        have hq : s.getvar "PT" = r.getvar "PT" := by rw [hr]; rfl
        have h'' : buoyGuard G (c.perform G elev) false (s :: u) = c.perform G elev (s :: u) :=
          if_neg (by rw [hq]; exact hp)
        rw [h'', h2]

/-- Non-vacuity of C151: on a drifter's record the check for drifters aground completes and flags the last three
reports, the speed check completes after it, and they set different flags. -/
example (elev : Int → Int → Rat → Rat → Rat → Rat → ℝ) : ∃ (a b : DrifterCall) (v e f : List Report),
    (∀ k ∈ drifterFlags a, k ∉ drifterFlags b) ∧ a.perform flatGeo elev v = .ok e ∧
    (e.map fun r => r.getQc "POS" "drf_agr") = [0, 0, 1, 1, 1] ∧ b.perform flatGeo elev e = .ok f := by
  have ha : agroundFlags flatGeo 1 1 2 [sampleDrift 0 0 0, sampleDrift 0 1 24, sampleDrift 0 2 24, sampleDrift 0 2 24,
      sampleDrift 0 2 24] = .ok [0, 0, 1, 1, 1] := by decide +kernel
  have hb : ∃ fl, speedFlags flatGeo (5/2) (4/5) 1 [sampleDrift 0 0 0, sampleDrift 0 1 24, sampleDrift 0 2 24,
      sampleDrift 0 2 24, sampleDrift 0 2 24] = .ok fl ∧ ∀ x ∈ fl, 0 ≤ x ∧ x ≤ 9 :=
    ⟨[0, 0, 0, 0, 0], by decide +kernel, by decide⟩
  generalize hv : [sampleDrift 0 0 0, sampleDrift 0 1 24, sampleDrift 0 2 24, sampleDrift 0 2 24,
      sampleDrift 0 2 24] = v at ha hb
  have lv : v.length = 5 := by rw [← hv]; rfl
  obtain ⟨e, he⟩ := writeFlags_ok (v := v) (t := "POS") (f := "drf_agr") (fl := [0, 0, 1, 1, 1])
    (by decide) (by decide)
  obtain ⟨fl, h1, h2⟩ := hb
  have ee := (writeFlags_put _ _ _ _ _ (by rw [lv]; rfl) he).1
  have hs : SameReports v e := by
    rw [ee]
    exact sameReports_put _ _ _ (by rw [lv]; rfl)
  obtain ⟨f0, hf0⟩ := writeFlags_ok (v := v) (t := "POS") (f := "drf_spd") (fl := fl) (by decide) h2
  obtain ⟨f, hf, -⟩ := (C151_blind flatGeo elev (.speed (5/2) (4/5) 1) v e hs).1 f0 (bind_ok_iff.mpr ⟨fl, h1, hf0⟩)
  refine ⟨.aground 1 1 2, .speed (5/2) (4/5) 1, v, e, f, by decide, bind_ok_iff.mpr ⟨_, ha, he⟩, ?_, hf⟩
  rw [ee, ← hv]
  rfl

end MarineQC
