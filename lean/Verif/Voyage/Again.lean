import Verif.Voyage.Pairs
import Verif.Voyage.Values
import Verif.Buddy.Again

/-!
# C148: the checks of a voyage may be repeated and run in any order
-/

namespace MarineQC

/-- A call of one of the checks of a voyage that set one flag per report: `find_saturated_runs`
(Extended_IMMA.py:1657-1702), `find_multiple_rounded_values` (1704-1750), `find_repeated_values` (1752-1797),
`iquam_track_check` (2009-2083) and `spike_check` (2206-2281), with its parameters. -/
inductive VoyageCall where
  | saturated (minTime : Rat) (shortest : Int)
  | rounded (minCount : Int) (threshold : Rat) (t : String)
  | repeated (minCount : Int) (threshold : Rat) (t : String)
  | iquam (P : IquamParams)
  | spike (P : SpikeParams) (t : String)

/-- The call made on a voyage (Extended_IMMA.py:1657, 1704, 1752, 2009 and 2206). -/
def VoyageCall.perform (G : Geo) (rnd : Rat → Rat) : VoyageCall → List Report → Except Err (List Report)
  | .saturated m s, v => findSaturatedRuns G m s v
  | .rounded c th t, v => findMultipleRounded rnd c th t v
  | .repeated c th t, v => findRepeated rnd c th t v
  | .iquam P, v => iquamTrackCheck G P v
  | .spike P t, v => spikeCheck G P t v

namespace Spec

/-- The flag a check of a voyage sets. -/
def voyageFlag : VoyageCall → String
  | .saturated _ _ => "DPTrepsat"
  | .rounded _ _ t => t ++ "round"
  | .repeated _ _ t => t ++ "rep"
  | .iquam _ => "POSiquam_track"
  | .spike _ t => t ++ "spike"

/-- The same reports, but for their flags. -/
def SameReports (v v' : List Report) : Prop :=
  List.Forall₂ (fun r r' : Report => r' = { r with qc := r'.qc }) v v'

end Spec

open Spec

/-- A report without its flags. -/
def bareReport (r : Report) : Report := { r with qc := fun _ => none }

theorem bare_eq {v v' : List Report} (h : SameReports v v') : v'.map bareReport = v.map bareReport := by
  induction h with
  | nil => rfl
  | cons h _ ih =>
    rw [List.map_cons, List.map_cons, ih, h]
    rfl

theorem pyIndex_bare (v : List Report) (i : Int) :
    pyIndex (v.map bareReport) i = (pyIndex v i >>= fun r => .ok (bareReport r)) := by
  unfold pyIndex
  simp only [List.length_map, List.getElem?_map]
  generalize (if i < 0 then i + (v.length : Int) else i) = j
  by_cases hj : j < 0
  · simp only [if_pos hj]; rfl
  · simp only [if_neg hj]
    cases v[j.toNat]? <;> rfl

theorem sub_bare (G : Geo) (a b : Report) : (bareReport a).sub G (bareReport b) = a.sub G b := rfl
theorem getvar_bare (r : Report) (t : String) : (bareReport r).getvar t = r.getvar t := rfl

theorem except_bind_assoc {α β γ : Type} (x : Except Err α) (f : α → Except Err β) (g : β → Except Err γ) :
    (x >>= f) >>= g = x >>= fun a => f a >>= g := by cases x <;> rfl

theorem iquamBad_bare (G : Geo) (P : IquamParams) (limit : Rat) (v : List Report) :
    iquamBad G P limit (v.map bareReport) = iquamBad G P limit v := by
  funext i j
  unfold iquamBad
  simp only [pyIndex_bare, except_bind_assoc, except_bind_ok, sub_bare]

theorem spikeBad_bare (G : Geo) (P : SpikeParams) (delta : Rat) (t : String) (v : List Report) :
    spikeBad G P delta t (v.map bareReport) = spikeBad G P delta t v := by
  funext i j
  unfold spikeBad
  simp only [pyIndex_bare, except_bind_assoc, except_bind_ok, sub_bare, getvar_bare]

theorem eliminate_flags (n : Nat) (nn : Int) (bad : Nat → Nat → Except Err Bool) (fl fl' : List Int)
    (h : fl.length = n) (h' : fl'.length = n) : eliminate n nn bad fl = eliminate n nn bad fl' := by
  unfold eliminate
  simp only [set_all n fl h, set_all n fl' h']

theorem readFlags_length (v : List Report) (t f : String) : (readFlags v t f).length = v.length := by
  simp [readFlags]

theorem spikeFlags_bare (G : Geo) (P : SpikeParams) (t : String) (v : List Report) :
    spikeFlags G P t (v.map bareReport) = spikeFlags G P t v := by
  cases v with
  | nil => rfl
  | cons r l =>
    have h := spikeBad_bare G P (if r.getint "PT" = some 6 ∨ r.getint "PT" = some 7 then P.buoyDelta else P.shipDelta)
      t (r :: l)
    unfold spikeFlags
    simp only [List.map_cons, List.head?_cons] at h ⊢
    rw [List.length_cons, List.length_cons, List.length_map]
    have hl : (readFlags (bareReport r :: l.map bareReport) t "spike").length = l.length + 1 := by
      simp [readFlags_length]
    have hl' : (readFlags (r :: l) t "spike").length = l.length + 1 := by
      simp [readFlags_length]
    refine Eq.trans ?_ (eliminate_flags _ _ _ _ _ hl hl')
    exact congrArg (fun b => eliminate _ _ b _) h

theorem iquamFlags_bare (G : Geo) (P : IquamParams) (v : List Report) :
    iquamFlags G P (v.map bareReport) = iquamFlags G P v := by
  cases v with
  | nil => rfl
  | cons r l =>
    have h := iquamBad_bare G P (if r.getint "PT" = some 6 ∨ r.getint "PT" = some 7 then P.buoySpeedLimit
      else P.shipSpeedLimit) (r :: l)
    have hl : (readFlags (bareReport r :: l.map bareReport) "POS" "iquam_track").length = l.length + 1 := by
      simp [readFlags_length]
    have hl' : (readFlags (r :: l) "POS" "iquam_track").length = l.length + 1 := by
      simp [readFlags_length]
    unfold iquamFlags
    simp only [List.map_cons, List.head?_cons] at h ⊢
    rw [List.length_cons, List.length_cons, List.length_map]
    by_cases hg : idIsGeneric r.id (r.getint "YR") = true
    · refine (if_pos hg).trans (Eq.trans ?_ (if_pos hg).symm)
      rw [set_all _ _ hl, set_all _ _ hl']
    · refine (if_neg hg).trans (Eq.trans ?_ (if_neg hg).symm)
      refine Eq.trans ?_ (eliminate_flags _ _ _ _ _ hl hl')
      exact congrArg (fun b => eliminate _ _ b _) h

theorem allCount_bare (v : List Report) (t : String) : allCount (v.map bareReport) t = allCount v t := by
  unfold allCount
  rw [List.foldl_map]
  rfl

theorem valueIndex_bare (rnd : Rat → Rat) (v : List Report) (t : String) :
    valueIndex rnd (v.map bareReport) t = valueIndex rnd v t := by
  unfold valueIndex
  rw [List.zipIdx_map, List.foldl_map]
  rfl

theorem zeros_bare (v : List Report) (t f : String) :
    (readFlags (v.map bareReport) t f).map (fun _ => (0 : Int)) = (readFlags v t f).map fun _ => (0 : Int) := by
  unfold readFlags
  simp

theorem roundedFlags_bare (rnd : Rat → Rat) (c : Int) (th : Rat) (t : String) (v : List Report) :
    roundedFlags rnd c th t (v.map bareReport) = roundedFlags rnd c th t v := by
  unfold roundedFlags
  simp only [allCount_bare, valueIndex_bare, zeros_bare]

theorem repeatedFlags_bare (rnd : Rat → Rat) (c : Int) (th : Rat) (t : String) (v : List Report) :
    repeatedFlags rnd c th t (v.map bareReport) = repeatedFlags rnd c th t v := by
  unfold repeatedFlags
  simp only [allCount_bare, valueIndex_bare, zeros_bare]

/-! ## Saturated runs -/

/-- Lists of `N` flags that agree at the first `k` places. -/
def AgreeTo (N k : Nat) (a b : List Int) : Prop := a.length = N ∧ b.length = N ∧ ∀ i < k, a[i]? = b[i]?

theorem AgreeTo.set {N k : Nat} {a b : List Int} (h : AgreeTo N k a b) (i : Nat) (x : Int) :
    AgreeTo N k (a.set i x) (b.set i x) := by
  refine ⟨by simpa using h.1, by simpa using h.2.1, fun j hj => ?_⟩
  rw [List.getElem?_set, List.getElem?_set, h.1, h.2.1, h.2.2 j hj]

theorem AgreeTo.set_next {N k : Nat} {a b : List Int} (h : AgreeTo N k a b) (x : Int) :
    AgreeTo N (k + 1) (a.set k x) (b.set k x) := by
  refine ⟨by simpa using h.1, by simpa using h.2.1, fun j hj => ?_⟩
  rw [List.getElem?_set, List.getElem?_set, h.1, h.2.1]
  by_cases hk : k = j
  · rw [if_pos hk, if_pos hk]
  · rw [if_neg hk, if_neg hk]
    exact h.2.2 j (by omega)

theorem AgreeTo.set_list {N k : Nat} {a b : List Int} (h : AgreeTo N k a b) (l : List Nat) (x : Int) :
    AgreeTo N k (l.foldl (fun fl i => fl.set i x) a) (l.foldl (fun fl i => fl.set i x) b) := by
  induction l generalizing a b with
  | nil => exact h
  | cons i l ih => exact ih (h.set i x)

/-- Both fail with the same error, or both succeed with flags that agree at the first `k` places. -/
def AgreeEx {α : Type} (N k : Nat) (x y : Except Err (α × List Int)) : Prop :=
  (∃ e, x = .error e ∧ y = .error e) ∨ ∃ c a b, x = .ok (c, a) ∧ y = .ok (c, b) ∧ AgreeTo N k a b

theorem closeRun_bare (G : Geo) (m : Rat) (n : Int) (v : List Report) (sat : List Nat) (fl : List Int) :
    closeRun G m n (v.map bareReport) sat fl = closeRun G m n v sat fl := by
  unfold closeRun
  simp only [pyIndex_bare, except_bind_assoc, except_bind_ok, sub_bare]

theorem closeRun_agree (G : Geo) (m : Rat) (n : Int) (v : List Report) (sat : List Nat) {N k : Nat} {a b : List Int}
    (h : AgreeTo N k a b) :
    (∃ e, closeRun G m n v sat a = .error e ∧ closeRun G m n v sat b = .error e) ∨
      ∃ a' b', closeRun G m n v sat a = .ok a' ∧ closeRun G m n v sat b = .ok b' ∧ AgreeTo N k a' b' := by
  unfold closeRun
  by_cases hc : (sat.length : Int) > n
  · simp only [if_pos hc]
    cases sat.head? with
    | none => exact Or.inl ⟨_, rfl, rfl⟩
    | some i => cases sat.getLast? with
      | none => exact Or.inl ⟨_, rfl, rfl⟩
      | some j =>
        simp only
        cases pyIndex v (i : Int) with
        | error e => exact Or.inl ⟨e, rfl, rfl⟩
        | ok ra => cases pyIndex v (j : Int) with
          | error e => exact Or.inl ⟨e, rfl, rfl⟩
          | ok rb =>
            simp only [except_bind_ok]
            cases rb.sub G ra with
            | error e => exact Or.inl ⟨e, rfl, rfl⟩
            | ok d =>
              refine Or.inr ⟨_, _, rfl, rfl, ?_⟩
              split
              · exact h.set_list sat 1
              · exact h
  · simp only [if_neg hc]
    exact Or.inr ⟨a, b, rfl, rfl, h⟩

theorem satFold_agree (G : Geo) (m : Rat) (n : Int) (v l : List Report) (N k : Nat) (sat : List Nat) (a b : List Int)
    (h : AgreeTo N k a b) :
    AgreeEx N (k + l.length) (((l.map bareReport).zipIdx k).foldlM (satStep G m n (v.map bareReport)) (sat, a))
      ((l.zipIdx k).foldlM (satStep G m n v) (sat, b)) := by
  induction l generalizing k sat a b with
  | nil => exact Or.inr ⟨sat, a, b, rfl, rfl, h⟩
  | cons r l ih =>
    rw [List.map_cons, List.zipIdx_cons, List.zipIdx_cons, List.foldlM_cons, List.foldlM_cons]
    have hk : k + (r :: l).length = k + 1 + l.length := by simp; omega
    rw [hk]
    unfold satStep
    simp only
    have hs : (bareReport r).saturated = r.saturated := rfl
    rw [hs]
    by_cases hc : r.saturated = true
    · simp only [if_pos hc, except_bind_ok]
      exact ih (k + 1) _ _ _ (h.set_next 0)
    · simp only [if_neg hc]
      rw [closeRun_bare]
      rcases closeRun_agree G m n v sat (h.set_next 0) with ⟨e, h1, h2⟩ | ⟨a', b', h1, h2, h3⟩
      · rw [h1, h2]
        exact Or.inl ⟨e, rfl, rfl⟩
      · rw [h1, h2]
        exact ih (k + 1) _ _ _ h3

theorem saturatedFlags_bare (G : Geo) (m : Rat) (n : Int) (v : List Report) :
    saturatedFlags G m n (v.map bareReport) = saturatedFlags G m n v := by
  unfold saturatedFlags
  have h0 : AgreeTo v.length 0 (readFlags (v.map bareReport) "DPT" "repsat") (readFlags v "DPT" "repsat") :=
    ⟨by simp [readFlags], by simp [readFlags], fun i hi => by omega⟩
  rcases satFold_agree G m n v v v.length 0 [] _ _ h0 with ⟨e, h1, h2⟩ | ⟨c, a, b, h1, h2, h3⟩
  · rw [h1, h2]; rfl
  · rw [h1, h2]
    simp only [except_bind_ok]
    rw [closeRun_bare]
    have e : a = b := by
      apply List.ext_getElem?
      intro i
      by_cases hi : i < v.length
      · exact h3.2.2 i (by omega)
      · rw [List.getElem?_eq_none (by rw [h3.1]; omega), List.getElem?_eq_none (by rw [h3.2.1]; omega)]
    rw [e]

/-! ## The flags and their places -/

/-- The type and name of the flag, and the flags a check calculates. -/
def VoyageCall.flags (G : Geo) (rnd : Rat → Rat) (c : VoyageCall) (v : List Report) : Except Err (List Int) :=
  match c with
  | .saturated m s => saturatedFlags G m s v
  | .rounded c th t => roundedFlags rnd c th t v
  | .repeated c th t => repeatedFlags rnd c th t v
  | .iquam P => iquamFlags G P v
  | .spike P t => spikeFlags G P t v

def VoyageCall.place : VoyageCall → String × String
  | .saturated _ _ => ("DPT", "repsat")
  | .rounded _ _ t => (t, "round")
  | .repeated _ _ t => (t, "rep")
  | .iquam _ => ("POS", "iquam_track")
  | .spike _ t => (t, "spike")

theorem voyage_perform_eq (G : Geo) (rnd : Rat → Rat) (c : VoyageCall) (v : List Report) :
    c.perform G rnd v = c.flags G rnd v >>= fun fl => writeFlags v c.place.1 c.place.2 fl := by
  cases c <;> rfl

theorem voyageFlag_place (c : VoyageCall) : voyageFlag c = c.place.1 ++ c.place.2 := by
  cases c <;> rfl

theorem flags_bare (G : Geo) (rnd : Rat → Rat) (c : VoyageCall) (v : List Report) :
    c.flags G rnd (v.map bareReport) = c.flags G rnd v := by
  cases c with
  | saturated m s => exact saturatedFlags_bare G m s v
  | rounded c th t => exact roundedFlags_bare rnd c th t v
  | repeated c th t => exact repeatedFlags_bare rnd c th t v
  | iquam P => exact iquamFlags_bare G P v
  | spike P t => exact spikeFlags_bare G P t v

theorem elimDrop_keeps {m : Nat} {s s' : Elim} {i : Nat} (h : elimDrop m s i = .ok s') : s'.flags = s.flags := by
  unfold elimDrop at h
  obtain ⟨l, -, h⟩ := bind_ok_iff.mp h
  split at h
  · obtain ⟨c, -, h⟩ := bind_ok_iff.mp h
    injection h with h
    rw [← h]
  · injection h with h
    rw [← h]

theorem elimRound_keeps {s s' : Elim} (h : elimRound s = .ok s') : s'.flags.length = s.flags.length := by
  unfold elimRound at h
  simp only at h
  obtain ⟨l, -, h⟩ := bind_ok_iff.mp h
  obtain ⟨s1, h1, h⟩ := bind_ok_iff.mp h
  injection h with h
  rw [← h]
  have key : ∀ (m : Nat) (l : List Nat) (s s1 : Elim), l.foldlM (elimDrop m) s = .ok s1 → s1.flags = s.flags := by
    intro m l
    induction l with
    | nil => intro s s1 h; injection h with h; rw [h]
    | cons i l ih =>
      intro s s1 h
      rw [List.foldlM_cons] at h
      obtain ⟨s2, h2, h⟩ := bind_ok_iff.mp h
      rw [ih s2 s1 h, elimDrop_keeps h2]
  show s1.flags.length = _
  rw [key _ _ _ _ h1]
  simp

theorem elimLoop_keeps (fuel : Nat) (s s' : Elim) (h : elimLoop fuel s = .ok s') :
    s'.flags.length = s.flags.length := by
  induction fuel generalizing s with
  | zero =>
    unfold elimLoop at h
    split at h
    · cases h
    · injection h with h; rw [h]
  | succ n ih =>
    unfold elimLoop at h
    split at h
    · obtain ⟨s1, h1, h⟩ := bind_ok_iff.mp h
      rw [ih s1 h, elimRound_keeps h1]
    · injection h with h; rw [h]

theorem eliminate_count {n : Nat} {nn : Int} {bad : Nat → Nat → Except Err Bool} {fl fl' : List Int}
    (h : eliminate n nn bad fl = .ok fl') : fl'.length = fl.length := by
  unfold eliminate at h
  obtain ⟨viol, -, h⟩ := bind_ok_iff.mp h
  simp only at h
  obtain ⟨s, h1, h⟩ := bind_ok_iff.mp h
  injection h with h
  rw [← h, elimLoop_keeps _ _ _ h1]
  exact foldl_set_length _ _ _

theorem flags_length (G : Geo) (rnd : Rat → Rat) (c : VoyageCall) (v : List Report) (fl : List Int)
    (h : c.flags G rnd v = .ok fl) : fl.length = v.length := by
  cases c with
  | saturated m s => exact (saturatedFlags_spec h).1
  | rounded c th t => exact (roundedFlags_spec h).1
  | repeated c th t => exact (repeatedFlags_spec h).1
  | iquam P =>
    cases v with
    | nil => injection h with h; rw [← h]; rfl
    | cons r l =>
      have h' : iquamFlags G P (r :: l) = .ok fl := h
      unfold iquamFlags at h'
      simp only [List.head?_cons] at h'
      split at h'
      · injection h' with h'
        rw [← h', foldl_set_length, readFlags_length]
      · rw [eliminate_count h', readFlags_length]
  | spike P t =>
    cases v with
    | nil => injection h with h; rw [← h]; rfl
    | cons r l =>
      have h' : spikeFlags G P t (r :: l) = .ok fl := h
      unfold spikeFlags at h'
      simp only [List.head?_cons] at h'
      rw [eliminate_count h', readFlags_length]

theorem writeFlags_put (t f : String) (fl : List Int) (v m : List Report) (hl : fl.length = v.length)
    (h : writeFlags v t f fl = .ok m) :
    m = List.zipWith (putFlag (t ++ f)) v fl ∧
      ∀ v', v'.length = v.length → writeFlags v' t f fl = .ok (List.zipWith (putFlag (t ++ f)) v' fl) := by
  unfold writeFlags at h ⊢
  induction v generalizing fl m with
  | nil =>
    cases fl with
    | cons x fl => cases hl
    | nil =>
      injection h with h
      refine ⟨h.symm, fun v' hv => ?_⟩
      rw [List.eq_nil_of_length_eq_zero hv]
      rfl
  | cons r v ih =>
    cases fl with
    | nil => cases hl
    | cons x fl =>
      rw [List.zip_cons_cons, List.mapM_cons] at h
      obtain ⟨r', h1, h⟩ := bind_ok_iff.mp h
      obtain ⟨m', h2, h⟩ := bind_ok_iff.mp h
      injection h with h
      obtain ⟨e1, hs⟩ := setQc_putFlag h1
      obtain ⟨e2, ht⟩ := ih fl m' (by simpa using hl) h2
      refine ⟨?_, fun v' hv => ?_⟩
      · rw [← h, e1, e2]; rfl
      · cases v' with
        | nil => cases hv
        | cons r2 v2 =>
          rw [List.zip_cons_cons, List.mapM_cons]
          exact bind_ok_iff.mpr ⟨_, hs r2, bind_ok_iff.mpr ⟨_, ht v2 (by simpa using hv), rfl⟩⟩

/-- What a call does to the reports, and that it does the same to the same reports with other flags. -/
theorem voyage_sets (G : Geo) (rnd : Rat → Rat) (c : VoyageCall) (v e : List Report)
    (h : c.perform G rnd v = .ok e) :
    ∃ xs : List Int, xs.length = v.length ∧ e = List.zipWith (putFlag (voyageFlag c)) v xs ∧
      ∀ v', SameReports v v' → c.perform G rnd v' = .ok (List.zipWith (putFlag (voyageFlag c)) v' xs) := by
  rw [voyage_perform_eq] at h
  obtain ⟨fl, h1, h⟩ := bind_ok_iff.mp h
  have hl := flags_length G rnd c v fl h1
  obtain ⟨e1, hw⟩ := writeFlags_put _ _ fl v e hl h
  rw [← voyageFlag_place] at e1 hw
  refine ⟨fl, hl, e1, fun v' hv => ?_⟩
  rw [voyage_perform_eq, ← flags_bare, bare_eq hv, flags_bare]
  exact bind_ok_iff.mpr ⟨fl, h1, hw v' hv.length_eq.symm⟩

theorem sameReports_put (key : String) (v : List Report) (xs : List Int) (hx : xs.length = v.length) :
    SameReports v (List.zipWith (putFlag key) v xs) := by
  induction v generalizing xs with
  | nil => cases xs <;> constructor
  | cons r v ih =>
    cases xs with
    | nil => cases hx
    | cons x xs => exact List.Forall₂.cons rfl (ih xs (by simpa using hx))

theorem sameReports_symm {v v' : List Report} (h : SameReports v v') : SameReports v' v := by
  induction h with
  | nil => constructor
  | cons h _ ih => exact List.Forall₂.cons (by rw [h]) ih

/-- C148: what a check of a voyage finds does not depend on any flags: of two voyages with the same reports but for
flags, if the first is checked without an error, so is the second; every report gets the same value of the flag the
check sets, and keeps all else. -/
theorem C148_blind (G : Geo) (rnd : Rat → Rat) (c : VoyageCall) (v v' e : List Report) (hv : SameReports v v')
    (h : c.perform G rnd v = .ok e) :
    ∃ e', c.perform G rnd v' = .ok e' ∧ e'.length = v'.length ∧
      ∀ (i : Nat) (r s t : Report), e[i]? = some r → v'[i]? = some s → e'[i]? = some t →
        t = { s with qc := t.qc } ∧ t.qc (voyageFlag c) = r.qc (voyageFlag c) ∧
        ∀ k, k ≠ voyageFlag c → t.qc k = s.qc k := by
  obtain ⟨xs, hx, e1, hl⟩ := voyage_sets G rnd c v e h
  refine ⟨_, hl v' hv, ?_, ?_⟩
  · simp [List.length_zipWith, hx, hv.length_eq]
  · intro i r s t h3 h4 h5
    rw [e1] at h3
    simp only [List.getElem?_zipWith] at h3 h5
    rw [h4] at h5
    cases hxi : xs[i]? with
    | none => rw [hxi] at h5; simp at h5
    | some x =>
      rw [hxi] at h3 h5
      cases hri : v[i]? with
      | none => rw [hri] at h3; simp at h3
      | some r0 =>
        rw [hri] at h3
        simp only [Option.some.injEq] at h3 h5
        subst h3 h5
        exact ⟨rfl, by simp [putFlag], fun k hk => if_neg hk⟩

/-- C148: repeating a check of a voyage changes nothing. -/
theorem C148_twice (G : Geo) (rnd : Rat → Rat) (c : VoyageCall) (v e : List Report)
    (h : c.perform G rnd v = .ok e) : c.perform G rnd e = .ok e := by
  obtain ⟨xs, hx, e1, hl⟩ := voyage_sets G rnd c v e h
  have h2 := hl _ (sameReports_put (voyageFlag c) v xs hx)
  rw [putFlags_again _ _ _ _ rfl, ← e1] at h2
  exact h2

/-- C148: two checks of a voyage that set different flags give the same in either order. -/
theorem C148_order (G : Geo) (rnd : Rat → Rat) (a b : VoyageCall) (v e f : List Report)
    (hab : voyageFlag a ≠ voyageFlag b) (h1 : a.perform G rnd v = .ok e) (h2 : b.perform G rnd e = .ok f) :
    ∃ g, b.perform G rnd v = .ok g ∧ a.perform G rnd g = .ok f := by
  obtain ⟨xs, hx, e1, hl⟩ := voyage_sets G rnd a v e h1
  obtain ⟨ys, hy, e2, hm⟩ := voyage_sets G rnd b e f h2
  have hs := sameReports_put (voyageFlag a) v xs hx
  have hlen : ys.length = v.length := by rw [hy, e1]; simp [hx]
  have h3 := hm v (by rw [e1]; exact sameReports_symm hs)
  refine ⟨_, h3, ?_⟩
  refine (hl _ (sameReports_put (voyageFlag b) v ys hlen)).trans ?_
  rw [e2, e1, putFlags_comm hab]

/-- Non-vacuity of C148: on the sample voyage the iQuam track check completes and flags a report; the check of rounded
values completes after it; they set different flags. -/
example : ∃ (a b : VoyageCall) (e f : List Report), voyageFlag a ≠ voyageFlag b ∧
    a.perform flatGeo id sampleTrack = .ok e ∧ (e.map fun r => r.qc "POSiquam_track") = [0, 0, 1, 0].map some ∧
    b.perform flatGeo id e = .ok f := by
  have h : (VoyageCall.iquam ⟨15, 60, 0, 1 / 100, 3⟩).flags flatGeo id sampleTrack = .ok [0, 0, 1, 0] := by
    decide +kernel
  obtain ⟨e, he⟩ := writeFlags_ok (v := sampleTrack) (t := "POS") (f := "iquam_track") (fl := [0, 0, 1, 0])
    (by decide) (by decide)
  obtain ⟨-, f, hf⟩ := C42_completes id 4 (1 / 2) "SST" e (by decide) (by norm_num) (by norm_num) (by norm_num)
  refine ⟨.iquam ⟨15, 60, 0, 1 / 100, 3⟩, .rounded 4 (1 / 2) "SST", e, f,
    (by decide : "POSiquam_track" ≠ "SST" ++ "round"), ?_, ?_, hf⟩
  · rw [voyage_perform_eq]
    exact bind_ok_iff.mpr ⟨_, h, he⟩
  · rw [(writeFlags_put _ _ _ _ _ rfl he).1]
    rfl

end MarineQC
