import Verif.Track.Complete
import Mathlib.Data.List.Nodup

/-!
# C46: the MDS track check and its repetition
-/

namespace MarineQC

namespace Spec

/-- The first report has a generic identifier. -/
def GenericVoyage (v : List Report) : Prop :=
  ∃ r, v.head? = some r ∧ idIsGeneric r.id (r.getint "YR") = true

/-- The flags set by the MDS track check. -/
def mdsFlags : List String := ["POSbad_track", "POSfewsome_check"]

/-- One pass over the reports not yet flagged: `refs` are the positions of flag 0 in the list of flags `m`, in
order.  The reports there are put into a new voyage and checked.  Afterwards the positions `refs` have the
flags and the reports that came out of the check and the others are as before. -/
def PassOver (G : Geo) (v : List Report) (m : List Int) (v' : List Report) (m' out : List Int) : Prop :=
  ∃ (refs : List Nat) (reps temp temp' : List Report),
    refs.Pairwise (· < ·) ∧ (∀ j, j ∈ refs ↔ j < v.length ∧ m[j]? = some 0)
    ∧ reps.length = refs.length ∧ (∀ (k j : Nat), refs[k]? = some j → reps[k]? = v[j]?)
    ∧ reps.foldlM (addReport G) [] = .ok temp ∧ mdsTrackCheck G temp = .ok (out, temp')
    ∧ v'.length = v.length ∧ m'.length = m.length
    ∧ (∀ (k j : Nat), refs[k]? = some j → m'[j]? = out[k]? ∧ v'[j]? = temp'[k]?)
    ∧ ∀ j, j ∉ refs → m'[j]? = m[j]? ∧ v'[j]? = v[j]?

/-- `k` passes after one another, each of them done only because the one before flagged something.  The state
is the voyage, the flags of all reports and the flags that came out of the last pass. -/
inductive PassSeq (G : Geo) : Nat → List Report → List Int → List Int → List Report → List Int → List Int → Prop
  | none (v m out) : PassSeq G 0 v m out v m out
  | more {k v m out v1 m1 out1 v2 m2 out2} (hflag : 1 ∈ out) (h : PassOver G v m v1 m1 out1)
      (rest : PassSeq G k v1 m1 out1 v2 m2 out2) : PassSeq G (k + 1) v m out v2 m2 out2

end Spec

open Spec

theorem trackFlags_single {G : Geo} {P : TrackParams} {v : List Report} {fl : List Int} (hn : v.length = 1)
    (h : trackFlags G P v = .ok fl) : fl = [0, 0] := by
  unfold trackFlags at h
  cases e0 : meansp v with
  | error e => simp [e0] at h
  | ok ms =>
  cases e1 : getSpeed v with
  | error e => simp [e0, e1] at h
  | ok spd =>
  cases e2 : modesp spd with
  | error e => simp [e0, e1, e2] at h
  | ok mode =>
  cases e3 : distr1 G v with
  | error e => simp [e0, e1, e2, e3] at h
  | ok fwd =>
  cases e4 : distr2 G v with
  | error e => simp [e0, e1, e2, e3, e4] at h
  | ok rev =>
  cases e5 : midpt G v with
  | error e => simp [e0, e1, e2, e3, e4, e5] at h
  | ok mid =>
    simp [e0, e1, e2, e3, e4, e5, hn] at h
    exact h.symm

theorem sameButTrack_of_qc {names : List String} {r r' : Report} (h1 : r' = { r with qc := r'.qc })
    (h2 : ∀ k, k ∉ names → r'.qc k = r.qc k) : SameButTrack names r r' := by
  rw [h1]
  exact ⟨rfl, rfl, rfl, rfl, rfl, fun _ _ => rfl, h2⟩

theorem sameButTrack_trans {names : List String} {a b c : Report} (h1 : SameButTrack [] a b)
    (h2 : SameButTrack names b c) : SameButTrack names a c := by
  obtain ⟨q1, q2, q3, q4, q5, q6, q7⟩ := h1
  obtain ⟨p1, p2, p3, p4, p5, p6, p7⟩ := h2
  refine ⟨p1.trans q1, p2.trans q2, p3.trans q3, p4.trans q4, p5.trans q5, ?_, ?_⟩
  · intro k hk; rw [p6 k hk, q6 k hk]
  · intro k hk; rw [p7 k hk, q7 k (by simp)]

/-- The three ways through `mds_track_check`. -/
theorem mds_cases {G : Geo} {v v' : List Report} {fl : List Int} (h : mdsTrackCheck G v = .ok (fl, v')) :
    (v = [] ∧ fl = [] ∧ v' = [])
    ∨ (v ≠ [] ∧ GenericVoyage v ∧ fl = v.map (fun _ => 0) ∧ writeFlags v "POS" "bad_track" fl = .ok v')
    ∨ (v ≠ [] ∧ ¬ GenericVoyage v ∧ v.length < 3 ∧ ¬ EarlyDeck720 v ∧ fl = v.map (fun _ => 0)
      ∧ writeFlags v "POS" "fewsome_check" (v.map fun _ => 1) = .ok v')
    ∨ (v ≠ [] ∧ ¬ GenericVoyage v ∧ (3 ≤ v.length ∨ EarlyDeck720 v) ∧ ∃ v1, calcAlternate G v = .ok v1
      ∧ trackFlags G mdsParams v1 = .ok fl
      ∧ writeBoth v1 "bad_track" "fewsome_check" (fl.take v1.length) (v1.map fun _ => 0) = .ok v') := by
  unfold mdsTrackCheck at h
  cases hh : v.head? with
  | none =>
    rw [hh] at h
    simp only [Except.ok.injEq, Prod.mk.injEq] at h
    have : v = [] := by simpa using hh
    exact Or.inl ⟨this, h.1.symm, by rw [← h.2, this]⟩
  | some r0 =>
    have hne : v ≠ [] := by rintro rfl; simp at hh
    rw [hh] at h
    simp only at h
    have hex : idIsGeneric r0.id (r0.getint "YR") = true ↔ GenericVoyage v := by
      unfold GenericVoyage
      rw [hh]
      simp
    right
    by_cases hg : GenericVoyage v
    · rw [if_pos (hex.2 hg)] at h
      cases hw : writeFlags v "POS" "bad_track" (v.map fun _ => 0) with
      | error e => rw [hw] at h; simp at h
      | ok w =>
        simp only [hw, except_bind_ok, except_pure, Except.ok.injEq, Prod.mk.injEq] at h
        exact Or.inl ⟨hne, hg, h.1.symm, by rw [← h.1, hw, h.2]⟩
    · rw [if_neg (fun hc => hg (hex.1 hc))] at h
      right
      by_cases hs : v.length < 3 ∧ ¬ EarlyDeck720 v
      · have hs' : v.length < 3 ∧ ¬ earlyDeck720 r0 = true := ⟨hs.1, fun hc => hs.2 ((earlyDeck720_iff hh).1 hc)⟩
        rw [if_pos hs'] at h
        cases hw : writeFlags v "POS" "fewsome_check" (v.map fun _ => 1) with
        | error e => rw [hw] at h; simp at h
        | ok w =>
          simp only [hw, except_bind_ok, except_pure, Except.ok.injEq, Prod.mk.injEq] at h
          exact Or.inl ⟨hne, hg, hs.1, hs.2, h.1.symm, by rw [h.2]⟩
      · have hs' : ¬ (v.length < 3 ∧ ¬ earlyDeck720 r0 = true) := fun hc =>
          hs ⟨hc.1, fun hd => hc.2 ((earlyDeck720_iff hh).2 hd)⟩
        rw [if_neg hs'] at h
        cases h1 : calcAlternate G v with
        | error e => simp [h1] at h
        | ok v1 =>
        cases h2 : trackFlags G mdsParams v1 with
        | error e => simp [h1, h2] at h
        | ok fl' =>
        cases hw : writeBoth v1 "bad_track" "fewsome_check" (fl'.take v1.length) (v1.map fun _ => 0) with
        | error e => simp only [h1, h2, hw, except_bind_ok] at h; simp at h
        | ok w =>
          simp only [h1, h2, hw, except_bind_ok, except_pure, Except.ok.injEq, Prod.mk.injEq] at h
          obtain ⟨rfl, rfl⟩ := h
          refine Or.inr ⟨hne, hg, ?_, v1, rfl, h2, hw⟩
          by_contra hc
          push Not at hc
          exact hs ⟨by omega, hc.2⟩

/-- C46. Every flag returned by `mds_track_check` is 0 or 1; there is one per report except that a single
report from deck 720 before 1891 gets two; the first and the last are 0.  Nothing about the reports changes but
the flags `bad_track` and `fewsome_check` and the alternate differences. -/
theorem C46_pass_partial (G : Geo) (v v' : List Report) (fl : List Int)
    (h : mdsTrackCheck G v = .ok (fl, v')) :
    (fl.length = v.length ∨ (v.length = 1 ∧ EarlyDeck720 v ∧ fl = [0, 0]))
      ∧ (∀ x ∈ fl, x = 0 ∨ x = 1)
      ∧ (v ≠ [] → fl[0]? = some 0 ∧ fl[v.length - 1]? = some 0)
      ∧ v'.length = v.length
      ∧ ∀ (j : Nat) (r r' : Report), v[j]? = some r → v'[j]? = some r' → SameButTrack mdsFlags r r' := by
  have zero : ∀ x ∈ v.map (fun _ => (0 : Int)), x = 0 ∨ x = 1 := by
    intro x hx
    obtain ⟨_, -, rfl⟩ := List.mem_map.1 hx
    exact Or.inl rfl
  have ends : v ≠ [] → (v.map (fun _ => (0 : Int)))[0]? = some 0
      ∧ (v.map (fun _ => (0 : Int)))[v.length - 1]? = some 0 := by
    intro hne
    have := List.length_pos_iff.2 hne
    constructor
    · rw [List.getElem?_map, List.getElem?_eq_getElem this]; rfl
    · rw [List.getElem?_map, List.getElem?_eq_getElem (by omega)]; rfl
  rcases mds_cases h with ⟨rfl, rfl, rfl⟩ | ⟨hne, -, rfl, hw⟩ | ⟨hne, -, -, -, rfl, hw⟩
      | ⟨hne, -, hc, v1, h1, h2, hw⟩
  · exact ⟨Or.inl rfl, by simp, by simp, rfl, by simp⟩
  · obtain ⟨w1, w2⟩ := writeFlags_spec (by simp) hw
    refine ⟨Or.inl (by simp), zero, ends, w1, fun j r r' hr hr' => ?_⟩
    obtain ⟨-, w3, w4⟩ := w2 j r r' hr hr'
    exact sameButTrack_of_qc w3 (fun k hk => w4 k (by rintro rfl; exact hk (by decide)))
  · obtain ⟨w1, w2⟩ := writeFlags_spec (by simp) hw
    refine ⟨Or.inl (by simp), zero, ends, w1, fun j r r' hr hr' => ?_⟩
    obtain ⟨-, w3, w4⟩ := w2 j r r' hr hr'
    exact sameButTrack_of_qc w3 (fun k hk => w4 k (by rintro rfl; exact hk (by decide)))
  · obtain ⟨a1, a2⟩ := calcAlternate_spec h1
    have hpos := List.length_pos_iff.2 hne
    have hcount : fl.length = v.length ∨ (v.length = 1 ∧ EarlyDeck720 v ∧ fl = [0, 0]) := by
      by_cases hn : v.length = 1
      · right
        refine ⟨hn, ?_, trackFlags_single (by omega) h2⟩
        rcases hc with hc | hc
        · omega
        · exact hc
      · left
        rw [(trackFlags_spec (by omega) h2).1, a1]
    have hbits : ∀ x ∈ fl, x = 0 ∨ x = 1 := by
      by_cases hn : v.length = 1
      · rw [trackFlags_single (by omega) h2]; simp
      · exact trackFlags_bits (by omega) h2
    have hends : fl[0]? = some 0 ∧ fl[v.length - 1]? = some 0 := by
      by_cases hn : v.length = 1
      · rw [trackFlags_single (by omega) h2, hn]; exact ⟨rfl, rfl⟩
      · obtain ⟨-, f2, f3, -⟩ := trackFlags_spec (by omega) h2
        rw [a1] at f3
        exact ⟨f2, f3⟩
    have htake : (fl.take v1.length).length = v1.length := by
      rw [List.length_take]
      rcases hcount with hc | ⟨hc, -, rfl⟩
      · omega
      · simp; omega
    obtain ⟨w1, w2⟩ := writeBoth_spec htake (by simp) (by decide) hw
    refine ⟨hcount, hbits, fun _ => hends, by omega, fun j r r' hr hr' => ?_⟩
    obtain ⟨o, o1, -⟩ := a2 j r hr
    obtain ⟨-, -, w3, w4⟩ := w2 j _ r' o1 hr'
    exact sameButTrack_trans (setAlt_same r o) (sameButTrack_of_qc w3
      (fun k hk => w4 k (by have e : ["POS" ++ "bad_track", "POS" ++ "fewsome_check"] = mdsFlags := by decide
                            rw [e]; exact hk)))

/-- C46. Generic voyages and those of fewer than three reports are not flagged.  Otherwise the flag of a report
between two others is 1 exactly if it fails the track check against its neighbours with the limit set from the
modal speed, and the report's `bad_track` is the flag returned. -/
theorem C46_pass_decision (G : Geo) (v v' : List Report) (fl : List Int)
    (h : mdsTrackCheck G v = .ok (fl, v')) :
    (GenericVoyage v ∨ v.length < 3 → ∀ x ∈ fl, x = 0)
    ∧ (¬ GenericVoyage v → 3 ≤ v.length → ∃ spd mode, getSpeed v = .ok spd ∧ modesp spd = .ok mode
      ∧ (∀ (j : Nat) (r : Report), v'[j]? = some r → fl[j]? = some (r.getQc "POS" "bad_track")
        ∧ r.getQc "POS" "fewsome_check" = 0)
      ∧ ∀ (i : Nat) (a b c : Report), v'[i]? = some a → v'[i + 1]? = some b → v'[i + 2]? = some c →
        (fl[i + 1]? = some 1 ↔ TrackFails G mdsParams (setSpeedLimits mode).1 a b c)) := by
  have zero : ∀ x ∈ v.map (fun _ => (0 : Int)), x = 0 := by
    intro x hx
    obtain ⟨_, -, rfl⟩ := List.mem_map.1 hx
    rfl
  rcases mds_cases h with ⟨rfl, rfl, rfl⟩ | ⟨hne, hg, rfl, hw⟩ | ⟨hne, -, hn, -, rfl, hw⟩
      | ⟨hne, hg, hc, v1, h1, h2, hw⟩
  · exact ⟨by simp, by simp⟩
  · exact ⟨fun _ => zero, fun hc => absurd hg hc⟩
  · exact ⟨fun _ => zero, fun _ hc => by omega⟩
  · obtain ⟨a1, a2⟩ := calcAlternate_spec h1
    constructor
    · rintro (hg' | hn)
      · exact absurd hg' hg
      · have hpos := List.length_pos_iff.2 hne
        by_cases h1' : v.length = 1
        · rw [trackFlags_single (by omega) h2]; simp
        · obtain ⟨f1, f2, f3, -⟩ := trackFlags_spec (by omega) h2
          intro x hx
          obtain ⟨j, hj⟩ := List.mem_iff_getElem?.1 hx
          have hjl := lt_of_get hj
          have : j = 0 ∨ j = v1.length - 1 := by omega
          rcases this with rfl | rfl
          · rw [f2, Option.some.injEq] at hj; exact hj.symm
          · rw [f3, Option.some.injEq] at hj; exact hj.symm
    · intro _ hn
      obtain ⟨f1, f2, f3, spd, mode, s1, s2, f4⟩ := trackFlags_spec (by omega) h2
      have htake : fl.take v1.length = fl := List.take_of_length_le (by omega)
      rw [htake] at hw
      obtain ⟨w1, w2⟩ := writeBoth_spec f1 (by simp) (by decide) hw
      have back : ∀ (j : Nat) (r' : Report), v'[j]? = some r' → ∃ r1, v1[j]? = some r1
          ∧ r' = { r1 with qc := r'.qc } ∧ fl[j]? = some (r'.getQc "POS" "bad_track")
          ∧ r'.getQc "POS" "fewsome_check" = 0 := by
        intro j r' hr'
        have hj := lt_of_get hr'
        have hr1 : v1[j]? = some (v1[j]'(by omega)) := List.getElem?_eq_getElem (by omega)
        obtain ⟨t1, t2, t3, -⟩ := w2 j _ r' hr1 hr'
        refine ⟨_, hr1, t3, t1, ?_⟩
        rw [List.getElem?_map, hr1] at t2
        simpa using t2.symm
      have gv : ∀ r1 r' : Report, r' = { r1 with qc := r'.qc } → r'.getvar = r1.getvar := by
        intro r1 r' e
        exact getvar_ext_data (by rw [e]) (by rw [e])
      refine ⟨spd, mode, ?_, s2, ?_, ?_⟩
      · rw [← s1]
        symm
        apply getSpeed_congr a1
        intro j r r' hr hr'
        obtain ⟨o, o1, -⟩ := a2 j r hr
        rw [hr', Option.some.injEq] at o1
        rw [o1]
        simp [Report.setAlt, Report.setext]
      · intro j r hr
        obtain ⟨r1, -, -, b3, b4⟩ := back j r hr
        exact ⟨b3, b4⟩
      · intro i a b c ha hb hc
        obtain ⟨a', ea, ga, -⟩ := back _ a ha
        obtain ⟨b', eb, gb, fb, -⟩ := back _ b hb
        obtain ⟨c', ec, gc, -⟩ := back _ c hc
        obtain ⟨x, x1, -, x3⟩ := f4 i a' b' c' ea eb ec
        rw [x1, Option.some.injEq, x3]
        exact (trackFails_congr (gv _ _ ga) (gv _ _ gb) (gv _ _ gc)).symm

/-! ## The repetition -/

theorem setAt_get {α : Type} (l : List α) (ps : List (Nat × α)) (hnd : (ps.map (·.1)).Nodup) :
    (ps.foldl (fun m p => m.set p.1 p.2) l).length = l.length
      ∧ (∀ p ∈ ps, p.1 < l.length → (ps.foldl (fun m p => m.set p.1 p.2) l)[p.1]? = some p.2)
      ∧ ∀ j, j ∉ ps.map (·.1) → (ps.foldl (fun m p => m.set p.1 p.2) l)[j]? = l[j]? := by
  induction ps generalizing l with
  | nil => exact ⟨rfl, by simp, by simp⟩
  | cons q ps ih =>
    rw [List.map_cons, List.nodup_cons] at hnd
    obtain ⟨i1, i2, i3⟩ := ih (l.set q.1 q.2) hnd.2
    rw [List.foldl_cons]
    refine ⟨by rw [i1, List.length_set], ?_, ?_⟩
    · intro p hp hlt
      rw [List.mem_cons] at hp
      rcases hp with rfl | hp
      · rw [i3 _ hnd.1, List.getElem?_set_self hlt]
      · exact i2 p hp (by rw [List.length_set]; exact hlt)
    · intro j hj
      rw [List.map_cons, List.mem_cons, not_or] at hj
      rw [i3 j hj.2, List.getElem?_set_ne (Ne.symm hj.1)]

theorem unflagged_spec {n : Nat} {m : List Int} {refs : List Nat} (h : unflagged n m = .ok refs) :
    refs.Pairwise (· < ·) ∧ ∀ j, j ∈ refs ↔ j < n ∧ m[j]? = some 0 := by
  unfold unflagged at h
  cases e : (List.range n).mapM (fun i : Nat => pyIndex m (i : Int)) with
  | error e' => simp [e] at h
  | ok fl =>
    simp only [e, except_bind_ok, except_pure, Except.ok.injEq] at h
    subst h
    obtain ⟨-, g⟩ := mapM_get e
    refine ⟨List.Pairwise.filter _ List.pairwise_lt_range, fun j => ?_⟩
    rw [List.mem_filter, List.mem_range, decide_eq_true_eq]
    refine and_congr_right fun hj => ?_
    obtain ⟨y, y1, y2⟩ := g j j (by simp [hj])
    rw [y2, pyIndex_ok y1]

theorem fullPass_spec {G : Geo} {v v' : List Report} {m m' out : List Int}
    (h : fullPass G v m = .ok (v', m', out)) : PassOver G v m v' m' out := by
  unfold fullPass at h
  cases e1 : unflagged v.length m with
  | error e => simp [e1] at h
  | ok refs =>
  cases e2 : rebuild G v refs with
  | error e => simp [e1, e2] at h
  | ok temp =>
  cases e3 : mdsTrackCheck G temp with
  | error e => simp [e1, e2, e3] at h
  | ok o =>
  obtain ⟨ofl, temp'⟩ := o
  simp only [e1, e2, e3, except_bind_ok] at h
  cases e4 : refs.zipIdx.mapM (flagAt ofl) with
  | error e => simp [e4] at h
  | ok pairs =>
    simp only [e4, except_bind_ok, except_pure, Except.ok.injEq, Prod.mk.injEq] at h
    obtain ⟨rfl, rfl, rfl⟩ := h
    obtain ⟨u1, u2⟩ := unflagged_spec e1
    have hnd : refs.Nodup := u1.imp (fun h => Nat.ne_of_lt h)
    unfold rebuild at e2
    cases e5 : refs.mapM (fun i : Nat => pyIndex v (i : Int)) with
    | error e => simp [e5] at e2
    | ok reps =>
    rw [e5, except_bind_ok] at e2
    obtain ⟨r1, r2⟩ := mapM_get e5
    obtain ⟨p1, p2⟩ := mapM_get e4
    rw [List.length_zipIdx] at p1
    have hpair : ∀ (k j : Nat), refs[k]? = some j → ∃ x, pairs[k]? = some (j, x) ∧ ofl[k]? = some x := by
      intro k j hk
      obtain ⟨y, y1, y2⟩ := p2 k (j, k) (by rw [List.getElem?_zipIdx, hk]; simp)
      simp only [flagAt] at y1
      cases e : pyIndex ofl (k : Int) with
      | error e' => simp [e] at y1
      | ok x =>
        simp only [e, except_bind_ok, except_pure, Except.ok.injEq] at y1
        exact ⟨x, by rw [y2, y1], pyIndex_ok e⟩
    have hfst : pairs.map (·.1) = refs := by
      apply List.ext_getElem?
      intro k
      rw [List.getElem?_map]
      cases hk : refs[k]? with
      | none =>
        have : refs.length ≤ k := by
          by_contra hc
          rw [List.getElem?_eq_getElem (by omega)] at hk; simp at hk
        rw [List.getElem?_eq_none (by omega)]; rfl
      | some j =>
        obtain ⟨x, x1, -⟩ := hpair k j hk
        rw [x1]; rfl
    obtain ⟨s1, s2, s3⟩ := setAt_get m pairs (by rw [hfst]; exact hnd)
    have htl : temp.length = refs.length := by
      have := (C40_add_report G reps temp e2).1.length_eq
      omega
    have hl' := (C46_pass_partial G temp temp' ofl e3).2.2.2.1
    have hfst2 : (refs.zip temp').map (·.1) = refs := List.map_fst_zip (by omega)
    obtain ⟨t1, t2, t3⟩ := setAt_get v (refs.zip temp') (by rw [hfst2]; exact hnd)
    refine ⟨refs, reps, temp, temp', u1, u2, r1, ?_, e2, e3, t1, s1, ?_, ?_⟩
    · intro k j hk
      obtain ⟨y, y1, y2⟩ := r2 k j hk
      rw [y2]
      have hj : j < v.length := ((u2 j).1 (List.mem_of_getElem? hk)).1
      rw [pyIndex_get (List.getElem?_eq_getElem hj), Except.ok.injEq] at y1
      rw [List.getElem?_eq_getElem hj, y1]
    · intro k j hk
      have hj := (u2 j).1 (List.mem_of_getElem? hk)
      constructor
      · obtain ⟨x, x1, x2⟩ := hpair k j hk
        rw [x2]
        exact s2 (j, x) (List.mem_of_getElem? x1) (lt_of_get hj.2)
      · have hk' := lt_of_get hk
        have e : temp'[k]? = some (temp'[k]'(by omega)) := List.getElem?_eq_getElem (by omega)
        rw [e]
        refine t2 (j, temp'[k]'(by omega)) ?_ hj.1
        refine List.mem_of_getElem? (i := k) ?_
        rw [List.getElem?_zip_eq_some]
        exact ⟨hk, e⟩
    · intro j hj
      constructor
      · exact s3 j (by rw [hfst]; exact hj)
      · exact t3 j (by rw [hfst2]; exact hj)

/-- The invariant of the repetition. -/
structure PassInv (v : List Report) (m : List Int) : Prop where
  two : 2 ≤ v.length
  len : m.length = v.length
  bits : ∀ x ∈ m, x = 0 ∨ x = 1
  first : m[0]? = some 0
  last : m[v.length - 1]? = some 0

theorem passOver_inv {G : Geo} {v v' : List Report} {m m' out : List Int} (hi : PassInv v m)
    (h : PassOver G v m v' m' out) :
    PassInv v' m' ∧ v'.length = v.length ∧ (∀ j : Nat, m[j]? = some 1 → m'[j]? = some 1)
      ∧ (∀ x ∈ out, x = 0 ∨ x = 1) ∧ out ≠ [] := by
  obtain ⟨refs, reps, temp, temp', u1, u2, r1, r2, e2, e3, t1, s1, c1, c2⟩ := h
  obtain ⟨p1, p2, p3, p4, -⟩ := C46_pass_partial G temp temp' out e3
  have htl : temp.length = refs.length := by
    have := (C40_add_report G reps temp e2).1.length_eq
    omega
  have two := hi.two
  have hml := hi.len
  have h0 : 0 ∈ refs := (u2 0).2 ⟨by omega, hi.first⟩
  have hL : v.length - 1 ∈ refs := (u2 _).2 ⟨by omega, hi.last⟩
  obtain ⟨k0, hk0⟩ := List.mem_iff_getElem?.1 h0
  obtain ⟨kL, hkL⟩ := List.mem_iff_getElem?.1 hL
  have hlt0 := lt_of_get hk0
  have hltL := lt_of_get hkL
  have mono : ∀ a b (ha : a < refs.length) (hb : b < refs.length), a < b → refs[a] < refs[b] :=
    fun a b ha hb hab => (List.pairwise_iff_getElem.1 u1) a b ha hb hab
  have hk0' : refs[k0] = 0 := by rw [List.getElem?_eq_getElem hlt0] at hk0; simpa using hk0
  have hkL' : refs[kL] = v.length - 1 := by rw [List.getElem?_eq_getElem hltL] at hkL; simpa using hkL
  have e0 : k0 = 0 := by
    by_contra hc
    have := mono 0 k0 (by omega) hlt0 (by omega)
    omega
  have eL : kL = refs.length - 1 := by
    by_contra hc
    have h1 := mono kL (refs.length - 1) hltL (by omega) (by omega)
    have h2 := ((u2 refs[refs.length - 1]).1 (List.getElem_mem _)).1
    omega
  have hlen2 : 2 ≤ refs.length := by
    by_contra hc
    have : k0 = kL := by omega
    subst this
    omega
  have hne : temp ≠ [] := by rintro rfl; simp at htl; omega
  obtain ⟨q1, q2⟩ := p3 hne
  refine ⟨⟨by omega, by omega, ?_, ?_, ?_⟩, t1, ?_, p2, ?_⟩
  · intro x hx
    obtain ⟨j, hj⟩ := List.mem_iff_getElem?.1 hx
    by_cases hr : j ∈ refs
    · obtain ⟨k, hk⟩ := List.mem_iff_getElem?.1 hr
      rw [(c1 k j hk).1] at hj
      exact p2 x (List.mem_of_getElem? hj)
    · rw [(c2 j hr).1] at hj
      exact hi.bits x (List.mem_of_getElem? hj)
  · rw [(c1 k0 0 hk0).1, e0, q1]
  · rw [t1, (c1 kL _ hkL).1, eL, ← htl, q2]
  · intro j hj
    have : j ∉ refs := by
      intro hr
      have := ((u2 j).1 hr).2
      rw [hj] at this
      simp at this
    rw [(c2 j this).1, hj]
  · rintro rfl
    simp at q1

theorem passes_inv {G : Geo} {k : Nat} {v v' : List Report} {m out m' out' : List Int}
    (h : PassSeq G k v m out v' m' out') (hi : PassInv v m) (hb : ∀ x ∈ out, x = 0 ∨ x = 1) (hne : out ≠ []) :
    PassInv v' m' ∧ v'.length = v.length ∧ (∀ j : Nat, m[j]? = some 1 → m'[j]? = some 1)
      ∧ (∀ x ∈ out', x = 0 ∨ x = 1) ∧ out' ≠ [] := by
  induction h with
  | none => exact ⟨hi, rfl, fun _ h => h, hb, hne⟩
  | more hflag h rest ih =>
    obtain ⟨a1, a2, a3, a4, a5⟩ := passOver_inv hi h
    obtain ⟨b1, b2, b3, b4, b5⟩ := ih a1 a4 a5
    exact ⟨b1, by omega, fun j hj => b3 j (a3 j hj), b4, b5⟩

theorem fullLoop_spec {G : Geo} {n : Nat} {v v' : List Report} {m qcs m' : List Int}
    (hb : ∀ x ∈ qcs, x = 0 ∨ x = 1) (hi : PassInv v m) (h : fullLoop G n v m qcs = .ok (v', m')) :
    ∃ k out, k ≤ n ∧ PassSeq G k v m qcs v' m' out ∧ (k < n → 1 ∉ out) := by
  induction n generalizing v m qcs with
  | zero =>
    unfold fullLoop at h
    split at h
    · simp at h
    · simp only [Except.ok.injEq, Prod.mk.injEq] at h
      obtain ⟨rfl, rfl⟩ := h
      exact ⟨0, qcs, le_refl _, .none _ _ _, by omega⟩
  | succ n ih =>
    unfold fullLoop at h
    split at h
    · simp at h
    · split at h
      · rename_i hany
        rw [List.any_eq_true] at hany
        obtain ⟨q, hq1, hq2⟩ := hany
        have h1 : (1 : Int) ∈ qcs := by
          rcases hb q hq1 with rfl | rfl
          · simp at hq2
          · exact hq1
        cases e : fullPass G v m with
        | error e' => simp [e] at h
        | ok s =>
          obtain ⟨v1, m1, out1⟩ := s
          simp only [e, except_bind_ok] at h
          have hp := fullPass_spec e
          obtain ⟨i1, -, -, i4, -⟩ := passOver_inv hi hp
          obtain ⟨k, out, k1, k2, k3⟩ := ih i4 i1 h
          exact ⟨k + 1, out, by omega, .more h1 hp k2, fun hk => k3 (by omega)⟩
      · rename_i hany
        simp only [Except.ok.injEq, Prod.mk.injEq] at h
        obtain ⟨rfl, rfl⟩ := h
        refine ⟨0, qcs, by omega, .none _ _ _, fun _ h1 => hany ?_⟩
        rw [List.any_eq_true]
        exact ⟨1, h1, by decide⟩

/-- C46. When the full check returns: every report of a non-empty voyage has a `bad_track` flag of 0 or 1, the
first and the last 0.  The flags are those after a first pass over all the reports and at most four passes
over the reports not yet flagged, stopping early exactly when a pass flags nothing; a report flagged in the
first pass is flagged in the end. -/
theorem C46_full (G : Geo) (v v' : List Report) (h : mdsFullTrackCheck G v = .ok v') :
    v'.length = v.length
      ∧ (∀ r ∈ v', r.getQc "POS" "bad_track" = 0 ∨ r.getQc "POS" "bad_track" = 1)
      ∧ (∀ r, v'.head? = some r → r.getQc "POS" "bad_track" = 0)
      ∧ (∀ r, v'.getLast? = some r → r.getQc "POS" "bad_track" = 0)
      ∧ ∃ fl v1 k v2 m out, mdsTrackCheck G v = .ok (fl, v1) ∧ k ≤ 4 ∧ PassSeq G k v1 fl fl v2 m out
        ∧ (k < 4 → 1 ∉ out)
        ∧ (∀ (j : Nat) (r : Report), v'[j]? = some r → m[j]? = some (r.getQc "POS" "bad_track"))
        ∧ ∀ (j : Nat) (r : Report), v'[j]? = some r → fl[j]? = some 1 → r.getQc "POS" "bad_track" = 1 := by
  unfold mdsFullTrackCheck at h
  cases e1 : mdsTrackCheck G v with
  | error e => simp [e1] at h
  | ok o =>
  obtain ⟨fl, v1⟩ := o
  rw [e1, except_bind_ok] at h
  simp only at h
  obtain ⟨p1, p2, p3, p4, -⟩ := C46_pass_partial G v v1 fl e1
  -- the loop
  have hloop : ∃ v2 m k out, writeFlags v2 "POS" "bad_track" (m.take v2.length) = .ok v' ∧ k ≤ 4
      ∧ PassSeq G k v1 fl fl v2 m out ∧ (k < 4 → 1 ∉ out) ∧ v2.length = v.length
      ∧ (v.length ≤ m.length) ∧ (∀ x ∈ m, x = 0 ∨ x = 1) ∧ (v ≠ [] → m[0]? = some 0)
      ∧ (v ≠ [] → m[v.length - 1]? = some 0) ∧ ∀ j : Nat, fl[j]? = some 1 → m[j]? = some 1 := by
    by_cases hn : 2 ≤ v.length
    · have hfl : fl.length = v.length := by
        rcases p1 with h | ⟨h, -⟩
        · exact h
        · omega
      have hne : v ≠ [] := by rintro rfl; simp at hn
      have hi : PassInv v1 fl := ⟨by omega, by omega, p2, (p3 hne).1, by rw [p4]; exact (p3 hne).2⟩
      rw [if_pos (by omega)] at h
      cases e2 : fullLoop G 4 v1 fl fl with
      | error e => simp [e2] at h
      | ok s =>
        obtain ⟨v2, m⟩ := s
        rw [e2, except_bind_ok] at h
        obtain ⟨k, out, k1, k2, k3⟩ := fullLoop_spec p2 hi e2
        obtain ⟨i1, i2, i3, -⟩ := passes_inv k2 hi p2 (by rintro rfl; simp at hfl; omega)
        exact ⟨v2, m, k, out, h, k1, k2, k3, by omega, by rw [i1.len]; omega, i1.bits, fun _ => i1.first,
          fun _ => by have := i1.last; rwa [i2, p4] at this, i3⟩
    · have hz : ∀ x ∈ fl, x = 0 := (C46_pass_decision G v v1 fl e1).1 (Or.inr (by omega))
      have hflen : v.length ≤ fl.length := by
        rcases p1 with h | ⟨h, -, rfl⟩
        · omega
        · simp; omega
      refine ⟨v1, fl, 0, fl, ?_, by omega, .none _ _ _, ?_, by omega, hflen, p2, fun hne => (p3 hne).1,
        fun hne => (p3 hne).2, fun _ h => h⟩
      · by_cases hl : fl.length > 0
        · rw [if_pos hl] at h
          have : fullLoop G 4 v1 fl fl = .ok (v1, fl) := by
            unfold fullLoop
            rw [if_neg (by rintro rfl; simp at hl), if_neg]
            rw [List.any_eq_true]
            rintro ⟨x, hx, hx'⟩
            rw [hz x hx] at hx'
            simp at hx'
          rw [this, except_bind_ok] at h
          exact h
        · rw [if_neg hl, except_bind_ok] at h
          exact h
      · intro _ h1
        have := hz 1 h1
        omega
  obtain ⟨v2, m, k, out, hw, k1, k2, k3, hl2, hm, hbits, hm0, hmL, hmono⟩ := hloop
  have htake : (m.take v2.length).length = v2.length := by rw [List.length_take]; omega
  obtain ⟨w1, w2⟩ := writeFlags_spec htake hw
  have hget : ∀ (j : Nat) (r : Report), v'[j]? = some r → m[j]? = some (r.getQc "POS" "bad_track") := by
    intro j r hr
    have hj := lt_of_get hr
    obtain ⟨⟨x, x1, x2⟩, -⟩ := w2 j _ r (List.getElem?_eq_getElem (by omega)) hr
    rw [List.getElem?_take, if_pos (by omega)] at x1
    rw [x1, x2]
  refine ⟨by omega, ?_, ?_, ?_, fl, v1, k, v2, m, out, rfl, k1, k2, k3, hget, ?_⟩
  · intro r hr
    obtain ⟨j, hj⟩ := List.mem_iff_getElem?.1 hr
    exact hbits _ (List.mem_of_getElem? (hget j r hj))
  · intro r hr
    rw [List.head?_eq_getElem?] at hr
    have hlt := lt_of_get hr
    have hne : v ≠ [] := by rintro rfl; rw [List.length_nil] at hl2; omega
    have := hget 0 r hr
    rw [hm0 hne, Option.some.injEq] at this
    exact this.symm
  · intro r hr
    rw [List.getLast?_eq_getElem?] at hr
    have hlt := lt_of_get hr
    have hne : v ≠ [] := by rintro rfl; rw [List.length_nil] at hl2; omega
    have := hget _ r hr
    have e : v'.length - 1 = v.length - 1 := by omega
    rw [e, hmL hne, Option.some.injEq] at this
    exact this.symm
  · intro j r hr h1
    have := hget j r hr
    rw [hmono j h1, Option.some.injEq] at this
    exact this.symm

/-! ## Completion -/

/-- What every report keeps through the passes. -/
def TrackCore (r r' : Report) : Prop := r'.data = r.data ∧ r'.ext "dsi" = r.ext "dsi"

theorem mds_completes (G : Geo) {v : List Report} (hv : TrackReady v) :
    ∃ fl v', mdsTrackCheck G v = .ok (fl, v') := by
  have c0 : ∀ x ∈ v.map (fun _ => (0 : Int)), 0 ≤ x ∧ x ≤ 9 := by
    intro x hx
    obtain ⟨_, -, rfl⟩ := List.mem_map.1 hx
    omega
  have c1 : ∀ x ∈ v.map (fun _ => (1 : Int)), 0 ≤ x ∧ x ≤ 9 := by
    intro x hx
    obtain ⟨_, -, rfl⟩ := List.mem_map.1 hx
    omega
  unfold mdsTrackCheck
  cases hh : v.head? with
  | none => exact ⟨_, _, rfl⟩
  | some r =>
    have hpos : 0 < v.length := by
      rw [List.length_pos_iff]; rintro rfl; simp at hh
    simp only
    split
    · obtain ⟨w, hw⟩ := writeFlags_ok (v := v) (t := "POS") (f := "bad_track") (Or.inl (by decide)) c0
      rw [hw]
      exact ⟨_, _, rfl⟩
    · split
      · obtain ⟨w, hw⟩ := writeFlags_ok (v := v) (t := "POS") (f := "fewsome_check") (Or.inl (by decide)) c1
        rw [hw]
        exact ⟨_, _, rfl⟩
      · obtain ⟨v1, h1⟩ := calcAlternate_completes G hv.placed
        obtain ⟨fl, h2⟩ := trackFlags_completes G mdsParams (ready_alternate hv h1)
        have hl := (calcAlternate_spec h1).1
        have hb : ∀ x ∈ fl, x = 0 ∨ x = 1 := by
          by_cases hn : v1.length = 1
          · rw [trackFlags_single hn h2]; simp
          · exact trackFlags_bits (by omega) h2
        obtain ⟨w, hw⟩ := writeBoth_completes (v := v1) (f := "bad_track") (g := "fewsome_check")
          (fl := fl.take v1.length) (gl := v1.map fun _ => 0)
          (by intro x hx
              have := hb x (List.mem_of_mem_take hx)
              omega)
          (by intro x hx
              obtain ⟨_, -, rfl⟩ := List.mem_map.1 hx
              omega)
        rw [h1, except_bind_ok, h2, except_bind_ok, hw, except_bind_ok]
        exact ⟨_, _, rfl⟩

/-- What the repetition needs of the voyage: every report has the data and heading of the report at its place in
`l`. -/
def CoreOf (l v : List Report) : Prop :=
  v.length = l.length ∧ ∀ (j : Nat) (r0 r : Report), l[j]? = some r0 → v[j]? = some r → TrackCore r0 r

theorem timeTo_data_eq {a a' b b' : Report} (ha : a.data = a'.data) (hb : b.data = b'.data) :
    a.timeTo b = a'.timeTo b' := by
  have hhr : "HR" ∈ VARLIST := by decide
  unfold Report.timeTo
  rw [getvar_data_eq ha hhr, getvar_data_eq hb hhr]
  simp only [getint_data_eq ha, getint_data_eq hb]

/-- The reports at increasing positions of a voyage with the data of `l` can be put into a new voyage that is
ready for the check. -/
theorem rebuild_ready (G : Geo) {l v : List Report} (hp : ∀ r ∈ l, r.Placed)
    (hd : ∀ r ∈ l, r.getvar "dsi" ∈ dsConvert) (ho : InTimeOrder l) (hc : CoreOf l v) {refs : List Nat}
    (hr : refs.Pairwise (· < ·)) (hb : ∀ j ∈ refs, j < v.length) :
    ∃ temp, rebuild G v refs = .ok temp ∧ TrackReady temp := by
  obtain ⟨hlen, hcore⟩ := hc
  obtain ⟨reps, e5⟩ : ∃ reps, refs.mapM (fun i : Nat => pyIndex v (i : Int)) = .ok reps := by
    apply mapM_exists
    intro j hj
    exact ⟨_, pyIndex_get (List.getElem?_eq_getElem (hb j hj))⟩
  obtain ⟨r1, r2⟩ := mapM_get e5
  have hrep : ∀ (k : Nat) (r : Report), reps[k]? = some r → ∃ j r0, refs[k]? = some j ∧ l[j]? = some r0
      ∧ TrackCore r0 r := by
    intro k r hk
    have hkl := lt_of_get hk
    have hj : refs[k]? = some (refs[k]'(by omega)) := List.getElem?_eq_getElem (by omega)
    obtain ⟨y, y1, y2⟩ := r2 k _ hj
    rw [hk, Option.some.injEq] at y2
    have hv := pyIndex_ok y1
    have hvl := lt_of_get hv
    have hl : l[refs[k]'(by omega)]? = some (l[refs[k]'(by omega)]'(by omega)) := List.getElem?_eq_getElem (by omega)
    exact ⟨_, _, hj, hl, by rw [y2]; exact hcore _ _ _ hl hv⟩
  have hp' : ∀ r ∈ reps, r.Placed := by
    intro r hr
    obtain ⟨k, hk⟩ := List.mem_iff_getElem?.1 hr
    obtain ⟨j, r0, -, h0, h1⟩ := hrep k r hk
    exact placed_of_data h1.1 (hp r0 (List.mem_of_getElem? h0))
  have hd' : ∀ r ∈ reps, r.getvar "dsi" ∈ dsConvert := by
    intro r hr
    obtain ⟨k, hk⟩ := List.mem_iff_getElem?.1 hr
    obtain ⟨j, r0, -, h0, h1⟩ := hrep k r hk
    have := hd r0 (List.mem_of_getElem? h0)
    have hv : "dsi" ∉ VARLIST := by decide
    simpa [Report.getvar, hv, h1.2] using this
  have ho' : InTimeOrder reps := by
    unfold InTimeOrder
    rw [List.pairwise_iff_getElem]
    intro a b ha hb' hab
    obtain ⟨ja, ra, a1, a2, a3⟩ := hrep a _ (List.getElem?_eq_getElem ha)
    obtain ⟨jb, rb, b1, b2, b3⟩ := hrep b _ (List.getElem?_eq_getElem hb')
    obtain ⟨ha1, ha2⟩ := List.getElem?_eq_some_iff.1 a1
    obtain ⟨hb1, hb2⟩ := List.getElem?_eq_some_iff.1 b1
    obtain ⟨hla, hla2⟩ := List.getElem?_eq_some_iff.1 a2
    obtain ⟨hlb, hlb2⟩ := List.getElem?_eq_some_iff.1 b2
    have hj : ja < jb := by
      have := (List.pairwise_iff_getElem.1 hr) a b ha1 hb1 hab
      omega
    obtain ⟨t, t1, t2⟩ := (List.pairwise_iff_getElem.1 ho) ja jb hla hlb hj
    rw [hla2, hlb2] at t1
    exact ⟨t, by rw [timeTo_data_eq a3.1 b3.1]; exact t1, t2⟩
  obtain ⟨temp, ht⟩ := C40_add_report_completes G reps hp'
  exact ⟨temp, by unfold rebuild; rw [e5, except_bind_ok, ht], ready_of_build hp' hd' ho' ht⟩

theorem passOver_core {G : Geo} {l v v' : List Report} {m m' out : List Int} (hc : CoreOf l v)
    (h : PassOver G v m v' m' out) : CoreOf l v' := by
  obtain ⟨hlen, hcore⟩ := hc
  obtain ⟨refs, reps, temp, temp', u1, u2, r1, r2, e2, e3, t1, s1, c1, c2⟩ := h
  refine ⟨by omega, fun j r0 r hr0 hr => ?_⟩
  by_cases hj : j ∈ refs
  · obtain ⟨k, hk⟩ := List.mem_iff_getElem?.1 hj
    rw [(c1 k j hk).2] at hr
    have hkl := lt_of_get hr
    obtain ⟨-, -, -, p4, p5⟩ := C46_pass_partial G temp temp' out e3
    have ht : temp[k]? = some (temp[k]'(by omega)) := List.getElem?_eq_getElem (by omega)
    have hsame := p5 k _ r ht hr
    have hbuild := (C40_add_report G reps temp e2).1
    have hl2 := hbuild.length_eq
    have hext := addReport_ext_other e2 (k := "dsi") (by decide)
    have g1 := hbuild.get (i := k) (by omega) (by omega)
    have g2 := hext.get (i := k) (by omega) (by omega)
    simp only [List.get_eq_getElem] at g1 g2
    have hv := r2 k j hk
    rw [List.getElem?_eq_getElem (by omega : k < reps.length)] at hv
    have hcr := hcore j r0 _ hr0 hv.symm
    obtain ⟨q1, q2, q3, q4, q5, q6, q7⟩ := hsame
    exact ⟨by rw [q3, g1.2.2.1, hcr.1], by rw [q6 "dsi" (by decide), g2, hcr.2]⟩
  · rw [(c2 j hj).2] at hr
    exact hcore j r0 r hr0 hr

theorem fullPass_completes (G : Geo) {l v : List Report} {m : List Int} (hp : ∀ r ∈ l, r.Placed)
    (hd : ∀ r ∈ l, r.getvar "dsi" ∈ dsConvert) (ho : InTimeOrder l) (hc : CoreOf l v) (hi : PassInv v m) :
    ∃ s, fullPass G v m = .ok s := by
  obtain ⟨fl, e0⟩ : ∃ fl, (List.range v.length).mapM (fun i : Nat => pyIndex m (i : Int)) = .ok fl := by
    apply mapM_exists
    intro i hm
    rw [List.mem_range, ← hi.len] at hm
    exact ⟨_, pyIndex_get (List.getElem?_eq_getElem hm)⟩
  obtain ⟨refs, e1⟩ : ∃ refs, unflagged v.length m = .ok refs := by
    unfold unflagged
    rw [e0, except_bind_ok]
    exact ⟨_, rfl⟩
  obtain ⟨u1, u2⟩ := unflagged_spec e1
  obtain ⟨temp, e2, hready⟩ := rebuild_ready G hp hd ho hc u1 (fun j hj => ((u2 j).1 hj).1)
  obtain ⟨out, temp', e3⟩ := mds_completes G hready
  obtain ⟨p1, -⟩ := C46_pass_partial G temp temp' out e3
  have htl : temp.length = refs.length := by
    unfold rebuild at e2
    cases e5 : refs.mapM (fun i : Nat => pyIndex v (i : Int)) with
    | error e => simp [e5] at e2
    | ok reps =>
      rw [e5, except_bind_ok] at e2
      have h1 := (C40_add_report G reps temp e2).1.length_eq
      have h2 := (mapM_get e5).1
      omega
  obtain ⟨pairs, e4⟩ : ∃ pairs, refs.zipIdx.mapM (flagAt out) = .ok pairs := by
    apply mapM_exists
    intro p hpm
    have hlt : p.2 < out.length := by
      have h1 := List.snd_lt_of_mem_zipIdx hpm
      rcases p1 with h | ⟨h, -, rfl⟩
      · omega
      · simp; omega
    unfold flagAt
    rw [pyIndex_get (List.getElem?_eq_getElem hlt)]
    exact ⟨_, rfl⟩
  unfold fullPass
  simp only [e1, e2, e3, e4, except_bind_ok, except_pure]
  exact ⟨_, rfl⟩

theorem fullLoop_completes (G : Geo) {l : List Report} (hp : ∀ r ∈ l, r.Placed)
    (hd : ∀ r ∈ l, r.getvar "dsi" ∈ dsConvert) (ho : InTimeOrder l) (n : Nat) {v : List Report}
    {m qcs : List Int} (hc : CoreOf l v) (hi : PassInv v m) (hq : qcs ≠ []) :
    ∃ s, fullLoop G n v m qcs = .ok s := by
  induction n generalizing v m qcs with
  | zero =>
    unfold fullLoop
    rw [if_neg hq]
    exact ⟨_, rfl⟩
  | succ n ih =>
    unfold fullLoop
    rw [if_neg hq]
    split
    · obtain ⟨s, hs⟩ := fullPass_completes G hp hd ho hc hi
      obtain ⟨v1, m1, out1⟩ := s
      have hpass := fullPass_spec hs
      obtain ⟨i1, -, -, -, i5⟩ := passOver_inv hi hpass
      simp only [hs, except_bind_ok]
      exact ih (passOver_core hc hpass) i1 i5
    · exact ⟨_, rfl⟩

/-- C46. The full check never raises on a voyage whose reports were added in the order of their times, have
position, date and hour, and report a heading from the table of headings or none. -/
theorem C46_completes (G : Geo) (l : List Report) (hp : ∀ r ∈ l, r.Placed)
    (hd : ∀ r ∈ l, r.getvar "dsi" ∈ dsConvert) (ho : InTimeOrder l) :
    ∃ v v', l.foldlM (addReport G) [] = .ok v ∧ mdsFullTrackCheck G v = .ok v' := by
  obtain ⟨v, hv⟩ := C40_add_report_completes G l hp
  obtain ⟨fl, v1, e1⟩ := mds_completes G (ready_of_build hp hd ho hv)
  obtain ⟨p1, p2, p3, p4, p5⟩ := C46_pass_partial G v v1 fl e1
  have hvl := (C40_add_report G l v hv).1
  have hvl2 := hvl.length_eq
  have hext := addReport_ext_other hv (k := "dsi") (by decide)
  have hcore : CoreOf l v1 := by
    refine ⟨by omega, fun j r0 r hr0 hr => ?_⟩
    have hj := lt_of_get hr
    obtain ⟨q1, q2, q3, q4, q5, q6, q7⟩ := p5 j v[j] r (List.getElem?_eq_getElem (by omega)) hr
    have g1 := hvl.get (i := j) (by omega) (by omega)
    have g2 := hext.get (i := j) (by omega) (by omega)
    simp only [List.get_eq_getElem] at g1 g2
    rw [List.getElem?_eq_getElem (by omega), Option.some.injEq] at hr0
    exact ⟨by rw [q3, g1.2.2.1, hr0], by rw [q6 "dsi" (by decide), g2, hr0]⟩
  have hloop : ∃ s : List Report × List Int, (if fl.length > 0 then fullLoop G 4 v1 fl fl else .ok (v1, fl)) = .ok s
      ∧ ∀ x ∈ s.2, x = 0 ∨ x = 1 := by
    by_cases hn : 2 ≤ v.length
    · have hfl : fl.length = v.length := by
        rcases p1 with h | ⟨h, -⟩
        · exact h
        · omega
      have hne : v ≠ [] := by rintro rfl; simp at hn
      have hi : PassInv v1 fl := ⟨by omega, by omega, p2, (p3 hne).1, by rw [p4]; exact (p3 hne).2⟩
      have hq : fl ≠ [] := by rintro rfl; rw [List.length_nil] at hfl; omega
      rw [if_pos (by omega)]
      obtain ⟨s, hs⟩ := fullLoop_completes G hp hd ho 4 hcore hi hq
      obtain ⟨k, out, -, k2, -⟩ := fullLoop_spec (v' := s.1) (m' := s.2) p2 hi hs
      exact ⟨s, hs, (passes_inv k2 hi p2 hq).1.bits⟩
    · have hz : ∀ x ∈ fl, x = 0 := (C46_pass_decision G v v1 fl e1).1 (Or.inr (by omega))
      refine ⟨(v1, fl), ?_, p2⟩
      split
      · rename_i hl
        unfold fullLoop
        rw [if_neg (by rintro rfl; simp at hl), if_neg]
        rw [List.any_eq_true]
        rintro ⟨x, hx, hx'⟩
        rw [hz x hx] at hx'
        simp at hx'
      · rfl
  obtain ⟨s, hs, hbits⟩ := hloop
  obtain ⟨w, hw⟩ := writeFlags_ok (v := s.1) (t := "POS") (f := "bad_track") (fl := s.2.take s.1.length)
    (Or.inl (by decide)) (by
      intro x hx
      have := hbits x (List.mem_of_mem_take hx)
      omega)
  refine ⟨v, w, hv, ?_⟩
  unfold mdsFullTrackCheck
  rw [e1, except_bind_ok]
  simp only
  by_cases hl : fl.length > 0
  · rw [if_pos hl] at hs ⊢
    rw [hs, except_bind_ok, hw]
  · rw [if_neg hl] at hs ⊢
    rw [hs, except_bind_ok, hw]

/-! ### Examples -/

/-- Non-vacuity: of five reports, the second and fourth of them 100 and 50 degrees off the track, the three inner ones are
flagged. -/
example : (([sampleAt 0 0 0, sampleAt 3 0 100, sampleAt 6 0 1, sampleAt 9 0 50, sampleAt 12 0 2].foldlM
      (addReport planeGeo) []).bind (mdsFullTrackCheck planeGeo)).map
      (fun v => v.map fun r => r.getQc "POS" "bad_track")
    = .ok [0, 1, 1, 1, 0] := by
  decide +kernel

/-- A report of 1 January 1880 from deck 720, for examples. -/
def sample720 : Report :=
  sampleRep "SHIP" [("YR", 1880), ("MO", 1), ("DY", 1), ("HR", 0), ("LAT", 0), ("LON", 0), ("DCK", 720)]

/-- C46. `mds_track_check` returns two flags for a single report from deck 720 before 1891. -/
theorem C46_one_flag_violation :
    ([sample720].foldlM (addReport planeGeo) []).bind (fun v => (mdsTrackCheck planeGeo v).map (·.1))
      = .ok [0, 0] := by
  decide +kernel

end MarineQC
