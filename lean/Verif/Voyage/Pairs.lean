import Verif.Voyage.Elim

/-!
# C43 iQuam track check, C44 spike check
-/

namespace MarineQC

namespace Spec

/-- A distance function: symmetric, and zero from a point to itself. -/
def IsDistance (G : Geo) : Prop :=
  (∀ a b c d, G.dist a b c d = G.dist c d a b) ∧ ∀ a b, G.dist a b a b = 0

/-- The reports are `d` kilometres and `t` hours apart. -/
def Apart (G : Geo) (a b : Report) (d t : Rat) : Prop :=
  ∃ la oa lb ob, a.lat = some la ∧ a.lon = some oa ∧ b.lat = some lb ∧ b.lon = some ob
    ∧ d = |G.dist la oa lb ob| ∧ ∃ s, a.timeTo b = .ok (some s) ∧ t = |s|

/-- To get from one report to the other, a ship would have needed more than `limit` km per hour, even if the
positions are closer by `deltaD` km and the times further apart by `deltaT` hours. -/
def TooFast (G : Geo) (P : IquamParams) (limit : Rat) (a b : Report) : Prop :=
  ∃ d t, Apart G a b d t ∧ d > P.deltaD ∧ d - P.deltaD > limit * (t + P.deltaT)

/-- The values of the variable differ by more than `delta` and by more than the largest gradients allow. -/
def TooSteep (G : Geo) (P : SpikeParams) (delta : Rat) (t : String) (a b : Report) : Prop :=
  ∃ x y d h, a.getvar t = some x ∧ b.getvar t = some y ∧ Apart G a b d h
    ∧ |x - y| > delta ∧ |x - y| > d * P.gradSpace ∧ |x - y| > h * P.gradTime

/-- Drifting or moored buoy. -/
def PlatformIsBuoy (r : Report) : Prop := r.getint "PT" = some 6 ∨ r.getint "PT" = some 7

/-- The reports at positions `i` and `j` are at most `nn` positions apart and conflict. -/
def PairOf (v : List Report) (nn : Int) (C : Report → Report → Prop) (i j : Nat) : Prop :=
  |(i : Int) - (j : Int)| ≤ nn ∧ ∃ a b, v[i]? = some a ∧ v[j]? = some b ∧ C a b

end Spec

open Spec

theorem timeAfter_asymm (y1 m1 d1 : Int) (h1 : Rat) (y2 m2 d2 : Int) (h2 : Rat)
    (h : timeAfter y1 m1 d1 h1 y2 m2 d2 h2 = true) : timeAfter y2 m2 d2 h2 y1 m1 d1 h1 = false := by
  unfold timeAfter at *
  simp only [Bool.or_eq_true, Bool.and_eq_true, decide_eq_true_eq] at h
  simp only [Bool.or_eq_false_iff, Bool.and_eq_false_iff, decide_eq_false_iff_not, not_lt, gt_iff_lt]
  rcases h with ((h | h) | h) | h
  · omega
  · omega
  · omega
  · obtain ⟨⟨⟨a, b⟩, c⟩, d⟩ := h
    subst a b c
    simp [d.le]

theorem timeAfter_total (y1 m1 d1 : Int) (h1 : Rat) (y2 m2 d2 : Int) (h2 : Rat)
    (h : timeAfter y1 m1 d1 h1 y2 m2 d2 h2 = false) (h' : timeAfter y2 m2 d2 h2 y1 m1 d1 h1 = false) :
    y1 = y2 ∧ m1 = m2 ∧ d1 = d2 ∧ h1 = h2 := by
  unfold timeAfter at *
  simp only [Bool.or_eq_false_iff, Bool.and_eq_false_iff, decide_eq_false_iff_not, not_lt, gt_iff_lt] at h h'
  obtain ⟨⟨⟨a1, a2⟩, a3⟩, a4⟩ := h
  obtain ⟨⟨⟨b1, b2⟩, b3⟩, b4⟩ := h'
  have e1 : y1 = y2 := by omega
  subst e1
  have e2 : m1 = m2 := by omega
  subst e2
  have e3 : d1 = d2 := by omega
  subst e3
  simp only [not_true, false_or] at a4 b4
  exact ⟨rfl, rfl, rfl, le_antisymm a4 b4⟩

theorem timeTo_antisymm {a b : Report} {s : Rat} (ha : a.Placed) (hb : b.Placed)
    (h : a.timeTo b = .ok (some s)) : b.timeTo a = .ok (some (-s)) := by
  obtain ⟨-, -, y1, m1, d1, h1, e1, e2, e3, e4, l1, u1, p1, p2, p3, p4⟩ := ha
  obtain ⟨-, -, y2, m2, d2, h2, f1, f2, f3, f4, l2, u2, q1, q2, q3, q4⟩ := hb
  unfold Report.timeTo at *
  rw [e1, e2, e3, e4, f1, f2, f3, f4] at h ⊢
  simp only [timeDifference, timeDifferenceStep, julDay, l1, u1, l2, u2, p1, p2, p3, p4, q1, q2, q3, q4,
    decide_true, Bool.and_self, pyAssert_true, except_bind_ok, except_pure] at h ⊢
  cases c1 : timeAfter y1 m1 d1 h1 y2 m2 d2 h2 with
  | true =>
    have c2 := timeAfter_asymm _ _ _ _ _ _ _ _ c1
    simp only [c1, c2, if_true, Bool.false_eq_true, if_false, except_bind_ok, Except.ok.injEq,
      Option.some.injEq] at h ⊢
    rw [← h]; ring
  | false =>
    cases c2 : timeAfter y2 m2 d2 h2 y1 m1 d1 h1 with
    | true =>
      simp only [c1, c2, if_true, Bool.false_eq_true, if_false, except_bind_ok, Except.ok.injEq,
        Option.some.injEq] at h ⊢
      rw [← h]; ring
    | false =>
      obtain ⟨r1, r2, r3, r4⟩ := timeAfter_total _ _ _ _ _ _ _ _ c1 c2
      subst r1 r2 r3 r4
      simp only [c1, Bool.false_eq_true, if_false, except_bind_ok, Except.ok.injEq,
        Option.some.injEq] at h ⊢
      rw [← h]; ring

theorem timeTo_self {a : Report} {s : Rat} (ha : a.Placed) (h : a.timeTo a = .ok (some s)) : s = 0 := by
  have := timeTo_antisymm ha ha h
  rw [h] at this
  simp only [Except.ok.injEq, Option.some.injEq] at this
  linarith

theorem apart_symm {G : Geo} (hG : IsDistance G) {a b : Report} (ha : a.Placed) (hb : b.Placed) {d t : Rat}
    (h : Apart G a b d t) : Apart G b a d t := by
  obtain ⟨la, oa, lb, ob, h1, h2, h3, h4, rfl, s, h5, rfl⟩ := h
  exact ⟨lb, ob, la, oa, h3, h4, h1, h2, by rw [hG.1], -s, timeTo_antisymm ha hb h5, by rw [abs_neg]⟩

theorem apart_self {G : Geo} (hG : IsDistance G) {a : Report} (ha : a.Placed) {d t : Rat}
    (h : Apart G a a d t) : d = 0 ∧ t = 0 := by
  obtain ⟨la, oa, lb, ob, h1, h2, h3, h4, rfl, s, h5, rfl⟩ := h
  rw [h1] at h3
  rw [h2] at h4
  simp only [Option.some.injEq] at h3 h4
  subst h3 h4
  rw [hG.2, timeTo_self ha h5]
  simp

theorem apart_unique {G : Geo} {a b : Report} {d t d' t' : Rat}
    (h : Apart G a b d t) (h' : Apart G a b d' t') : d = d' ∧ t = t' := by
  obtain ⟨la, oa, lb, ob, h1, h2, h3, h4, rfl, s, h5, rfl⟩ := h
  obtain ⟨la', oa', lb', ob', k1, k2, k3, k4, rfl, s', k5, rfl⟩ := h'
  rw [h1, Option.some.injEq] at k1
  rw [h2, Option.some.injEq] at k2
  rw [h3, Option.some.injEq] at k3
  rw [h4, Option.some.injEq] at k4
  rw [h5, Except.ok.injEq, Option.some.injEq] at k5
  subst k1 k2 k3 k4 k5
  exact ⟨rfl, rfl⟩

/-- The differences `__sub__` computes, for placed reports. -/
theorem sub_apart (G : Geo) {a b : Report} (ha : a.Placed) (hb : b.Placed) :
    ∃ d, b.sub G a = .ok d ∧ Apart G b a |d.distance| |d.tdiff| := by
  obtain ⟨s, hs⟩ := timeTo_ok hb ha
  have hs' := timeTo_antisymm ha hb hs
  have h1 := ha.1
  have h2 := ha.2.1
  have h3 := hb.1
  have h4 := hb.2.1
  unfold Report.sub
  cases e1 : a.lat with
  | none => exact absurd e1 h1
  | some la =>
  cases e2 : a.lon with
  | none => exact absurd e2 h2
  | some oa =>
  cases e3 : b.lat with
  | none => exact absurd e3 h3
  | some lb =>
  cases e4 : b.lon with
  | none => exact absurd e4 h4
  | some ob =>
    simp only [hs, except_bind_ok, except_pure]
    refine ⟨_, rfl, lb, ob, la, oa, e3, e4, e1, e2, rfl, -s, hs', ?_⟩
    by_cases h0 : s = 0
    · simp [h0]
    · simp [h0]

theorem tooFast_symm {G : Geo} (hG : IsDistance G) {P : IquamParams} {limit : Rat} {a b : Report}
    (ha : a.Placed) (hb : b.Placed) (h : TooFast G P limit a b) : TooFast G P limit b a := by
  obtain ⟨d, t, h1, h2⟩ := h
  exact ⟨d, t, apart_symm hG ha hb h1, h2⟩

theorem tooFast_irrefl {G : Geo} (hG : IsDistance G) {P : IquamParams} (hD : 0 ≤ P.deltaD) {limit : Rat}
    {a : Report} (ha : a.Placed) : ¬ TooFast G P limit a a := by
  rintro ⟨d, t, h1, h2, -⟩
  obtain ⟨rfl, rfl⟩ := apart_self hG ha h1
  linarith

theorem tooSteep_symm {G : Geo} (hG : IsDistance G) {P : SpikeParams} {delta : Rat} {t : String} {a b : Report}
    (ha : a.Placed) (hb : b.Placed) (h : TooSteep G P delta t a b) : TooSteep G P delta t b a := by
  obtain ⟨x, y, d, h, h1, h2, h3, h4⟩ := h
  refine ⟨y, x, d, h, h2, h1, apart_symm hG ha hb h3, ?_⟩
  rwa [abs_sub_comm y x]

theorem tooSteep_irrefl {G : Geo} (hG : IsDistance G) {P : SpikeParams} {delta : Rat} {t : String}
    {a : Report} (ha : a.Placed) : ¬ TooSteep G P delta t a a := by
  rintro ⟨x, y, d, h, h1, h2, h3, -, h5, -⟩
  obtain ⟨rfl, rfl⟩ := apart_self hG ha h3
  rw [h1, Option.some.injEq] at h2
  subst h2
  simp at h5

theorem pyIndex_get {α : Type} {l : List α} {i : Nat} {x : α} (h : l[i]? = some x) :
    pyIndex l (i : Int) = .ok x := by
  obtain ⟨h1, h2⟩ := List.getElem?_eq_some_iff.1 h
  rw [pyIndex_of_nat _ _ h1, h2]

open Classical in
/-- The elimination for a check of pairs of reports. -/
theorem eliminate_pairs (v : List Report) (nn : Int) (bad : Nat → Nat → Except Err Bool)
    (C : Report → Report → Prop) (hv : ∀ r ∈ v, r.Placed)
    (hbad : ∀ i j a b, v[i]? = some a → v[j]? = some b → bad i j = .ok (decide (C a b)))
    (hs : ∀ a b : Report, a.Placed → b.Placed → C a b → C b a) (hr : ∀ a : Report, a.Placed → ¬ C a a)
    (fl : List Int) (hfl : fl.length = v.length) :
    ∃ P fl', eliminate v.length nn bad fl = .ok fl' ∧ fl'.length = v.length
      ∧ Finished v.length (PairOf v nn C) P
      ∧ ∀ i, i < v.length → fl'[i]? = some (if i ∈ P then 1 else 0) := by
  have get : ∀ i, i < v.length → ∃ a, v[i]? = some a ∧ a ∈ v := fun i hi =>
    ⟨v[i], List.getElem?_eq_getElem hi, List.getElem_mem hi⟩
  obtain ⟨P, fl', h1, h2, h3, h4⟩ := eliminate_spec v.length nn bad
    (fun i j => ∃ a b, v[i]? = some a ∧ v[j]? = some b ∧ C a b) (by
      intro i j hi hj
      obtain ⟨a, ha, -⟩ := get i hi
      obtain ⟨b, hb, -⟩ := get j hj
      rw [hbad i j a b ha hb]
      congr 1
      rw [decide_eq_decide]
      constructor
      · exact fun h => ⟨a, b, ha, hb, h⟩
      · rintro ⟨a', b', ha', hb', h⟩
        rw [ha, Option.some.injEq] at ha'
        rw [hb, Option.some.injEq] at hb'
        subst ha' hb'
        exact h) (by
      rintro i j hi hj ⟨a, b, ha, hb, h⟩
      exact ⟨b, a, hb, ha, hs a b (hv a (List.mem_of_getElem? ha)) (hv b (List.mem_of_getElem? hb)) h⟩) (by
      rintro i hi ⟨a, b, ha, hb, h⟩
      rw [ha, Option.some.injEq] at hb
      subst hb
      exact hr a (hv a (List.mem_of_getElem? ha)) h) fl hfl
  exact ⟨P, fl', h1, h2, by convert h3 using 2; rfl, h4⟩

/-- The limit that applies to a voyage: that of its first report's platform. -/
theorem iquamFlags_cons (G : Geo) (P : IquamParams) (r : Report) (l : List Report)
    (hg : idIsGeneric r.id (r.getint "YR") = false) :
    iquamFlags G P (r :: l) = eliminate (r :: l).length P.neighbours
      (iquamBad G P (if r.getint "PT" = some 6 ∨ r.getint "PT" = some 7 then P.buoySpeedLimit
        else P.shipSpeedLimit) (r :: l)) (readFlags (r :: l) "POS" "iquam_track") := by
  simp [iquamFlags, hg]

open Classical in
/-- C43. For a voyage of reports with position and time whose first report has no generic identifier, the
iQuam track check ends without raising.  The flags `POS`/`iquam_track` it sets are those of repeatedly removing
the report with the most speed violations (the first of them) among the reports left, until no two reports left
that are at most `number_of_neighbours` apart violate the speed limit of the first report's platform; a removed
report gets 1 and every other report gets 0.  Nothing else about the reports changes. -/
theorem C43_iquam (G : Geo) (hG : IsDistance G) (P : IquamParams) (hT : 0 < P.deltaT) (hD : 0 ≤ P.deltaD)
    (r0 : Report) (l : List Report) (hv : ∀ r ∈ r0 :: l, r.Placed)
    (hgen : idIsGeneric r0.id (r0.getint "YR") = false) (limit : Rat)
    (hlim : limit = if PlatformIsBuoy r0 then P.buoySpeedLimit else P.shipSpeedLimit) (h0 : 0 ≤ limit) :
    ∃ removed v', iquamTrackCheck G P (r0 :: l) = .ok v'
      ∧ Finished (r0 :: l).length (PairOf (r0 :: l) P.neighbours (TooFast G P limit)) removed
      ∧ v'.length = (r0 :: l).length
      ∧ ∀ (j : Nat) (r r' : Report), (r0 :: l)[j]? = some r → v'[j]? = some r' →
        r'.getQc "POS" "iquam_track" = (if j ∈ removed then 1 else 0)
          ∧ r' = { r with qc := r'.qc } ∧ ∀ k, k ≠ "POS" ++ "iquam_track" → r'.qc k = r.qc k := by
  obtain ⟨R, fl, h1, h2, h3, h4⟩ := eliminate_pairs (r0 :: l) P.neighbours
    (iquamBad G P limit (r0 :: l)) (TooFast G P limit) hv (by
      intro i j a b ha hb
      have pa := hv a (List.mem_of_getElem? ha)
      have pb := hv b (List.mem_of_getElem? hb)
      obtain ⟨d, hd1, hd2⟩ := sub_apart G pa pb
      have hd3 := apart_symm hG pb pa hd2
      unfold iquamBad
      rw [pyIndex_get hb, except_bind_ok, pyIndex_get ha, except_bind_ok, hd1, except_bind_ok]
      have hden : 0 < |d.tdiff| + P.deltaT := by have := abs_nonneg d.tdiff; linarith
      simp only [hden.ne', if_false, except_pure]
      congr 1
      rw [decide_eq_decide, gt_iff_lt, lt_div_iff₀ hden]
      constructor
      · intro h
        have hp : 0 ≤ limit * (|d.tdiff| + P.deltaT) := mul_nonneg h0 hden.le
        rcases lt_max_iff.1 h with h | h
        · exact ⟨_, _, hd3, by linarith, h⟩
        · linarith
      · rintro ⟨d', t', h1, -, h2⟩
        obtain ⟨e1, e2⟩ := apart_unique hd3 h1
        rw [e1, e2]
        exact lt_max_of_lt_left h2)
    (fun a b ha hb h => tooFast_symm hG ha hb h) (fun a ha => tooFast_irrefl hG hD ha)
    (readFlags (r0 :: l) "POS" "iquam_track") (by simp [readFlags])
  have hlim' : (if r0.getint "PT" = some 6 ∨ r0.getint "PT" = some 7 then P.buoySpeedLimit
      else P.shipSpeedLimit) = limit := by
    rw [hlim]; unfold PlatformIsBuoy; congr
  have hf : iquamFlags G P (r0 :: l) = .ok fl := by
    rw [iquamFlags_cons G P r0 l hgen, hlim']; exact h1
  obtain ⟨v', hw⟩ := writeFlags_ok (v := r0 :: l) (t := "POS") (f := "iquam_track") (fl := fl)
    (Or.inl (by decide)) (by
      intro x hx
      obtain ⟨j, hj, rfl⟩ := List.mem_iff_getElem.1 hx
      have := h4 j (by omega)
      rw [List.getElem?_eq_getElem hj, Option.some.injEq] at this
      rw [this]; split <;> omega)
  obtain ⟨w1, w2⟩ := writeFlags_spec h2 hw
  refine ⟨R, v', ?_, h3, w1, fun j r r' hr hr' => ?_⟩
  · unfold iquamTrackCheck; rw [hf, except_bind_ok]; exact hw
  · obtain ⟨⟨x, hx1, hx2⟩, w3, w4⟩ := w2 j r r' hr hr'
    refine ⟨?_, w3, w4⟩
    rw [h4 j (lt_of_get hr), Option.some.injEq] at hx1
    rw [hx2, ← hx1]

/-- C43, in terms of flags: every report gets 0 or 1; no two reports flagged 0 that are at most
`number_of_neighbours` apart violate the limit; a report flagged 1 violates it with some report that close.  So
nothing is flagged 1 when nothing violates. -/
theorem C43_survivors (G : Geo) (hG : IsDistance G) (P : IquamParams) (hT : 0 < P.deltaT) (hD : 0 ≤ P.deltaD)
    (r0 : Report) (l : List Report) (hv : ∀ r ∈ r0 :: l, r.Placed)
    (hgen : idIsGeneric r0.id (r0.getint "YR") = false)
    (hb : 0 ≤ P.buoySpeedLimit) (hs : 0 ≤ P.shipSpeedLimit) :
    ∃ v' limit, iquamTrackCheck G P (r0 :: l) = .ok v' ∧ v'.length = (r0 :: l).length
      ∧ (PlatformIsBuoy r0 → limit = P.buoySpeedLimit) ∧ (¬ PlatformIsBuoy r0 → limit = P.shipSpeedLimit)
      ∧ (∀ r ∈ v', r.getQc "POS" "iquam_track" = 0 ∨ r.getQc "POS" "iquam_track" = 1)
      ∧ (∀ (i j : Nat) (a b : Report), v'[i]? = some a → v'[j]? = some b →
        |(i : Int) - (j : Int)| ≤ P.neighbours → a.getQc "POS" "iquam_track" = 0 →
        b.getQc "POS" "iquam_track" = 0 → ¬ TooFast G P limit a b)
      ∧ ∀ (i : Nat) (a : Report), v'[i]? = some a → a.getQc "POS" "iquam_track" = 1 →
        ∃ (j : Nat) (b : Report), v'[j]? = some b ∧ |(i : Int) - (j : Int)| ≤ P.neighbours
          ∧ TooFast G P limit a b := by
  classical
  obtain ⟨R, v', h1, h2, h3, h4⟩ := C43_iquam G hG P hT hD r0 l hv hgen
    (if PlatformIsBuoy r0 then P.buoySpeedLimit else P.shipSpeedLimit) rfl (by split <;> assumption)
  set limit := if PlatformIsBuoy r0 then P.buoySpeedLimit else P.shipSpeedLimit with hlim
  have hback : ∀ (i : Nat) (a : Report), v'[i]? = some a → ∃ r, (r0 :: l)[i]? = some r
      ∧ a = { r with qc := a.qc } ∧ a.getQc "POS" "iquam_track" = (if i ∈ R then 1 else 0) := by
    intro i a ha
    have hi := lt_of_get ha
    have hr : (r0 :: l)[i]? = some ((r0 :: l)[i]'(by omega)) := List.getElem?_eq_getElem (by omega)
    obtain ⟨k1, k2, -⟩ := h4 i _ a hr ha
    exact ⟨_, hr, k2, k1⟩
  have hfast : ∀ a b r s : Report, a = { r with qc := a.qc } → b = { s with qc := b.qc } →
      (TooFast G P limit a b ↔ TooFast G P limit r s) := by
    intro a b r s ha hb
    rw [ha, hb]; rfl
  refine ⟨v', limit, h1, h3, fun h => by rw [hlim, if_pos h], fun h => by rw [hlim, if_neg h], ?_, ?_, ?_⟩
  · intro a ha
    obtain ⟨i, hi⟩ := List.mem_iff_getElem?.1 ha
    obtain ⟨r, -, -, k⟩ := hback i a hi
    rw [k]; split <;> simp
  · intro i j a b ha hb hn fa fb hc
    obtain ⟨r, k1, k2, k3⟩ := hback i a ha
    obtain ⟨s, m1, m2, m3⟩ := hback j b hb
    have hiR : i ∉ R := by intro h; rw [k3, if_pos h] at fa; simp at fa
    have hjR : j ∉ R := by intro h; rw [m3, if_pos h] at fb; simp at fb
    exact finished_free h2 (lt_of_get k1) (lt_of_get m1) hiR hjR
      ⟨hn, r, s, k1, m1, (hfast a b r s k2 m2).1 hc⟩
  · intro i a ha fa
    obtain ⟨r, k1, k2, k3⟩ := hback i a ha
    have hiR : i ∈ R := by
      by_contra h
      rw [k3, if_neg h] at fa; simp at fa
    obtain ⟨j, hj, hn, r', s, q1, q2, q3⟩ := removal_conflict h2.1 i hiR
    rw [k1, Option.some.injEq] at q1
    subst q1
    have hb : v'[j]? = some (v'[j]'(by omega)) := List.getElem?_eq_getElem (by omega)
    obtain ⟨s', m1, m2, m3⟩ := hback j _ hb
    rw [q2, Option.some.injEq] at m1
    subst m1
    exact ⟨j, _, hb, hn, (hfast _ _ _ _ k2 m2).2 q3⟩

/-- C43. When the first report has a generic identifier every report is flagged 0. -/
theorem C43_generic (G : Geo) (P : IquamParams) (r0 : Report) (l : List Report)
    (hgen : idIsGeneric r0.id (r0.getint "YR") = true) :
    ∃ v', iquamTrackCheck G P (r0 :: l) = .ok v' ∧ v'.length = (r0 :: l).length
      ∧ ∀ r ∈ v', r.getQc "POS" "iquam_track" = 0 := by
  have hf : iquamFlags G P (r0 :: l) = .ok ((List.range (r0 :: l).length).map fun _ => 0) := by
    simp only [iquamFlags, List.head?_cons, hgen, if_true]
    rw [set_all _ _ (by simp [readFlags])]
  obtain ⟨v', hw⟩ := writeFlags_ok (v := r0 :: l) (t := "POS") (f := "iquam_track")
    (fl := (List.range (r0 :: l).length).map fun _ => 0) (Or.inl (by decide)) (by
      intro x hx
      obtain ⟨j, -, rfl⟩ := List.mem_map.1 hx
      omega)
  obtain ⟨w1, w2⟩ := writeFlags_spec (by simp) hw
  refine ⟨v', ?_, w1, fun r hr => ?_⟩
  · unfold iquamTrackCheck; rw [hf, except_bind_ok]; exact hw
  · obtain ⟨i, hi⟩ := List.mem_iff_getElem?.1 hr
    have hlt := lt_of_get hi
    obtain ⟨⟨x, hx1, hx2⟩, -⟩ := w2 i _ r (List.getElem?_eq_getElem (by omega)) hi
    rw [hx2]
    rw [List.getElem?_map] at hx1
    cases h : (List.range (r0 :: l).length)[i]? with
    | none => rw [h] at hx1; simp at hx1
    | some y => rw [h] at hx1; simpa using hx1.symm

open Classical in
/-- C44. For a voyage of reports with position and time the spike check of an allowed variable ends without
raising.  The flags `spike` it sets are those of repeatedly removing the report with the most gradient
violations (the first of them) among the reports left, until none is left between reports at most
`number_of_neighbours` apart; a removed report gets 1 and every other report gets 0.  Nothing else about the
reports changes. -/
theorem C44_spike (G : Geo) (hG : IsDistance G) (P : SpikeParams) (t : String)
    (ht : t ∈ specialQcTypes ∨ t ∈ VARLIST) (r0 : Report) (l : List Report)
    (hv : ∀ r ∈ r0 :: l, r.Placed) (delta : Rat)
    (hdel : delta = if PlatformIsBuoy r0 then P.buoyDelta else P.shipDelta) :
    ∃ removed v', spikeCheck G P t (r0 :: l) = .ok v'
      ∧ Finished (r0 :: l).length (PairOf (r0 :: l) P.neighbours (TooSteep G P delta t)) removed
      ∧ v'.length = (r0 :: l).length
      ∧ ∀ (j : Nat) (r r' : Report), (r0 :: l)[j]? = some r → v'[j]? = some r' →
        r'.getQc t "spike" = (if j ∈ removed then 1 else 0)
          ∧ r' = { r with qc := r'.qc } ∧ ∀ k, k ≠ t ++ "spike" → r'.qc k = r.qc k := by
  obtain ⟨R, fl, h1, h2, h3, h4⟩ := eliminate_pairs (r0 :: l) P.neighbours
    (spikeBad G P delta t (r0 :: l)) (TooSteep G P delta t) hv (by
      intro i j a b ha hb
      have pa := hv a (List.mem_of_getElem? ha)
      have pb := hv b (List.mem_of_getElem? hb)
      obtain ⟨d, hd1, hd2⟩ := sub_apart G pa pb
      have hd3 := apart_symm hG pb pa hd2
      unfold spikeBad
      rw [pyIndex_get hb, except_bind_ok, pyIndex_get ha, except_bind_ok]
      cases e1 : b.getvar t with
      | none =>
        simp only [except_pure]
        congr 1
        rw [eq_comm, decide_eq_false_iff_not]
        rintro ⟨x, y, _, _, -, h, -⟩
        rw [e1] at h; simp at h
      | some y =>
        cases e2 : a.getvar t with
        | none =>
          simp only [except_pure]
          congr 1
          rw [eq_comm, decide_eq_false_iff_not]
          rintro ⟨x, y, _, _, h, -⟩
          rw [e2] at h; simp at h
        | some x =>
          simp only [hd1, except_bind_ok, except_pure]
          congr 1
          rw [decide_eq_decide, gt_iff_lt, max_lt_iff, max_lt_iff, abs_sub_comm y x]
          constructor
          · rintro ⟨⟨c1, c2⟩, c3⟩
            exact ⟨x, y, _, _, e2, e1, hd3, c1, c2, c3⟩
          · rintro ⟨x', y', d', h', k1, k2, k3, k4, k5, k6⟩
            rw [e2, Option.some.injEq] at k1
            rw [e1, Option.some.injEq] at k2
            subst k1 k2
            obtain ⟨m1, m2⟩ := apart_unique hd3 k3
            rw [m1, m2]
            exact ⟨⟨k4, k5⟩, k6⟩)
    (fun a b ha hb h => tooSteep_symm hG ha hb h) (fun a ha => tooSteep_irrefl hG ha)
    (readFlags (r0 :: l) t "spike") (by simp [readFlags])
  have hdel' : (if r0.getint "PT" = some 6 ∨ r0.getint "PT" = some 7 then P.buoyDelta
      else P.shipDelta) = delta := by
    rw [hdel]; unfold PlatformIsBuoy; congr
  have hf : spikeFlags G P t (r0 :: l) = .ok fl := by
    unfold spikeFlags
    simp only [List.head?_cons]
    rw [hdel']; exact h1
  obtain ⟨v', hw⟩ := writeFlags_ok (v := r0 :: l) (t := t) (f := "spike") (fl := fl) ht (by
      intro x hx
      obtain ⟨j, hj, rfl⟩ := List.mem_iff_getElem.1 hx
      have := h4 j (by omega)
      rw [List.getElem?_eq_getElem hj, Option.some.injEq] at this
      rw [this]; split <;> omega)
  obtain ⟨w1, w2⟩ := writeFlags_spec h2 hw
  refine ⟨R, v', ?_, h3, w1, fun j r r' hr hr' => ?_⟩
  · unfold spikeCheck; rw [hf, except_bind_ok]; exact hw
  · obtain ⟨⟨x, hx1, hx2⟩, w3, w4⟩ := w2 j r r' hr hr'
    refine ⟨?_, w3, w4⟩
    rw [h4 j (lt_of_get hr), Option.some.injEq] at hx1
    rw [hx2, ← hx1]

/-- C44, in terms of flags: every report gets 0 or 1; no two reports flagged 0 that are at most
`number_of_neighbours` apart have a gradient beyond the limits; a report flagged 1 has a value and a gradient
beyond the limits with some report that close.  So nothing is flagged 1 when nothing violates, and a report
without a value never is. -/
theorem C44_survivors (G : Geo) (hG : IsDistance G) (P : SpikeParams) (t : String)
    (ht : t ∈ specialQcTypes ∨ t ∈ VARLIST) (r0 : Report) (l : List Report)
    (hv : ∀ r ∈ r0 :: l, r.Placed) :
    ∃ v' delta, spikeCheck G P t (r0 :: l) = .ok v' ∧ v'.length = (r0 :: l).length
      ∧ (PlatformIsBuoy r0 → delta = P.buoyDelta) ∧ (¬ PlatformIsBuoy r0 → delta = P.shipDelta)
      ∧ (∀ r ∈ v', r.getQc t "spike" = 0 ∨ r.getQc t "spike" = 1)
      ∧ (∀ (i j : Nat) (a b : Report), v'[i]? = some a → v'[j]? = some b →
        |(i : Int) - (j : Int)| ≤ P.neighbours → a.getQc t "spike" = 0 →
        b.getQc t "spike" = 0 → ¬ TooSteep G P delta t a b)
      ∧ ∀ (i : Nat) (a : Report), v'[i]? = some a → a.getQc t "spike" = 1 →
        a.getvar t ≠ none ∧ ∃ (j : Nat) (b : Report), v'[j]? = some b
          ∧ |(i : Int) - (j : Int)| ≤ P.neighbours ∧ TooSteep G P delta t a b := by
  classical
  obtain ⟨R, v', h1, h2, h3, h4⟩ := C44_spike G hG P t ht r0 l hv
    (if PlatformIsBuoy r0 then P.buoyDelta else P.shipDelta) rfl
  set delta := if PlatformIsBuoy r0 then P.buoyDelta else P.shipDelta with hdel
  have hback : ∀ (i : Nat) (a : Report), v'[i]? = some a → ∃ r, (r0 :: l)[i]? = some r
      ∧ a = { r with qc := a.qc } ∧ a.getQc t "spike" = (if i ∈ R then 1 else 0) := by
    intro i a ha
    have hi := lt_of_get ha
    have hr : (r0 :: l)[i]? = some ((r0 :: l)[i]'(by omega)) := List.getElem?_eq_getElem (by omega)
    obtain ⟨k1, k2, -⟩ := h4 i _ a hr ha
    exact ⟨_, hr, k2, k1⟩
  have hsteep : ∀ a b r s : Report, a = { r with qc := a.qc } → b = { s with qc := b.qc } →
      (TooSteep G P delta t a b ↔ TooSteep G P delta t r s) := by
    intro a b r s ha hb
    rw [ha, hb]; rfl
  refine ⟨v', delta, h1, h3, fun h => by rw [hdel, if_pos h], fun h => by rw [hdel, if_neg h], ?_, ?_, ?_⟩
  · intro a ha
    obtain ⟨i, hi⟩ := List.mem_iff_getElem?.1 ha
    obtain ⟨r, -, -, k⟩ := hback i a hi
    rw [k]; split <;> simp
  · intro i j a b ha hb hn fa fb hc
    obtain ⟨r, k1, k2, k3⟩ := hback i a ha
    obtain ⟨s, m1, m2, m3⟩ := hback j b hb
    have hiR : i ∉ R := by intro h; rw [k3, if_pos h] at fa; simp at fa
    have hjR : j ∉ R := by intro h; rw [m3, if_pos h] at fb; simp at fb
    exact finished_free h2 (lt_of_get k1) (lt_of_get m1) hiR hjR
      ⟨hn, r, s, k1, m1, (hsteep a b r s k2 m2).1 hc⟩
  · intro i a ha fa
    obtain ⟨r, k1, k2, k3⟩ := hback i a ha
    have hiR : i ∈ R := by
      by_contra h
      rw [k3, if_neg h] at fa; simp at fa
    obtain ⟨j, hj, hn, r', s, q1, q2, q3⟩ := removal_conflict h2.1 i hiR
    rw [k1, Option.some.injEq] at q1
    subst q1
    have hb : v'[j]? = some (v'[j]'(by omega)) := List.getElem?_eq_getElem (by omega)
    obtain ⟨s', m1, m2, m3⟩ := hback j _ hb
    rw [q2, Option.some.injEq] at m1
    subst m1
    have hc := (hsteep _ _ _ _ k2 m2).2 q3
    refine ⟨?_, j, _, hb, hn, hc⟩
    obtain ⟨x, _, _, _, hx, -⟩ := hc
    rw [hx]; simp

/-! ## Non-vacuity -/

theorem flatGeo_isDistance : IsDistance flatGeo := by
  constructor
  · intro a b c d
    simp only [flatGeo]
    rw [abs_sub_comm a c, abs_sub_comm b d]
  · intro a b; simp [flatGeo]

/-- Four reports on a line an hour apart; the third is far away. -/
def sampleTrack : List Report :=
  [sampleAt 1 0 10, sampleAt 2 0 11, sampleAt 3 0 90, sampleAt 4 0 13]

/-- The third report, and only it, is flagged; the voyage meets the hypotheses of C43. -/
example : iquamFlags flatGeo ⟨15, 60, 0, 1 / 100, 3⟩ sampleTrack = .ok [0, 0, 1, 0]
    ∧ (∀ r ∈ sampleTrack, r.Placed) ∧ idIsGeneric (some "SHIP") (some 2000) = false := by
  refine ⟨by decide +kernel, ?_, by decide +kernel⟩
  intro r hr
  simp only [sampleTrack, List.mem_cons, List.not_mem_nil, or_false] at hr
  rcases hr with rfl | rfl | rfl | rfl <;> exact sampleAt_placed _ _ _ (by norm_num) (by norm_num) (by norm_num)

end MarineQC
