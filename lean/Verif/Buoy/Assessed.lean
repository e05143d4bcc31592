import Verif.Buoy.SstModel
import Verif.Buoy.Speed
import Verif.Stats.Spread
import Mathlib.Tactic.Positivity

/-!
# The assessed reports of the drifter temperature checks
-/

namespace MarineQC

namespace Spec

/-- The report can be compared with the background: it was made at night (`day` is the day test), the background value
is there, the ice fraction (0 if missing) is at most 0.15 and the background error variance is not masked. -/
def Assessed (day : Report → Except Err Bool) (mask : Option Rat → Bool) (r : Report) : Prop :=
  day r = .ok false ∧ (∃ b, r.getext "OSTIA" = .ok (some b))
    ∧ (∃ x, r.getext "ICE" = .ok x ∧ x.getD 0 ≤ 15 / 100)
    ∧ ∃ q, r.getext "BGVAR" = .ok q ∧ mask q = false

/-- The difference of the report to the background, and its background error variance. -/
def Compared (r : Report) (anom bgvar : Rat) : Prop :=
  ∃ x b, r.getvar "SST" = some x ∧ r.getext "OSTIA" = .ok (some b) ∧ r.getext "BGVAR" = .ok (some bgvar)
    ∧ anom = x - b ∧ -5 ≤ b ∧ b ≤ 45 ∧ 0 ≤ bgvar ∧ bgvar ≤ 10

/-- `obs` lists the assessed reports of the record, in order. -/
def AssessedObs (day : Report → Except Err Bool) (mask : Option Rat → Bool) (v : List Report) (obs : List SstObs) :
    Prop :=
  obs.Pairwise (fun o o' => o.ind < o'.ind)
    ∧ (∀ (k : Nat) (r : Report), v[k]? = some r → (Assessed day mask r ↔ ∃ o ∈ obs, o.ind = k))
    ∧ ∀ o ∈ obs, ∃ r, v[o.ind]? = some r ∧ Compared r o.anom o.bgvar

/-- The report has been matched with valid background values, has a valid time and place and is not before the one
before it; `k` is its position. -/
def Matched (day : Report → Except Err Bool) (mask : Option Rat → Bool) (r : Report) (k : Nat) : Prop :=
  (∃ b, r.getext "OSTIA" = .ok b) ∧ (∃ x, r.getext "ICE" = .ok x ∧ 0 ≤ x.getD 0 ∧ x.getD 0 ≤ 1)
    ∧ (∃ q, r.getext "BGVAR" = .ok q) ∧ (∃ d, day r = .ok d)
    ∧ (k ≠ 0 → ∃ t, r.getext "time_diff" = .ok (some t) ∧ 0 ≤ t)
    ∧ (Assessed day mask r → ∃ anom bgvar, Compared r anom bgvar)

end Spec

open Spec

theorem timeSorted_ok {r : Report} {k : Nat} (u : Unit) :
    timeSorted (r, k) = .ok u ↔ (k ≠ 0 → ∃ t, r.getext "time_diff" = .ok (some t) ∧ 0 ≤ t) := by
  unfold timeSorted
  by_cases hk : k = 0
  · simp [hk]
  · simp only [hk, if_false, ne_eq, not_false_eq_true, true_implies]
    cases h : r.getext "time_diff" with
    | error e => simp
    | ok t =>
      rw [except_bind_ok]
      cases t with
      | none => simp
      | some t =>
        simp only [Except.ok.injEq, Option.some.injEq, exists_eq_left']
        by_cases h0 : 0 ≤ t
        · simp [pyAssert, h0]
        · simp [pyAssert, h0]

theorem sstObs_ok {r : Report} {k : Nat} {bg q : Option Rat} (h1 : r.getext "OSTIA" = .ok bg)
    (h2 : r.getext "BGVAR" = .ok q) (o : SstObs) :
    sstObs (r, k) bg q = .ok o ↔ o.ind = k ∧ Compared r o.anom o.bgvar := by
  unfold sstObs Compared
  rw [h1, h2]
  cases bg with
  | none => simp
  | some b =>
    cases q with
    | none => simp
    | some q =>
      simp only
      rw [pyAssert_bind]
      split
      · rename_i a1
        rw [pyAssert_bind]
        split
        · rename_i a2
          simp only [Bool.and_eq_true, decide_eq_true_eq] at a1 a2
          cases hs : r.getvar "SST" with
          | none => simp
          | some x =>
            simp only [except_pure, Except.ok.injEq, Option.some.injEq]
            constructor
            · rintro rfl
              exact ⟨rfl, x, b, rfl, rfl, rfl, rfl, a1.1, a1.2, a2.1, a2.2⟩
            · rintro ⟨rfl, x', b', rfl, rfl, h3, h4, -⟩
              cases o
              simp_all
        · rename_i a2
          simp only [Bool.and_eq_true, decide_eq_true_eq] at a2
          constructor
          · intro h; simp at h
          · rintro ⟨-, x', b', -, h3, h4, -, -, -, h5, h6⟩
            simp only [Except.ok.injEq, Option.some.injEq] at h4
            subst h4
            exact absurd ⟨h5, h6⟩ a2
      · rename_i a1
        simp only [Bool.and_eq_true, decide_eq_true_eq] at a1
        constructor
        · intro h; simp at h
        · rintro ⟨-, x', b', -, h3, h4, -, h5, h6, -⟩
          simp only [Except.ok.injEq, Option.some.injEq] at h3
          subst h3
          exact absurd ⟨h5, h6⟩ a1

theorem sstScreen_spec {day : Report → Except Err Bool} {mask : Option Rat → Bool} {r : Report} {k : Nat}
    {p : Bool × Option SstObs} (h : sstScreen day mask (r, k) = .ok p) :
    (∃ q, r.getext "BGVAR" = .ok q ∧ p.1 = mask q) ∧ (Assessed day mask r ↔ p.2.isSome = true)
      ∧ ∀ o, p.2 = some o → o.ind = k ∧ Compared r o.anom o.bgvar := by
  unfold sstScreen at h
  simp only at h
  cases h1 : r.getext "OSTIA" with
  | error e => rw [h1] at h; simp at h
  | ok bg =>
  cases h2 : r.getext "ICE" with
  | error e => rw [h1, h2] at h; simp at h
  | ok ice =>
  cases h3 : r.getext "BGVAR" with
  | error e => rw [h1, h2, h3] at h; simp at h
  | ok q =>
    rw [h1, except_bind_ok, h2, except_bind_ok, h3, except_bind_ok, pyAssert_bind] at h
    split at h
    · cases h4 : day r with
      | error e => rw [h4] at h; simp at h
      | ok d =>
        rw [h4, except_bind_ok] at h
        cases h5 : timeSorted (r, k) with
        | error e => rw [h5] at h; simp at h
        | ok u =>
          rw [h5, except_bind_ok] at h
          have hA : Assessed day mask r ↔ ¬ ((d || bg.isNone || decide (ice.getD 0 > 15 / 100) || mask q) = true) := by
            unfold Assessed
            rw [h1, h2, h3, h4]
            cases d <;> cases bg <;> cases hm : mask q <;> simp [hm]
          split at h
          · rename_i hc
            rw [except_pure, Except.ok.injEq] at h
            subst h
            refine ⟨⟨q, rfl, rfl⟩, ?_, by simp⟩
            rw [hA]
            simp only [hc, not_true_eq_false, Option.isSome_none, Bool.false_eq_true]
          · rename_i hc
            cases h6 : sstObs (r, k) bg q with
            | error e => rw [h6] at h; simp at h
            | ok o =>
              rw [h6, except_bind_ok, except_pure, Except.ok.injEq] at h
              subst h
              refine ⟨⟨q, rfl, rfl⟩, ?_, ?_⟩
              · rw [hA]
                exact ⟨fun _ => rfl, fun _ => hc⟩
              · intro o' ho
                simp only [Option.some.injEq] at ho
                subst ho
                exact (sstObs_ok h1 h3 o).1 h6
    · simp at h

theorem sstScreen_completes {day : Report → Except Err Bool} {mask : Option Rat → Bool} {r : Report} {k : Nat}
    (h : Matched day mask r k) : ∃ p, sstScreen day mask (r, k) = .ok p := by
  obtain ⟨⟨b, h1⟩, ⟨ice, h2, h2', h2''⟩, ⟨q, h3⟩, ⟨d, h4⟩, h5, h6⟩ := h
  unfold sstScreen
  simp only
  rw [h1, except_bind_ok, h2, except_bind_ok, h3, except_bind_ok, pyAssert_bind, if_pos (by simp [h2', h2'']), h4,
    except_bind_ok, (timeSorted_ok ()).2 h5, except_bind_ok]
  split
  · exact ⟨_, rfl⟩
  · rename_i hc
    have hA : Assessed day mask r := by
      unfold Assessed
      rw [h1, h2, h3, h4]
      revert hc
      cases d <;> cases b <;> cases hm : mask q <;> simp [hm]
    obtain ⟨anom, bgvar, hcomp⟩ := h6 hA
    rw [(sstObs_ok h1 h3 ⟨k, anom, bgvar⟩).2 ⟨rfl, hcomp⟩]
    exact ⟨_, rfl⟩

theorem sstFilter_aux {day : Report → Except Err Bool} {mask : Option Rat → Bool} (v : List Report) (n : Nat)
    (l : List (Bool × Option SstObs)) (h : (v.zipIdx n).mapM (sstScreen day mask) = .ok l) :
    (l.filterMap (·.2)).Pairwise (fun o o' => o.ind < o'.ind)
    ∧ (∀ o ∈ l.filterMap (·.2), n ≤ o.ind)
    ∧ (∀ (k : Nat) (r : Report), v[k]? = some r → (Assessed day mask r ↔ ∃ o ∈ l.filterMap (·.2), o.ind = n + k))
    ∧ (∀ o ∈ l.filterMap (·.2), ∃ r, v[o.ind - n]? = some r ∧ Compared r o.anom o.bgvar)
    ∧ (l.any (·.1) = true ↔ ∃ r ∈ v, ∃ q, r.getext "BGVAR" = .ok q ∧ mask q = true) := by
  induction v generalizing n l with
  | nil =>
    simp only [List.zipIdx_nil, List.mapM_nil, except_pure, Except.ok.injEq] at h
    subst h
    simp
  | cons r v ih =>
    rw [List.zipIdx_cons, List.mapM_cons] at h
    cases h1 : sstScreen day mask (r, n) with
    | error e => rw [h1] at h; simp at h
    | ok p =>
      rw [h1, except_bind_ok] at h
      cases h2 : (v.zipIdx (n + 1)).mapM (sstScreen day mask) with
      | error e => rw [h2] at h; simp at h
      | ok l' =>
        rw [h2, except_bind_ok, except_pure, Except.ok.injEq] at h
        subst h
        obtain ⟨i1, i2, i3, i4, i5⟩ := ih (n + 1) l' h2
        obtain ⟨⟨q, q1, q2⟩, s1, s2⟩ := sstScreen_spec h1
        have hfm : ∀ o, o ∈ (p :: l').filterMap (·.2) ↔ p.2 = some o ∨ o ∈ l'.filterMap (·.2) := by
          intro o
          rw [List.filterMap_cons]
          cases hp : p.2 with
          | none => simp
          | some o' => simp only [List.mem_cons, Option.some.injEq]; constructor <;> rintro (h | h) <;> simp_all
        refine ⟨?_, ?_, ?_, ?_, ?_⟩
        · rw [List.filterMap_cons]
          cases hp : p.2 with
          | none => exact i1
          | some o =>
            refine List.pairwise_cons.2 ⟨fun o' ho' => ?_, i1⟩
            have := i2 o' ho'
            have := (s2 o hp).1
            omega
        · intro o ho
          rcases (hfm o).1 ho with h | h
          · exact (s2 o h).1.ge
          · have := i2 o h; omega
        · intro k r' hr'
          cases k with
          | zero =>
            simp only [List.getElem?_cons_zero, Option.some.injEq] at hr'
            subst hr'
            rw [s1, Option.isSome_iff_exists]
            constructor
            · rintro ⟨o, ho⟩
              exact ⟨o, (hfm o).2 (.inl ho), (s2 o ho).1⟩
            · rintro ⟨o, ho, hk⟩
              rcases (hfm o).1 ho with h | h
              · exact ⟨o, h⟩
              · have := i2 o h; omega
          | succ k =>
            rw [List.getElem?_cons_succ] at hr'
            rw [i3 k r' hr']
            constructor
            · rintro ⟨o, ho, hk⟩
              exact ⟨o, (hfm o).2 (.inr ho), by omega⟩
            · rintro ⟨o, ho, hk⟩
              rcases (hfm o).1 ho with h | h
              · have := (s2 o h).1; omega
              · exact ⟨o, h, by omega⟩
        · intro o ho
          rcases (hfm o).1 ho with h | h
          · obtain ⟨a1, a2⟩ := s2 o h
            exact ⟨r, by rw [a1]; simp, a2⟩
          · obtain ⟨r', b1, b2⟩ := i4 o h
            have := i2 o h
            refine ⟨r', ?_, b2⟩
            rw [show o.ind - n = (o.ind - (n + 1)) + 1 by omega, List.getElem?_cons_succ]
            exact b1
        · rw [List.any_cons, Bool.or_eq_true, i5, q2]
          constructor
          · rintro (h | ⟨r', h3, h4⟩)
            · exact ⟨r, by simp, q, q1, h⟩
            · exact ⟨r', by simp [h3], h4⟩
          · rintro ⟨r', h3, q', h4, h5⟩
            rcases List.mem_cons.1 h3 with rfl | h3
            · rw [q1, Except.ok.injEq] at h4
              subst h4
              exact .inl h5
            · exact .inr ⟨r', h3, q', h4, h5⟩

/-- The filter loop of both checks: the assessed reports, and whether the variance of any report is masked. -/
theorem sstFilter_spec {day : Report → Except Err Bool} {mask : Option Rat → Bool} {v : List Report}
    {p : Bool × List SstObs} (h : sstFilter day mask v = .ok p) :
    AssessedObs day mask v p.2
      ∧ (p.1 = true ↔ ∃ r ∈ v, ∃ q, r.getext "BGVAR" = .ok q ∧ mask q = true) := by
  unfold sstFilter at h
  cases h1 : v.zipIdx.mapM (sstScreen day mask) with
  | error e => rw [h1] at h; simp at h
  | ok l =>
    rw [h1, except_bind_ok, except_pure, Except.ok.injEq] at h
    subst h
    obtain ⟨a1, -, a2, a3, a4⟩ := sstFilter_aux v 0 l h1
    refine ⟨⟨a1, fun k r hr => ?_, a3⟩, a4⟩
    have := a2 k r hr
    simpa using this

theorem sstFilter_completes {day : Report → Except Err Bool} {mask : Option Rat → Bool} {v : List Report}
    (h : ∀ (k : Nat) (r : Report), v[k]? = some r → Matched day mask r k) : ∃ p, sstFilter day mask v = .ok p := by
  have key : ∀ (l : List (Report × Nat)), (∀ x ∈ l, Matched day mask x.1 x.2) →
      ∃ l', l.mapM (sstScreen day mask) = .ok l' := by
    intro l
    induction l with
    | nil => exact fun _ => ⟨[], rfl⟩
    | cons x l ih =>
      intro hx
      obtain ⟨l', hl'⟩ := ih fun y hy => hx y (List.mem_cons_of_mem _ hy)
      obtain ⟨p, hp⟩ := sstScreen_completes (hx x (List.mem_cons_self ..))
      refine ⟨p :: l', ?_⟩
      rw [List.mapM_cons, hp, except_bind_ok, hl', except_bind_ok, except_pure]
  obtain ⟨l, hl⟩ := key v.zipIdx (by
    rintro ⟨r, k⟩ hx
    have := List.mem_zipIdx_iff_getElem?.1 hx
    exact h k r this)
  unfold sstFilter
  rw [hl]
  exact ⟨_, rfl⟩

end MarineQC
