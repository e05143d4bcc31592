import Verif.Buoy.Tail
import Verif.Buoy.Assessed

/-!
# The tests of a window of temperature differences
-/

namespace MarineQC

namespace Spec

/-- The difference to the background is larger than `stdN` times the expected deviation: background error variance
plus the variances between and within buoys. -/
def Exceeds (stdN inter intra : Rat) (o : SstObs) : Prop :=
  |(o.anom : ℝ)| > stdN * Real.sqrt ((o.bgvar : ℝ) + (inter : ℝ) ^ 2 + (intra : ℝ) ^ 2)

open Classical in
/-- How many differences are too large. -/
noncomputable def exceedances (stdN inter intra : Rat) (w : List SstObs) : Nat :=
  (w.filter fun o => decide (Exceeds stdN inter intra o)).length

/-- The window fails the long check of the tail check: all background error variances are within the limit, and,
without the hundredth largest and smallest differences, the mean difference is more than `longStdN` times the expected
deviation or the spread is more than expected. -/
def LongFails (P : TailParams) (w : List SstObs) : Prop :=
  (∀ o ∈ w, o.bgvar ≤ P.errLim) ∧ ∃ mid mean var, Trimmed (w.map (·.anom)) (w.length / 100) mid
    ∧ mean * mid.length = mid.sum ∧ MeanSquare mid var
    ∧ (|(mean : ℝ)| > P.longStdN * Real.sqrt ((P.inter : ℝ) ^ 2
          + ((w.map fun o => Real.sqrt (o.bgvar : ℝ)).sum / w.length) ^ 2)
        ∨ (var : ℝ) > (P.intra : ℝ) ^ 2 + (w.map fun o => (o.bgvar : ℝ)).sum / w.length)

/-- The window fails the short check of the tail check: all background error variances are within the limit and at
least `shortBad` differences are too large. -/
def ShortFails (P : TailParams) (w : List SstObs) : Prop :=
  (∀ o ∈ w, o.bgvar ≤ P.errLim) ∧ P.shortBad ≤ exceedances P.shortStdN P.inter P.intra w

end Spec

open Spec

theorem trimmedMean_iff (l : List Rat) (trim : Nat) (r : Rat) :
    trimmedMean l trim = some r ↔ ∃ mid, Trimmed l (l.length / trim) mid ∧ mid ≠ [] ∧ r * mid.length = mid.sum := by
  rw [C27_trimmed_formula l (pySort l) (pySort_perm l) (pySort_sorted l)]
  have hdiv : ∀ mid : List Rat, mid ≠ [] → (r = mid.sum / mid.length ↔ r * mid.length = mid.sum) := by
    intro mid h0
    have : (mid.length : Rat) ≠ 0 := by simpa using h0
    exact eq_div_iff this
  constructor
  · rintro ⟨low, mid, high, e, e1, e2, h0, h⟩
    refine ⟨mid, ⟨low, high, ?_, ?_, e1, e2⟩, h0, (hdiv mid h0).1 h⟩
    · rw [← e]; exact pySort_perm l
    · rw [← e]; exact pySort_sorted l
  · rintro ⟨mid, ⟨low, high, e, hs, e1, e2⟩, h0, h⟩
    exact ⟨low, mid, high, pySort_unique e hs, e1, e2, h0, (hdiv mid h0).2 h⟩

theorem trimmed_unique {l : List Rat} {k : Nat} {m m' : List Rat} (h : Trimmed l k m) (h' : Trimmed l k m') :
    m = m' :=
  ((trimmed_iff _ _ _).1 h).2.symm.trans ((trimmed_iff _ _ _).1 h').2

theorem bgerr_sq {o : SstObs} (h : 0 ≤ o.bgvar) : o.bgerr ^ 2 = (o.bgvar : ℝ) := by
  unfold SstObs.bgerr
  exact Real.sq_sqrt (by exact_mod_cast h)

theorem exceedsLimit_iff {stdN inter intra : Rat} {o : SstObs} (h : 0 ≤ o.bgvar) :
    exceedsLimit stdN inter intra o = true ↔ Exceeds stdN inter intra o := by
  unfold exceedsLimit Exceeds
  simp only [bgerr_sq h, Bool.or_eq_true, decide_eq_true_eq, gt_iff_lt]
  rw [lt_abs]
  constructor <;> rintro (h | h) <;> [left; right; left; right] <;> linarith

open Classical in
theorem countP_exceeds {stdN inter intra : Rat} {w : List SstObs} (h : ∀ o ∈ w, 0 ≤ o.bgvar) :
    w.countP (exceedsLimit stdN inter intra) = exceedances stdN inter intra w := by
  unfold exceedances
  rw [← List.countP_eq_length_filter]
  apply List.countP_congr
  intro o ho
  simp only [exceedsLimit_iff (h o ho), decide_eq_true_eq]

theorem unreliableWindow_iff {P : TailParams} (hP : 0 ≤ P.errLim) (w : List SstObs) :
    unreliableWindow P w = false ↔ ∀ o ∈ w, o.bgvar ≤ P.errLim := by
  unfold unreliableWindow SstObs.bgerr
  rw [List.any_eq_false]
  simp only [decide_eq_true_eq, gt_iff_lt, not_lt]
  refine forall₂_congr fun o ho => ?_
  rw [Real.sqrt_le_sqrt_iff (by exact_mod_cast hP)]
  exact_mod_cast Iff.rfl

theorem rms_eq {w : List SstObs} (h : ∀ o ∈ w, 0 ≤ o.bgvar) :
    Real.sqrt (realMean (w.map fun o => o.bgerr ^ 2)) ^ 2 = (w.map fun o => (o.bgvar : ℝ)).sum / w.length := by
  have e : (w.map fun o => o.bgerr ^ 2) = w.map fun o => (o.bgvar : ℝ) :=
    List.map_congr_left fun o ho => bgerr_sq (h o ho)
  unfold realMean
  rw [e, List.length_map, Real.sq_sqrt]
  apply div_nonneg
  · apply List.sum_nonneg
    intro x hx
    obtain ⟨o, ho, rfl⟩ := List.mem_map.1 hx
    exact_mod_cast h o ho
  · positivity

theorem sqrt_spread {var intra : Rat} {q : ℝ} (hq : 0 ≤ q) :
    Real.sqrt (var : ℝ) > Real.sqrt ((intra : ℝ) ^ 2 + q) ↔ (var : ℝ) > (intra : ℝ) ^ 2 + q := by
  rw [gt_iff_lt, gt_iff_lt, Real.sqrt_lt_sqrt_iff (by positivity)]

theorem average_nonneg {w : List SstObs} (h : ∀ o ∈ w, 0 ≤ o.bgvar) :
    0 ≤ (w.map fun o => (o.bgvar : ℝ)).sum / w.length := by
  rw [← rms_eq h]
  positivity

theorem longWindow_iff {P : TailParams} (hP : 0 ≤ P.errLim) {w : List SstObs} (h : ∀ o ∈ w, 0 ≤ o.bgvar) :
    (unreliableWindow P w = false ∧ longWindowBad P w = true) ↔ LongFails P w := by
  unfold LongFails
  rw [unreliableWindow_iff hP]
  refine and_congr Iff.rfl ?_
  have hb : realMean (w.map (·.bgerr)) = (w.map fun o => Real.sqrt (o.bgvar : ℝ)).sum / w.length := by
    unfold realMean SstObs.bgerr
    rw [List.length_map]
  unfold longWindowBad
  cases h1 : trimmedMean (w.map (·.anom)) 100 with
  | none =>
    simp only [Bool.false_eq_true, false_iff]
    rintro ⟨mid, mean, var, t1, t2, t3, -⟩
    have : trimmedMean (w.map (·.anom)) 100 = some mean :=
      (trimmedMean_iff _ _ _).2 ⟨mid, by rwa [List.length_map], t3.1, t2⟩
    rw [h1] at this
    simp at this
  | some avg =>
    obtain ⟨mid, a1, a2, a3⟩ := (trimmedMean_iff _ _ _).1 h1
    rw [List.length_map] at a1
    cases h2 : trimVar (w.map (·.anom)) 100 with
    | none =>
      simp only [Bool.false_eq_true, false_iff]
      rintro ⟨mid, mean, var, t1, t2, t3, -⟩
      have : trimVar (w.map (·.anom)) 100 = some var :=
        (C74_formula _ _ _).2 ⟨mid, by rwa [List.length_map], t3⟩
      rw [h2] at this
      simp at this
    | some var =>
      obtain ⟨mid', b1, b2⟩ := (C74_formula _ _ _).1 h2
      rw [List.length_map] at b1
      have hmm := trimmed_unique b1 a1
      subst hmm
      simp only [hb, rms_eq h, Bool.or_eq_true, decide_eq_true_eq, sqrt_spread (average_nonneg h)]
      constructor
      · intro hh
        exact ⟨mid', avg, var, a1, a3, b2, hh⟩
      · rintro ⟨m, mean, var', t1, t2, t3, hh⟩
        have e1 := trimmed_unique t1 a1
        subst e1
        have e2 : mean = avg := by
          have : (m.length : Rat) ≠ 0 := by simpa using a2
          exact mul_right_cancel₀ this (t2.trans a3.symm)
        have e3 : var' = var := by
          have := (npVar_iff _ _).2 t3
          rw [(npVar_iff _ _).2 b2] at this
          simpa using this.symm
        subst e2 e3
        exact hh

theorem shortWindow_iff {P : TailParams} (hP : 0 ≤ P.errLim) {w : List SstObs} (h : ∀ o ∈ w, 0 ≤ o.bgvar) :
    (unreliableWindow P w = false ∧ shortWindowBad P w = true) ↔ ShortFails P w := by
  unfold ShortFails shortWindowBad
  rw [unreliableWindow_iff hP, decide_eq_true_eq, countP_exceeds h]

theorem tailTests_symmetric (P : TailParams) : (tailTests P).Symmetric := by
  intro w
  have hp : (w.reverse).Perm w := List.reverse_perm w
  refine ⟨?_, ?_, ?_⟩
  · show unreliableWindow P w.reverse = unreliableWindow P w
    unfold unreliableWindow
    rw [List.any_reverse]
  · show longWindowBad P w.reverse = longWindowBad P w
    unfold longWindowBad realMean
    rw [(C27_order_independent _ _ (hp.map _) 100).2, C74_order_independent _ _ (hp.map _) 100,
      (hp.map _).sum_eq, (hp.map _).sum_eq]
    simp only [List.length_map, List.length_reverse]
  · show shortWindowBad P w.reverse = shortWindowBad P w
    unfold shortWindowBad
    rw [List.countP_reverse]

end MarineQC
