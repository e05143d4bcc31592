import Verif.Stats.Props

/-!
# C74: the trimmed standard deviation
-/

namespace MarineQC

namespace Spec

/-- `m` is the mean of the values and `r` their mean squared distance from it. -/
def MeanSquare (l : List Rat) (r : Rat) : Prop :=
  l ≠ [] ∧ ∃ m, m * l.length = l.sum ∧ r * l.length = (l.map fun x => (x - m) * (x - m)).sum

/-- `mid` is what is left of the values `l` in ascending order without the `k` smallest and `k` largest. -/
def Trimmed (l : List Rat) (k : Nat) (mid : List Rat) : Prop :=
  ∃ low high, (low ++ mid ++ high).Perm l ∧ (low ++ mid ++ high).Pairwise (· ≤ ·)
    ∧ low.length = k ∧ high.length = k

end Spec

open Spec

theorem npVar_iff (l : List Rat) (r : Rat) : npVar l = some r ↔ MeanSquare l r := by
  unfold npVar npMean MeanSquare
  by_cases h : l = []
  · simp [h]
  · have hp : (l.length : Rat) ≠ 0 := by simpa using h
    simp only [h, if_false, List.map_eq_nil_iff, List.length_map, Option.some.injEq, ne_eq, not_false_eq_true,
      true_and]
    constructor
    · intro e
      refine ⟨l.sum / l.length, by field_simp, ?_⟩
      rw [← e, div_mul_cancel₀ _ hp]
      congr 1
      apply List.map_congr_left
      intro x _
      ring
    · rintro ⟨m, h1, h2⟩
      have : m = l.sum / l.length := by field_simp; exact h1
      subst this
      rw [div_eq_iff hp, h2]
      congr 1
      apply List.map_congr_left
      intro x _
      ring

theorem meanSquare_perm {l l' : List Rat} (h : l.Perm l') {r : Rat} (hm : MeanSquare l r) : MeanSquare l' r := by
  obtain ⟨h0, m, h1, h2⟩ := hm
  refine ⟨fun c => h0 (by subst c; exact h.eq_nil), m, ?_, ?_⟩
  · rw [← h.length_eq, ← h.sum_eq]; exact h1
  · rw [← h.length_eq, ← (h.map _).sum_eq]; exact h2

theorem trimmed_iff (l : List Rat) (k : Nat) (mid : List Rat) :
    Trimmed l k mid ↔ k + k ≤ l.length ∧ slice (pySort l) k (l.length - k) = mid := by
  constructor
  · rintro ⟨low, high, hp, hs, e1, e2⟩
    have hl := hp.length_eq
    simp only [List.length_append] at hl
    refine ⟨by omega, ?_⟩
    rw [pySort_unique hp hs]
    unfold slice
    have : l.length - k = (low ++ mid).length := by simp only [List.length_append]; omega
    rw [this, List.take_left, ← e1, List.drop_left]
  · rintro ⟨hk, rfl⟩
    have hlen := pySort_length l
    have e : (pySort l).take k ++ slice (pySort l) k (l.length - k) ++ (pySort l).drop (l.length - k)
        = pySort l := by
      unfold slice
      have a : (pySort l).take k = ((pySort l).take (l.length - k)).take k := by
        rw [List.take_take, min_eq_left (by omega)]
      rw [a, List.take_append_drop, List.take_append_drop]
    refine ⟨(pySort l).take k, (pySort l).drop (l.length - k), ?_, ?_, ?_, ?_⟩
    · rw [e]; exact pySort_perm l
    · rw [e]; exact pySort_sorted l
    · rw [List.length_take]; omega
    · rw [List.length_drop]; omega

/-- C74. `trim_std` squared is the mean squared distance from their mean of the values left when the `n / trim`
smallest and the `n / trim` largest are removed (none for `trim = 0`), and is undefined (NaN) when nothing is
left. -/
theorem C74_formula (l : List Rat) (trim : Nat) (r : Rat) :
    trimVar l trim = some r ↔ ∃ mid, Trimmed l (l.length / trim) mid ∧ MeanSquare mid r := by
  unfold trimVar
  by_cases ht : trim = 0
  · subst ht
    simp only [if_true, Nat.div_zero, npVar_iff, trimmed_iff]
    have hs : slice (pySort l) 0 (l.length - 0) = pySort l := by
      unfold slice
      rw [List.drop_zero, Nat.sub_zero, ← pySort_length l, List.take_length]
    simp only [hs]
    constructor
    · intro h; exact ⟨_, ⟨by omega, rfl⟩, meanSquare_perm (pySort_perm l).symm h⟩
    · rintro ⟨mid, ⟨-, rfl⟩, h⟩; exact meanSquare_perm (pySort_perm l) h
  · simp only [ht, if_false, npVar_iff, trimmed_iff]
    constructor
    · intro h
      refine ⟨_, ⟨?_, rfl⟩, h⟩
      by_contra hc
      refine h.1 ?_
      unfold slice
      rw [List.drop_eq_nil_iff, List.length_take]
      omega
    · rintro ⟨mid, ⟨-, rfl⟩, h⟩; exact h

/-- C74. The order of the input does not matter. -/
theorem C74_order_independent (l l' : List Rat) (h : l.Perm l') (trim : Nat) : trimVar l trim = trimVar l' trim := by
  have key : ∀ l l' : List Rat, l.Perm l' → ∀ r, trimVar l trim = some r → trimVar l' trim = some r := by
    intro l l' h r hr
    rw [C74_formula] at *
    obtain ⟨mid, ⟨low, high, hp, hs, e⟩, hm⟩ := hr
    rw [← h.length_eq]
    exact ⟨mid, ⟨low, high, hp.trans h, hs, e⟩, hm⟩
  cases h1 : trimVar l trim with
  | some r => rw [key l l' h r h1]
  | none =>
    cases h2 : trimVar l' trim with
    | none => rfl
    | some r => rw [key l' l h.symm r h2] at h1; simp at h1

theorem sum_sq_zero (l : List Rat) (m : Rat) (h : (l.map fun x => (x - m) * (x - m)).sum = 0) :
    ∀ x ∈ l, x = m := by
  induction l with
  | nil => simp
  | cons a l ih =>
    rw [List.map_cons, List.sum_cons] at h
    have h1 : 0 ≤ (a - m) * (a - m) := mul_self_nonneg _
    have h2 : 0 ≤ (l.map fun x => (x - m) * (x - m)).sum := by
      apply List.sum_nonneg
      intro y hy
      obtain ⟨x, -, rfl⟩ := List.mem_map.1 hy
      exact mul_self_nonneg _
    intro x hx
    rcases List.mem_cons.1 hx with rfl | hx
    · have : (x - m) * (x - m) = 0 := by linarith
      have := mul_self_eq_zero.1 this
      linarith
    · exact ih (by linarith) x hx

/-- C74. The trimmed variance is never negative, is 0 exactly when the values left are all equal, and does not
change when a constant is added to every value. -/
theorem C74_spread (l : List Rat) (trim : Nat) :
    (∀ r, trimVar l trim = some r → 0 ≤ r
      ∧ (r = 0 ↔ ∀ mid, Trimmed l (l.length / trim) mid → ∀ x ∈ mid, ∀ y ∈ mid, x = y))
      ∧ ∀ c, trimVar (l.map (· + c)) trim = trimVar l trim := by
  constructor
  · intro r hr
    obtain ⟨mid, ht, h0, m, h1, h2⟩ := (C74_formula l trim r).1 hr
    have hp : (0 : Rat) < mid.length := by
      have := List.length_pos_iff.2 h0
      exact_mod_cast this
    have hs : 0 ≤ (mid.map fun x => (x - m) * (x - m)).sum := by
      apply List.sum_nonneg
      intro y hy
      obtain ⟨x, -, rfl⟩ := List.mem_map.1 hy
      exact mul_self_nonneg _
    rw [← h2] at hs
    refine ⟨nonneg_of_mul_nonneg_left hs hp, ?_, ?_⟩
    · rintro rfl mid' ht' x hx y hy
      have e : mid' = mid := ((trimmed_iff _ _ _).1 ht').2.symm.trans ((trimmed_iff _ _ _).1 ht).2
      subst e
      have := sum_sq_zero mid' m (by rw [← h2]; ring)
      rw [this x hx, this y hy]
    · intro h
      have hall := h mid ht
      obtain ⟨a, t, rfl⟩ := List.exists_cons_of_ne_nil h0
      have hs2 : (a :: t).sum = ((a :: t).length : Rat) * a := by
        have := sum_map_const_of (l := a :: t) (f := fun x => x) (c := a) (fun x hx => hall x hx a (by simp))
        simpa using this
      have hm : m = a := by
        rw [hs2, mul_comm] at h1
        exact mul_left_cancel₀ hp.ne' h1
      subst hm
      have hs3 := sum_map_const_of (l := m :: t) (f := fun x => (x - m) * (x - m)) (c := 0)
        (fun x hx => by rw [hall x hx m (by simp)]; ring)
      rw [hs3, mul_zero] at h2
      rcases mul_eq_zero.1 h2 with h | h
      · exact h
      · exact absurd h hp.ne'
  · intro c
    have hv : ∀ l : List Rat, npVar (l.map (· + c)) = npVar l := by
      intro l
      have key : ∀ (l : List Rat) (c r : Rat), MeanSquare l r → MeanSquare (l.map (· + c)) r := by
        rintro l c r ⟨h0, m, h1, h2⟩
        have hsum : (l.map (· + c)).sum = l.sum + l.length * c := by
          clear h0 h1 h2
          induction l with
          | nil => simp
          | cons a t ih => rw [List.map_cons, List.sum_cons, ih, List.sum_cons]; push_cast [List.length_cons]; ring
        refine ⟨by simpa using h0, m + c, ?_, ?_⟩
        · rw [hsum, List.length_map, add_mul, h1]; ring
        · rw [List.length_map, h2, List.map_map]
          congr 1
          apply List.map_congr_left
          intro x _
          simp only [Function.comp]
          ring
      cases h1 : npVar l with
      | some r => rw [npVar_iff] at h1 ⊢; exact key l c r h1
      | none =>
        cases h2 : npVar (l.map (· + c)) with
        | none => rfl
        | some r =>
          rw [npVar_iff] at h2
          have := key _ (-c) r h2
          rw [List.map_map] at this
          have e : l.map ((fun x => x + -c) ∘ fun x => x + c) = l := by
            conv_rhs => rw [← List.map_id l]
            apply List.map_congr_left
            intro x _
            simp
          rw [e, ← npVar_iff, h1] at this
          simp at this
    unfold trimVar
    simp only [pySort_map_add, slice_map, hv, List.length_map]

/-- Non-vacuity: the values 1, 2, 3, 4, 100 trimmed by a fifth have variance 2/3. -/
example : Trimmed [3, 100, 1, 4, 2] 1 [2, 3, 4] ∧ trimVar [3, 100, 1, 4, 2] 5 = some (2 / 3) := by
  have h : Trimmed [3, 100, 1, 4, 2] 1 [2, 3, 4] :=
    ⟨[1], [100], by decide +kernel, by decide +kernel, rfl, rfl⟩
  refine ⟨h, (C74_formula _ _ _).2 ⟨[2, 3, 4], h, by simp, 3, by norm_num, by norm_num⟩⟩

end MarineQC
