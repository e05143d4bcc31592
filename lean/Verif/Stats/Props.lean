import Verif.Stats.Model
import Mathlib.Tactic.Linarith
import Mathlib.Tactic.NormNum
import Mathlib.Tactic.Positivity
import Mathlib.Tactic.FieldSimp
import Mathlib.Tactic.Ring
import Mathlib.Data.List.Sort
import Mathlib.Analysis.Calculus.Deriv.MeanValue
import Mathlib.Algebra.BigOperators.Group.List.Basic
import Mathlib.Algebra.Order.BigOperators.Group.List
import Mathlib.MeasureTheory.Integral.IntervalIntegral.FundThmCalculus

/-!
# C27 resistant means, C28 gross-error probability
-/

namespace MarineQC

/-! ## Sorting -/

theorem pySort_perm (l : List Rat) : (pySort l).Perm l := List.mergeSort_perm _ _

theorem pySort_sorted (l : List Rat) : (pySort l).Pairwise (· ≤ ·) := by
  have h := List.pairwise_mergeSort (le := fun a b : Rat => decide (a ≤ b))
    (fun a b c h1 h2 => by
      simp only [decide_eq_true_eq] at *
      exact le_trans h1 h2)
    (fun a b => by
      simp only [Bool.or_eq_true, decide_eq_true_eq]
      exact le_total a b) l
  exact h.imp (fun h => by simpa using h)

theorem pySort_unique {l s : List Rat} (hp : s.Perm l) (hs : s.Pairwise (· ≤ ·)) : pySort l = s :=
  ((pySort_perm l).trans hp.symm).eq_of_pairwise (fun a b _ _ h1 h2 => le_antisymm h1 h2) (pySort_sorted l) hs

theorem pySort_length (l : List Rat) : (pySort l).length = l.length := (pySort_perm l).length_eq

theorem pySort_map_add (l : List Rat) (c : Rat) : pySort (l.map (· + c)) = (pySort l).map (· + c) := by
  apply pySort_unique
  · exact (pySort_perm l).map _
  · rw [List.pairwise_map]
    exact (pySort_sorted l).imp (fun h => by linarith)

theorem sorted_getElem_le {s : List Rat} (hs : s.Pairwise (· ≤ ·)) {i j : Nat} (hij : i ≤ j) (hj : j < s.length) :
    s[i]'(by omega) ≤ s[j] := by
  rcases eq_or_lt_of_le hij with rfl | h
  · exact le_refl _
  · exact List.pairwise_iff_getElem.1 hs i j (by omega) hj h

/-! ## C27 -/

theorem sum_map_const_of {l : List Rat} {f : Rat → Rat} {c : Rat} (h : ∀ x ∈ l, f x = c) :
    (l.map f).sum = l.length * c := by
  induction l with
  | nil => simp
  | cons a t ih =>
    rw [List.map_cons, List.sum_cons, ih (fun x hx => h x (List.mem_cons_of_mem _ hx)), h a (by simp)]
    simp; ring

/-- C27: for at least four values the winsorised mean is the plain mean of the values after each is moved
into the range from the first quartile value `q1` to the third quartile value `q3`, where `q1` and `q3` are
the members at positions `n/4` and `n-1-n/4` (counted from 0) of the values in ascending order `s`. -/
theorem C27_winsorised_formula (l s : List Rat) (hp : s.Perm l) (hs : s.Pairwise (· ≤ ·)) (hn : 4 ≤ l.length)
    (q1 q3 : Rat) (h1 : s[l.length / 4]? = some q1) (h3 : s[l.length - 1 - l.length / 4]? = some q3) :
    winsorisedMean l = .ok ((l.map (fun x => max q1 (min q3 x))).sum / l.length) ∧ q1 ≤ q3 := by
  have hlen : s.length = l.length := hp.length_eq
  obtain ⟨b1, e1⟩ := List.getElem?_eq_some_iff.1 h1
  obtain ⟨b3, e3⟩ := List.getElem?_eq_some_iff.1 h3
  have h13 : q1 ≤ q3 := by
    rw [← e1, ← e3]
    exact sorted_getElem_le hs (by omega) b3
  refine ⟨?_, h13⟩
  unfold winsorisedMean
  simp only [ge_iff_le, hn, if_true, pySort_unique hp hs, h1, h3]
  congr 2
  rw [← (hp.map (fun x => max q1 (min q3 x))).sum_eq]
  set k := l.length / 4 with hk
  set u := l.length - 1 - k with hu
  have hsplit : s = s.take k ++ (slice s k (u + 1) ++ s.drop (u + 1)) := by
    unfold slice
    have a : s.take k = (s.take (u + 1)).take k := by rw [List.take_take, min_eq_left (by omega)]
    rw [← List.append_assoc, a, List.take_append_drop, List.take_append_drop]
  have hA : ((s.take k).map (fun x => max q1 (min q3 x))).sum = k * q1 := by
    rw [sum_map_const_of (c := q1)]
    · rw [List.length_take, min_eq_left (by omega)]
    · intro x hx
      obtain ⟨i, hi, rfl⟩ := List.mem_iff_getElem.1 hx
      rw [List.length_take] at hi
      rw [List.getElem_take]
      have : s[i]'(by omega) ≤ q1 := by rw [← e1]; exact sorted_getElem_le hs (by omega) b1
      rw [min_eq_right (by linarith), max_eq_left this]
  have hC : ((s.drop (u + 1)).map (fun x => max q1 (min q3 x))).sum = k * q3 := by
    rw [sum_map_const_of (c := q3)]
    · rw [List.length_drop]
      have : s.length - (u + 1) = k := by omega
      rw [this]
    · intro x hx
      obtain ⟨i, hi, rfl⟩ := List.mem_iff_getElem.1 hx
      rw [List.length_drop] at hi
      rw [List.getElem_drop]
      have : q3 ≤ s[u + 1 + i]'(by omega) := by rw [← e3]; exact sorted_getElem_le hs (by omega) (by omega)
      rw [min_eq_left this, max_eq_right h13]
  have hB : ((slice s k (u + 1)).map (fun x => max q1 (min q3 x))).sum = (slice s k (u + 1)).sum := by
    congr 1
    conv_rhs => rw [← List.map_id (slice s k (u + 1))]
    apply List.map_congr_left
    intro x hx
    unfold slice at hx
    obtain ⟨i, hi, rfl⟩ := List.mem_iff_getElem.1 hx
    rw [List.length_drop, List.length_take] at hi
    rw [List.getElem_drop, List.getElem_take]
    have a : q1 ≤ s[k + i]'(by omega) := by rw [← e1]; exact sorted_getElem_le hs (by omega) (by omega)
    have b : s[k + i]'(by omega) ≤ q3 := by rw [← e3]; exact sorted_getElem_le hs (by omega) (by omega)
    rw [min_eq_right b, max_eq_right a]
    rfl
  conv_rhs => rw [hsplit]
  rw [List.map_append, List.map_append, List.sum_append, List.sum_append, hA, hB, hC]
  ring

/-- C27: below four values the winsorised mean is the plain mean; of nothing there is none. -/
theorem C27_winsorised_small (l : List Rat) (hn : l.length < 4) :
    winsorisedMean l = if l = [] then .error .zeroDiv else .ok (l.sum / l.length) := by
  unfold winsorisedMean
  simp only [ge_iff_le, not_le.2 hn, if_false, List.length_eq_zero_iff, slice, List.drop_zero]
  rw [← pySort_length l, List.take_length, (pySort_perm l).sum_eq]

/-- C27: the order of the input does not matter. -/
theorem C27_order_independent (l l' : List Rat) (h : l.Perm l') (trim : Nat) :
    winsorisedMean l = winsorisedMean l' ∧ trimmedMean l trim = trimmedMean l' trim := by
  have e : pySort l = pySort l' := pySort_unique ((pySort_perm l').trans h.symm) (pySort_sorted l')
  have hl := h.length_eq
  refine ⟨by unfold winsorisedMean; rw [e, hl], ?_⟩
  unfold trimmedMean
  by_cases ht : trim = 0
  · simp only [ht, if_true]
    unfold npMean
    rw [h.sum_eq, hl]
    by_cases h0 : l = []
    · subst h0
      have := h.nil_eq
      subst this
      rfl
    · have : l' ≠ [] := fun c => h0 (by subst c; exact h.eq_nil)
      simp [h0, this]
  · simp only [ht, if_false, e, hl]

theorem sum_bounds {l : List Rat} {a b : Rat} (h : ∀ x ∈ l, a ≤ x ∧ x ≤ b) :
    l.length * a ≤ l.sum ∧ l.sum ≤ l.length * b := by
  induction l with
  | nil => simp
  | cons x t ih =>
    have h1 := ih (fun y hy => h y (List.mem_cons_of_mem _ hy))
    have h2 := h x (by simp)
    simp only [List.length_cons, List.sum_cons, Nat.cast_add, Nat.cast_one]
    constructor <;> linarith [h1.1, h1.2, h2.1, h2.2]

theorem mean_bounds {l : List Rat} {a b : Rat} (h0 : l ≠ []) (h : ∀ x ∈ l, a ≤ x ∧ x ≤ b) :
    a ≤ l.sum / l.length ∧ l.sum / l.length ≤ b := by
  have hpos : (0 : Rat) < l.length := by
    have := List.length_pos_iff.2 h0
    exact_mod_cast this
  obtain ⟨h1, h2⟩ := sum_bounds h
  exact ⟨(le_div_iff₀ hpos).2 (by linarith), (div_le_iff₀ hpos).2 (by linarith)⟩

/-- C27: the winsorised mean of a non-empty list exists and lies between any bounds of the input. -/
theorem C27_winsorised_bounded (l : List Rat) (h0 : l ≠ []) :
    ∃ r, winsorisedMean l = .ok r ∧ ∀ a b : Rat, (∀ x ∈ l, a ≤ x ∧ x ≤ b) → a ≤ r ∧ r ≤ b := by
  by_cases hn : 4 ≤ l.length
  · have hl := pySort_length l
    have b1 : l.length / 4 < (pySort l).length := by omega
    have b3 : l.length - 1 - l.length / 4 < (pySort l).length := by omega
    obtain ⟨he, h13⟩ := C27_winsorised_formula l _ (pySort_perm l) (pySort_sorted l) hn _ _
      (List.getElem?_eq_getElem b1) (List.getElem?_eq_getElem b3)
    refine ⟨_, he, fun a b hab => ?_⟩
    have m1 := hab _ ((pySort_perm l).mem_iff.1 (List.getElem_mem b1))
    have m3 := hab _ ((pySort_perm l).mem_iff.1 (List.getElem_mem b3))
    have hlm : (l.length : Rat) = ((l.map (fun x => max (pySort l)[l.length / 4]
      (min (pySort l)[l.length - 1 - l.length / 4] x))).length : Rat) := by rw [List.length_map]
    rw [hlm]
    apply mean_bounds
    · simpa using h0
    · intro x hx
      obtain ⟨y, hy, rfl⟩ := List.mem_map.1 hx
      exact ⟨le_trans m1.1 (le_max_left _ _), max_le m1.2 (le_trans (min_le_left _ _) m3.2)⟩
  · rw [C27_winsorised_small l (by omega), if_neg h0]
    exact ⟨_, rfl, fun a b hab => mean_bounds h0 hab⟩

theorem slice_map (l : List Rat) (f : Rat → Rat) (i j : Nat) : slice (l.map f) i j = (slice l i j).map f := by
  simp [slice, List.map_take, List.map_drop]

theorem sum_map_add_const (l : List Rat) (c : Rat) : (l.map (· + c)).sum = l.sum + l.length * c := by
  induction l with
  | nil => simp
  | cons a t ih => simp only [List.map_cons, List.sum_cons, ih, List.length_cons, Nat.cast_add, Nat.cast_one]; ring

theorem npMean_map_add (l : List Rat) (c : Rat) : npMean (l.map (· + c)) = (npMean l).map (· + c) := by
  unfold npMean
  by_cases h : l = []
  · simp [h]
  · have hpos : (l.length : Rat) ≠ 0 := by
      have := List.length_pos_iff.2 h
      exact_mod_cast this.ne'
    rw [if_neg (by simpa using h), if_neg h, sum_map_add_const, List.length_map]
    simp only [Option.map_some]
    congr 1
    field_simp

/-- C27: adding a constant to every value adds it to the mean. -/
theorem C27_shift (l : List Rat) (c : Rat) (trim : Nat) :
    winsorisedMean (l.map (· + c)) = (winsorisedMean l).map (· + c) ∧
    trimmedMean (l.map (· + c)) trim = (trimmedMean l trim).map (· + c) := by
  constructor
  · by_cases h0 : l = []
    · subst h0; rfl
    have hpos : (l.length : Rat) ≠ 0 := by
      have := List.length_pos_iff.2 h0
      exact_mod_cast this.ne'
    by_cases hn : 4 ≤ l.length
    · have hl := pySort_length l
      have b1 : l.length / 4 < (pySort l).length := by omega
      have b3 : l.length - 1 - l.length / 4 < (pySort l).length := by omega
      unfold winsorisedMean
      simp only [ge_iff_le, hn, if_true, List.length_map, pySort_map_add, List.getElem?_map,
        List.getElem?_eq_getElem b1, List.getElem?_eq_getElem b3, Option.map_some, slice_map, sum_map_add_const]
      simp only [Except.map]
      congr 1
      have hlen : (slice (pySort l) (l.length / 4) (l.length - 1 - l.length / 4 + 1)).length =
          l.length - 2 * (l.length / 4) := by
        unfold slice
        rw [List.length_drop, List.length_take, hl]
        omega
      rw [hlen, Nat.cast_sub (by omega)]
      field_simp
      push_cast
      ring
    · rw [C27_winsorised_small _ (by simpa using hn), C27_winsorised_small _ (by omega), if_neg h0,
        if_neg (by simpa using h0), sum_map_add_const, List.length_map]
      simp only [Except.map]
      congr 1
      field_simp
  · unfold trimmedMean
    by_cases ht : trim = 0
    · simp only [ht, if_true, npMean_map_add]
    · simp only [ht, if_false, pySort_map_add, slice_map, npMean_map_add, List.length_map]

/-- C27: the trimmed mean is the plain mean of what is left of the values in ascending order `s` when the
`n / trim` smallest and the `n / trim` largest are removed (none for `trim = 0`). -/
theorem C27_trimmed_formula (l s : List Rat) (hp : s.Perm l) (hs : s.Pairwise (· ≤ ·)) (trim : Nat) (r : Rat) :
    trimmedMean l trim = some r ↔
      ∃ low mid high, s = low ++ mid ++ high ∧ low.length = l.length / trim ∧ high.length = l.length / trim ∧
        mid ≠ [] ∧ r = mid.sum / mid.length := by
  have hlen := hp.length_eq
  have key : ∀ k, k + k ≤ l.length → ∀ low mid high : List Rat, s = low ++ mid ++ high → low.length = k →
      high.length = k → slice s k (l.length - k) = mid := by
    intro k hk low mid high e e1 e2
    have : l.length - k = (low ++ mid).length := by
      rw [← hlen, e]; simp; omega
    unfold slice
    rw [this, e, List.take_left, ← e1, List.drop_left]
  have key2 : ∀ k, k + k ≤ l.length → ∃ low mid high : List Rat, s = low ++ mid ++ high ∧ low.length = k ∧
      high.length = k := by
    intro k hk
    refine ⟨s.take k, slice s k (l.length - k), s.drop (l.length - k), ?_, ?_, ?_⟩
    · unfold slice
      have a : s.take k = (s.take (l.length - k)).take k := by rw [List.take_take, min_eq_left (by omega)]
      rw [a, List.take_append_drop, List.take_append_drop]
    · rw [List.length_take]; omega
    · rw [List.length_drop]; omega
  have hmean : ∀ mid : List Rat, npMean mid = some r ↔ mid ≠ [] ∧ r = mid.sum / mid.length := by
    intro mid
    unfold npMean
    by_cases h : mid = []
    · simp [h]
    · rw [if_neg h, Option.some.injEq, eq_comm]
      simp [h]
  unfold trimmedMean
  by_cases ht : trim = 0
  · subst ht
    simp only [if_true, Nat.div_zero, List.length_eq_zero_iff]
    have e : npMean l = npMean s := by
      unfold npMean
      rw [hp.sum_eq, hlen]
      by_cases h0 : l = []
      · subst h0; rw [hp.eq_nil]
      · have : s ≠ [] := fun c => h0 (by subst c; exact hp.nil_eq.symm)
        simp [h0, this]
    rw [e, hmean]
    constructor
    · intro h
      exact ⟨[], s, [], by simp, rfl, rfl, h⟩
    · rintro ⟨_, mid, _, h, rfl, rfl, h'⟩
      simp only [List.nil_append, List.append_nil] at h
      rw [h]; exact h'
  · simp only [ht, if_false, pySort_unique hp hs]
    by_cases hk : l.length / trim + l.length / trim ≤ l.length
    · rw [hmean]
      constructor
      · intro h
        obtain ⟨low, mid, high, e, e1, e2⟩ := key2 _ hk
        rw [key _ hk low mid high e e1 e2] at h
        exact ⟨low, mid, high, e, e1, e2, h⟩
      · rintro ⟨low, mid, high, e, e1, e2, h⟩
        rw [key _ hk low mid high e e1 e2]
        exact h
    · have : slice s (l.length / trim) (l.length - l.length / trim) = [] := by
        unfold slice
        rw [List.drop_eq_nil_iff, List.length_take]
        omega
      rw [this]
      constructor
      · intro h; simp [npMean] at h
      · rintro ⟨low, mid, high, e, e1, e2, h, -⟩
        exfalso
        have : s.length = low.length + mid.length + high.length := by rw [e]; simp [add_assoc]
        omega

/-- C27: with `trim = 0` or at least 3 a non-empty list has a trimmed mean, and it lies between any bounds
of the input. -/
theorem C27_trimmed_bounded (l : List Rat) (h0 : l ≠ []) (trim : Nat) (ht : trim = 0 ∨ 3 ≤ trim) :
    ∃ r, trimmedMean l trim = some r ∧ ∀ a b : Rat, (∀ x ∈ l, a ≤ x ∧ x ≤ b) → a ≤ r ∧ r ≤ b := by
  have hl := List.length_pos_iff.2 h0
  have hk : l.length / trim + l.length / trim < l.length := by
    rcases ht with rfl | ht
    · simp; exact hl
    · have : l.length / trim ≤ l.length / 3 := Nat.div_le_div_left ht (by omega)
      omega
  have hlen := pySort_length l
  obtain ⟨low, mid, high, e, e1, e2⟩ : ∃ low mid high : List Rat, pySort l = low ++ mid ++ high ∧
      low.length = l.length / trim ∧ high.length = l.length / trim := by
    refine ⟨(pySort l).take (l.length / trim), slice (pySort l) (l.length / trim) (l.length - l.length / trim),
      (pySort l).drop (l.length - l.length / trim), ?_, ?_, ?_⟩
    · unfold slice
      have a : (pySort l).take (l.length / trim) =
          ((pySort l).take (l.length - l.length / trim)).take (l.length / trim) := by
        rw [List.take_take, min_eq_left (by omega)]
      rw [a, List.take_append_drop, List.take_append_drop]
    · rw [List.length_take, hlen, min_eq_left (by omega)]
    · rw [List.length_drop, hlen, Nat.sub_sub_self (by omega)]
  have hmid : mid ≠ [] := by
    rintro rfl
    have : (pySort l).length = low.length + high.length := by rw [e]; simp
    omega
  refine ⟨mid.sum / mid.length, (C27_trimmed_formula l _ (pySort_perm l) (pySort_sorted l) trim _).2
    ⟨low, mid, high, e, e1, e2, hmid, rfl⟩, fun a b hab => mean_bounds hmid (fun x hx => hab x ?_)⟩
  rw [← (pySort_perm l).mem_iff, e]
  simp [hx]

/-- C27: with `trim = 1` the trimmed mean is undefined (NaN), with `trim = 2` it is undefined for every list
of even length: the bound of the previous theorem on `trim` is needed. -/
theorem C27_trimmed_undefined (l : List Rat) :
    trimmedMean l 1 = none ∧ (2 ∣ l.length → trimmedMean l 2 = none) := by
  have h : ∀ k, l.length ≤ k + k → npMean (slice (pySort l) k (l.length - k)) = none := by
    intro k hk
    have : slice (pySort l) k (l.length - k) = [] := by
      unfold slice
      rw [List.drop_eq_nil_iff, List.length_take]
      omega
    rw [this]; rfl
  constructor
  · simp only [trimmedMean, one_ne_zero, if_false]
    exact h _ (by simp)
  · intro hd
    simp only [trimmedMean, OfNat.ofNat_ne_zero, if_false]
    exact h _ (by omega)

example : ([1, 2, 3, 4, 100] : List Rat).Perm [3, 100, 1, 4, 2] ∧ ([1, 2, 3, 4, 100] : List Rat).Pairwise (· ≤ ·) := by
  decide +kernel
example : winsorisedMean [3, 100, 1, 4, 2] = .ok 3 ∧ trimmedMean [3, 100, 1, 4, 2] 5 = some 3 := by
  constructor
  · rw [(C27_winsorised_formula [3, 100, 1, 4, 2] [1, 2, 3, 4, 100] (by decide +kernel) (by decide +kernel) (by decide)
      2 4 rfl rfl).1]
    norm_num
  · rw [C27_trimmed_formula _ [1, 2, 3, 4, 100] (by decide +kernel) (by decide +kernel)]
    exact ⟨[1], [2, 3, 4], [100], rfl, rfl, rfl, by simp, by norm_num⟩

/-! ## C28 -/

/-- The error function is strictly increasing. -/
theorem erf_strictMono : StrictMono erf := by
  have hc : Continuous (fun t : ℝ => Real.exp (-t ^ 2)) := by fun_prop
  apply strictMono_of_deriv_pos
  intro x
  have hd : HasDerivAt (fun x => ∫ t in (0 : ℝ)..x, Real.exp (-t ^ 2)) (Real.exp (-x ^ 2)) x :=
    intervalIntegral.integral_hasDerivAt_right (hc.intervalIntegrable _ _)
      (hc.stronglyMeasurableAtFilter _ _) hc.continuousAt
  have hd2 := hd.const_mul (2 / Real.sqrt Real.pi)
  have he : deriv erf x = 2 / Real.sqrt Real.pi * Real.exp (-x ^ 2) := hd2.deriv
  rw [he]
  have := Real.pi_pos
  positivity

section
variable {E : ℝ → ℝ} (hE : StrictMono E)
include hE

/-- C28: the probability of the datum given a good observation. -/
theorem C28_good (x q rHi rLo mu sigma : ℝ) (hq : 0 < q) (hs : 0 < sigma) (hr : rLo < rHi)
    (hx : rLo ≤ x) (hx' : x ≤ rHi) :
    ∃ b, pDataGivenGood E x q rHi rLo mu sigma = .ok b ∧ 0 < b ∧ b ≤ 1 := by
  have hden : 0 < sigma * Real.sqrt 2 := by positivity
  have hlt : ∀ a b : ℝ, a < b → E ((a - mu) / (sigma * Real.sqrt 2)) < E ((b - mu) / (sigma * Real.sqrt 2)) := by
    intro a b hab
    apply hE
    gcongr
  have hle : ∀ a b : ℝ, a ≤ b → E ((a - mu) / (sigma * Real.sqrt 2)) ≤ E ((b - mu) / (sigma * Real.sqrt 2)) := by
    intro a b hab
    apply hE.monotone
    gcongr
  have hup : min (x + 0.5 * q) (rHi + 0.5 * q) = x + 0.5 * q := min_eq_left (by linarith)
  have hlo : max (x - 0.5 * q) (rLo - 0.5 * q) = x - 0.5 * q := max_eq_left (by linarith)
  have h1 := hlt (x - 0.5 * q) (x + 0.5 * q) (by linarith)
  have h2 := hle (x + 0.5 * q) (rHi + 0.5 * q) (by linarith)
  have h3 := hle (rLo - 0.5 * q) (x - 0.5 * q) (by linarith)
  unfold pDataGivenGood
  rw [decide_eq_true (show q > 0 from hq), decide_eq_true (show sigma > 0 from hs),
    decide_eq_true (show rHi > rLo from hr), decide_eq_true (show x ≥ rLo from hx), decide_eq_true hx']
  simp only [pyAssert_true, except_bind_ok, hup, hlo, except_pure]
  have hn : 0 < 0.5 * (E ((rHi + 0.5 * q - mu) / (sigma * Real.sqrt 2)) -
      E ((rLo - 0.5 * q - mu) / (sigma * Real.sqrt 2))) := by linarith
  rw [if_neg hn.ne']
  refine ⟨_, rfl, ?_, ?_⟩
  · apply div_pos _ hn
    linarith
  · rw [div_le_one hn]
    linarith

omit hE in
/-- C28: the probability of the datum given a gross error. -/
theorem C28_gross (q rHi rLo : ℝ) (hq : 0 < q) (hr : rLo < rHi) :
    ∃ a, pDataGivenGross q rHi rLo = .ok a ∧ 0 < a ∧ a < 1 := by
  have h1 : 0 < (rHi - rLo) / q := div_pos (by linarith) hq
  unfold pDataGivenGross
  rw [decide_eq_true (show q > 0 from hq), decide_eq_true (show rHi > rLo from hr)]
  simp only [pyAssert_true, except_bind_ok, except_pure]
  rw [if_neg (by linarith : 1 + (rHi - rLo) / q ≠ 0)]
  refine ⟨_, rfl, by positivity, ?_⟩
  rw [div_lt_one (by linarith)]
  linarith

/-- C28: `p_gross` returns (no assertion, its own included, fails), with a result in `[0, 1]`; 0 for
prior 0, 1 for prior 1; and a larger prior never gives a smaller result. -/
theorem C28_p_gross (q rHi rLo x mu sigma : ℝ) (hq : 0 < q) (hs : 0 < sigma) (hr : rLo < rHi)
    (hx : rLo ≤ x) (hx' : x ≤ rHi) :
    ∃ p : ℝ → ℝ, (∀ p0, 0 ≤ p0 → p0 ≤ 1 → pGross E p0 q rHi rLo x mu sigma = .ok (p p0) ∧ 0 ≤ p p0 ∧ p p0 ≤ 1) ∧
      p 0 = 0 ∧ p 1 = 1 ∧ ∀ p0 p1, 0 ≤ p0 → p0 ≤ p1 → p1 ≤ 1 → p p0 ≤ p p1 := by
  obtain ⟨b, hb, hb0, hb1⟩ := C28_good hE x q rHi rLo mu sigma hq hs hr hx hx'
  obtain ⟨a, ha, ha0, ha1⟩ := C28_gross q rHi rLo hq hr
  have hpos : ∀ p0 : ℝ, 0 ≤ p0 → p0 ≤ 1 → 0 < p0 * a + (1 - p0) * b := by
    intro p0 h0 h1
    rcases eq_or_lt_of_le h0 with rfl | h
    · simpa using hb0
    · have : 0 < p0 * a := by positivity
      have : 0 ≤ (1 - p0) * b := mul_nonneg (by linarith) hb0.le
      linarith
  refine ⟨fun p0 => p0 * a / (p0 * a + (1 - p0) * b), ?_, ?_, ?_, ?_⟩
  · intro p0 h0 h1
    have hd := hpos p0 h0 h1
    have hr0 : 0 ≤ p0 * a / (p0 * a + (1 - p0) * b) := div_nonneg (by positivity) hd.le
    have hr1 : p0 * a / (p0 * a + (1 - p0) * b) ≤ 1 := by
      rw [div_le_one hd]
      have : 0 ≤ (1 - p0) * b := mul_nonneg (by linarith) hb0.le
      linarith
    refine ⟨?_, hr0, hr1⟩
    unfold pGross
    rw [decide_eq_true (show p0 ≥ 0 from h0), decide_eq_true h1, decide_eq_true (show q > 0 from hq),
      decide_eq_true (show sigma > 0 from hs), decide_eq_true (show rHi > rLo from hr),
      decide_eq_true (show x ≥ rLo from hx), decide_eq_true hx']
    simp only [pyAssert_true, except_bind_ok, ha, hb, except_pure]
    rw [if_neg hd.ne', decide_eq_true (show _ ≥ (0 : ℝ) from hr0), decide_eq_true hr1]
    rfl
  · simp
  · simp [ha0.ne']
  · intro p0 p1 h0 h01 h1
    rw [div_le_div_iff₀ (hpos p0 h0 (by linarith)) (hpos p1 (by linarith) h1)]
    have : 0 < a * b := by positivity
    nlinarith

end

/-- C28 for the error function itself. -/
theorem C28_p_gross_erf (p0 q rHi rLo x mu sigma : ℝ) (h0 : 0 ≤ p0) (h1 : p0 ≤ 1) (hq : 0 < q) (hs : 0 < sigma)
    (hr : rLo < rHi) (hx : rLo ≤ x) (hx' : x ≤ rHi) :
    ∃ p, pGross erf p0 q rHi rLo x mu sigma = .ok p ∧ 0 ≤ p ∧ p ≤ 1 := by
  obtain ⟨p, hp, -⟩ := C28_p_gross erf_strictMono q rHi rLo x mu sigma hq hs hr hx hx'
  exact ⟨_, hp p0 h0 h1⟩

example : (0 : ℝ) < 0.1 ∧ (-8 : ℝ) < 8 ∧ (-8 : ℝ) ≤ 0 ∧ (0 : ℝ) ≤ 8 := by norm_num

end MarineQC
