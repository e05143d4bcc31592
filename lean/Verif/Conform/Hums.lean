import Mathlib.Analysis.Complex.ExponentialBounds
import Verif.Hums.Model

/-!
# The tests of /repo/test_CalcHums.py as tests of the model

The exponential function is bounded by its series.
-/

namespace MarineQC.Conform

open MarineQC.Hums

theorem exp_near {x lo hi : ℝ} (h0 : 0 ≤ x) (h1 : x ≤ 1)
    (hlo : lo ≤ ∑ m ∈ Finset.range 8, x ^ m / m.factorial)
    (hhi : (∑ m ∈ Finset.range 8, x ^ m / m.factorial) + x ^ 8 * (8 + 1) / (Nat.factorial 8 * 8) ≤ hi) :
    lo ≤ Real.exp x ∧ Real.exp x ≤ hi := by
  refine ⟨hlo.trans (Real.sum_le_exp_of_nonneg h0 8), le_trans ?_ hhi⟩
  have := Real.exp_bound' h0 h1 (n := 8) (by norm_num)
  exact_mod_cast this

theorem roundTenth_of {x : ℝ} {k : ℤ} (h0 : 0 ≤ x) (h1 : (k : ℝ) / 10 - 1 / 20 ≤ x) (h2 : x < (k : ℝ) / 10 + 1 / 20) :
    roundTenth x = (k : ℝ) / 10 := by
  unfold roundTenth
  rw [if_pos h0]
  have : ⌊x * 10 + 1 / 2⌋ = k := by
    rw [Int.floor_eq_iff]
    constructor <;> linarith
  rw [this]

/-- The vapour pressure over water at 10 degrees. -/
theorem water10 : 12329 / 1000 ≤ overWater 10 1013 ∧ overWater 10 1013 ≤ 12330 / 1000 := by
  obtain ⟨a, b⟩ := exp_near (x := ((18729 / 1000 - 10 / (2273 / 10)) * 10) / (25787 / 100 + 10)) (lo := 200880 / 100000)
    (hi := 200882 / 100000) (by norm_num) (by norm_num) (by norm_num [Finset.sum_range_succ, Nat.factorial])
    (by norm_num [Finset.sum_range_succ, Nat.factorial])
  simp only [overWater]
  constructor <;> linarith

/-- The vapour pressure over water at 15 degrees. -/
theorem water15 : 17122 / 1000 ≤ overWater 15 1013 ∧ overWater 15 1013 ≤ 17123 / 1000 := by
  have e : Real.exp (((18729 / 1000 - 15 / (2273 / 10)) * 15) / (25787 / 100 + 15)) =
      Real.exp (((18729 / 1000 - 15 / (2273 / 10)) * 15) / (25787 / 100 + 15) / 2) ^ 2 := by
    rw [← Real.exp_nat_mul]
    congr 1
    norm_num
  obtain ⟨a, b⟩ := exp_near (x := ((18729 / 1000 - 15 / (2273 / 10)) * 15) / (25787 / 100 + 15) / 2) (lo := 1670229 / 1000000)
    (hi := 1670239 / 1000000) (by norm_num) (by norm_num) (by norm_num [Finset.sum_range_succ, Nat.factorial])
    (by norm_num [Finset.sum_range_succ, Nat.factorial])
  simp only [overWater]
  rw [e]
  constructor <;> nlinarith

/-- The wet-bulb temperature is above freezing, so the formula over water is used. -/
theorem wet10 : 1222 / 100 ≤ wetBulb (overWater 10 1013) 10 15 1013 ∧ wetBulb (overWater 10 1013) 10 15 1013 ≤ 1224 / 100 := by
  obtain ⟨a, b⟩ := water10
  simp only [wetBulb]
  have hpos : (0 : ℝ) < 66 / 1000000 * 1013 + 4098 / 10 * overWater 10 1013 / (10 + 2373 / 10) ^ 2 := by
    have : (0 : ℝ) ≤ 4098 / 10 * overWater 10 1013 / (10 + 2373 / 10) ^ 2 := by
      apply div_nonneg <;> nlinarith
    linarith
  constructor
  · rw [le_div_iff₀ hpos]
    norm_num
    nlinarith
  · rw [div_le_iff₀ hpos]
    norm_num
    nlinarith

theorem pressure10 : pressureOf 10 15 1013 = overWater 10 1013 := by
  unfold pressureOf
  rw [if_neg]
  linarith [wet10.1]

/-- test_CalcHums.py:7-11. -/
theorem test_vap_from_example : vap (some 10) (some 15) (some 1013) true = some (123 / 10) := by
  have := roundTenth_of (x := overWater 10 1013) (k := 123) (by linarith [water10.1]) (by push_cast; linarith [water10.1])
    (by push_cast; linarith [water10.2])
  simp only [vap, roundIf, pressure10, if_true, this]
  norm_num

/-- test_CalcHums.py:13-17. -/
theorem test_vap_from_sh : vapFromSh (some (76 / 10)) (some 1013) true = .ok (123 / 10) := by
  have := roundTenth_of (x := 76 / 10 / 1000 * 1013 / (622 / 1000 + 378 / 1000 * (76 / 10 / 1000))) (k := 123) (by norm_num)
    (by norm_num) (by norm_num)
  simp only [vapFromSh, roundIf, if_true, this]
  norm_num

/-- test_CalcHums.py:19-23. -/
theorem test_sh : sh (some 10) (some 15) (some 1013) true = some (76 / 10) := by
  obtain ⟨a, b⟩ := water10
  have hpos : (0 : ℝ) < 1013 - (1 - 622 / 1000) * overWater 10 1013 := by linarith
  have h1 : 755 / 100 ≤ shOf (overWater 10 1013) 1013 := by
    unfold shOf
    rw [← mul_div_assoc, le_div_iff₀ hpos]
    linarith
  have h2 : shOf (overWater 10 1013) 1013 < 765 / 100 := by
    unfold shOf
    rw [← mul_div_assoc, div_lt_iff₀ hpos]
    linarith
  have := roundTenth_of (x := shOf (overWater 10 1013) 1013) (k := 76) (by linarith) (by push_cast; linarith)
    (by push_cast; linarith)
  simp only [sh, roundIf, pressure10, if_true, this]
  norm_num

/-- test_CalcHums.py:31-35. -/
theorem test_rh : rh (some 10) (some 15) (some 1013) true = some 72 := by
  obtain ⟨a, b⟩ := water10
  obtain ⟨c, d⟩ := water15
  have hsat : saturation 15 1013 = overWater 15 1013 := by
    simp only [saturation]
    rw [if_neg]
    have : (0 : ℝ) ≤ 4098 / 10 * overWater 15 1013 / (15 + 2373 / 10) ^ 2 := by
      apply div_nonneg <;> nlinarith
    rw [← add_mul, mul_comm, mul_div_assoc, div_self (by linarith)]
    norm_num
  have hpos : (0 : ℝ) < overWater 15 1013 := by linarith
  have h1 : 7195 / 100 ≤ overWater 10 1013 / overWater 15 1013 * 100 := by
    rw [div_mul_eq_mul_div, le_div_iff₀ hpos]
    linarith
  have h2 : overWater 10 1013 / overWater 15 1013 * 100 < 7205 / 100 := by
    rw [div_mul_eq_mul_div, div_lt_iff₀ hpos]
    linarith
  have := roundTenth_of (x := overWater 10 1013 / overWater 15 1013 * 100) (k := 720) (by linarith) (by push_cast; linarith)
    (by push_cast; linarith)
  simp only [rh, roundIf, pressure10, hsat, if_true, this]
  norm_num

/-- test_CalcHums.py:37-41. -/
theorem test_wb : wb (some 10) (some 15) (some 1013) true = some (122 / 10) := by
  obtain ⟨a, b⟩ := wet10
  have := roundTenth_of (x := wetBulb (overWater 10 1013) 10 15 1013) (k := 122) (by linarith) (by push_cast; linarith)
    (by push_cast; linarith)
  simp only [wb, roundIf, pressure10, if_true, this]
  norm_num

/-- test_CalcHums.py:43-47. -/
theorem test_dpd : dpd (some 10) (some 15) true = some 5 := by
  have := roundTenth_of (x := (15 : ℝ) - 10) (k := 50) (by norm_num) (by norm_num) (by norm_num)
  simp only [dpd, roundIf, if_true, this]
  norm_num

/-- The logarithm in the test of `td_from_vap`. -/
theorem log_near : 6951 / 10000 ≤ Real.log (123 / 10 / (61121 / 10000 * (1 + 7 / 10 ^ 4 + 346 / 100 / 10 ^ 6 * 1013))) ∧
    Real.log (123 / 10 / (61121 / 10000 * (1 + 7 / 10 ^ 4 + 346 / 100 / 10 ^ 6 * 1013))) ≤ 6952 / 10000 := by
  constructor
  · rw [Real.le_log_iff_exp_le (by norm_num)]
    refine (exp_near (lo := 0) (by norm_num) (by norm_num) (by norm_num [Finset.sum_range_succ, Nat.factorial]) ?_).2
    norm_num [Finset.sum_range_succ, Nat.factorial]
  · rw [Real.log_le_iff_le_exp (by norm_num)]
    refine (exp_near (hi := 3) (by norm_num) (by norm_num) ?_ (by norm_num [Finset.sum_range_succ, Nat.factorial])).1
    norm_num [Finset.sum_range_succ, Nat.factorial]

/-- The dew point found over water. -/
theorem dew10 : 996 / 100 ≤ dewPoint (61121 / 10000) (18729 / 1000) (2273 / 10) (25787 / 100) (123 / 10) 1013
      (fun p => 1 + 7 / 10 ^ 4 + 346 / 100 / 10 ^ 6 * p) ∧
    dewPoint (61121 / 10000) (18729 / 1000) (2273 / 10) (25787 / 100) (123 / 10) 1013
      (fun p => 1 + 7 / 10 ^ 4 + 346 / 100 / 10 ^ 6 * p) ≤ 997 / 100 := by
  obtain ⟨a, b⟩ := log_near
  simp only [dewPoint]
  generalize Real.log (123 / 10 / (61121 / 10000 * (1 + 7 / 10 ^ 4 + 346 / 100 / 10 ^ 6 * 1013))) = L at a b ⊢
  constructor
  · have : Real.sqrt ((2273 / 10 * L - 18729 / 1000 * (2273 / 10)) ^ 2 - 4 * 1 * (25787 / 100 * (2273 / 10) * L)) ≤
        -(2273 / 10 * L - 18729 / 1000 * (2273 / 10)) - 2 * (996 / 100) := by
      rw [Real.sqrt_le_left (by linarith)]
      nlinarith
    linarith
  · have : -(2273 / 10 * L - 18729 / 1000 * (2273 / 10)) - 2 * (997 / 100) ≤
        Real.sqrt ((2273 / 10 * L - 18729 / 1000 * (2273 / 10)) ^ 2 - 4 * 1 * (25787 / 100 * (2273 / 10) * L)) := by
      apply Real.le_sqrt_of_sq_le
      nlinarith
    linarith

/-- test_CalcHums.py:49-53. -/
theorem test_td_from_vap : tdFromVap (some (123 / 10)) (some 1013) (some 15) true = .ok 10 := by
  obtain ⟨a, b⟩ := dew10
  simp only [tdFromVap]
  generalize dewPoint (61121 / 10000) (18729 / 1000) (2273 / 10) (25787 / 100) (123 / 10) 1013
    (fun p => 1 + 7 / 10 ^ 4 + 346 / 100 / 10 ^ 6 * p) = x at a b ⊢
  have hw : ¬ wetBulb (123 / 10) x 15 1013 ≤ 0 := by
    simp only [wetBulb]
    have : (0 : ℝ) < 4098 / 10 * (123 / 10) / (x + 2373 / 10) ^ 2 := by
      apply div_pos
      · norm_num
      · have : (0 : ℝ) < x + 2373 / 10 := by linarith
        positivity
    rw [not_le]
    apply div_pos
    · nlinarith
    · linarith
  rw [if_neg hw]
  have := roundTenth_of (x := x) (k := 100) (by linarith) (by push_cast; linarith) (by push_cast; linarith)
  simp only [roundIf, if_true, this]
  norm_num

end MarineQC.Conform
