import Mathlib.Analysis.Complex.ExponentialBounds
import Verif.Hums.Props

/-!
# C66, C85: dew points below freezing in air above freezing

`C85_ice_partial` covers air that is not above 0 degrees.  Here the air is above 0 degrees and the wet bulb is not: the dew
point is recovered between -10 and -0.1 degrees, and it is not recovered in general for lower dew points.
-/

namespace MarineQC

open Hums

/-- The exponent of Buck's formula over water. -/
noncomputable def waterPower (x : ℝ) : ℝ := (18729 / 1000 - x / (2273 / 10)) * x / (25787 / 100 + x)

/-- The exponent of Buck's formula over ice. -/
noncomputable def icePower (x : ℝ) : ℝ := (23036 / 1000 - x / (3337 / 10)) * x / (27982 / 100 + x)

/-- The factor of Buck's formula over water. -/
noncomputable def waterFactor (p : ℝ) : ℝ := 61121 / 10000 * (1 + 7 / 10 ^ 4 + 346 / 100 / 10 ^ 6 * p)

/-- The factor of Buck's formula over ice. -/
noncomputable def iceFactor (p : ℝ) : ℝ := 61115 / 10000 * (1 + 3 / 10 ^ 4 + 418 / 100 / 10 ^ 6 * p)

theorem overWater_power (x p : ℝ) : overWater x p = waterFactor p * Real.exp (waterPower x) := rfl

theorem overIce_power (x p : ℝ) : overIce x p = iceFactor p * Real.exp (icePower x) := rfl

theorem waterFactor_pos (p : ℝ) (hp : 0 < p) : 0 < waterFactor p := by unfold waterFactor; positivity

theorem iceFactor_pos (p : ℝ) (hp : 0 < p) : 0 < iceFactor p := by unfold iceFactor; positivity

/-- The dew point over water for a vapour pressure of `waterFactor p * exp L`. -/
noncomputable def rootOf (L : ℝ) : ℝ :=
  (-(2273 / 10 * L - 18729 / 1000 * (2273 / 10)) -
    Real.sqrt ((2273 / 10 * L - 18729 / 1000 * (2273 / 10)) ^ 2 - 4 * 1 * (25787 / 100 * (2273 / 10) * L))) / (2 * 1)

theorem dewPoint_rootOf (e p : ℝ) : dewPoint (61121 / 10000) (18729 / 1000) (2273 / 10) (25787 / 100) e p
    (fun p => 1 + 7 / 10 ^ 4 + 346 / 100 / 10 ^ 6 * p) = rootOf (Real.log (e / waterFactor p)) := rfl

/-- Below `L = 0` the root is where the exponent of the formula is `L`. -/
theorem rootOf_eq (L : ℝ) (h : L ≤ 0) :
    2273 / 10 * L * (25787 / 100 + rootOf L) = (18729 / 1000 * (2273 / 10) - rootOf L) * rootOf L := by
  have hd : 0 ≤ (2273 / 10 * L - 18729 / 1000 * (2273 / 10)) ^ 2 - 4 * 1 * (25787 / 100 * (2273 / 10) * L) := by nlinarith
  have hs := Real.sq_sqrt hd
  unfold rootOf
  generalize Real.sqrt ((2273 / 10 * L - 18729 / 1000 * (2273 / 10)) ^ 2 - 4 * 1 * (25787 / 100 * (2273 / 10) * L)) = s at *
  nlinarith

theorem rootOf_le (L x : ℝ) (hx : -2373 / 10 < x) (h : L ≤ waterPower x) : rootOf L ≤ x := by
  have hn : 0 < 25787 / 100 + x := by linarith
  have h1 : L * (25787 / 100 + x) ≤ (18729 / 1000 - x / (2273 / 10)) * x := by
    unfold waterPower at h; rwa [le_div_iff₀ hn] at h
  have hsq : -(2273 / 10 * L - 18729 / 1000 * (2273 / 10)) - 2 * x ≤
      Real.sqrt ((2273 / 10 * L - 18729 / 1000 * (2273 / 10)) ^ 2 - 4 * 1 * (25787 / 100 * (2273 / 10) * L)) := by
    apply Real.le_sqrt_of_sq_le
    nlinarith
  unfold rootOf
  linarith

theorem le_rootOf (L x : ℝ) (hx : -2373 / 10 < x) (h0 : x ≤ 0) (hL : L ≤ 0) (h : waterPower x ≤ L) : x ≤ rootOf L := by
  have hn : 0 < 25787 / 100 + x := by linarith
  have h1 : (18729 / 1000 - x / (2273 / 10)) * x ≤ L * (25787 / 100 + x) := by
    unfold waterPower at h; rwa [div_le_iff₀ hn] at h
  have hsq : Real.sqrt ((2273 / 10 * L - 18729 / 1000 * (2273 / 10)) ^ 2 - 4 * 1 * (25787 / 100 * (2273 / 10) * L)) ≤
      -(2273 / 10 * L - 18729 / 1000 * (2273 / 10)) - 2 * x := by
    rw [Real.sqrt_le_left (by linarith)]
    nlinarith
  unfold rootOf
  linarith

/-- The factor over ice is about the factor over water. -/
theorem factors (p : ℝ) (hp : 0 < p) (hp' : p ≤ 1100) :
    iceFactor p ≤ waterFactor p * (1 + 3 / 10000) ∧ waterFactor p * (1 - 6 / 10000) ≤ iceFactor p := by
  unfold iceFactor waterFactor
  constructor <;> nlinarith

/-- The logarithm of the vapour pressure over ice relative to the factor over water. -/
theorem log_ice (td p : ℝ) (hp : 0 < p) (hp' : p ≤ 1100) :
    Real.log (overIce td p / waterFactor p) ≤ icePower td + 3 / 10000 ∧
    icePower td - 7 / 10000 ≤ Real.log (overIce td p / waterFactor p) := by
  have hw := waterFactor_pos p hp
  have hi := iceFactor_pos p hp
  obtain ⟨f1, f2⟩ := factors p hp hp'
  have e1 : Real.log (overIce td p / waterFactor p) = Real.log (iceFactor p / waterFactor p) + icePower td := by
    rw [overIce_power, mul_div_right_comm, Real.log_mul (div_pos hi hw).ne' (Real.exp_pos _).ne', Real.log_exp]
  have u : iceFactor p / waterFactor p ≤ 1 + 3 / 10000 := by rw [div_le_iff₀ hw]; linarith
  have l : 1 - 6 / 10000 ≤ iceFactor p / waterFactor p := by rw [le_div_iff₀ hw]; linarith
  have hr := div_pos hi hw
  have u2 := Real.log_le_sub_one_of_pos hr
  have l2 := Real.one_sub_inv_le_log_of_pos hr
  have l3 : (iceFactor p / waterFactor p)⁻¹ ≤ 1 + 7 / 10000 := by
    rw [inv_le_comm₀ hr (by norm_num)]
    refine le_trans ?_ l
    norm_num
  rw [e1]
  constructor <;> linarith

/-- Between -100 and -0.1 degrees the exponent over ice is below the one over water. -/
theorem powers (td : ℝ) (h1 : -100 ≤ td) (h2 : td ≤ -1 / 10) : icePower td + 3 / 10000 ≤ waterPower td := by
  have a1 : 0 < 27982 / 100 + td := by linarith
  have a2 : 0 < 25787 / 100 + td := by linarith
  have g : (18729 / 1000 - td / (2273 / 10)) / (25787 / 100 + td) + 3 / 1000 ≤
      (23036 / 1000 - td / (3337 / 10)) / (27982 / 100 + td) := by
    rw [le_div_iff₀ a1, add_mul, div_mul_eq_mul_div, ← sub_nonneg]
    have : (23036 / 1000 - td / (3337 / 10) - ((18729 / 1000 - td / (2273 / 10)) * (27982 / 100 + td) / (25787 / 100 + td) +
        3 / 1000 * (27982 / 100 + td))) * (25787 / 100 + td) ≥ 0 := by
      rw [sub_mul, add_mul, div_mul_cancel₀ _ a2.ne']
      nlinarith
    exact nonneg_of_mul_nonneg_left this a2
  have e1 : icePower td = (23036 / 1000 - td / (3337 / 10)) / (27982 / 100 + td) * td := by unfold icePower; ring
  have e2 : waterPower td = (18729 / 1000 - td / (2273 / 10)) / (25787 / 100 + td) * td := by unfold waterPower; ring
  rw [e1, e2]
  nlinarith

/-- The exponent over water grows by at most a twelfth per degree between -12 and 0. -/
theorem waterPower_slope (x y : ℝ) (hx : -12 ≤ x) (hxy : x ≤ y) (hy : y ≤ 0) :
    waterPower y - waterPower x ≤ (y - x) / 12 := by
  have a1 : 0 < 25787 / 100 + x := by linarith
  have a2 : 0 < 25787 / 100 + y := by linarith
  unfold waterPower
  rw [div_sub_div _ _ a2.ne' a1.ne', div_le_iff₀ (mul_pos a2 a1)]
  have key : 0 ≤ (y - x) * ((25787 / 100 + y) * (25787 / 100 + x) / 12 -
      (18729 / 1000 * (25787 / 100) - (x + y) * (25787 / 100) / (2273 / 10) - x * y / (2273 / 10))) := by
    apply mul_nonneg (by linarith)
    nlinarith [mul_nonneg (by linarith : (0 : ℝ) ≤ x + 12) (by linarith : (0 : ℝ) ≤ y + 12), mul_nonneg_of_nonpos_of_nonpos (by linarith : x ≤ 0) hy]
  linarith

/-- **C85, part.** Air above 0 degrees whose wet bulb is not: dew points between -10 and -0.1 degrees are recovered, at
pressures up to 1100 hPa. -/
theorem C85_mixed_partial (td t p : ℝ) (hp : 0 < p) (hp' : p ≤ 1100) (h : -10 ≤ td) (h' : td ≤ -0.1)
    (hw : Spec.wetBulb (Spec.buckWater td p) td t p ≤ 0) :
    ∃ e, vap (some td) (some t) (some p) false = some e ∧ tdFromVap (some e) (some p) (some t) false = .ok td := by
  have g2 : td ≤ -1 / 10 := by norm_num at h' ⊢; linarith
  refine ⟨_, ((C66_buck td t p).1 hw).1, ?_⟩
  simp only [tdFromVap, roundIf, Bool.false_eq_true, if_false]
  rw [← overIce_eq, dewPoint_ice td p hp (by linarith) (by linarith), if_pos]
  rw [dewPoint_rootOf]
  obtain ⟨l1, l2⟩ := log_ice td p hp hp'
  have hK := waterFactor_pos p hp
  have eL : overIce td p = waterFactor p * Real.exp (Real.log (overIce td p / waterFactor p)) := by
    rw [Real.exp_log (div_pos (overIce_pos td p hp) hK), mul_div_cancel₀ _ hK.ne']
  have hpw := powers td (by linarith) g2
  have hneg : waterPower td ≤ 0 := by
    unfold waterPower
    apply div_nonpos_of_nonpos_of_nonneg
    · nlinarith
    · linarith
  have hlow : waterPower (-12) ≤ icePower td - 7 / 10000 := by
    have a1 : 0 < 27982 / 100 + td := by linarith
    have : -9 / 10 ≤ icePower td := by
      unfold icePower
      rw [le_div_iff₀ a1]
      nlinarith
    unfold waterPower
    norm_num at this ⊢
    linarith
  rw [← wetBulb_eq, ← overWater_eq] at hw
  rw [eL]
  have eL2 : Real.log (waterFactor p * Real.exp (Real.log (overIce td p / waterFactor p)) / waterFactor p) =
      Real.log (overIce td p / waterFactor p) := by rw [← eL]
  rw [eL2]
  generalize Real.log (overIce td p / waterFactor p) = L at *
  have hx1 : rootOf L ≤ td := rootOf_le L td (by linarith) (by linarith)
  have hx2 : -12 ≤ rootOf L := le_rootOf L (-12) (by norm_num) (by norm_num) (by linarith) (by linarith)
  have hroot : waterPower (rootOf L) = L := by
    have h1 := rootOf_eq L (by linarith)
    have hn : 0 < 25787 / 100 + rootOf L := by linarith
    unfold waterPower
    rw [div_eq_iff hn.ne']
    nlinarith
  have hslope := waterPower_slope (rootOf L) td hx2 hx1 (by linarith)
  rw [hroot] at hslope
  rw [overWater_power] at hw
  generalize rootOf L = x at *
  -- the two wet bulbs
  have hratio : Real.exp (waterPower td) * (-td) ≤ Real.exp L * (-x) := by
    have h1 : 1 - (td - x) / 12 ≤ Real.exp (L - waterPower td) := by
      have := Real.add_one_le_exp (L - waterPower td)
      linarith
    have h2 : Real.exp L = Real.exp (waterPower td) * Real.exp (L - waterPower td) := by
      rw [← Real.exp_add]; congr 1; ring
    rw [h2, mul_assoc]
    apply mul_le_mul_of_nonneg_left _ (Real.exp_pos _).le
    have h3 : (1 - (td - x) / 12) * (-x) ≤ Real.exp (L - waterPower td) * (-x) :=
      mul_le_mul_of_nonneg_right h1 (by linarith)
    refine le_trans ?_ h3
    nlinarith [mul_nonneg (by linarith : (0 : ℝ) ≤ td - x) (by linarith : (0 : ℝ) ≤ x + 12)]
  have sum : 66 / 1000000 * p * t + 4098 / 10 * (waterFactor p * Real.exp (waterPower td)) / (td + 2373 / 10) ^ 2 * td ≤ 0 := by
    unfold Hums.wetBulb at hw
    by_contra hc
    have hb : 0 < 66 / 1000000 * p + 4098 / 10 * (waterFactor p * Real.exp (waterPower td)) / (td + 2373 / 10) ^ 2 := by
      have : 0 < td + 2373 / 10 := by linarith
      positivity
    have := div_pos (not_le.mp hc) hb
    linarith
  unfold Hums.wetBulb
  have s1 : 0 < td + 2373 / 10 := by linarith
  have s2 : 0 < x + 2373 / 10 := by linarith
  apply div_nonpos_of_nonpos_of_nonneg
  · have h1 : 4098 / 10 * (waterFactor p * Real.exp (waterPower td)) / (td + 2373 / 10) ^ 2 * (-td) ≤
        4098 / 10 * (waterFactor p * Real.exp L) / (x + 2373 / 10) ^ 2 * (-x) := by
      have e1 : 4098 / 10 * (waterFactor p * Real.exp (waterPower td)) / (td + 2373 / 10) ^ 2 * (-td) =
          4098 / 10 * waterFactor p * (Real.exp (waterPower td) * (-td)) / (td + 2373 / 10) ^ 2 := by ring
      have e2 : 4098 / 10 * (waterFactor p * Real.exp L) / (x + 2373 / 10) ^ 2 * (-x) =
          4098 / 10 * waterFactor p * (Real.exp L * (-x)) / (x + 2373 / 10) ^ 2 := by ring
      rw [e1, e2]
      apply div_le_div₀
      · have : 0 ≤ -x := by linarith
        positivity
      · apply mul_le_mul_of_nonneg_left hratio
        positivity
      · positivity
      · nlinarith
    linarith
  · positivity

/-- The conditions hold for air of 1 degree with a dew point of -5 degrees at 1000 hPa. -/
example : Spec.wetBulb (Spec.buckWater (-5) 1000) (-5) 1 1000 ≤ 0 := by
  rw [← wetBulb_eq, ← overWater_eq]
  have h4 : 3 ≤ overWater (-5) 1000 := by
    unfold overWater
    have := Real.add_one_le_exp (((18729 / 1000 - (-5) / (2273 / 10)) * (-5)) / (25787 / 100 + (-5)) : ℝ)
    norm_num at this ⊢
    linarith
  unfold Hums.wetBulb
  apply div_nonpos_of_nonpos_of_nonneg
  · norm_num
    linarith
  · have : 0 ≤ overWater (-5) 1000 := by linarith
    positivity

theorem exp_four : 545 / 10 ≤ Real.exp 4 ∧ Real.exp 4 ≤ 55 := by
  have h : Real.exp 4 = Real.exp 1 ^ 4 := by rw [← Real.exp_nat_mul]; norm_num
  have h1 := Real.exp_one_gt_d9
  have h2 := Real.exp_one_lt_d9
  rw [h]
  constructor
  · refine le_trans ?_ (pow_le_pow_left₀ (by norm_num) h1.le 4)
    norm_num
  · refine le_trans (pow_le_pow_left₀ (Real.exp_pos 1).le h2.le 4) ?_
    norm_num

/-- **C85, violated.** Very dry air of 1 degree with a dew point of -40 degrees at 1000 hPa: the dew point recovered is
lower by more than three degrees. -/
theorem C85_dry_violation : ∃ e x, vap (some (-40)) (some 1) (some 1000) false = some e ∧
    tdFromVap (some e) (some 1000) (some 1) false = .ok x ∧ x < -43 := by
  obtain ⟨q1, q2⟩ := exp_four
  have hw : Spec.wetBulb (Spec.buckWater (-40) 1000) (-40) 1 1000 ≤ 0 := by
    rw [← wetBulb_eq, ← overWater_eq]
    have h4 : 16 / 100 ≤ overWater (-40) 1000 := by
      have e1 : Real.exp (waterPower (-40)) * Real.exp 4 = Real.exp (waterPower (-40) + 4) := by rw [Real.exp_add]
      have := Real.add_one_le_exp (waterPower (-40) + 4)
      have hv : 15 / 10 ≤ waterPower (-40) + 4 + 1 := by unfold waterPower; norm_num
      have h5 : 15 / 10 / 55 ≤ Real.exp (waterPower (-40)) := by
        rw [div_le_iff₀ (by norm_num)]
        have h6 := mul_le_mul_of_nonneg_left q2 (Real.exp_pos (waterPower (-40))).le
        linarith
      rw [overWater_power]
      unfold waterFactor
      norm_num at h5 ⊢
      linarith
    unfold Hums.wetBulb
    apply div_nonpos_of_nonpos_of_nonneg
    · norm_num
      linarith
    · have : 0 ≤ overWater (-40) 1000 := by linarith
      positivity
  refine ⟨_, _, ((C66_buck (-40) 1 1000).1 hw).1, rfl, ?_⟩
  simp only [roundIf, Bool.false_eq_true, if_false]
  rw [← overIce_eq, dewPoint_rootOf]
  obtain ⟨l1, l2⟩ := log_ice (-40) 1000 (by norm_num) (by norm_num)
  have v1 : icePower (-40) ≤ -3862 / 1000 := by unfold icePower; norm_num
  have v2 : -387 / 100 ≤ icePower (-40) := by unfold icePower; norm_num
  have hx1 : rootOf (Real.log (overIce (-40) 1000 / waterFactor 1000)) ≤ -431 / 10 := by
    apply rootOf_le _ _ (by norm_num)
    refine le_trans l1 ?_
    unfold waterPower
    norm_num
    linarith
  have hx2 : -45 ≤ rootOf (Real.log (overIce (-40) 1000 / waterFactor 1000)) := by
    apply le_rootOf _ _ (by norm_num) (by norm_num) (by linarith)
    refine le_trans ?_ l2
    unfold waterPower
    norm_num
    linarith
  have he : overIce (-40) 1000 ≤ 1308 / 10000 := by
    have e1 : Real.exp (icePower (-40)) * Real.exp 4 * Real.exp (-(icePower (-40) + 4)) = 1 := by
      rw [← Real.exp_add, ← Real.exp_add]; simp
    have := Real.add_one_le_exp (-(icePower (-40) + 4))
    have h5 : Real.exp (icePower (-40)) * (545 / 10 * (862 / 1000)) ≤ 1 := by
      rw [← e1, mul_assoc]
      apply mul_le_mul_of_nonneg_left _ (Real.exp_pos _).le
      apply mul_le_mul q1 (by linarith) (by norm_num) (by linarith)
    rw [overIce_power]
    unfold iceFactor
    norm_num at h5 ⊢
    linarith
  rw [if_neg]
  · linarith
  · generalize rootOf (Real.log (overIce (-40) 1000 / waterFactor 1000)) = x at *
    have hep := overIce_pos (-40) 1000 (by norm_num)
    generalize overIce (-40) 1000 = e at *
    rw [not_le]
    unfold Hums.wetBulb
    have s : 0 < x + 2373 / 10 := by linarith
    apply div_pos
    · have : 4098 / 10 * e / (x + 2373 / 10) ^ 2 * (-x) < 66 / 1000 := by
        rw [div_mul_eq_mul_div, div_lt_iff₀ (by positivity)]
        have h1 : e * -x ≤ 1308 / 10000 * 45 := mul_le_mul he (by linarith) (by linarith) (by norm_num)
        nlinarith
      norm_num at this ⊢
      linarith
    · positivity

/-! ## C66: relative humidity across the freezing point -/

/-- The vapour pressure over ice at or below -0.1 degrees is below that over water in warmer air. -/
theorem ice_below_water (td t p : ℝ) (hp : 0 < p) (hp' : p ≤ 1100) (h : -2373 / 10 < td) (h' : td ≤ -1 / 10) (ht : 0 < t)
    (ht' : t ≤ 500) : overIce td p < overWater t p := by
  have low : ∀ s, -100 ≤ s → s ≤ -1 / 10 → overIce s p ≤ overWater s p := by
    intro s h1 h2
    have hK := waterFactor_pos p hp
    have e1 : overIce s p = waterFactor p * Real.exp (Real.log (overIce s p / waterFactor p)) := by
      rw [Real.exp_log (div_pos (overIce_pos s p hp) hK), mul_div_cancel₀ _ hK.ne']
    rw [e1, overWater_power]
    apply mul_le_mul_of_nonneg_left _ hK.le
    apply Real.exp_le_exp.mpr
    exact le_trans (log_ice s p hp hp').1 (powers s h1 h2)
  by_cases h1 : -100 ≤ td
  · exact lt_of_le_of_lt (low td h1 h') (water_mono td t p hp h ht' (by linarith))
  · refine lt_trans (ice_mono td (-100) p hp h (by norm_num) (by linarith)) ?_
    exact lt_of_le_of_lt (low (-100) le_rfl (by norm_num)) (water_mono (-100) t p hp (by norm_num) ht' (by linarith))

/-- The vapour pressure over water at or above 0.1 degrees is above that over ice in air not above 0. -/
theorem water_above_ice (td t p : ℝ) (hp : 0 < p) (hp' : p ≤ 1100) (h : 1 / 10 ≤ td) (h' : td ≤ 500) (ht : -2373 / 10 < t)
    (ht' : t ≤ 0) : overIce t p < overWater td p := by
  have h1 : overIce t p ≤ overIce 0 p := by
    rcases lt_or_eq_of_le ht' with g | g
    · exact (ice_mono t 0 p hp ht (by norm_num) g).le
    · rw [g]
  have h2 : overWater (1 / 10) p ≤ overWater td p := by
    rcases lt_or_eq_of_le h with g | g
    · exact (water_mono (1 / 10) td p hp (by norm_num) h' g).le
    · rw [← g]
  refine lt_of_le_of_lt h1 (lt_of_lt_of_le ?_ h2)
  have e0 : overIce 0 p = iceFactor p := by rw [overIce_power]; simp [icePower]
  rw [e0, overWater_power]
  refine lt_of_le_of_lt (factors p hp hp').1 ?_
  apply mul_lt_mul_of_pos_left _ (waterFactor_pos p hp)
  have := Real.add_one_le_exp (waterPower (1 / 10))
  have hv : 5 / 1000 ≤ waterPower (1 / 10) := by unfold waterPower; norm_num
  linarith

/-- **C66, part.** At pressures up to 1100 hPa and for every dew point that is at least a tenth of a degree from 0, the
relative humidity is below 100 exactly if the dew point is below the temperature, above 100 exactly if it is above, and
100 exactly if they are equal, whatever formulas are used.  Missing: dew points within a tenth of a degree of 0, where it
fails (`C66_supersaturation_violation`). -/
theorem C66_humidity_partial (td t p x : ℝ) (hp : 0 < p) (hp' : p ≤ 1100) (htd : -237.3 < td) (htd' : td ≤ 500)
    (ht : -237.3 < t) (ht' : t ≤ 500) (hfar : 0.1 ≤ |td|)
    (hx : rh (some td) (some t) (some p) false = some x) :
    (x < 100 ↔ td < t) ∧ (x > 100 ↔ t < td) ∧ (x = 100 ↔ td = t) := by
  by_cases hphase : 0 < Spec.wetBulb (Spec.buckWater td p) td t p ↔ 0 < t
  · exact C66_unsaturated_partial td t p x hp htd htd' ht ht' hphase hx
  have g1 : -2373 / 10 < td := by norm_num at htd ⊢; exact htd
  have g2 : -2373 / 10 < t := by norm_num at ht ⊢; exact ht
  simp only [rh, roundIf, Bool.false_eq_true, if_false, Option.some.injEq] at hx
  have hs := saturation_pos t p hp g2
  rw [← overWater_eq, ← wetBulb_eq] at hphase
  have hb : 0 < 66 / 1000000 * p + 4098 / 10 * overWater td p / (td + 2373 / 10) ^ 2 := by
    have h1 := overWater_pos td p hp
    positivity
  have hbt : 0 ≤ 4098 / 10 * overWater td p / (td + 2373 / 10) ^ 2 := by
    have h1 := overWater_pos td p hp
    positivity
  by_cases h0 : 0 < t
  · have hw : Hums.wetBulb (overWater td p) td t p ≤ 0 := by
      by_contra hc
      exact hphase ⟨fun _ => h0, fun _ => not_le.mp hc⟩
    have hneg : td ≤ -1 / 10 := by
      rcases le_abs'.mp hfar with h | h
      · norm_num at h ⊢; linarith
      · exfalso
        have h3 : 0 < td := by norm_num at h; linarith
        have h4 : 0 < Hums.wetBulb (overWater td p) td t p := by
          unfold Hums.wetBulb
          apply div_pos _ hb
          have h5 := mul_nonneg hbt h3.le
          have : 0 < 66 / 1000000 * p * t := by positivity
          linarith
        linarith
    have e1 : pressureOf td t p = overIce td p := by unfold pressureOf; rw [if_pos hw]
    rw [e1, saturation_eq t p hp g2, if_neg (not_le.mpr h0)] at hx
    have hlt := ice_below_water td t p hp hp' g1 hneg h0 ht'
    have hp2 := overWater_pos t p hp
    have hq : overIce td p / overWater t p < 1 := by rwa [div_lt_one hp2]
    have : x < 100 := by linarith
    refine ⟨⟨fun _ => by linarith, fun _ => this⟩, ⟨fun _ => by linarith, fun _ => by linarith⟩,
      ⟨fun _ => by linarith, fun _ => by linarith⟩⟩
  · have hw : 0 < Hums.wetBulb (overWater td p) td t p := by
      by_contra hc
      exact hphase ⟨fun h => absurd h hc, fun h => absurd h h0⟩
    have h0' := not_lt.mp h0
    have hposd : 1 / 10 ≤ td := by
      rcases le_abs'.mp hfar with h | h
      · exfalso
        have h3 : td ≤ 0 := by norm_num at h; linarith
        have h4 : Hums.wetBulb (overWater td p) td t p ≤ 0 := by
          unfold Hums.wetBulb
          apply div_nonpos_of_nonpos_of_nonneg _ hb.le
          have h5 := mul_nonpos_of_nonneg_of_nonpos hbt h3
          have : 66 / 1000000 * p * t ≤ 0 := mul_nonpos_of_nonneg_of_nonpos (by positivity) h0'
          linarith
        linarith
      · norm_num at h ⊢; linarith
    have e1 : pressureOf td t p = overWater td p := by unfold pressureOf; rw [if_neg (not_le.mpr hw)]
    rw [e1, saturation_eq t p hp g2, if_pos h0'] at hx
    have hlt := water_above_ice td t p hp hp' hposd htd' g2 h0'
    have hp2 := overIce_pos t p hp
    have hq : 1 < overWater td p / overIce t p := by rwa [one_lt_div hp2]
    have : 100 < x := by linarith
    refine ⟨⟨fun _ => by linarith, fun _ => by linarith⟩, ⟨fun _ => by linarith, fun _ => this⟩,
      ⟨fun _ => by linarith, fun _ => by linarith⟩⟩

/-- The conditions hold for air of 1 degree with a dew point of -5 degrees, whose relative humidity is therefore below
100. -/
example : ∃ x, rh (some (-5)) (some 1) (some 1000) false = some x ∧ x < 100 :=
  ⟨_, rfl, (C66_humidity_partial (-5) 1 1000 _ (by norm_num) (by norm_num) (by norm_num) (by norm_num) (by norm_num)
    (by norm_num) (by norm_num [abs_of_neg]) rfl).1.mpr (by norm_num)⟩

end MarineQC
