import Verif.Hums.Model
import Mathlib.Tactic.LinearCombination
import Mathlib.Tactic.Positivity
import Mathlib.Tactic.FieldSimp
import Mathlib.Tactic.Linarith
import Mathlib.Data.Real.Sqrt

/-!
# C66, C85: humidity
-/

namespace MarineQC

namespace Spec

noncomputable section

/-- Buck's formula (1981) over water, in hPa, with the temperature in degrees C and the pressure in hPa. -/
def buckWater (td p : ℝ) : ℝ :=
  6.1121 * (1.0007 + 3.46e-6 * p) * Real.exp ((18.729 - td / 227.3) * td / (257.87 + td))

/-- Buck's formula over ice. -/
def buckIce (td p : ℝ) : ℝ :=
  6.1115 * (1.0003 + 4.18e-6 * p) * Real.exp ((23.036 - td / 333.7) * td / (279.82 + td))

/-- `y` is a multiple of a tenth and within half a tenth of `x`. -/
def ToTenth (x y : ℝ) : Prop := (∃ n : ℤ, y = n / 10) ∧ |y - x| ≤ 1 / 20

/-- The wet-bulb temperature of Jensen et al. (1990). -/
def wetBulb (e td t p : ℝ) : ℝ :=
  (0.000066 * p * t + 409.8 * e / (td + 237.3) ^ 2 * td) / (0.000066 * p + 409.8 * e / (td + 237.3) ^ 2)

end

end Spec

open Hums

theorem overWater_eq (td p : ℝ) : overWater td p = Spec.buckWater td p := by
  unfold overWater Spec.buckWater
  norm_num

theorem overIce_eq (td p : ℝ) : overIce td p = Spec.buckIce td p := by
  unfold overIce Spec.buckIce
  norm_num

theorem wetBulb_eq (e td t p : ℝ) : Hums.wetBulb e td t p = Spec.wetBulb e td t p := by
  unfold Hums.wetBulb Spec.wetBulb
  norm_num

/-- **C66.** The vapour pressure is that of Buck's formula, over ice if the wet-bulb temperature (computed with respect to
water) is not above 0 and over water otherwise; the wet bulb is computed from it. -/
theorem C66_buck (td t p : ℝ) :
    (Spec.wetBulb (Spec.buckWater td p) td t p ≤ 0 →
      vap (some td) (some t) (some p) false = some (Spec.buckIce td p) ∧
      wb (some td) (some t) (some p) false = some (Spec.wetBulb (Spec.buckIce td p) td t p)) ∧
    (0 < Spec.wetBulb (Spec.buckWater td p) td t p →
      vap (some td) (some t) (some p) false = some (Spec.buckWater td p) ∧
      wb (some td) (some t) (some p) false = some (Spec.wetBulb (Spec.buckWater td p) td t p)) := by
  have key : pressureOf td t p =
      if Spec.wetBulb (Spec.buckWater td p) td t p ≤ 0 then Spec.buckIce td p else Spec.buckWater td p := by
    unfold pressureOf
    rw [overWater_eq, overIce_eq, wetBulb_eq]
  constructor
  · intro h
    rw [if_pos h] at key
    simp only [vap, wb, roundIf, key, wetBulb_eq, Bool.false_eq_true, if_false, and_self]
  · intro h
    rw [if_neg (not_le.mpr h)] at key
    simp only [vap, wb, roundIf, key, wetBulb_eq, Bool.false_eq_true, if_false, and_self]

/-! ## Specific humidity and vapour pressure -/

/-- **C66.** Without rounding, `vap_from_sh` undoes `sh_from_vap`, for vapour pressures from 0 up to the pressure. -/
theorem C66_vap_inverse (e p : ℝ) (he : 0 ≤ e) (hp : e < p) :
    ∃ q, shFromVap (some e) (some p) false = .ok q ∧ 0 ≤ q ∧ vapFromSh (some q) (some p) false = .ok e := by
  have hd : 0 < p - (1 - 622 / 1000) * e := by nlinarith
  have hp0 : 0 < p := lt_of_le_of_lt he hp
  refine ⟨shOf e p, rfl, ?_, ?_⟩
  · unfold shOf
    exact mul_nonneg (by norm_num) (div_nonneg (by positivity) hd.le)
  · simp only [vapFromSh, roundIf, Bool.false_eq_true, if_false, shOf]
    congr 1
    generalize hD : p - (1 - 622 / 1000) * e = D at *
    have hpD : p = D + 378 / 1000 * e := by rw [← hD]; ring
    have h2 : 622 / 1000 + 378 / 1000 * (1000 * (622 / 1000 * e / D) / 1000) = 622 / 1000 * p / D := by
      rw [hpD]
      field_simp
    rw [h2]
    field_simp

/-- **C66.** Without rounding, `sh_from_vap` undoes `vap_from_sh`, for specific humidities from 0 on and positive
pressures. -/
theorem C66_sh_inverse (q p : ℝ) (hq : 0 ≤ q) (hp : 0 < p) :
    ∃ e, vapFromSh (some q) (some p) false = .ok e ∧ 0 ≤ e ∧ shFromVap (some e) (some p) false = .ok q := by
  have hd : 0 < 622 / 1000 + 378 / 1000 * (q / 1000) := by positivity
  refine ⟨_, rfl, ?_, ?_⟩
  · simp only [roundIf, Bool.false_eq_true, if_false]
    positivity
  · simp only [shFromVap, roundIf, Bool.false_eq_true, if_false, shOf]
    congr 1
    have hne := hd.ne'
    have h2 : p - (1 - 622 / 1000) * (q / 1000 * p / (622 / 1000 + 378 / 1000 * (q / 1000))) =
        622 / 1000 * p / (622 / 1000 + 378 / 1000 * (q / 1000)) := by
      field_simp
      ring
    rw [h2]
    field_simp

/-- **C66.** `sh` is `sh_from_vap` of the unrounded `vap`. -/
theorem C66_sh_of_vap (td t p : ℝ) (roundit : Bool) : ∃ e q, vap (some td) (some t) (some p) false = some e ∧
    sh (some td) (some t) (some p) roundit = some q ∧ shFromVap (some e) (some p) roundit = .ok q :=
  ⟨_, _, rfl, rfl, rfl⟩

/-! ## Missing values -/

/-- **C66.** The five routines the reports use return None if any value is missing. -/
theorem C66_missing (td t p : Option ℝ) (r : Bool) :
    ((td = none ∨ t = none ∨ p = none) → vap td t p r = none ∧ sh td t p r = none ∧ rh td t p r = none ∧
      wb td t p r = none) ∧
    ((td = none ∨ t = none) → dpd td t r = none) := by
  constructor
  · intro h
    cases td <;> cases t <;> cases p <;> simp at h <;> exact ⟨rfl, rfl, rfl, rfl⟩
  · intro h
    cases td <;> cases t <;> simp at h <;> rfl

/-- **C66, violated.** The other three routines raise TypeError instead. -/
theorem C66_missing_violation (e p t : Option ℝ) (r : Bool) :
    ((e = none ∨ p = none) → vapFromSh e p r = .error .type ∧ shFromVap e p r = .error .type) ∧
    ((e = none ∨ p = none ∨ t = none) → tdFromVap e p t r = .error .type) := by
  constructor
  · intro h
    cases e <;> cases p <;> simp at h <;> exact ⟨rfl, rfl⟩
  · intro h
    cases e <;> cases p <;> cases t <;> simp at h <;> rfl

/-! ## Relative humidity -/

theorem overWater_pos (td p : ℝ) (hp : 0 < p) : 0 < overWater td p := by
  unfold overWater; positivity

theorem overIce_pos (td p : ℝ) (hp : 0 < p) : 0 < overIce td p := by
  unfold overIce; positivity

theorem pressureOf_pos (td t p : ℝ) (hp : 0 < p) : 0 < pressureOf td t p := by
  unfold pressureOf
  split
  · exact overIce_pos td p hp
  · exact overWater_pos td p hp

theorem bulb_weight_pos (e td : ℝ) (he : 0 < e) (h : -2373 / 10 < td) : 0 < 4098 / 10 * e / (td + 2373 / 10) ^ 2 := by
  have : 0 < td + 2373 / 10 := by linarith
  positivity

theorem saturation_eq (t p : ℝ) (hp : 0 < p) (ht : -2373 / 10 < t) :
    saturation t p = if t ≤ 0 then overIce t p else overWater t p := by
  unfold saturation
  have hb := bulb_weight_pos (overWater t p) t (overWater_pos t p hp) ht
  have : (66 / 1000000 * p * t + 4098 / 10 * overWater t p / (t + 2373 / 10) ^ 2 * t) /
      (66 / 1000000 * p + 4098 / 10 * overWater t p / (t + 2373 / 10) ^ 2) = t := by
    rw [← add_mul, mul_comm, mul_div_assoc, div_self (by positivity), mul_one]
  dsimp only
  rw [this]

theorem pressureOf_same (t p : ℝ) (hp : 0 < p) (ht : -2373 / 10 < t) : pressureOf t t p = saturation t p := by
  rw [saturation_eq t p hp ht]
  unfold pressureOf Hums.wetBulb
  have hb := bulb_weight_pos (overWater t p) t (overWater_pos t p hp) ht
  have : (66 / 1000000 * p * t + 4098 / 10 * overWater t p / (t + 2373 / 10) ^ 2 * t) /
      (66 / 1000000 * p + 4098 / 10 * overWater t p / (t + 2373 / 10) ^ 2) = t := by
    rw [← add_mul, mul_comm, mul_div_assoc, div_self (by positivity), mul_one]
  dsimp only
  rw [this]

theorem saturation_pos (t p : ℝ) (hp : 0 < p) (ht : -2373 / 10 < t) : 0 < saturation t p := by
  rw [← pressureOf_same t p hp ht]; exact pressureOf_pos t t p hp

/-- **C66.** At saturation (dew point equal to the temperature) the relative humidity is 100, rounded or not. -/
theorem C66_saturated (t p : ℝ) (r : Bool) (hp : 0 < p) (ht : -237.3 < t) :
    rh (some t) (some t) (some p) r = some 100 := by
  have ht' : -2373 / 10 < t := by norm_num at ht ⊢; exact ht
  have h1 : pressureOf t t p / saturation t p * 100 = 100 := by
    rw [pressureOf_same t p hp ht', div_self (saturation_pos t p hp ht').ne', one_mul]
  have h2 : roundTenth 100 = 100 := by
    unfold roundTenth
    rw [if_pos (by norm_num)]
    have : ⌊(100 : ℝ) * 10 + 1 / 2⌋ = 1000 := by
      rw [Int.floor_eq_iff]; norm_num
    rw [this]; norm_num
  simp only [rh, h1, roundIf, h2, ite_self]

theorem water_mono (s t p : ℝ) (hp : 0 < p) (hs : -2373 / 10 < s) (ht : t ≤ 500) (h : s < t) :
    overWater s p < overWater t p := by
  unfold overWater
  have hf : 0 < 61121 / 10000 * (1 + 7 / 10 ^ 4 + 346 / 100 / 10 ^ 6 * p) := by positivity
  apply mul_lt_mul_of_pos_left _ hf
  apply Real.exp_lt_exp.mpr
  have h1 : 0 < 25787 / 100 + s := by linarith
  have h2 : 0 < 25787 / 100 + t := by linarith
  rw [div_lt_div_iff₀ h1 h2]
  have key : 0 < (t - s) * (18729 / 1000 * (25787 / 100) * (2273 / 10) - (25787 / 100 * (s + t) + s * t)) := by
    apply mul_pos (by linarith)
    nlinarith
  nlinarith

theorem ice_mono (s t p : ℝ) (hp : 0 < p) (hs : -2373 / 10 < s) (ht : t ≤ 500) (h : s < t) :
    overIce s p < overIce t p := by
  unfold overIce
  have hf : 0 < 61115 / 10000 * (1 + 3 / 10 ^ 4 + 418 / 100 / 10 ^ 6 * p) := by positivity
  apply mul_lt_mul_of_pos_left _ hf
  apply Real.exp_lt_exp.mpr
  have h1 : 0 < 27982 / 100 + s := by linarith
  have h2 : 0 < 27982 / 100 + t := by linarith
  rw [div_lt_div_iff₀ h1 h2]
  have key : 0 < (t - s) * (23036 / 1000 * (27982 / 100) * (3337 / 10) - (27982 / 100 * (s + t) + s * t)) := by
    apply mul_pos (by linarith)
    nlinarith
  nlinarith

/-- **C66, part.** Where the same formula applies to both vapour pressures (over water: wet bulb and temperature above 0;
over ice: temperature not above 0), the relative humidity is below 100 exactly if the dew point is below the temperature
and above 100 exactly if it is above.  Missing: the wet bulb not above 0 but the temperature above, where it fails (see
below). -/
theorem C66_unsaturated_partial (td t p x : ℝ) (hp : 0 < p) (htd : -237.3 < td) (htd' : td ≤ 500) (ht : -237.3 < t)
    (ht' : t ≤ 500)
    (hphase : 0 < Spec.wetBulb (Spec.buckWater td p) td t p ↔ 0 < t)
    (hx : rh (some td) (some t) (some p) false = some x) :
    (x < 100 ↔ td < t) ∧ (x > 100 ↔ t < td) ∧ (x = 100 ↔ td = t) := by
  have g1 : -2373 / 10 < td := by norm_num at htd ⊢; exact htd
  have g2 : -2373 / 10 < t := by norm_num at ht ⊢; exact ht
  simp only [rh, roundIf, Bool.false_eq_true, if_false, Option.some.injEq] at hx
  have hs := saturation_pos t p hp g2
  have mono : ∀ f : ℝ → ℝ, (∀ a b, -2373 / 10 < a → b ≤ 500 → a < b → f a < f b) → pressureOf td t p = f td →
      saturation t p = f t → (x < 100 ↔ td < t) ∧ (x > 100 ↔ t < td) ∧ (x = 100 ↔ td = t) := by
    intro f hf e1 e2
    rw [e1, e2] at hx
    rw [e2] at hs
    have lt_iff : x < 100 ↔ f td < f t := by
      rw [← hx]
      constructor
      · intro h
        have : f td / f t < 1 := by linarith
        rwa [div_lt_one hs] at this
      · intro h
        have : f td / f t < 1 := by rwa [div_lt_one hs]
        linarith
    have gt_iff : x > 100 ↔ f t < f td := by
      rw [← hx]
      constructor
      · intro h
        have : 1 < f td / f t := by linarith
        rwa [one_lt_div hs] at this
      · intro h
        have : 1 < f td / f t := by rwa [one_lt_div hs]
        linarith
    rcases lt_trichotomy td t with h | h | h
    · have := hf td t g1 ht' h
      have hlt := lt_iff.mpr this
      refine ⟨⟨fun _ => h, fun _ => hlt⟩, ⟨fun h' => ?_, fun h' => ?_⟩, ⟨fun h' => ?_, fun h' => ?_⟩⟩ <;> linarith
    · subst h
      have h0 : x = 100 := by rw [← hx, div_self hs.ne', one_mul]
      refine ⟨⟨fun h' => ?_, fun h' => ?_⟩, ⟨fun h' => ?_, fun h' => ?_⟩, ⟨fun _ => rfl, fun _ => h0⟩⟩ <;> linarith
    · have := hf t td g2 htd' h
      have hgt := gt_iff.mpr this
      refine ⟨⟨fun h' => ?_, fun h' => ?_⟩, ⟨fun _ => h, fun _ => hgt⟩, ⟨fun h' => ?_, fun h' => ?_⟩⟩ <;> linarith
  rw [← overWater_eq, ← wetBulb_eq] at hphase
  by_cases h0 : 0 < t
  · apply mono (fun z => overWater z p) (fun a b => water_mono a b p hp)
    · unfold pressureOf
      rw [if_neg (not_le.mpr (hphase.mpr h0))]
    · rw [saturation_eq t p hp g2, if_neg (not_le.mpr h0)]
  · apply mono (fun z => overIce z p) (fun a b => ice_mono a b p hp)
    · unfold pressureOf
      rw [if_pos (not_lt.mp fun h => h0 (hphase.mp h))]
    · rw [saturation_eq t p hp g2, if_pos (not_lt.mp h0)]

/-- **C66, violated.** At 1000 hPa and just above the freezing point, air with a dew point below its temperature has a
relative humidity above 100: one vapour pressure is taken over ice, the other over water. -/
theorem C66_supersaturation_violation : ∃ x, rh (some (-1 / 1000)) (some (1 / 10000)) (some 1000) false = some x ∧ 100 < x := by
  refine ⟨_, rfl, ?_⟩
  simp only [roundIf, Bool.false_eq_true, if_false]
  have hp : (0 : ℝ) < 1000 := by norm_num
  have hw : 6 < overWater (-1 / 1000) 1000 := by
    unfold overWater
    have := Real.add_one_le_exp (((18729 / 1000 - (-1 / 1000) / (2273 / 10)) * (-1 / 1000)) / (25787 / 100 + (-1 / 1000)) : ℝ)
    norm_num at this ⊢
    linarith
  have hice : pressureOf (-1 / 1000) (1 / 10000) 1000 = overIce (-1 / 1000) 1000 := by
    unfold pressureOf
    rw [if_pos]
    unfold Hums.wetBulb
    have hb := bulb_weight_pos (overWater (-1 / 1000) 1000) (-1 / 1000) (by linarith) (by norm_num)
    apply div_nonpos_of_nonpos_of_nonneg
    · have : (4098 / 10 * 6 / (-1 / 1000 + 2373 / 10) ^ 2 : ℝ) <
          4098 / 10 * overWater (-1 / 1000) 1000 / (-1 / 1000 + 2373 / 10) ^ 2 := by
        apply div_lt_div_of_pos_right _ (by norm_num)
        linarith
      norm_num at this ⊢
      linarith
    · positivity
  have hsat : saturation (1 / 10000) 1000 = overWater (1 / 10000) 1000 := by
    rw [saturation_eq _ _ hp (by norm_num), if_neg (by norm_num)]
  rw [hice, hsat]
  have hpos := overWater_pos (1 / 10000) 1000 hp
  have hlt : overWater (1 / 10000) 1000 < overIce (-1 / 1000) 1000 := by
    have h1 : overWater (1 / 10000) 1000 ≤ 6.1377 := by
      unfold overWater
      have hx : (((18729 / 1000 - (1 / 10000) / (2273 / 10)) * (1 / 10000)) / (25787 / 100 + (1 / 10000)) : ℝ) ≤ 1 / 100000 := by
        norm_num
      have h2 : Real.exp (((18729 / 1000 - (1 / 10000) / (2273 / 10)) * (1 / 10000)) / (25787 / 100 + (1 / 10000)) : ℝ) ≤
          100000 / 99999 := by
        refine le_trans (Real.exp_le_exp.mpr hx) ?_
        have := Real.add_one_le_exp (-(1 / 100000) : ℝ)
        rw [Real.exp_neg] at this
        have hpos := Real.exp_pos (1 / 100000)
        rw [← one_div, le_div_iff₀ hpos] at this
        rw [le_div_iff₀ (by norm_num)]
        linarith
      norm_num at h2 ⊢
      linarith
    have h2 : 6.138 ≤ overIce (-1 / 1000) 1000 := by
      unfold overIce
      have := Real.add_one_le_exp (((23036 / 1000 - (-1 / 1000) / (3337 / 10)) * (-1 / 1000)) / (27982 / 100 + (-1 / 1000)) : ℝ)
      norm_num at this ⊢
      linarith
    norm_num at h1 h2
    linarith
  have : 1 < overIce (-1 / 1000) 1000 / overWater (1 / 10000) 1000 := by rwa [one_lt_div hpos]
  linarith

/-! ## Wet bulb, dew point depression and rounding -/

/-- **C66.** The wet-bulb temperature lies between dew point and temperature. -/
theorem C66_wet_bulb (td t p x : ℝ) (hp : 0 < p) (htd : -237.3 < td)
    (hx : wb (some td) (some t) (some p) false = some x) : min td t ≤ x ∧ x ≤ max td t := by
  have g1 : -2373 / 10 < td := by norm_num at htd ⊢; exact htd
  simp only [wb, roundIf, Bool.false_eq_true, if_false, Option.some.injEq] at hx
  have hb := bulb_weight_pos (pressureOf td t p) td (pressureOf_pos td t p hp) g1
  have ha : 0 < 66 / 1000000 * p := by positivity
  rw [← hx]
  unfold Hums.wetBulb
  dsimp only
  have hs := add_pos ha hb
  constructor
  · rw [le_div_iff₀ hs]
    have h1 := min_le_left td t
    have h2 := min_le_right td t
    nlinarith
  · rw [div_le_iff₀ hs]
    have h1 := le_max_left td t
    have h2 := le_max_right td t
    nlinarith

/-- **C66.** The dew point depression is the difference of temperature and dew point. -/
theorem C66_depression (td t : ℝ) : dpd (some td) (some t) false = some (t - td) := rfl

theorem roundTenth_spec (x : ℝ) : Spec.ToTenth x (roundTenth x) := by
  constructor
  · simp only [roundTenth]
    split
    · exact ⟨_, rfl⟩
    · exact ⟨_, rfl⟩
  · simp only [roundTenth]
    rw [abs_le]
    split
    · have h1 := Int.floor_le (x * 10 + 1 / 2)
      have h2 := Int.lt_floor_add_one (x * 10 + 1 / 2)
      constructor <;> linarith
    · have h1 := Int.le_ceil (x * 10 - 1 / 2)
      have h2 := Int.ceil_lt_add_one (x * 10 - 1 / 2)
      constructor <;> linarith

/-- **C66.** With rounding, every routine returns a multiple of a tenth that is within half a tenth of the unrounded
value. -/
theorem C66_rounding (td t p e : ℝ) :
    (∀ f ∈ [vap, sh, rh, wb], ∃ x y, f (some td) (some t) (some p) false = some x ∧
      f (some td) (some t) (some p) true = some y ∧ Spec.ToTenth x y) ∧
    (∃ x y, dpd (some td) (some t) false = some x ∧ dpd (some td) (some t) true = some y ∧ Spec.ToTenth x y) ∧
    (∀ f ∈ [vapFromSh, shFromVap], ∃ x y, f (some e) (some p) false = .ok x ∧ f (some e) (some p) true = .ok y ∧
      Spec.ToTenth x y) ∧
    (∃ x y, tdFromVap (some e) (some p) (some t) false = .ok x ∧ tdFromVap (some e) (some p) (some t) true = .ok y ∧
      Spec.ToTenth x y) := by
  refine ⟨?_, ⟨_, _, rfl, rfl, roundTenth_spec _⟩, ?_, ⟨_, _, rfl, rfl, roundTenth_spec _⟩⟩
  · intro f hf
    simp only [List.mem_cons, List.not_mem_nil, or_false] at hf
    rcases hf with rfl | rfl | rfl | rfl <;> exact ⟨_, _, rfl, rfl, roundTenth_spec _⟩
  · intro f hf
    simp only [List.mem_cons, List.not_mem_nil, or_false] at hf
    rcases hf with rfl | rfl <;> exact ⟨_, _, rfl, rfl, roundTenth_spec _⟩

/-- The phase condition of `C66_unsaturated_partial` holds for all air above 0 with a dew point above 0. -/
example (td t p : ℝ) (hp : 0 < p) (h1 : 0 < td) (h2 : 0 < t) :
    0 < Spec.wetBulb (Spec.buckWater td p) td t p ↔ 0 < t := by
  have h : 0 < Spec.buckWater td p := by unfold Spec.buckWater; positivity
  refine ⟨fun _ => h2, fun _ => ?_⟩
  unfold Spec.wetBulb
  positivity

/-- The conditions hold for the example of the documentation. -/
example : 0 < Spec.wetBulb (Spec.buckWater 10 1013) 10 15 1013 := by
  have : 0 < Spec.buckWater 10 1013 := by unfold Spec.buckWater; positivity
  unfold Spec.wetBulb
  positivity

/-! ## C85: dew point from vapour pressure -/

theorem dewPoint_root (k l m n e p td : ℝ) (g : ℝ → ℝ) (hk : 0 < k * g p) (hm : 0 < m) (hn : 0 < n + td)
    (he : e = k * g p * Real.exp ((l - td / m) * td / (n + td))) (hroot : td ^ 2 + 2 * n * td ≤ l * m * n) :
    dewPoint k l m n e p g = td := by
  have hL : Real.log (e / (k * g p)) = (l - td / m) * td / (n + td) := by
    rw [he, mul_comm, mul_div_assoc, div_self hk.ne', mul_one, Real.log_exp]
  unfold dewPoint
  dsimp only
  rw [hL]
  generalize hLL : (l - td / m) * td / (n + td) = L
  have hL2 : m * L * (n + td) = (l * m - td) * td := by
    rw [← hLL]; field_simp
  have hb : (m * L - l * m) + 2 * td ≤ 0 := by
    by_contra hc
    have h1 := mul_pos (not_le.mp hc) hn
    nlinarith
  have hdisc : (m * L - l * m) ^ 2 - 4 * 1 * (n * m * L) = (-((m * L - l * m) + 2 * td)) ^ 2 := by
    linear_combination -4 * hL2
  rw [hdisc, Real.sqrt_sq (by linarith)]
  ring

/-- Solving the formula over water for the dew point. -/
theorem dewPoint_water (td p : ℝ) (hp : 0 < p) (h : -2373 / 10 < td) (h' : td ≤ 500) :
    dewPoint (61121 / 10000) (18729 / 1000) (2273 / 10) (25787 / 100) (overWater td p) p
      (fun p => 1 + 7 / 10 ^ 4 + 346 / 100 / 10 ^ 6 * p) = td := by
  apply dewPoint_root
  · positivity
  · norm_num
  · linarith
  · rfl
  · nlinarith

/-- Solving the formula over ice for the dew point. -/
theorem dewPoint_ice (td p : ℝ) (hp : 0 < p) (h : -2373 / 10 < td) (h' : td ≤ 500) :
    dewPoint (61115 / 10000) (23036 / 1000) (3337 / 10) (27982 / 100) (overIce td p) p
      (fun p => 1 + 3 / 10 ^ 4 + 418 / 100 / 10 ^ 6 * p) = td := by
  apply dewPoint_root
  · positivity
  · norm_num
  · linarith
  · rfl
  · nlinarith

/-- **C85, part.** Without rounding, `td_from_vap` recovers the dew point from the result of `vap` whenever the wet bulb is
above 0. -/
theorem C85_water_partial (td t p : ℝ) (hp : 0 < p) (h : -237.3 < td) (h' : td ≤ 500)
    (hw : 0 < Spec.wetBulb (Spec.buckWater td p) td t p) :
    ∃ e, vap (some td) (some t) (some p) false = some e ∧ tdFromVap (some e) (some p) (some t) false = .ok td := by
  have g1 : -2373 / 10 < td := by norm_num at h ⊢; exact h
  refine ⟨_, ((C66_buck td t p).2 hw).1, ?_⟩
  simp only [tdFromVap, roundIf, Bool.false_eq_true, if_false]
  rw [← overWater_eq, dewPoint_water td p hp g1 h', if_neg]
  rw [not_le, wetBulb_eq, overWater_eq]
  exact hw

/-- **C85, part.** It also does whenever the temperature is not above 0 and the dew point is at least a tenth of a degree
below, at pressures up to 1100 hPa.  Missing: dew points just below 0 (where it fails, see below), and air above 0 degrees
whose wet bulb is not above 0. -/
theorem C85_ice_partial (td t p : ℝ) (hp : 0 < p) (hp' : p ≤ 1100) (h : -237.3 < td) (h' : td ≤ -0.1) (ht : t ≤ 0) :
    ∃ e, vap (some td) (some t) (some p) false = some e ∧ tdFromVap (some e) (some p) (some t) false = .ok td := by
  have g1 : -2373 / 10 < td := by norm_num at h ⊢; exact h
  have g2 : td ≤ -1 / 10 := by norm_num at h' ⊢; linarith
  have bulb : ∀ e td', 0 < e → td' ≤ 0 → Hums.wetBulb e td' t p ≤ 0 := by
    intro e td' he htd
    unfold Hums.wetBulb
    have hb : 0 ≤ 4098 / 10 * e / (td' + 2373 / 10) ^ 2 := by positivity
    apply div_nonpos_of_nonpos_of_nonneg
    · have h1 : 66 / 1000000 * p * t ≤ 0 := mul_nonpos_of_nonneg_of_nonpos (by positivity) ht
      have h2 := mul_nonpos_of_nonneg_of_nonpos hb htd
      linarith
    · positivity
  have hw : Spec.wetBulb (Spec.buckWater td p) td t p ≤ 0 := by
    rw [← wetBulb_eq, ← overWater_eq]
    exact bulb _ _ (overWater_pos td p hp) (by linarith)
  refine ⟨_, ((C66_buck td t p).1 hw).1, ?_⟩
  simp only [tdFromVap, roundIf, Bool.false_eq_true, if_false]
  rw [← overIce_eq, dewPoint_ice td p hp g1 (by linarith), if_pos]
  apply bulb _ _ (overIce_pos td p hp)
  -- the estimate of the dew point is not above 0
  have hle : overIce td p ≤ 61121 / 10000 * (1 + 7 / 10 ^ 4 + 346 / 100 / 10 ^ 6 * p) := by
    have h1 : overIce td p ≤ overIce (-1 / 10) p := by
      rcases lt_or_eq_of_le g2 with h | h
      · exact (ice_mono td (-1 / 10) p hp g1 (by norm_num) h).le
      · rw [h]
    refine le_trans h1 ?_
    unfold overIce
    dsimp only
    have hx : Real.exp (((23036 / 1000 - (-1 / 10) / (3337 / 10)) * (-1 / 10)) / (27982 / 100 + (-1 / 10)) : ℝ) ≤ 1000 / 1008 := by
      have h2 : (((23036 / 1000 - (-1 / 10) / (3337 / 10)) * (-1 / 10)) / (27982 / 100 + (-1 / 10)) : ℝ) ≤ -(8 / 1000) := by
        norm_num
      refine le_trans (Real.exp_le_exp.mpr h2) ?_
      rw [Real.exp_neg, inv_le_comm₀ (Real.exp_pos _) (by norm_num)]
      have := Real.add_one_le_exp (8 / 1000 : ℝ)
      norm_num at this ⊢
      linarith
    have hf : 0 < 61115 / 10000 * (1 + 3 / 10 ^ 4 + 418 / 100 / 10 ^ 6 * p) := by positivity
    refine le_trans (mul_le_mul_of_nonneg_left hx hf.le) ?_
    nlinarith
  have hg : 0 < 61121 / 10000 * (1 + 7 / 10 ^ 4 + 346 / 100 / 10 ^ 6 * p) := by positivity
  have hL : Real.log (overIce td p / (61121 / 10000 * (1 + 7 / 10 ^ 4 + 346 / 100 / 10 ^ 6 * p))) ≤ 0 := by
    apply Real.log_nonpos (div_nonneg (overIce_pos td p hp).le hg.le)
    rwa [div_le_one hg]
  unfold dewPoint
  dsimp only
  generalize Real.log (overIce td p / (61121 / 10000 * (1 + 7 / 10 ^ 4 + 346 / 100 / 10 ^ 6 * p))) = L at *
  have hsq : -(2273 / 10 * L - 18729 / 1000 * (2273 / 10)) ≤
      Real.sqrt ((2273 / 10 * L - 18729 / 1000 * (2273 / 10)) ^ 2 - 4 * 1 * (25787 / 100 * (2273 / 10) * L)) := by
    apply Real.le_sqrt_of_sq_le
    nlinarith
  linarith

/-- **C85, violated.** Saturated air at 0 degrees and 1000 hPa: the dew point recovered is above 0. -/
theorem C85_freezing_violation : ∃ e x, vap (some 0) (some 0) (some 1000) false = some e ∧
    tdFromVap (some e) (some 1000) (some 0) false = .ok x ∧ 0 < x := by
  have hw : Spec.wetBulb (Spec.buckWater 0 1000) 0 0 1000 ≤ 0 := by unfold Spec.wetBulb; simp
  refine ⟨_, _, ((C66_buck 0 0 1000).1 hw).1, rfl, ?_⟩
  simp only [roundIf, Bool.false_eq_true, if_false]
  have he : Spec.buckIce 0 1000 = 613887952 / 100000000 := by
    unfold Spec.buckIce
    norm_num
  have hd : 0 < dewPoint (61121 / 10000) (18729 / 1000) (2273 / 10) (25787 / 100) (Spec.buckIce 0 1000) 1000
      (fun p => 1 + 7 / 10 ^ 4 + 346 / 100 / 10 ^ 6 * p) := by
    rw [he]
    have h1 : 0 < Real.log (613887952 / 100000000 / (61121 / 10000 * (1 + 7 / 10 ^ 4 + 346 / 100 / 10 ^ 6 * 1000))) :=
      Real.log_pos (by norm_num)
    have h2 : Real.log (613887952 / 100000000 / (61121 / 10000 * (1 + 7 / 10 ^ 4 + 346 / 100 / 10 ^ 6 * 1000))) ≤ 1 := by
      refine le_trans (Real.log_le_sub_one_of_pos (by norm_num)) (by norm_num)
    unfold dewPoint
    dsimp only
    generalize Real.log (613887952 / 100000000 / (61121 / 10000 * (1 + 7 / 10 ^ 4 + 346 / 100 / 10 ^ 6 * 1000))) = L at *
    have hsq : Real.sqrt ((2273 / 10 * L - 18729 / 1000 * (2273 / 10)) ^ 2 - 4 * 1 * (25787 / 100 * (2273 / 10) * L)) <
        -(2273 / 10 * L - 18729 / 1000 * (2273 / 10)) := by
      rw [Real.sqrt_lt' (by linarith)]
      nlinarith
    linarith
  rw [if_neg]
  · exact hd
  · rw [not_le]
    unfold Hums.wetBulb
    have : 0 < Spec.buckIce 0 1000 := by rw [he]; norm_num
    positivity

end MarineQC
