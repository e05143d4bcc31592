import Verif.Sphere.Model
import Verif.Sphere.Spec
import Mathlib.Tactic.LinearCombination
import Mathlib.Tactic.Positivity
import Mathlib.Tactic.Linarith
import Mathlib.Analysis.Real.Pi.Bounds

/-!
# C67: distances on the sphere
-/

namespace MarineQC

open Real

theorem rpd_eq (x : ℝ) : x * radiansPerDegree = Spec.rad x := by
  unfold radiansPerDegree Spec.rad; ring

theorem radius_pos : 0 < earthsRadius := by unfold earthsRadius; norm_num

theorem inner3 (a b c a' b' c' : ℝ) : inner ℝ (!₂[a, b, c] : Spec.Space) !₂[a', b', c'] = a * a' + b * b' + c * c' := by
  simp [PiLp.inner_apply, Fin.sum_univ_three]
  ring

theorem norm_place (lat lon : ℝ) : ‖Spec.place lat lon‖ = 1 := by
  have h : ‖Spec.place lat lon‖ ^ 2 = 1 := by
    rw [← real_inner_self_eq_norm_sq, Spec.place, inner3]
    have h1 := sin_sq_add_cos_sq (Spec.rad lat)
    have h2 := sin_sq_add_cos_sq (Spec.rad lon)
    linear_combination h1 + cos (Spec.rad lat) ^ 2 * h2
  have h0 : 0 ≤ ‖Spec.place lat lon‖ := norm_nonneg _
  nlinarith

theorem inner_place (lat1 lon1 lat2 lon2 : ℝ) : inner ℝ (Spec.place lat1 lon1) (Spec.place lat2 lon2) =
    sin (Spec.rad lat1) * sin (Spec.rad lat2) +
      cos (Spec.rad lat1) * cos (Spec.rad lat2) * cos (Spec.rad lon1 - Spec.rad lon2) := by
  rw [Spec.place, Spec.place, inner3, cos_sub]
  ring

theorem angle_place (lat1 lon1 lat2 lon2 : ℝ) :
    InnerProductGeometry.angle (Spec.place lat1 lon1) (Spec.place lat2 lon2) =
      arccos (sin (Spec.rad lat1) * sin (Spec.rad lat2) +
        cos (Spec.rad lat1) * cos (Spec.rad lat2) * cos (Spec.rad lon1 - Spec.rad lon2)) := by
  rw [InnerProductGeometry.angle, norm_place, norm_place, inner_place]
  norm_num

/-- `arctan2` of the sine and cosine of an angle of the upper half circle. -/
theorem arctan2_upper (s c : ℝ) (hs : 0 ≤ s) (h : s ^ 2 + c ^ 2 = 1) : arctan2 s c = arccos c := by
  unfold arctan2
  have hn : ‖(⟨c, s⟩ : ℂ)‖ = 1 := by
    have : ‖(⟨c, s⟩ : ℂ)‖ ^ 2 = 1 := by
      rw [← Complex.normSq_eq_norm_sq, Complex.normSq_mk]
      linarith
    have h0 : 0 ≤ ‖(⟨c, s⟩ : ℂ)‖ := norm_nonneg _
    nlinarith
  have hne : (⟨c, s⟩ : ℂ) ≠ 0 := by
    intro h0; rw [h0, norm_zero] at hn; norm_num at hn
  rw [Complex.arg_of_im_nonneg_of_ne_zero (by simpa using hs) hne, hn]
  simp

theorem arcLength_eq (a b c d : ℝ) : arcLength a b c d = arccos (sin a * sin c + cos a * cos c * cos (b - d)) := by
  unfold arcLength
  dsimp only
  rw [arctan2_upper]
  · rw [cos_abs]
  · exact sqrt_nonneg _
  · rw [sq_sqrt (add_nonneg (mul_self_nonneg _) (mul_self_nonneg _))]
    have h1 := sin_sq_add_cos_sq a
    have h2 := sin_sq_add_cos_sq c
    have h3 := sin_sq_add_cos_sq |b - d|
    set C := cos |b - d|
    set S := sin |b - d|
    linear_combination (sin c ^ 2 + cos c ^ 2 * C ^ 2) * h1 + cos c ^ 2 * h3 + h2

/-- **C67.** `sphere_distance` is the great-circle distance: the radius times the angle between the two places. -/
theorem C67_great_circle (lat1 lon1 lat2 lon2 : ℝ) :
    sphereDistance lat1 lon1 lat2 lon2 = Spec.greatCircle earthsRadius lat1 lon1 lat2 lon2 := by
  rw [sphereDistance, angularDistance, rpd_eq, rpd_eq, rpd_eq, rpd_eq, arcLength_eq, Spec.greatCircle, angle_place]
  ring

/-- **C67.** The distance does not depend on the order of the points. -/
theorem C67_symmetric (lat1 lon1 lat2 lon2 : ℝ) :
    sphereDistance lat1 lon1 lat2 lon2 = sphereDistance lat2 lon2 lat1 lon1 := by
  rw [C67_great_circle, C67_great_circle, Spec.greatCircle, Spec.greatCircle, InnerProductGeometry.angle_comm]

/-- **C67.** The distance is between 0 and half the circumference. -/
theorem C67_range (lat1 lon1 lat2 lon2 : ℝ) :
    0 ≤ sphereDistance lat1 lon1 lat2 lon2 ∧ sphereDistance lat1 lon1 lat2 lon2 ≤ earthsRadius * π := by
  rw [C67_great_circle, Spec.greatCircle]
  exact ⟨mul_nonneg radius_pos.le (InnerProductGeometry.angle_nonneg _ _),
    mul_le_mul_of_nonneg_left (InnerProductGeometry.angle_le_pi _ _) radius_pos.le⟩

/-- **C67.** The distance is 0 exactly if the two positions are the same place. -/
theorem C67_zero (lat1 lon1 lat2 lon2 : ℝ) :
    sphereDistance lat1 lon1 lat2 lon2 = 0 ↔ Spec.place lat1 lon1 = Spec.place lat2 lon2 := by
  rw [C67_great_circle, Spec.greatCircle, mul_eq_zero, or_iff_right radius_pos.ne',
    InnerProductGeometry.angle_eq_zero_iff]
  constructor
  · rintro ⟨_, r, hr, h⟩
    have h1 := congrArg norm h
    rw [norm_smul, norm_place, norm_place, mul_one, norm_eq_abs, abs_of_pos hr] at h1
    rw [h, ← h1, one_smul]
  · intro h
    refine ⟨fun h0 => ?_, 1, one_pos, by rw [one_smul, h]⟩
    have := norm_place lat1 lon1
    rw [h0, norm_zero] at this
    norm_num at this

/-- **C67.** No detour is shorter. -/
theorem C67_triangle (lat1 lon1 lat2 lon2 lat3 lon3 : ℝ) :
    sphereDistance lat1 lon1 lat3 lon3 ≤ sphereDistance lat1 lon1 lat2 lon2 + sphereDistance lat2 lon2 lat3 lon3 := by
  rw [C67_great_circle, C67_great_circle, C67_great_circle, Spec.greatCircle, Spec.greatCircle, Spec.greatCircle,
    ← mul_add]
  exact mul_le_mul_of_nonneg_left (InnerProductGeometry.angle_le_angle_add_angle _ _ _) radius_pos.le

theorem place_turns (lat lon : ℝ) (n : ℤ) : Spec.place lat (lon + 360 * n) = Spec.place lat lon := by
  unfold Spec.place
  have : Spec.rad (lon + 360 * n) = Spec.rad lon + n * (2 * π) := by unfold Spec.rad; ring
  rw [this, cos_add_int_mul_two_pi, sin_add_int_mul_two_pi]

/-- **C67.** Full turns of either longitude make no difference. -/
theorem C67_turns (lat1 lon1 lat2 lon2 : ℝ) (m n : ℤ) :
    sphereDistance lat1 (lon1 + 360 * m) lat2 (lon2 + 360 * n) = sphereDistance lat1 lon1 lat2 lon2 := by
  rw [C67_great_circle, C67_great_circle, Spec.greatCircle, Spec.greatCircle, place_turns, place_turns]

/-- **C67.** Along a meridian the distance is proportional to the difference of latitudes. -/
theorem C67_meridian (lat1 lat2 lon : ℝ) (h : |lat1 - lat2| ≤ 180) :
    sphereDistance lat1 lon lat2 lon = earthsRadius * (|lat1 - lat2| * π / 180) := by
  rw [C67_great_circle, Spec.greatCircle, angle_place, sub_self, cos_zero, mul_one]
  have e : sin (Spec.rad lat1) * sin (Spec.rad lat2) + cos (Spec.rad lat1) * cos (Spec.rad lat2) =
      cos (|lat1 - lat2| * π / 180) := by
    have : |lat1 - lat2| * π / 180 = |Spec.rad lat1 - Spec.rad lat2| := by
      unfold Spec.rad
      rw [show lat1 * π / 180 - lat2 * π / 180 = (lat1 - lat2) * (π / 180) by ring, abs_mul,
        abs_of_pos (div_pos pi_pos (by norm_num : (0 : ℝ) < 180))]
      ring
    rw [this, cos_abs, cos_sub]; ring
  rw [e, arccos_cos (by positivity)]
  have := pi_pos
  rw [div_le_iff₀ (by norm_num)]
  nlinarith

/-- **C67.** A missing coordinate (None or NaN) raises AssertionError; with all four the distance is returned. -/
theorem C67_missing (lat1 lon1 lat2 lon2 : Option ℝ) :
    ((lat1 = none ∨ lon1 = none ∨ lat2 = none ∨ lon2 = none) →
      sphereDistanceChecked lat1 lon1 lat2 lon2 = .error .assertion) ∧
    (∀ a b c d, lat1 = some a → lon1 = some b → lat2 = some c → lon2 = some d →
      sphereDistanceChecked lat1 lon1 lat2 lon2 = .ok (sphereDistance a b c d)) := by
  constructor
  · intro h
    unfold sphereDistanceChecked
    cases lat1 with
    | none => rfl
    | some a =>
    cases lon1 with
    | none => rfl
    | some b =>
    cases lat2 with
    | none => rfl
    | some c =>
    cases lon2 with
    | none => rfl
    | some d => simp at h
  · rintro a b c d rfl rfl rfl rfl
    rfl

/-- A quarter of the way round, from the equator to the north pole. -/
example : sphereDistance 0 0 90 0 = earthsRadius * (π / 2) := by
  rw [C67_meridian 0 90 0 (by norm_num), show |(0 : ℝ) - 90| = 90 by norm_num]
  ring

example : Spec.place 90 0 = Spec.place 90 77 ∧ Spec.place 0 0 ≠ Spec.place 0 90 := by
  constructor
  · have h : Spec.rad 90 = π / 2 := by unfold Spec.rad; ring
    simp [Spec.place, h]
  · intro h
    have h1 := congrFun (congrArg WithLp.ofLp h) 0
    have h2 : Spec.rad 90 = π / 2 := by unfold Spec.rad; ring
    have h3 : Spec.rad 0 = 0 := by unfold Spec.rad; ring
    simp [Spec.place, h2, h3] at h1

end MarineQC
