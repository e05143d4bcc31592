import Verif.Sphere.Distance

/-!
# Tests of /repo/test_spherical_geometry.py as tests of the model

With exact numbers; where the test allows for a difference, the theorem has none.  Not among them: the two courses close to
north, lines 94-102 of the file.
-/

namespace MarineQC.Conform

open Real MarineQC

theorem rad_of (x : ℝ) : x * radiansPerDegree = x * (π / 180) := rfl

theorem radius_ne : earthsRadius ≠ 0 := radius_pos.ne'

theorem rpd_ne : radiansPerDegree ≠ 0 := by
  unfold radiansPerDegree
  positivity

/-- test_spherical_geometry.py:8-13. -/
theorem test_distance_same (lat lon : ℝ) : sphereDistance lat lon lat lon = 0 := by
  rw [C67_meridian _ _ _ (by simp)]
  simp

/-- test_spherical_geometry.py:15-18. -/
theorem test_distance_poles : sphereDistance (-90) 0 90 0 = 63710088 / 10000 * π := by
  rw [C67_meridian _ _ _ (by norm_num [abs_of_neg])]
  norm_num [abs_of_neg, earthsRadius]

/-- Along the equator. -/
theorem equator (lon1 lon2 : ℝ) (h : |lon1 - lon2| ≤ 180) : angularDistance 0 lon1 0 lon2 = |lon1 - lon2| * (π / 180) := by
  unfold angularDistance
  rw [arcLength_eq]
  have e : lon1 * radiansPerDegree - lon2 * radiansPerDegree = (lon1 - lon2) * (π / 180) := by
    unfold radiansPerDegree
    ring
  have p := pi_pos
  rw [zero_mul, sin_zero, cos_zero, zero_mul, zero_add, one_mul, one_mul, e, ← cos_abs, abs_mul,
    abs_of_pos (div_pos p (by norm_num : (0 : ℝ) < 180)), arccos_cos (by positivity)]
  nlinarith

/-- test_spherical_geometry.py:20-23. -/
theorem test_distance_equator : sphereDistance 0 0 0 180 = 63710088 / 10000 * π := by
  unfold sphereDistance
  rw [equator _ _ (by norm_num [abs_of_neg])]
  norm_num [abs_of_neg, earthsRadius]
  ring

/-- test_spherical_geometry.py:25-28. -/
theorem test_distance_latitude : sphereDistance (-90) 0 (-85) 0 = 63710088 / 10000 * π / 36 := by
  rw [C67_meridian _ _ _ (by norm_num [abs_of_neg])]
  norm_num [abs_of_neg, earthsRadius]
  ring

/-- test_spherical_geometry.py:30-33. -/
theorem test_distance_longitude : sphereDistance 0 22 0 27 = 63710088 / 10000 * π / 36 := by
  unfold sphereDistance
  rw [equator _ _ (by norm_num [abs_of_neg])]
  norm_num [abs_of_neg, earthsRadius]
  ring

/-- test_spherical_geometry.py:38-43. -/
theorem test_angle_same (lat lon : ℝ) : angularDistance lat lon lat lon = 0 := by
  have := test_distance_same lat lon
  unfold sphereDistance at this
  exact (mul_eq_zero.mp this).resolve_right radius_ne

/-- test_spherical_geometry.py:45-48. -/
theorem test_angle_poles : angularDistance (-90) 0 90 0 = π := by
  have := test_distance_poles
  unfold sphereDistance at this
  have h := radius_ne
  unfold earthsRadius at *
  linarith

/-- test_spherical_geometry.py:50-53. -/
theorem test_angle_equator : angularDistance 0 0 0 180 = π := by
  rw [equator _ _ (by norm_num [abs_of_neg])]
  norm_num [abs_of_neg]
  ring

/-- test_spherical_geometry.py:55-58. -/
theorem test_angle_round : angularDistance 0 0 0 360 = 0 := by
  have := C67_turns 0 0 0 0 0 1
  norm_num at this
  rw [test_distance_same] at this
  exact (mul_eq_zero.mp this).resolve_right radius_ne

theorem fmod_zero : fmod π (2 * π) = π := by
  unfold fmod
  have h : π / (2 * π) = 1 / 2 := by
    rw [div_eq_div_iff (by positivity) (by norm_num)]
    ring
  rw [h, if_pos (by norm_num)]
  norm_num

/-- test_spherical_geometry.py:63-67. -/
theorem test_going_nowhere : latLonFromCourseAndDistance 0 0 0 0 = (0, 0) := by
  have : (⟨1, 0⟩ : ℂ) = 1 := rfl
  simp [latLonFromCourseAndDistance, arctan2, this, fmod_zero]

theorem half_turn (x : ℝ) (h : x = 90 ∨ x = -90) : cos (x * radiansPerDegree) = 0 ∧
    sin (x * radiansPerDegree) = x / 90 := by
  unfold radiansPerDegree
  rcases h with rfl | rfl
  · rw [show (90 : ℝ) * (π / 180) = π / 2 by ring, cos_pi_div_two, sin_pi_div_two]
    norm_num
  · rw [show (-90 : ℝ) * (π / 180) = -(π / 2) by ring, cos_neg, sin_neg, cos_pi_div_two, sin_pi_div_two]
    norm_num

/-- test_spherical_geometry.py:69-79, on every heading. -/
theorem test_pole_to_pole (course : ℝ) : latLonFromCourseAndDistance (-90) 0 course (π * (63710088 / 10000)) = (90, 0) := by
  obtain ⟨a, b⟩ := half_turn (-90) (Or.inr rfl)
  have hd : π * (63710088 / 10000) / earthsRadius = π := by
    unfold earthsRadius
    norm_num
  simp only [latLonFromCourseAndDistance, a, b, hd, cos_pi, sin_pi]
  have hr : radiansPerDegree = π / 180 := rfl
  have hpi := pi_pos.ne'
  norm_num [arctan2, fmod_zero, hr]
  constructor
  · field_simp
    norm_num
  · have : (⟨0, 0⟩ : ℂ) = 0 := rfl
    rw [this, Complex.arg_zero, zero_add, fmod_zero, sub_self]

/-- test_spherical_geometry.py:81-84. -/
theorem test_east_round_equator : latLonFromCourseAndDistance 0 0 90 (2 * π * (63710088 / 10000)) = (0, 0) := by
  obtain ⟨a, b⟩ := half_turn 90 (Or.inl rfl)
  have hd : 2 * π * (63710088 / 10000) / earthsRadius = 2 * π := by
    unfold earthsRadius
    norm_num
  simp only [latLonFromCourseAndDistance, a, b, hd, cos_two_pi, sin_two_pi]
  have : (⟨1, 0⟩ : ℂ) = 1 := rfl
  simp [arctan2, this, fmod_zero]

/-- test_spherical_geometry.py:86-89. -/
theorem test_eastish : latLonFromCourseAndDistance 0 0 45 (π * (63710088 / 10000)) = (0, -180) := by
  have hd : π * (63710088 / 10000) / earthsRadius = π := by
    unfold earthsRadius
    norm_num
  simp only [latLonFromCourseAndDistance, hd, cos_pi, sin_pi]
  have h1 : (⟨-1, 0⟩ : ℂ) = -1 := by
    apply Complex.ext <;> simp
  have h2 : fmod (π + π) (2 * π) = 0 := by
    unfold fmod
    rw [show π + π = 2 * π by ring, div_self (by positivity), if_pos (by norm_num)]
    simp
  have hpi := pi_pos.ne'
  simp [arctan2, h1, h2, radiansPerDegree]
  field_simp

/-- The course of a journey along a parallel of latitude on the equator. -/
theorem small_sin {x : ℝ} (h0 : 0 < x) (h1 : x < 180) : 0 < sin (x * (π / 180)) := by
  have p := pi_pos
  apply sin_pos_of_pos_of_lt_pi
  · positivity
  · nlinarith

/-- test_spherical_geometry.py:104-107. -/
theorem test_heading_east : courseBetweenPoints 0 0 0 (232 / 10) = 90 := by
  have hd : angularDistance 0 0 0 (232 / 10) = 232 / 10 * (π / 180) := by
    rw [equator _ _ (by norm_num [abs_of_neg])]
    norm_num [abs_of_neg]
  have hs := small_sin (x := 232 / 10) (by norm_num) (by norm_num)
  have hpi := pi_pos.ne'
  simp only [courseBetweenPoints, hd, courseAngle, zero_mul, sub_zero, cos_zero]
  rw [if_pos (by positivity), if_neg (by norm_num), if_pos (show sin (232 / 10 * radiansPerDegree) > 0 from hs)]
  simp [npRatio, safeArccos, hs.ne', radiansPerDegree]
  field_simp
  norm_num

/-- test_spherical_geometry.py:109-112. -/
theorem test_heading_west : courseBetweenPoints 0 0 0 (-(232 / 10)) = 270 := by
  have hd : angularDistance 0 0 0 (-(232 / 10)) = 232 / 10 * (π / 180) := by
    rw [equator _ _ (by norm_num)]
    norm_num
  have hs := small_sin (x := 232 / 10) (by norm_num) (by norm_num)
  have hpi := pi_pos.ne'
  simp only [courseBetweenPoints, hd, courseAngle, zero_mul, sub_zero, cos_zero]
  rw [if_pos (by positivity), if_neg (by norm_num), if_neg (by rw [neg_mul, sin_neg, rad_of]; linarith)]
  simp [npRatio, safeArccos, hs.ne', radiansPerDegree]
  field_simp
  norm_num

/-- A journey to the south along a meridian. -/
theorem heading_south (lat1 lat2 lon : ℝ) (h1 : 1 / 10000000 ≤ cos (lat1 * radiansPerDegree)) (h : lat2 < lat1) (h' : lat1 - lat2 < 180) :
    courseBetweenPoints lat1 lon lat2 lon = 180 := by
  have hd : angularDistance lat1 lon lat2 lon = (lat1 - lat2) * (π / 180) := by
    have := C67_meridian lat1 lat2 lon (by rw [abs_of_pos (by linarith)]; exact h'.le)
    rw [sphereDistance, abs_of_pos (by linarith), mul_comm] at this
    have := mul_left_cancel₀ radius_ne this
    rw [this]
    ring
  have hs := small_sin (x := lat1 - lat2) (by linarith) h'
  have hpi := pi_pos
  have hpos : 0 < lat1 - lat2 := by linarith
  simp only [courseBetweenPoints, hd, courseAngle]
  rw [if_pos (by positivity), if_neg (by linarith), sub_self, sin_zero, if_neg (lt_irrefl _)]
  have hc : 0 < cos (lat1 * radiansPerDegree) := by linarith
  have hne : sin ((lat1 - lat2) * (π / 180)) * cos (lat1 * radiansPerDegree) ≠ 0 := by positivity
  have hr : npRatio (sin (lat2 * radiansPerDegree) - sin (lat1 * radiansPerDegree) * cos ((lat1 - lat2) * (π / 180)))
      (sin ((lat1 - lat2) * (π / 180)) * cos (lat1 * radiansPerDegree)) = some (-1) := by
    unfold npRatio
    rw [if_neg hne]
    congr 1
    rw [div_eq_iff hne]
    have : lat2 * radiansPerDegree = lat1 * radiansPerDegree - (lat1 - lat2) * (π / 180) := by
      unfold radiansPerDegree
      ring
    rw [this, sin_sub]
    ring
  rw [hr]
  simp only [safeArccos]
  norm_num [radiansPerDegree]
  field_simp
  norm_num

theorem cos_small {x : ℝ} (h0 : -60 ≤ x) (h1 : x ≤ 60) : 1 / 10000000 ≤ cos (x * radiansPerDegree) := by
  have hpi := pi_pos
  have : cos (π / 3) ≤ cos |x * radiansPerDegree| := by
    apply cos_le_cos_of_nonneg_of_le_pi (abs_nonneg _) (by linarith)
    unfold radiansPerDegree
    rw [abs_mul, abs_of_pos (by positivity : (0 : ℝ) < π / 180)]
    have := abs_le.mpr ⟨h0, h1⟩
    nlinarith
  rw [cos_abs, cos_pi_div_three] at this
  linarith

/-- test_spherical_geometry.py:114-117. -/
theorem test_heading_south : courseBetweenPoints 0 0 (-(111111 / 10000)) 0 = 180 :=
  heading_south _ _ _ (cos_small (by norm_num) (by norm_num)) (by norm_num) (by norm_num)

/-- test_spherical_geometry.py:119-123. -/
theorem test_heading_south2 : courseBetweenPoints 4 92 3 92 = 180 :=
  heading_south _ _ _ (cos_small (by norm_num) (by norm_num)) (by norm_num) (by norm_num)

/-- test_spherical_geometry.py:128-133. -/
theorem test_halfway : intermediatePoint (-89) 0 89 0 (1 / 2) = .ok (some (0, 0)) := by
  have hd : angularDistance (-89) 0 89 0 = 178 * (π / 180) := by
    have := C67_meridian (-89) 89 0 (by norm_num)
    rw [sphereDistance, mul_comm] at this
    rw [mul_left_cancel₀ radius_ne this]
    norm_num
    ring
  have hs := small_sin (x := 178) (by norm_num) (by norm_num)
  have hs' := small_sin (x := 89) (by norm_num) (by norm_num)
  have hc : 0 < cos (89 * (π / 180)) := by
    have := pi_pos
    apply cos_pos_of_mem_Ioo
    constructor <;> linarith
  have hpi := pi_pos
  simp only [intermediatePoint, hd, radiansPerDegree]
  rw [if_pos (by norm_num), if_pos (by positivity), if_neg hs.ne']
  rw [show (1 - 1 / 2 : ℝ) * (178 * (π / 180)) = 89 * (π / 180) by ring, show (1 / 2 : ℝ) * (178 * (π / 180)) = 89 * (π / 180) by ring,
    show (-89 : ℝ) * (π / 180) = -(89 * (π / 180)) by ring]
  simp only [zero_mul, cos_zero, sin_zero, cos_neg, sin_neg, mul_one, mul_zero, add_zero]
  set c := sin (89 * (π / 180)) / sin (178 * (π / 180)) with hcd
  have hcp : 0 < c := div_pos hs' hs
  have hx : 0 < c * cos (89 * (π / 180)) + c * cos (89 * (π / 180)) := by positivity
  have a1 : arctan2 0 (c * cos (89 * (π / 180)) + c * cos (89 * (π / 180))) = 0 := by
    unfold arctan2
    rw [Complex.arg_eq_zero_iff]
    exact ⟨hx.le, rfl⟩
  have a2 : ∀ y : ℝ, arctan2 0 (sqrt y) = 0 := by
    intro y
    unfold arctan2
    rw [Complex.arg_eq_zero_iff]
    exact ⟨sqrt_nonneg _, rfl⟩
  rw [show c * -sin (89 * (π / 180)) + c * sin (89 * (π / 180)) = 0 by ring, a1, a2]
  simp

/-- test_spherical_geometry.py:135-138. -/
theorem test_five_degrees : intermediatePoint 0 0 0 90 (1 / 18) = .ok (some (0, 5)) := by
  have hd : angularDistance 0 0 0 90 = π / 2 := by
    rw [equator _ _ (by norm_num)]
    norm_num
    ring
  have hpi := pi_pos
  simp only [intermediatePoint, hd, radiansPerDegree]
  rw [if_pos (by norm_num), if_pos (by positivity), sin_pi_div_two, if_neg one_ne_zero,
    show (1 - 1 / 18 : ℝ) * (π / 2) = π / 2 - π / 36 by ring, sin_pi_div_two_sub, show (1 / 18 : ℝ) * (π / 2) = π / 36 by ring,
    show (90 : ℝ) * (π / 180) = π / 2 by ring, cos_pi_div_two, sin_pi_div_two]
  simp only [zero_mul, cos_zero, sin_zero, mul_one, mul_zero, add_zero, zero_add, div_one]
  have a1 : arctan2 (sin (π / 36)) (cos (π / 36)) = π / 36 := by
    have := Complex.arg_cos_add_sin_mul_I (θ := π / 36) ⟨by linarith, by linarith⟩
    unfold arctan2
    refine Eq.trans (congrArg Complex.arg ?_) this
    rw [← Complex.ofReal_cos, ← Complex.ofReal_sin]
    apply Complex.ext <;> simp only [Complex.add_re, Complex.add_im, Complex.mul_re, Complex.mul_im, Complex.ofReal_re,
      Complex.ofReal_im, Complex.I_re, Complex.I_im] <;> ring
  have a2 : ∀ y : ℝ, arctan2 0 (sqrt y) = 0 := by
    intro y
    unfold arctan2
    rw [Complex.arg_eq_zero_iff]
    exact ⟨sqrt_nonneg _, rfl⟩
  rw [a1, a2]
  have : π / 36 / (π / 180) = 5 := by
    field_simp
    norm_num
  rw [this, zero_div]

/-- test_spherical_geometry.py:140-143. -/
theorem test_no_move : intermediatePoint 10 152 10 152 (3 / 4) = .ok (some (10, 152)) := by
  simp only [intermediatePoint, test_angle_same]
  norm_num

end MarineQC.Conform
