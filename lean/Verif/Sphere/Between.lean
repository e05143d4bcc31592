import Verif.Sphere.Travel
import Mathlib.Tactic.FieldSimp

/-!
# C68, C83, C84: longitudes, intermediate points and courses
-/

namespace MarineQC

open Real

/-! ## Longitudes after dead reckoning -/

/-- **C68, limits.** At a pole the course makes no difference: the point returned lies on the meridian of the longitude
given. -/
theorem C68_pole (lon course course' distance : ℝ) : latLonFromCourseAndDistance 90 lon course distance =
    latLonFromCourseAndDistance 90 lon course' distance := by
  have h : (90 : ℝ) * radiansPerDegree = π / 2 := by unfold radiansPerDegree; ring
  unfold latLonFromCourseAndDistance
  simp only [h, cos_pi_div_two, zero_mul, mul_zero, add_zero]

theorem arctan2_range (y x : ℝ) : -π < arctan2 y x ∧ arctan2 y x ≤ π := Complex.arg_mem_Ioc _

theorem arctan2_nonneg (y x : ℝ) (h : 0 ≤ y) : 0 ≤ arctan2 y x := Complex.arg_nonneg_iff.mpr h

theorem fmod_nonneg (x : ℝ) (h : 0 ≤ x) : 0 ≤ fmod x (2 * π) ∧ fmod x (2 * π) < 2 * π := by
  have hp : 0 < 2 * π := by have := pi_pos; linarith
  have hq : 0 ≤ x / (2 * π) := div_nonneg h hp.le
  unfold fmod
  rw [if_pos hq]
  have h1 := Int.floor_le (x / (2 * π))
  have h2 := Int.lt_floor_add_one (x / (2 * π))
  rw [le_div_iff₀ hp] at h1
  rw [div_lt_iff₀ hp] at h2
  constructor <;> nlinarith

theorem fmod_neg (x : ℝ) (h : x < 0) (h' : -(2 * π) < x) : fmod x (2 * π) = x := by
  have hp : 0 < 2 * π := by have := pi_pos; linarith
  have hq : x / (2 * π) < 0 := div_neg_of_neg_of_pos h hp
  have hq' : -1 < x / (2 * π) := by rw [lt_div_iff₀ hp]; linarith
  unfold fmod
  rw [if_neg (not_le.mpr hq)]
  have : ⌈x / (2 * π)⌉ = 0 := by
    rw [Int.ceil_eq_iff]
    exact ⟨by push_cast; linarith, by push_cast; linarith⟩
  rw [this]; simp

/-- The longitude in radians before it is reduced. -/
theorem longitude_eq (lat lon course distance : ℝ) : ∃ dlon : ℝ, -π < dlon ∧ dlon ≤ π ∧
    (-90 ≤ lat → lat ≤ 90 → 0 ≤ sin (Spec.rad course) * sin (distance / earthsRadius) → 0 ≤ dlon) ∧
    (latLonFromCourseAndDistance lat lon course distance).2 =
      (fmod (Spec.rad lon + dlon + π) (2 * π) - π) / radiansPerDegree := by
  refine ⟨arctan2 (sin (Spec.rad course) * sin (distance / earthsRadius) * cos (Spec.rad lat))
    (cos (distance / earthsRadius) - sin (Spec.rad lat) * sin (arcsin (sin (Spec.rad lat) * cos (distance / earthsRadius) +
      cos (Spec.rad lat) * sin (distance / earthsRadius) * cos (Spec.rad course)))),
    (arctan2_range _ _).1, (arctan2_range _ _).2, ?_, ?_⟩
  · intro h1 h2 h
    apply arctan2_nonneg
    obtain ⟨g1, g2⟩ := rad_bounds lat h1 h2
    exact mul_nonneg h (cos_nonneg_of_neg_pi_div_two_le_of_le g1 g2)
  · unfold latLonFromCourseAndDistance
    dsimp only
    rw [rpd_eq lat, rpd_eq lon, rpd_eq course]

theorem rad_lon (lon : ℝ) (h1 : -180 ≤ lon) (h2 : lon ≤ 180) : -π ≤ Spec.rad lon ∧ Spec.rad lon ≤ π := by
  unfold Spec.rad
  have := pi_pos
  constructor
  · rw [le_div_iff₀ (by norm_num)]; nlinarith
  · rw [div_le_iff₀ (by norm_num)]; nlinarith

/-- **C83, part.** From a longitude in [-180, 180] on any eastward course (0 to 180 degrees) over at most half the
circumference, the longitude returned is in [-180, 180).  Missing: westward courses, where it fails (see below). -/
theorem C83_eastward_partial (lat lon course distance : ℝ) (h1 : -90 ≤ lat) (h2 : lat ≤ 90) (h3 : -180 ≤ lon)
    (h4 : lon ≤ 180) (hc : 0 ≤ course) (hc' : course ≤ 180) (hd : 0 ≤ distance) (hd' : distance ≤ earthsRadius * π) :
    -180 ≤ (latLonFromCourseAndDistance lat lon course distance).2 ∧
    (latLonFromCourseAndDistance lat lon course distance).2 < 180 := by
  have hp := pi_pos
  have hr := radius_pos
  obtain ⟨dlon, g1, g2, g3, g4⟩ := longitude_eq lat lon course distance
  have hs : 0 ≤ sin (Spec.rad course) * sin (distance / earthsRadius) := by
    refine mul_nonneg (sin_nonneg_of_nonneg_of_le_pi ?_ ?_) (sin_nonneg_of_nonneg_of_le_pi (by positivity) ?_)
    · unfold Spec.rad; positivity
    · exact (rad_lon course (by linarith) hc').2
    · rw [div_le_iff₀ hr]; linarith
  have hdl := g3 h1 h2 hs
  have hl := rad_lon lon h3 h4
  obtain ⟨f1, f2⟩ := fmod_nonneg (Spec.rad lon + dlon + π) (by linarith)
  rw [g4]
  unfold radiansPerDegree
  constructor
  · rw [le_div_iff₀ (by positivity)]; linarith
  · rw [div_lt_iff₀ (by positivity)]; linarith

/-- **C83.** In any case the longitude returned is in (-360, 180); by C68 it names the meridian reached. -/
theorem C83_range (lat lon course distance : ℝ) (h3 : -180 ≤ lon) (h4 : lon ≤ 180) :
    -360 < (latLonFromCourseAndDistance lat lon course distance).2 ∧
    (latLonFromCourseAndDistance lat lon course distance).2 < 180 := by
  have hp := pi_pos
  obtain ⟨dlon, g1, g2, _, g4⟩ := longitude_eq lat lon course distance
  have hl := rad_lon lon h3 h4
  rw [g4]
  unfold radiansPerDegree
  rw [lt_div_iff₀ (by positivity), div_lt_iff₀ (by positivity)]
  by_cases hx : 0 ≤ Spec.rad lon + dlon + π
  · obtain ⟨f1, f2⟩ := fmod_nonneg _ hx
    constructor <;> linarith
  · have hx := not_le.mp hx
    rw [fmod_neg _ hx (by linarith)]
    constructor <;> linarith

/-- **C83, violated.** Going west across the date line, `math.fmod` keeps the negative sign and the longitude returned is
below -180: a quarter of the way round from 180 W on the equator it is -270. -/
theorem C83_westward_violation :
    latLonFromCourseAndDistance 0 (-180) 270 (earthsRadius * (π / 2)) = (0, -270) := by
  have hp := pi_pos
  have e1 : (0 : ℝ) * radiansPerDegree = 0 := by ring
  have e2 : (-180 : ℝ) * radiansPerDegree = -π := by unfold radiansPerDegree; ring
  have e3 : (270 : ℝ) * radiansPerDegree = π / 2 + π := by unfold radiansPerDegree; ring
  have e4 : earthsRadius * (π / 2) / earthsRadius = π / 2 := by
    rw [mul_comm, mul_div_assoc, div_self radius_pos.ne', mul_one]
  have e5 : arctan2 (-1) 0 = -(π / 2) := by
    have : (⟨0, -1⟩ : ℂ) = -Complex.I := by apply Complex.ext <;> simp
    unfold arctan2
    rw [this, Complex.arg_neg_I]
  unfold latLonFromCourseAndDistance
  simp only [e1, e2, e3, e4, sin_zero, cos_zero, sin_pi_div_two, cos_pi_div_two, sin_add_pi, cos_add_pi,
    mul_zero, mul_one, neg_zero, add_zero, arcsin_zero, sub_zero, zero_div, e5]
  rw [show -π + -(π / 2) + π = -(π / 2) by ring, fmod_neg _ (by linarith) (by linarith)]
  unfold radiansPerDegree
  congr 1
  field_simp
  ring

/-! ## Intermediate points -/

theorem place_of_coords (x y z : ℝ) (h : x ^ 2 + y ^ 2 + z ^ 2 = 1) :
    Spec.place (arctan2 z (sqrt (x * x + y * y)) / radiansPerDegree) (arctan2 y x / radiansPerDegree) = !₂[x, y, z] := by
  rw [place_div]
  have hs : 0 ≤ x * x + y * y := add_nonneg (mul_self_nonneg _) (mul_self_nonneg _)
  have h1 : sqrt (sqrt (x * x + y * y) ^ 2 + z ^ 2) = 1 := by
    rw [sq_sqrt hs, show x * x + y * y + z ^ 2 = 1 by linarith, sqrt_one]
  have c := arctan2_cos z (sqrt (x * x + y * y))
  have s := arctan2_sin z (sqrt (x * x + y * y))
  rw [h1, one_mul] at c s
  have c' := arctan2_cos y x
  have s' := arctan2_sin y x
  rw [c, s]
  have e : sqrt (x * x + y * y) = sqrt (x ^ 2 + y ^ 2) := by congr 1; ring
  rw [e, c', s']

theorem angular_eq (lat1 lon1 lat2 lon2 : ℝ) : angularDistance lat1 lon1 lat2 lon2 =
    arccos (inner ℝ (Spec.place lat1 lon1) (Spec.place lat2 lon2)) := by
  rw [angularDistance, rpd_eq, rpd_eq, rpd_eq, rpd_eq, arcLength_eq, inner_place]

theorem inner_bounds (u v : Spec.Space) (hu : ‖u‖ = 1) (hv : ‖v‖ = 1) : -1 ≤ inner ℝ u v ∧ inner ℝ u v ≤ 1 := by
  have := abs_real_inner_le_norm u v
  rw [hu, hv, one_mul] at this
  exact abs_le.mp this

theorem cos_angular (lat1 lon1 lat2 lon2 : ℝ) : cos (angularDistance lat1 lon1 lat2 lon2) =
    inner ℝ (Spec.place lat1 lon1) (Spec.place lat2 lon2) := by
  obtain ⟨h1, h2⟩ := inner_bounds _ _ (norm_place lat1 lon1) (norm_place lat2 lon2)
  rw [angular_eq, cos_arccos h1 h2]

theorem angular_range (lat1 lon1 lat2 lon2 : ℝ) :
    0 ≤ angularDistance lat1 lon1 lat2 lon2 ∧ angularDistance lat1 lon1 lat2 lon2 ≤ π := by
  rw [angular_eq]
  exact ⟨arccos_nonneg _, arccos_le_pi _⟩

/-- **C68.** For two places that are not antipodes and a fraction between 0 and 1, `intermediate_point` returns a position
whose distances from the two places are that fraction and the remaining fraction of the whole; it is the first place for
0 and the second for 1. -/
theorem C68_between (lat1 lon1 lat2 lon2 f : ℝ) (hf0 : 0 ≤ f) (hf1 : f ≤ 1)
    (hanti : sphereDistance lat1 lon1 lat2 lon2 < earthsRadius * π) :
    ∃ lat lon, intermediatePoint lat1 lon1 lat2 lon2 f = .ok (some (lat, lon)) ∧
      sphereDistance lat1 lon1 lat lon = f * sphereDistance lat1 lon1 lat2 lon2 ∧
      sphereDistance lat lon lat2 lon2 = (1 - f) * sphereDistance lat1 lon1 lat2 lon2 ∧
      (f = 0 → Spec.place lat lon = Spec.place lat1 lon1) ∧ (f = 1 → Spec.place lat lon = Spec.place lat2 lon2) := by
  have hr := radius_pos
  obtain ⟨hd0, hdp⟩ := angular_range lat1 lon1 lat2 lon2
  have hcos := cos_angular lat1 lon1 lat2 lon2
  unfold intermediatePoint
  rw [if_pos hf1]
  dsimp only
  by_cases hd : angularDistance lat1 lon1 lat2 lon2 = 0
  · rw [if_neg (by simpa using hd)]
    have hz : sphereDistance lat1 lon1 lat2 lon2 = 0 := by rw [sphereDistance, hd, zero_mul]
    refine ⟨lat1, lon1, rfl, ?_, ?_, fun _ => rfl, fun _ => (C67_zero _ _ _ _).mp hz⟩
    · rw [hz, mul_zero, C67_zero]
    · rw [hz, mul_zero]
  · rw [if_pos hd]
    set d := angularDistance lat1 lon1 lat2 lon2 with hdd
    have hlt : d < π := by
      rw [sphereDistance, ← hdd, mul_comm] at hanti
      exact lt_of_mul_lt_mul_left hanti hr.le
    have hpos : 0 < d := lt_of_le_of_ne hd0 (Ne.symm hd)
    have hsin : sin d ≠ 0 := (sin_pos_of_pos_of_lt_pi hpos hlt).ne'
    rw [if_neg hsin]
    simp only [rpd_eq]
    set a := sin ((1 - f) * d) / sin d with ha
    set b := sin (f * d) / sin d with hb
    have hexp : sin ((1 - f) * d) = sin d * cos (f * d) - cos d * sin (f * d) := by
      rw [show (1 - f) * d = d - f * d by ring, sin_sub]
    have ha' : a * sin d = sin d * cos (f * d) - cos d * sin (f * d) := by
      rw [ha, div_mul_cancel₀ _ hsin, hexp]
    have hb' : b * sin d = sin (f * d) := by rw [hb, div_mul_cancel₀ _ hsin]
    have haval : a = cos (f * d) - cos d * b := by
      apply mul_right_cancel₀ hsin
      linear_combination ha' + cos d * hb'
    set x := a * cos (Spec.rad lat1) * cos (Spec.rad lon1) + b * cos (Spec.rad lat2) * cos (Spec.rad lon2) with hx
    set y := a * cos (Spec.rad lat1) * sin (Spec.rad lon1) + b * cos (Spec.rad lat2) * sin (Spec.rad lon2) with hy
    set z := a * sin (Spec.rad lat1) + b * sin (Spec.rad lat2) with hz
    have hw : (!₂[x, y, z] : Spec.Space) = a • Spec.place lat1 lon1 + b • Spec.place lat2 lon2 := by
      unfold Spec.place
      ext i
      fin_cases i
      · simp [hx]; ring
      · simp [hy]; ring
      · simp [hz]
    have hu : inner ℝ (Spec.place lat1 lon1) (Spec.place lat1 lon1) = (1 : ℝ) := by
      rw [real_inner_self_eq_norm_sq, norm_place]; norm_num
    have hv : inner ℝ (Spec.place lat2 lon2) (Spec.place lat2 lon2) = (1 : ℝ) := by
      rw [real_inner_self_eq_norm_sq, norm_place]; norm_num
    have huv : inner ℝ (Spec.place lat1 lon1) (Spec.place lat2 lon2) = cos d := hcos.symm
    have hvu : inner ℝ (Spec.place lat2 lon2) (Spec.place lat1 lon1) = cos d := by rw [real_inner_comm, huv]
    have i1 : inner ℝ (Spec.place lat1 lon1) (!₂[x, y, z] : Spec.Space) = cos (f * d) := by
      rw [hw, inner_add_right, real_inner_smul_right, real_inner_smul_right, hu, huv, haval]; ring
    have hsq : sin (f * d) = b * sin d := hb'.symm
    have hunit : x ^ 2 + y ^ 2 + z ^ 2 = 1 := by
      rw [← norm3, ← real_inner_self_eq_norm_sq]
      nth_rewrite 1 [hw]
      rw [inner_add_left, real_inner_smul_left, real_inner_smul_left, i1]
      have i2 : inner ℝ (Spec.place lat2 lon2) (!₂[x, y, z] : Spec.Space) = a * cos d + b := by
        rw [hw, inner_add_right, real_inner_smul_right, real_inner_smul_right, hv, hvu]; ring
      rw [i2, haval]
      have g1 := sin_sq_add_cos_sq (f * d)
      have g2 := sin_sq_add_cos_sq d
      rw [hsq] at g1
      linear_combination g1 - b ^ 2 * g2
    have hplace := place_of_coords x y z hunit
    refine ⟨_, _, rfl, ?_, ?_, ?_, ?_⟩
    · rw [greatCircle_inner, hplace, i1, arccos_cos (mul_nonneg hf0 hd0) (by nlinarith), sphereDistance, ← hdd]
      ring
    · rw [greatCircle_inner, hplace]
      have i2 : inner ℝ (!₂[x, y, z] : Spec.Space) (Spec.place lat2 lon2) = cos ((1 - f) * d) := by
        rw [hw, inner_add_left, real_inner_smul_left, real_inner_smul_left, hv, huv,
          show (1 - f) * d = d - f * d by ring, cos_sub, hsq]
        have g2 := sin_sq_add_cos_sq d
        rw [haval]
        linear_combination -b * g2
      rw [i2, arccos_cos (mul_nonneg (by linarith) hd0) (by nlinarith), sphereDistance, ← hdd]
      ring
    · rintro rfl
      rw [hplace, hw]
      have : b = 0 := by rw [hb]; simp
      have : a = 1 := by rw [haval, this]; simp
      rw [‹a = 1›, ‹b = 0›]; simp
    · rintro rfl
      rw [hplace, hw]
      have hb1 : b = 1 := by rw [hb, one_mul, div_self hsin]
      have ha1 : a = 0 := by rw [haval, hb1]; simp
      rw [ha1, hb1]; simp

/-- **C68.** For a fraction above 1 there is an AssertionError; between antipodes the result is NaN. -/
theorem C68_between_refused (lat1 lon1 lat2 lon2 f : ℝ) :
    (1 < f → intermediatePoint lat1 lon1 lat2 lon2 f = .error .assertion) ∧
    (f ≤ 1 → sphereDistance lat1 lon1 lat2 lon2 = earthsRadius * π →
      intermediatePoint lat1 lon1 lat2 lon2 f = .ok none) := by
  constructor
  · intro h
    unfold intermediatePoint
    rw [if_neg (not_le.mpr h)]
  · intro hf h
    have hd : angularDistance lat1 lon1 lat2 lon2 = π := by
      rw [sphereDistance, mul_comm] at h
      exact mul_left_cancel₀ radius_pos.ne' h
    unfold intermediatePoint
    rw [if_pos hf]
    dsimp only
    rw [if_pos (by rw [hd]; exact pi_ne_zero), if_pos (by rw [hd]; exact sin_pi)]

/-- Half-way from the equator to the pole. -/
example : sphereDistance 0 0 90 0 < earthsRadius * π ∧ 0 < sphereDistance 0 0 90 0 := by
  have hr := radius_pos
  have hp := pi_pos
  rw [C67_meridian 0 90 0 (by norm_num), show |(0 : ℝ) - 90| = 90 by norm_num]
  constructor
  · nlinarith [mul_pos hr hp]
  · positivity

/-! ## Courses -/

/-- The components of the second place along north, east and up at the first. -/
theorem frame (lat1 lon1 lat2 lon2 : ℝ) :
    Spec.place lat2 lon2 = (inner ℝ (Spec.place lat1 lon1) (Spec.place lat2 lon2) : ℝ) • Spec.place lat1 lon1 +
      (cos (Spec.rad lat1) * sin (Spec.rad lat2) -
        sin (Spec.rad lat1) * cos (Spec.rad lat2) * cos (Spec.rad lon2 - Spec.rad lon1)) • Spec.north lat1 lon1 +
      (cos (Spec.rad lat2) * sin (Spec.rad lon2 - Spec.rad lon1)) • Spec.east lon1 := by
  rw [inner_place, cos_sub, cos_sub, sin_sub]
  have h1 := sin_sq_add_cos_sq (Spec.rad lat1)
  have h2 := sin_sq_add_cos_sq (Spec.rad lon1)
  unfold Spec.place Spec.north Spec.east
  generalize Spec.rad lat1 = a at *
  generalize Spec.rad lat2 = c at *
  generalize Spec.rad lon1 = b at *
  generalize Spec.rad lon2 = e at *
  ext i
  fin_cases i
  · simp
    linear_combination (-cos b * cos c * (cos b * cos e + sin b * sin e)) * h1 - cos c * cos e * h2
  · simp
    linear_combination (-sin b * cos c * (cos b * cos e + sin b * sin e)) * h1 - cos c * sin e * h2
  · simp
    linear_combination -sin c * h1

theorem frame_unit (lat1 lon1 lat2 lon2 : ℝ) :
    (cos (Spec.rad lat1) * sin (Spec.rad lat2) -
        sin (Spec.rad lat1) * cos (Spec.rad lat2) * cos (Spec.rad lon2 - Spec.rad lon1)) ^ 2 +
      (cos (Spec.rad lat2) * sin (Spec.rad lon2 - Spec.rad lon1)) ^ 2 =
    sin (angularDistance lat1 lon1 lat2 lon2) ^ 2 := by
  have h := sin_sq_add_cos_sq (angularDistance lat1 lon1 lat2 lon2)
  rw [cos_angular, inner_place, ← cos_neg (Spec.rad lon1 - Spec.rad lon2), neg_sub] at h
  have h1 := sin_sq_add_cos_sq (Spec.rad lat1)
  have h2 := sin_sq_add_cos_sq (Spec.rad lat2)
  have h3 := sin_sq_add_cos_sq (Spec.rad lon2 - Spec.rad lon1)
  linear_combination (sin (Spec.rad lat2) ^ 2 + cos (Spec.rad lat2) ^ 2 * cos (Spec.rad lon2 - Spec.rad lon1) ^ 2) * h1 +
    h2 + cos (Spec.rad lat2) ^ 2 * h3 - h

/-- The course in radians has the right sine and cosine. -/
theorem course_components (lat1 lon1 lat2 lon2 : ℝ) (h1 : 1 / 10000000 ≤ cos (Spec.rad lat1)) (h2 : -90 ≤ lat2)
    (h3 : lat2 ≤ 90) :
    sin (angularDistance lat1 lon1 lat2 lon2) * cos (Spec.rad (courseBetweenPoints lat1 lon1 lat2 lon2)) =
      cos (Spec.rad lat1) * sin (Spec.rad lat2) -
        sin (Spec.rad lat1) * cos (Spec.rad lat2) * cos (Spec.rad lon2 - Spec.rad lon1) ∧
    sin (angularDistance lat1 lon1 lat2 lon2) * sin (Spec.rad (courseBetweenPoints lat1 lon1 lat2 lon2)) =
      cos (Spec.rad lat2) * sin (Spec.rad lon2 - Spec.rad lon1) := by
  have hu := frame_unit lat1 lon1 lat2 lon2
  have hC := cos_angular lat1 lon1 lat2 lon2
  rw [inner_place, ← cos_neg (Spec.rad lon1 - Spec.rad lon2), neg_sub] at hC
  obtain ⟨hd0, hdp⟩ := angular_range lat1 lon1 lat2 lon2
  have hcpos : 0 < cos (Spec.rad lat1) := lt_of_lt_of_le (by norm_num) h1
  obtain ⟨b1, b2⟩ := rad_bounds lat2 h2 h3
  have hc2 : 0 ≤ cos (Spec.rad lat2) := cos_nonneg_of_neg_pi_div_two_le_of_le b1 b2
  unfold courseBetweenPoints
  dsimp only
  rw [rad_div]
  simp only [rpd_eq]
  set d := angularDistance lat1 lon1 lat2 lon2 with hd
  set N := cos (Spec.rad lat1) * sin (Spec.rad lat2) -
    sin (Spec.rad lat1) * cos (Spec.rad lat2) * cos (Spec.rad lon2 - Spec.rad lon1) with hN
  set E := cos (Spec.rad lat2) * sin (Spec.rad lon2 - Spec.rad lon1) with hE
  by_cases hs : sin d = 0
  · rw [hs] at hu ⊢
    have hN0 : N = 0 := by nlinarith [sq_nonneg N, sq_nonneg E]
    have hE0 : E = 0 := by nlinarith [sq_nonneg N, sq_nonneg E]
    rw [hN0, hE0]
    exact ⟨by rw [zero_mul], by rw [zero_mul]⟩
  · have hdne : d ≠ 0 := fun h => hs (by rw [h, sin_zero])
    have hdpos : 0 < d := lt_of_le_of_ne hd0 (Ne.symm hdne)
    have hdlt : d < π := lt_of_le_of_ne hdp fun h => hs (by rw [h, sin_pi])
    have hspos := sin_pos_of_pos_of_lt_pi hdpos hdlt
    rw [if_pos hdne]
    have hratio : (sin (Spec.rad lat2) - sin (Spec.rad lat1) * cos d) / (sin d * cos (Spec.rad lat1)) = N / sin d := by
      rw [div_eq_div_iff (mul_pos hspos hcpos).ne' hspos.ne', hC, hN]
      have := sin_sq_add_cos_sq (Spec.rad lat1)
      linear_combination -sin d * sin (Spec.rad lat2) * this
    have hNle : |N / sin d| ≤ 1 := by
      rw [abs_div, abs_of_pos hspos, div_le_one hspos]
      apply abs_le_of_sq_le_sq _ hspos.le
      nlinarith [sq_nonneg E]
    obtain ⟨r1, r2⟩ := abs_le.mp hNle
    have hcosa : cos (arccos (N / sin d)) = N / sin d := cos_arccos r1 r2
    have hsina : sin d * sin (arccos (N / sin d)) = |E| := by
      rw [sin_arccos]
      have : 1 - (N / sin d) ^ 2 = (E / sin d) ^ 2 := by
        rw [div_pow, div_pow, eq_div_iff (pow_ne_zero 2 hs), sub_mul, one_mul, div_mul_cancel₀ _ (pow_ne_zero 2 hs)]
        linarith
      rw [this, sqrt_sq_eq_abs, abs_div, abs_of_pos hspos]
      field_simp
    have hca : courseAngle (Spec.rad lat1) (Spec.rad lon1) (Spec.rad lat2) (Spec.rad lon2) d =
        if sin (Spec.rad lon2 - Spec.rad lon1) > 0 then some (arccos (N / sin d)) else some (2 * π - arccos (N / sin d)) := by
      unfold courseAngle npRatio safeArccos
      rw [if_neg (not_lt.mpr h1), if_neg (mul_pos hspos hcpos).ne', hratio]
      simp only [if_pos (show 1 ≥ N / sin d ∧ N / sin d ≥ -1 from ⟨r2, r1⟩), Option.map_some]
    rw [hca]
    by_cases hl : sin (Spec.rad lon2 - Spec.rad lon1) > 0
    · rw [if_pos hl]
      dsimp only
      have hE0 : 0 ≤ E := mul_nonneg hc2 hl.le
      rw [hcosa, hsina, abs_of_nonneg hE0]
      exact ⟨by field_simp, rfl⟩
    · rw [if_neg hl]
      dsimp only
      have hE0 : E ≤ 0 := mul_nonpos_of_nonneg_of_nonpos hc2 (not_lt.mp hl)
      rw [cos_two_pi_sub, hcosa, sin_two_pi_sub, mul_neg, hsina, abs_of_nonpos hE0]
      exact ⟨by field_simp, by ring⟩

/-- **C84.** From a place that is not next to a pole (cosine of latitude at least 1e-7), the course returned by
`course_between_points` is the initial course of a great circle through the second place: going the great-circle distance
along it leads there. -/
theorem C84_course (lat1 lon1 lat2 lon2 : ℝ) (h1 : 1 / 10000000 ≤ cos (Spec.rad lat1)) (h2 : -90 ≤ lat2) (h3 : lat2 ≤ 90) :
    Spec.travel earthsRadius lat1 lon1 (courseBetweenPoints lat1 lon1 lat2 lon2)
      (sphereDistance lat1 lon1 lat2 lon2) = Spec.place lat2 lon2 := by
  obtain ⟨g1, g2⟩ := course_components lat1 lon1 lat2 lon2 h1 h2 h3
  have e : sphereDistance lat1 lon1 lat2 lon2 / earthsRadius = angularDistance lat1 lon1 lat2 lon2 := by
    rw [sphereDistance, mul_div_assoc, div_self radius_pos.ne', mul_one]
  rw [Spec.travel, e, frame lat1 lon1 lat2 lon2, ← g1, ← g2, cos_angular]
  module

/-- **C84.** Course and dead reckoning fit together: setting out on the course to a place and going the distance to it, one
arrives there. -/
theorem C84_round_trip (lat1 lon1 lat2 lon2 : ℝ) (h0 : -90 < lat1) (h0' : lat1 < 90)
    (h1 : 1 / 10000000 ≤ cos (Spec.rad lat1)) (h2 : -90 ≤ lat2) (h3 : lat2 ≤ 90) :
    sphereDistance lat2 lon2
      (latLonFromCourseAndDistance lat1 lon1 (courseBetweenPoints lat1 lon1 lat2 lon2) (sphereDistance lat1 lon1 lat2 lon2)).1
      (latLonFromCourseAndDistance lat1 lon1 (courseBetweenPoints lat1 lon1 lat2 lon2) (sphereDistance lat1 lon1 lat2 lon2)).2
      = 0 := by
  rw [C67_zero, C68_course _ _ _ _ h0 h0', C84_course _ _ _ _ h1 h2 h3]

/-- **C84.** The course is between 0 and 360 degrees, for all positions with latitudes in range.  Due north is 360 (not
0); 0 is returned for two positions of the same place and for antipodes. -/
theorem C84_range (lat1 lon1 lat2 lon2 : ℝ) :
    0 ≤ courseBetweenPoints lat1 lon1 lat2 lon2 ∧ courseBetweenPoints lat1 lon1 lat2 lon2 ≤ 360 := by
  have hp := pi_pos
  have key : ∀ c : ℝ, 0 ≤ c → c ≤ 2 * π → 0 ≤ c / radiansPerDegree ∧ c / radiansPerDegree ≤ 360 := by
    intro c h1 h2
    unfold radiansPerDegree
    exact ⟨by positivity, by rw [div_le_iff₀ (by positivity)]; linarith⟩
  have hu := frame_unit lat1 lon1 lat2 lon2
  obtain ⟨hd0, hdp⟩ := angular_range lat1 lon1 lat2 lon2
  have hC := cos_angular lat1 lon1 lat2 lon2
  rw [inner_place, ← cos_neg (Spec.rad lon1 - Spec.rad lon2), neg_sub] at hC
  unfold courseBetweenPoints
  simp only [rpd_eq]
  set d := angularDistance lat1 lon1 lat2 lon2 with hd
  have hval : ∀ c, courseAngle (Spec.rad lat1) (Spec.rad lon1) (Spec.rad lat2) (Spec.rad lon2) d = some c →
      0 ≤ c ∧ c ≤ 2 * π := by
    intro c hc
    unfold courseAngle at hc
    split at hc
    · split at hc <;> simp only [Option.some.injEq] at hc <;> subst hc <;> constructor <;> linarith
    · have harc : ∀ r c, safeArccos r = some c → 0 ≤ c ∧ c ≤ π := by
        intro r c h
        unfold safeArccos at h
        split at h
        · split at h
          · simp only [Option.some.injEq] at h
            subst h
            exact ⟨arccos_nonneg _, arccos_le_pi _⟩
          · simp at h
        · simp at h
      dsimp only at hc
      split at hc
      · obtain ⟨g1, g2⟩ := harc _ _ hc
        exact ⟨g1, by linarith⟩
      · obtain ⟨c', hc', rfl⟩ := Option.map_eq_some_iff.mp hc
        obtain ⟨g1, g2⟩ := harc _ _ hc'
        constructor <;> linarith
  have hnone : courseAngle (Spec.rad lat1) (Spec.rad lon1) (Spec.rad lat2) (Spec.rad lon2) d = none → sin d = 0 := by
    intro hc
    by_contra hs
    unfold courseAngle at hc
    split at hc
    · split at hc <;> simp at hc
    · rename_i hcos
      have hcpos : 0 < cos (Spec.rad lat1) := lt_of_lt_of_le (by norm_num) (not_lt.mp hcos)
      have hspos : 0 < sin d := lt_of_le_of_ne (sin_nonneg_of_nonneg_of_le_pi hd0 hdp) (Ne.symm hs)
      have hle : |(sin (Spec.rad lat2) - sin (Spec.rad lat1) * cos d) / (sin d * cos (Spec.rad lat1))| ≤ 1 := by
        have hratio : (sin (Spec.rad lat2) - sin (Spec.rad lat1) * cos d) / (sin d * cos (Spec.rad lat1)) =
            (cos (Spec.rad lat1) * sin (Spec.rad lat2) -
              sin (Spec.rad lat1) * cos (Spec.rad lat2) * cos (Spec.rad lon2 - Spec.rad lon1)) / sin d := by
          rw [div_eq_div_iff (mul_pos hspos hcpos).ne' hspos.ne', hC]
          have := sin_sq_add_cos_sq (Spec.rad lat1)
          linear_combination -sin d * sin (Spec.rad lat2) * this
        rw [hratio, abs_div, abs_of_pos hspos, div_le_one hspos]
        apply abs_le_of_sq_le_sq _ hspos.le
        nlinarith [sq_nonneg (cos (Spec.rad lat2) * sin (Spec.rad lon2 - Spec.rad lon1))]
      obtain ⟨r1, r2⟩ := abs_le.mp hle
      unfold npRatio safeArccos at hc
      rw [if_neg (mul_pos hspos hcpos).ne'] at hc
      simp only [ge_iff_le, r1, r2, and_self, if_true, Option.map_some] at hc
      split at hc <;> simp at hc
  by_cases hd' : d = 0
  · rw [if_neg (by simpa using hd')]
    exact key 0 le_rfl (by linarith)
  · rw [if_pos hd']
    cases hca : courseAngle (Spec.rad lat1) (Spec.rad lon1) (Spec.rad lat2) (Spec.rad lon2) d with
    | some c => exact key c (hval c hca).1 (hval c hca).2
    | none =>
      have hs := hnone hca
      rw [hs] at hu
      have hN0 : cos (Spec.rad lat1) * sin (Spec.rad lat2) -
          sin (Spec.rad lat1) * cos (Spec.rad lat2) * cos (Spec.rad lon1 - Spec.rad lon2) = 0 := by
        rw [← cos_neg (Spec.rad lon1 - Spec.rad lon2), neg_sub]
        nlinarith [sq_nonneg (cos (Spec.rad lat1) * sin (Spec.rad lat2) -
          sin (Spec.rad lat1) * cos (Spec.rad lat2) * cos (Spec.rad lon2 - Spec.rad lon1)),
          sq_nonneg (cos (Spec.rad lat2) * sin (Spec.rad lon2 - Spec.rad lon1))]
      have hE0 : sin (Spec.rad lon1 - Spec.rad lon2) * cos (Spec.rad lat2) = 0 := by
        have : cos (Spec.rad lat2) * sin (Spec.rad lon2 - Spec.rad lon1) = 0 := by
          nlinarith [sq_nonneg (cos (Spec.rad lat1) * sin (Spec.rad lat2) -
            sin (Spec.rad lat1) * cos (Spec.rad lat2) * cos (Spec.rad lon2 - Spec.rad lon1)),
            sq_nonneg (cos (Spec.rad lat2) * sin (Spec.rad lon2 - Spec.rad lon1))]
        rw [← neg_sub, sin_neg]
        linarith
      dsimp only
      rw [hN0, hE0]
      have h00 : arctan2 0 0 = 0 := by
        unfold arctan2
        rw [show (⟨0, 0⟩ : ℂ) = 0 from rfl, Complex.arg_zero]
      have hf0 : fmod 0 (2 * π) = 0 := by unfold fmod; simp
      rw [h00, hf0]
      exact key 0 le_rfl (by linarith)

/-- **C84, limits.** From the north pole the course is always 180 degrees, wherever the second place is. -/
theorem C84_pole (lon1 lat2 lon2 : ℝ) (h : sphereDistance 90 lon1 lat2 lon2 ≠ 0) :
    courseBetweenPoints 90 lon1 lat2 lon2 = 180 := by
  have hd : angularDistance 90 lon1 lat2 lon2 ≠ 0 := fun h0 => h (by rw [sphereDistance, h0, zero_mul])
  have hp := pi_pos
  have e : Spec.rad 90 = π / 2 := by unfold Spec.rad; ring
  unfold courseBetweenPoints courseAngle
  simp only [rpd_eq, e, cos_pi_div_two]
  rw [if_pos hd, if_pos (by norm_num), if_pos (by linarith)]
  unfold radiansPerDegree
  field_simp

/-- Due east along the equator is 90 degrees, due north 360. -/
example : courseBetweenPoints 0 0 0 90 = 90 ∧ courseBetweenPoints 0 0 90 0 = 360 := by
  have hp := pi_pos
  have e0 : Spec.rad 0 = 0 := by unfold Spec.rad; ring
  have e90 : Spec.rad 90 = π / 2 := by unfold Spec.rad; ring
  have d1 : angularDistance 0 0 0 90 = π / 2 := by
    rw [angular_eq, inner_place, e0, e90]; simp
  have d2 : angularDistance 0 0 90 0 = π / 2 := by
    rw [angular_eq, inner_place, e0, e90]; simp
  have hc : ¬ ((1 : ℝ) < 1 / 10000000) := by norm_num
  constructor
  · unfold courseBetweenPoints courseAngle npRatio safeArccos
    simp only [d1, rpd_eq, e0, e90, cos_zero, if_neg hc]
    simp [pi_ne_zero]
    unfold radiansPerDegree
    field_simp
    norm_num
  · unfold courseBetweenPoints courseAngle npRatio safeArccos
    simp only [d2, rpd_eq, e0, e90, cos_zero, if_neg hc]
    simp [pi_ne_zero]
    unfold radiansPerDegree
    field_simp
    norm_num

/-- A place that is not next to a pole. -/
example : 1 / 10000000 ≤ cos (Spec.rad 0) := by
  rw [show Spec.rad 0 = 0 by unfold Spec.rad; ring, cos_zero]; norm_num

end MarineQC
