import Verif.Sphere.Distance

/-!
# C68: dead reckoning and intermediate points
-/

namespace MarineQC

open Real

theorem rad_div (x : ℝ) : Spec.rad (x / radiansPerDegree) = x := by
  unfold Spec.rad radiansPerDegree
  have := pi_ne_zero
  field_simp

/-- The point with latitude and longitude in radians. -/
theorem place_div (a b : ℝ) : Spec.place (a / radiansPerDegree) (b / radiansPerDegree) =
    !₂[cos a * cos b, cos a * sin b, sin a] := by
  unfold Spec.place
  rw [rad_div, rad_div]

theorem norm_mk (x y : ℝ) : ‖(⟨x, y⟩ : ℂ)‖ = sqrt (x ^ 2 + y ^ 2) := by
  rw [Complex.norm_def, Complex.normSq_mk]
  congr 1; ring

theorem arctan2_cos (y x : ℝ) : sqrt (x ^ 2 + y ^ 2) * cos (arctan2 y x) = x := by
  have := Complex.norm_mul_cos_arg ⟨x, y⟩
  rwa [norm_mk] at this

theorem arctan2_sin (y x : ℝ) : sqrt (x ^ 2 + y ^ 2) * sin (arctan2 y x) = y := by
  have := Complex.norm_mul_sin_arg ⟨x, y⟩
  rwa [norm_mk] at this

theorem arctan2_scale (y x k : ℝ) (hk : 0 < k) : arctan2 (k * y) (k * x) = arctan2 y x := by
  unfold arctan2
  rw [← Complex.arg_real_mul ⟨x, y⟩ hk]
  congr 1
  apply Complex.ext <;> simp

theorem fmod_turns (x : ℝ) : ∃ n : ℤ, fmod x (2 * π) = x - n * (2 * π) := by
  unfold fmod
  split
  · exact ⟨⌊x / (2 * π)⌋, by ring⟩
  · exact ⟨⌈x / (2 * π)⌉, by ring⟩

theorem fmod_shift (x : ℝ) : ∃ n : ℤ, fmod (x + π) (2 * π) - π = x - n * (2 * π) := by
  obtain ⟨n, hn⟩ := fmod_turns (x + π)
  exact ⟨n, by rw [hn]; ring⟩

theorem ext3 {a b c a' b' c' : ℝ} (h1 : a = a') (h2 : b = b') (h3 : c = c') :
    (!₂[a, b, c] : Spec.Space) = !₂[a', b', c'] := by rw [h1, h2, h3]

/-- The coordinates of the place reached. -/
theorem travel_coords (radius lat lon course distance : ℝ) :
    Spec.travel radius lat lon course distance =
      !₂[(cos (distance / radius) * cos (Spec.rad lat) - sin (distance / radius) * cos (Spec.rad course) * sin (Spec.rad lat)) *
            cos (Spec.rad lon) - sin (distance / radius) * sin (Spec.rad course) * sin (Spec.rad lon),
         (cos (distance / radius) * cos (Spec.rad lat) - sin (distance / radius) * cos (Spec.rad course) * sin (Spec.rad lat)) *
            sin (Spec.rad lon) + sin (distance / radius) * sin (Spec.rad course) * cos (Spec.rad lon),
         sin (Spec.rad lat) * cos (distance / radius) + cos (Spec.rad lat) * sin (distance / radius) * cos (Spec.rad course)] := by
  unfold Spec.travel Spec.place Spec.north Spec.east
  ext i
  fin_cases i <;> simp <;> ring

theorem norm3 (a b c : ℝ) : ‖(!₂[a, b, c] : Spec.Space)‖ ^ 2 = a ^ 2 + b ^ 2 + c ^ 2 := by
  rw [← real_inner_self_eq_norm_sq, inner3]; ring

/-- The sum of squares of the rotated coordinates of the place reached. -/
theorem travel_unit (a t d : ℝ) : (cos d * cos a - sin d * cos t * sin a) ^ 2 + (sin d * sin t) ^ 2 +
    (sin a * cos d + cos a * sin d * cos t) ^ 2 = 1 := by
  have h1 := sin_sq_add_cos_sq a
  have h2 := sin_sq_add_cos_sq t
  have h3 := sin_sq_add_cos_sq d
  linear_combination (cos d ^ 2 + sin d ^ 2 * cos t ^ 2) * h1 + sin d ^ 2 * h2 + h3

theorem rad_bounds (lat : ℝ) (h1 : -90 ≤ lat) (h2 : lat ≤ 90) : -(π / 2) ≤ Spec.rad lat ∧ Spec.rad lat ≤ π / 2 := by
  unfold Spec.rad
  have := pi_pos
  constructor
  · rw [le_div_iff₀ (by norm_num)]; nlinarith
  · rw [div_le_iff₀ (by norm_num)]; nlinarith

theorem rad_cos_pos (lat : ℝ) (h1 : -90 < lat) (h2 : lat < 90) : 0 < cos (Spec.rad lat) := by
  apply cos_pos_of_mem_Ioo
  unfold Spec.rad
  have := pi_pos
  constructor
  · rw [lt_div_iff₀ (by norm_num)]; nlinarith
  · rw [div_lt_iff₀ (by norm_num)]; nlinarith

/-- **C68.** From any place other than a pole, with any course and any distance, `lat_lon_from_course_and_distance` gives
the place reached along the great circle that starts with this course. -/
theorem C68_course (lat lon course distance : ℝ) (h1 : -90 < lat) (h2 : lat < 90) :
    Spec.place (latLonFromCourseAndDistance lat lon course distance).1 (latLonFromCourseAndDistance lat lon course distance).2 =
      Spec.travel earthsRadius lat lon course distance := by
  rw [travel_coords]
  unfold latLonFromCourseAndDistance
  dsimp only
  rw [rpd_eq, rpd_eq, rpd_eq, place_div]
  have hc := rad_cos_pos lat h1 h2
  set a := Spec.rad lat
  set b := Spec.rad lon
  set t := Spec.rad course
  set d := distance / earthsRadius
  set Z := sin a * cos d + cos a * sin d * cos t with hZ
  set X := cos d * cos a - sin d * cos t * sin a with hX
  set Y := sin d * sin t with hY
  have hunit : X ^ 2 + Y ^ 2 + Z ^ 2 = 1 := travel_unit a t d
  have hZ1 : -1 ≤ Z := by nlinarith [sq_nonneg X, sq_nonneg Y]
  have hZ2 : Z ≤ 1 := by nlinarith [sq_nonneg X, sq_nonneg Y]
  have hsin : sin (arcsin Z) = Z := sin_arcsin hZ1 hZ2
  have hcos : cos (arcsin Z) = sqrt (X ^ 2 + Y ^ 2) := by
    rw [cos_arcsin]; congr 1; linarith
  have harg : arctan2 (sin t * sin d * cos a) (cos d - sin a * Z) = arctan2 Y X := by
    rw [← arctan2_scale Y X (cos a) hc]
    congr 1
    · rw [hY]; ring
    · rw [hZ, hX]
      have := sin_sq_add_cos_sq a
      linear_combination -cos d * this
  rw [hsin, hcos, harg]
  obtain ⟨n, hn⟩ := fmod_shift (b + arctan2 Y X)
  rw [hn, cos_sub_int_mul_two_pi, sin_sub_int_mul_two_pi, cos_add, sin_add]
  have e1 := arctan2_cos Y X
  have e2 := arctan2_sin Y X
  apply ext3
  · linear_combination cos b * e1 - sin b * e2
  · linear_combination sin b * e1 + cos b * e2
  · rfl

/-- The angle between the start and the place reached. -/
theorem travel_inner (lat lon course distance : ℝ) :
    inner ℝ (Spec.place lat lon) (Spec.travel earthsRadius lat lon course distance) = cos (distance / earthsRadius) := by
  rw [travel_coords, Spec.place, inner3]
  have h1 := sin_sq_add_cos_sq (Spec.rad lat)
  have h2 := sin_sq_add_cos_sq (Spec.rad lon)
  linear_combination cos (distance / earthsRadius) * h1 +
    cos (Spec.rad lat) * (cos (distance / earthsRadius) * cos (Spec.rad lat) -
      sin (distance / earthsRadius) * cos (Spec.rad course) * sin (Spec.rad lat)) * h2

theorem arccos_distance (distance : ℝ) (h1 : 0 ≤ distance) (h2 : distance ≤ earthsRadius * π) :
    earthsRadius * arccos (cos (distance / earthsRadius)) = distance := by
  have hr := radius_pos
  rw [arccos_cos (by positivity) (by rw [div_le_iff₀ hr]; linarith)]
  field_simp

theorem greatCircle_inner (lat1 lon1 lat2 lon2 : ℝ) : sphereDistance lat1 lon1 lat2 lon2 =
    earthsRadius * arccos (inner ℝ (Spec.place lat1 lon1) (Spec.place lat2 lon2)) := by
  rw [C67_great_circle, Spec.greatCircle, angle_place, inner_place]

/-- **C68.** From any position on the globe, poles included, with any course, the point returned is as far away as
requested, up to half the circumference. -/
theorem C68_distance (lat lon course distance : ℝ) (h1 : -90 ≤ lat) (h2 : lat ≤ 90) (hd : 0 ≤ distance)
    (hd' : distance ≤ earthsRadius * π) :
    sphereDistance lat lon (latLonFromCourseAndDistance lat lon course distance).1
      (latLonFromCourseAndDistance lat lon course distance).2 = distance := by
  rw [greatCircle_inner]
  have key : inner ℝ (Spec.place lat lon) (Spec.place (latLonFromCourseAndDistance lat lon course distance).1
      (latLonFromCourseAndDistance lat lon course distance).2) = cos (distance / earthsRadius) := by
    by_cases hp : -90 < lat ∧ lat < 90
    · rw [C68_course lat lon course distance hp.1 hp.2, travel_inner]
    · have hpole : lat = 90 ∨ lat = -90 := by
        rcases not_and_or.mp hp with h | h
        · exact Or.inr (le_antisymm (not_lt.mp h) h1)
        · exact Or.inl (le_antisymm h2 (not_lt.mp h))
      have hcos : cos (Spec.rad lat) = 0 := by
        rcases hpole with rfl | rfl
        · rw [show Spec.rad 90 = π / 2 by unfold Spec.rad; ring, cos_pi_div_two]
        · rw [show Spec.rad (-90) = -(π / 2) by unfold Spec.rad; ring, cos_neg, cos_pi_div_two]
      have hsin2 : sin (Spec.rad lat) ^ 2 = 1 := by
        have := sin_sq_add_cos_sq (Spec.rad lat)
        rw [hcos] at this; linarith
      rw [inner_place, hcos, zero_mul, zero_mul, add_zero]
      unfold latLonFromCourseAndDistance
      dsimp only
      rw [rad_div, rpd_eq lat, hcos, zero_mul, zero_mul, add_zero]
      have hb : |sin (Spec.rad lat) * cos (distance / earthsRadius)| ≤ 1 := by
        rw [abs_mul]
        exact mul_le_one₀ (abs_sin_le_one _) (abs_nonneg _) (abs_cos_le_one _)
      rw [sin_arcsin (abs_le.mp hb).1 (abs_le.mp hb).2]
      linear_combination cos (distance / earthsRadius) * hsin2
  rw [key, arccos_distance distance hd hd']

/-- **C68.** The latitude returned is a latitude. -/
theorem C68_latitude (lat lon course distance : ℝ) :
    -90 ≤ (latLonFromCourseAndDistance lat lon course distance).1 ∧
    (latLonFromCourseAndDistance lat lon course distance).1 ≤ 90 := by
  unfold latLonFromCourseAndDistance radiansPerDegree
  dsimp only
  have hp := pi_pos
  constructor
  · rw [le_div_iff₀ (by positivity)]
    have := neg_pi_div_two_le_arcsin (sin (lat * (π / 180)) * cos (distance / earthsRadius) +
      cos (lat * (π / 180)) * sin (distance / earthsRadius) * cos (course * (π / 180)))
    linarith
  · rw [div_le_iff₀ (by positivity)]
    have := arcsin_le_pi_div_two (sin (lat * (π / 180)) * cos (distance / earthsRadius) +
      cos (lat * (π / 180)) * sin (distance / earthsRadius) * cos (course * (π / 180)))
    linarith

end MarineQC
