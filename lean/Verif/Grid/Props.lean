import Verif.Grid.Lemmas
import Verif.Grid.Spec
import Verif.Calendar.Props
import Mathlib.Tactic.Positivity

/-!
# Properties C13 - C17: grid indices and interpolation
-/

namespace MarineQC
open Spec

/-! ## C13 latitude rows -/

theorem floor_scaled {N : Nat} (hN : 0 < N) {c q : Rat} (hc : 0 < c) (h0 : 0 ≤ q) (h1 : q < c) :
    ∃ k : Nat, ⌊q / (c / N)⌋ = k ∧ k < N ∧ (k:Rat) * (c / N) ≤ q ∧ q < (k + 1) * (c / N) := by
  have hN' : (0 : Rat) < N := by exact_mod_cast hN
  have hr : 0 < c / N := by positivity
  have f0 : 0 ≤ ⌊q / (c / N)⌋ := Int.floor_nonneg.2 (by positivity)
  obtain ⟨k, hk⟩ := Int.eq_ofNat_of_zero_le f0
  have g1 := Int.floor_le (q / (c / N))
  have g2 := Int.lt_floor_add_one (q / (c / N))
  rw [hk] at g1 g2
  push_cast at g1 g2
  rw [le_div_iff₀ hr] at g1
  rw [div_lt_iff₀ hr] at g2
  refine ⟨k, hk, ?_, g1, g2⟩
  have : (k:Rat) * (c / N) < c := by linarith
  rw [mul_div_assoc', div_lt_iff₀ hN'] at this
  have : (k : Rat) < N := by nlinarith
  exact_mod_cast this

/-- C13: for every latitude the index is that of a row of the grid containing it; a border belongs to the
row south of it, except the south pole. -/
theorem C13_lat_row (n : Nat) (hn : 0 < n) (lat : Rat) (h1 : -90 ≤ lat) (h2 : lat ≤ 90) :
    ∃ i : Nat, latToYindex lat (180 / n) = i ∧ i < n ∧ rowSouth n i ≤ lat ∧ lat ≤ rowNorth n i ∧
      (lat ≠ -90 → rowSouth n i < lat) := by
  have hn' : (0 : Rat) < n := by exact_mod_cast hn
  rw [latToYindex_eq n hn lat h1 h2]
  unfold rowSouth rowNorth
  by_cases hp : lat = -90
  · subst hp
    refine ⟨n - 1, ?_, by omega, ?_, ?_, fun h => absurd rfl h⟩
    · simp only [if_true]; omega
    · have : ((n - 1 : Nat) : Rat) = n - 1 := by push_cast [Nat.cast_sub hn]; ring
      rw [this]; field_simp; linarith
    · have : ((n - 1 : Nat) : Rat) = n - 1 := by push_cast [Nat.cast_sub hn]; ring
      rw [this]; field_simp; linarith
  · rw [if_neg hp]
    have hlt : -90 < lat := lt_of_le_of_ne h1 (Ne.symm hp)
    have e2 : (90 - lat) * n / 180 = (90 - lat) / (180 / n) := by field_simp
    obtain ⟨i, hi, hin, a, b⟩ := floor_scaled hn (c := 180) (q := 90 - lat) (by norm_num) (by linarith)
      (by linarith)
    rw [e2, hi]
    exact ⟨i, rfl, hin, by linarith, by linarith, fun _ => by linarith⟩

/-- C13: `yindex_to_lat` is the middle of the row for `0 ≤ i < n` and rejects every other index. -/
theorem C13_row_centre (n : Nat) (hn : 0 < n) (i : Int) :
    (∀ j : Nat, i = j → j < n → yindexToLat i (180 / n) = .ok ((rowSouth n j + rowNorth n j) / 2)) ∧
    (¬ (0 ≤ i ∧ i < n) → yindexToLat i (180 / n) = .error .assertion) := by
  have hn' : (0 : Rat) < n := by exact_mod_cast hn
  have e1 : (180 : Rat) / (180 / n) = n := by field_simp
  unfold yindexToLat
  rw [e1]
  constructor
  · rintro j rfl hj
    have hj' : (j : Rat) < n := by exact_mod_cast hj
    simp only [rowSouth, rowNorth]
    simp [hj]
    ring
  · intro h
    by_cases h0 : i ≥ 0
    · have : ¬ (i : Rat) < n := by
        intro hc
        have : i < (n : Int) := by exact_mod_cast hc
        omega
      simp [h0, this]
    · simp [h0]

/-- C13: from index to latitude and back is the identity. -/
theorem C13_row_round_trip (n : Nat) (hn : 0 < n) (i : Nat) (hi : i < n) :
    ∃ lat, yindexToLat i (180 / n) = .ok lat ∧ latToYindex lat (180 / n) = i := by
  have hn' : (0 : Rat) < n := by exact_mod_cast hn
  refine ⟨_, (C13_row_centre n hn i).1 i rfl hi, ?_⟩
  have hi' : (i : Rat) + 1 ≤ n := by exact_mod_cast hi
  have hi0 : (0:Rat) ≤ i := by positivity
  have c : (rowSouth n i + rowNorth n i) / 2 = 90 - ((i:Rat) + 1/2) * 180 / n := by
    simp only [rowSouth, rowNorth]; ring
  have hb : ((i:Rat) + 1/2) * 180 / n < 180 := by
    rw [div_lt_iff₀ hn']; linarith
  have hb0 : 0 ≤ ((i:Rat) + 1/2) * 180 / n := by positivity
  rw [c, latToYindex_eq n hn _ (by linarith) (by linarith), if_neg (by linarith)]
  have : (90 - (90 - ((i:Rat) + 1/2) * 180 / n)) * n / 180 = i + 1/2 := by field_simp; ring
  rw [this, Int.floor_eq_iff]
  push_cast
  constructor <;> linarith

/-- C13: latitudes beyond the poles go to the first and last row. -/
theorem C13_beyond_poles (lat : Rat) :
    (90 < lat → latToYindex lat 1 = 0) ∧ (lat < -90 → latToYindex lat 1 = 179) := by
  constructor
  · intro h
    unfold latToYindex
    have h0 : 90 - lat < 0 := by linarith
    have : ⌈90 - lat⌉ ≤ 0 := by rw [Int.ceil_le]; push_cast; linarith
    simp only [if_true, pyInt_neg h0]
    split_ifs <;> omega
  · intro h
    unfold latToYindex
    have h0 : 0 ≤ 90 - lat := by linarith
    have : 180 ≤ ⌊90 - lat⌋ := by rw [Int.le_floor]; push_cast; linarith
    simp only [if_true, pyInt_nonneg h0]
    split_ifs <;> omega

example : latToYindex 0 1 = 90 ∧ latToYindex (-90) 1 = 179 ∧ latToYindex 90 1 = 0 ∧
    latToYindex (179/2) (1/4) = 2 := by decide +kernel

/-! ## C14 longitude columns -/

/-- C14: for every longitude from -540 eastwards the index is that of a column containing it (up to whole
turns); a border belongs to the column east of it. -/
theorem C14_lon_column (n : Nat) (hn : 0 < n) (lon : Rat) (h : -540 ≤ lon) :
    ∃ (j : Nat) (x : Rat), lonToXindex lon (360 / n) = j ∧ j < n ∧ SameMeridian x lon ∧
      colWest n j ≤ x ∧ x < colEast n j := by
  have hn' : (0 : Rat) < n := by exact_mod_cast hn
  obtain ⟨i, k, e, hi, a, b⟩ := lonToXindex_spec n hn lon h
  refine ⟨i, lon + 360 * k, e, hi, ⟨k, rfl⟩, ?_, ?_⟩
  · unfold colWest
    rw [le_div_iff₀ (by norm_num)] at a
    have : (i:Rat) * (360 / n) ≤ lon + 360 * k + 180 := by
      rw [mul_div_assoc', div_le_iff₀ hn']; linarith
    linarith
  · unfold colEast
    rw [div_lt_iff₀ (by norm_num)] at b
    have : lon + 360 * k + 180 < ((i:Rat) + 1) * (360 / n) := by
      rw [mul_div_assoc', lt_div_iff₀ hn']; linarith
    linarith

/-- C14: a whole turn does not change the index. -/
theorem C14_lon_periodic (n : Nat) (hn : 0 < n) (lon lon' : Rat) (h : -540 ≤ lon) (h' : -540 ≤ lon')
    (hs : SameMeridian lon' lon) : lonToXindex lon' (360 / n) = lonToXindex lon (360 / n) := by
  obtain ⟨q, rfl⟩ := hs
  obtain ⟨i, k, e, hi, a, b⟩ := lonToXindex_spec n hn lon h
  obtain ⟨j, l, e', hj, a', b'⟩ := lonToXindex_spec n hn (lon + 360 * q) h'
  have c : lon + 360 * (q:Rat) + 360 * l + 180 = lon + 360 * ((q + l : Int) : Rat) + 180 := by
    push_cast; ring
  rw [c] at a' b'
  rw [e, e', cell_unique hn hi hj a b a' b']

/-- C14: `xindex_to_lon` is the middle of the column for `0 ≤ i < n` and rejects every other index. -/
theorem C14_column_centre (n : Nat) (hn : 0 < n) (i : Int) :
    (∀ j : Nat, i = j → j < n → xindexToLon i (360 / n) = .ok ((colWest n j + colEast n j) / 2)) ∧
    (¬ (0 ≤ i ∧ i < n) → xindexToLon i (360 / n) = .error .assertion) := by
  have hn' : (0 : Rat) < n := by exact_mod_cast hn
  have e1 : (360 : Rat) / (360 / n) = n := by field_simp
  unfold xindexToLon
  rw [e1]
  constructor
  · rintro j rfl hj
    have hj' : (j : Rat) < n := by exact_mod_cast hj
    simp only [colWest, colEast]
    simp [hj]
    ring
  · intro h
    by_cases h0 : i ≥ 0
    · have : ¬ (i : Rat) < n := by
        intro hc
        have : i < (n : Int) := by exact_mod_cast hc
        omega
      simp [h0, this]
    · simp [h0]

/-- C14: from index to longitude and back is the identity. -/
theorem C14_column_round_trip (n : Nat) (hn : 0 < n) (i : Nat) (hi : i < n) :
    ∃ lon, xindexToLon i (360 / n) = .ok lon ∧ lonToXindex lon (360 / n) = i := by
  have hn' : (0 : Rat) < n := by exact_mod_cast hn
  refine ⟨_, (C14_column_centre n hn i).1 i rfl hi, ?_⟩
  have hi' : (i : Rat) + 1 ≤ n := by exact_mod_cast hi
  have hi0 : (0:Rat) ≤ i := by positivity
  have c : (colWest n i + colEast n i) / 2 = -180 + ((i:Rat) + 1/2) * 360 / n := by
    simp only [colWest, colEast]; ring
  have hb0 : 0 ≤ ((i:Rat) + 1/2) * 360 / n := by positivity
  rw [c]
  obtain ⟨j, l, e', hj, a', b'⟩ := lonToXindex_spec n hn (-180 + ((i:Rat) + 1/2) * 360 / n) (by linarith)
  rw [e']
  have key : (-180 + ((i:Rat) + 1/2) * 360 / n + 360 * ((0:Int):Rat) + 180) * n / 360 = i + 1/2 := by
    push_cast; field_simp; ring
  have := cell_unique (k := 0) hn hi hj (by rw [key]; linarith) (by rw [key]; linarith) a' b'
  rw [this]

/-- C14: west of -540 the index can be negative, that is outside the grid. -/
theorem C14_west_of_range_violation : lonToXindex (-541) 1 = -1 := by
  unfold lonToXindex
  rw [if_pos rfl]
  change pyInt (wrapIndex 360 (pyInt (inLon (-541) + 180))) = -1
  rw [show pyInt (inLon (-541) + 180) = -1 by decide +kernel, wrapIndex_small (by norm_num)]
  decide +kernel

example : lonToXindex 180 1 = 0 := by
  have := C14_lon_periodic 360 (by norm_num) (-180) 180 (by norm_num) (by norm_num) ⟨1, by norm_num⟩
  norm_num at this
  rw [this]
  obtain ⟨lon, h1, h2⟩ := C14_column_round_trip 360 (by norm_num) 0 (by norm_num)
  obtain ⟨j, x, e, hj, ⟨k, hk⟩, a, b⟩ := C14_lon_column 360 (by norm_num) (-180) (by norm_num)
  norm_num at e
  rw [e]
  have hx : x = -180 + 360 * k := hk
  unfold colWest colEast at *
  norm_num at a b
  have hk0 : k = 0 := by
    have k1 : (0:Rat) ≤ 360 * k := by linarith [show (0:Rat) ≤ j from by positivity]
    have hj' : (j:Rat) + 1 ≤ 360 := by exact_mod_cast hj
    have k2 : (360:Rat) * k < 360 := by linarith
    have k3 : (0:Rat) ≤ k := by linarith
    have k4 : (k:Rat) < 1 := by linarith
    have k5 : 0 ≤ k := by exact_mod_cast k3
    have k6 : k < 1 := by exact_mod_cast k4
    omega
  subst hk0
  norm_num at hx
  subst hx
  have : (j:Rat) ≤ 0 := by linarith
  have : j ≤ 0 := by exact_mod_cast this
  omega

/-! ## C15 MDS style indices -/

/-- C15, latitude, for `N` rows per hemisphere (resolution `90/N`, not finer than 0.001 degrees): the
index is that of a row whose closed range contains the latitude; north of the equator a border goes to the
row north of it, at and south of the equator to the row south of it; the poles go to the first and last
row. -/
theorem C15_mds_lat_row (N : Nat) (hN : 0 < N) (hres : N ≤ 90000) (lat : Rat) (h1 : -90 ≤ lat)
    (h2 : lat ≤ 90) :
    ∃ i : Nat, mdsLatToYindex lat (90 / N) = i ∧ i < 2 * N ∧
      rowSouth (2 * N) i ≤ lat ∧ lat ≤ rowNorth (2 * N) i ∧
      (0 < lat → lat < 90 → lat < rowNorth (2 * N) i) ∧
      (lat ≤ 0 → -90 < lat → rowSouth (2 * N) i < lat) := by
  have hN' : (0 : Rat) < N := by exact_mod_cast hN
  have hres' : (N : Rat) ≤ 90000 := by exact_mod_cast hres
  have e1 : (90 : Rat) / (90 / N) = N := by field_simp
  have er : (180 : Rat) / ((2 * N : Nat) : Rat) = 90 / N := by push_cast; field_simp; norm_num
  have hr : (0:Rat) < 90 / N := by positivity
  have hr2 : (1/1000 : Rat) ≤ 90 / N := by
    rw [le_div_iff₀ hN']; linarith
  have full : (N:Rat) * (90 / N) = 90 := by field_simp
  unfold rowSouth rowNorth
  rw [er]
  unfold mdsLatToYindex
  rw [e1]
  by_cases hpos : lat > 0
  · have hm : ¬ lat = -90 := by linarith
    rw [if_neg hm, if_pos hpos]
    by_cases h90 : lat = 90
    · subst h90
      simp only [if_true]
      have q0 : (0:Rat) ≤ 90 - 1/1000 := by norm_num
      obtain ⟨k, hk, hkN, a, b⟩ := floor_scaled hN (c := 90) (by norm_num) q0 (by norm_num)
      rw [pyInt_nonneg (q := (90 - 1/1000) / (90 / N)) (div_nonneg q0 hr.le), hk]
      have hkN1 : k = N - 1 := by
        have : (N:Rat) - 1 < (k:Rat) + 1 := by
          by_contra hc
          have : ((k:Rat) + 1) * (90 / N) ≤ (N - 1) * (90/N) := mul_le_mul_of_nonneg_right (by linarith) hr.le
          have : ((N:Rat) - 1) * (90 / N) = 90 - 90 / N := by linarith
          linarith
        have : (N:Rat) < (k:Rat) + 2 := by linarith
        have : N < k + 2 := by exact_mod_cast this
        omega
      refine ⟨0, ?_, by omega, ?_, ?_, fun _ h => absurd h (lt_irrefl _), fun h => absurd h (by norm_num)⟩
      · apply pyInt_eq_of_int
        rw [hkN1]; push_cast [Nat.cast_sub hN]; ring
      · push_cast; linarith
      · push_cast; linarith
    · rw [if_neg h90]
      have hlt : lat < 90 := lt_of_le_of_ne h2 h90
      obtain ⟨k, hk, hkN, a, b⟩ := floor_scaled hN (c := 90) (by norm_num) hpos.le hlt
      rw [pyInt_nonneg (q := lat / (90 / N)) (div_nonneg hpos.le hr.le), hk]
      have hc : ((N - 1 - k : Nat) : Rat) = N - 1 - k := by
        rw [Nat.cast_sub (by omega), Nat.cast_sub (by omega)]; push_cast; ring
      refine ⟨N - 1 - k, ?_, by omega, ?_, ?_, fun _ _ => ?_, fun h => absurd h (by linarith)⟩
      · apply pyInt_eq_of_int
        have := hc; push_cast at this ⊢; linarith
      · rw [hc]; linarith
      · rw [hc]; linarith
      · rw [hc]; linarith
  · rw [if_neg hpos]
    have hle : lat ≤ 0 := by linarith
    by_cases hm : lat = -90
    · subst hm
      have : ¬ ((-90:Rat) + 1/1000 = 90) := by norm_num
      simp only [if_true, if_neg this]
      have q0 : (0:Rat) ≤ 90 - 1/1000 := by norm_num
      obtain ⟨k, hk, hkN, a, b⟩ := floor_scaled hN (c := 90) (by norm_num) q0 (by norm_num)
      have hkN1 : k = N - 1 := by
        have : (N:Rat) - 1 < (k:Rat) + 1 := by
          by_contra hc
          have : ((k:Rat) + 1) * (90 / N) ≤ (N - 1) * (90/N) := mul_le_mul_of_nonneg_right (by linarith) hr.le
          have : ((N:Rat) - 1) * (90 / N) = 90 - 90 / N := by linarith
          linarith
        have : (N:Rat) < (k:Rat) + 2 := by linarith
        have : N < k + 2 := by exact_mod_cast this
        omega
      have hneg : (-90 + 1/1000 : Rat) / (90 / N) = -((90 - 1/1000) / (90/N)) := by ring
      have hqpos : 0 < (90 - 1/1000 : Rat) / (90/N) := by positivity
      rw [hneg, pyInt_neg (neg_lt_zero.2 hqpos), Int.ceil_neg, hk]
      have hc : ((2 * N - 1 : Nat) : Rat) = 2 * N - 1 := by
        rw [Nat.cast_sub (by omega)]; push_cast; ring
      refine ⟨2 * N - 1, ?_, by omega, ?_, ?_, fun h => absurd h (by norm_num), fun _ h => absurd h (lt_irrefl _)⟩
      · apply pyInt_eq_of_int
        rw [hkN1]
        have := hc
        push_cast [Nat.cast_sub hN] at this ⊢; linarith
      · rw [hc]; linarith
      · rw [hc]; linarith
    · rw [if_neg hm, if_neg (by linarith)]
      have hlt : -90 < lat := lt_of_le_of_ne h1 (Ne.symm hm)
      obtain ⟨k, hk, hkN, a, b⟩ := floor_scaled hN (c := 90) (q := -lat) (by norm_num) (by linarith) (by linarith)
      have hneg : lat / (90 / N) = -((-lat) / (90/N)) := by ring
      have hp : pyInt (lat / (90 / N)) = -(k:Int) := by
        by_cases hz : lat = 0
        · subst hz
          have : k = 0 := by simpa using hk.symm
          subst this
          simp [pyInt]
        · have : 0 < -lat := by
            rcases lt_or_eq_of_le hle with h | h
            · linarith
            · exact absurd h hz
          rw [hneg, pyInt_neg (neg_lt_zero.2 (div_pos this hr)), Int.ceil_neg, hk]
      rw [hp]
      refine ⟨N + k, ?_, by omega, ?_, ?_, fun h => absurd h (by linarith), fun _ _ => ?_⟩
      · apply pyInt_eq_of_int; push_cast; ring
      · push_cast; linarith
      · push_cast; linarith
      · push_cast; linarith

/-- C15, longitude, for `N` columns per hemisphere (resolution `180/N`, not finer than 0.001 degrees): the
index is that of a column whose closed range contains the longitude; east of Greenwich a border goes to the
column east of it, at and west of Greenwich to the column west of it; -180 and 180 go to the first and last
column. -/
theorem C15_mds_lon_column (N : Nat) (hN : 0 < N) (hres : N ≤ 180000) (lon : Rat) (h1 : -180 ≤ lon)
    (h2 : lon ≤ 180) :
    ∃ j : Nat, mdsLonToXindex lon (180 / N) = j ∧ j < 2 * N ∧
      colWest (2 * N) j ≤ lon ∧ lon ≤ colEast (2 * N) j ∧
      (0 < lon → lon < 180 → lon < colEast (2 * N) j) ∧
      (lon ≤ 0 → -180 < lon → colWest (2 * N) j < lon) := by
  have hN' : (0 : Rat) < N := by exact_mod_cast hN
  have hres' : (N : Rat) ≤ 180000 := by exact_mod_cast hres
  have e1 : (180 : Rat) / (180 / N) = N := by field_simp
  have er : (360 : Rat) / ((2 * N : Nat) : Rat) = 180 / N := by push_cast; field_simp; norm_num
  have hr : (0:Rat) < 180 / N := by positivity
  have hr2 : (1/1000 : Rat) ≤ 180 / N := by
    rw [le_div_iff₀ hN']; linarith
  have full : (N:Rat) * (180 / N) = 180 := by field_simp
  unfold colWest colEast
  rw [er]
  unfold mdsLonToXindex
  rw [e1]
  have edge : ∃ k : Nat, ⌊(180 - 1/1000 : Rat) / (180 / N)⌋ = k ∧ k = N - 1 := by
    obtain ⟨k, hk, hkN, a, b⟩ := floor_scaled hN (c := 180) (q := 180 - 1/1000) (by norm_num) (by norm_num)
      (by norm_num)
    refine ⟨k, hk, ?_⟩
    have : (N:Rat) - 1 < (k:Rat) + 1 := by
      by_contra hc
      have : ((k:Rat) + 1) * (180 / N) ≤ (N - 1) * (180/N) := mul_le_mul_of_nonneg_right (by linarith) hr.le
      have : ((N:Rat) - 1) * (180 / N) = 180 - 180 / N := by linarith
      linarith
    have : (N:Rat) < (k:Rat) + 2 := by linarith
    have : N < k + 2 := by exact_mod_cast this
    omega
  by_cases hpos : lon > 0
  · have hm : ¬ lon = -180 := by linarith
    simp only [if_neg hm]
    by_cases h90 : lon = 180
    · subst h90
      have hp2 : (180 - 1/1000 : Rat) > 0 := by norm_num
      simp only [if_true, hp2]
      obtain ⟨k, hk, hkN1⟩ := edge
      rw [pyInt_nonneg (q := (180 - 1/1000) / (180 / N)) (div_nonneg (by norm_num) hr.le), hk]
      have hc : ((2 * N - 1 : Nat) : Rat) = 2 * N - 1 := by
        rw [Nat.cast_sub (by omega)]; push_cast; ring
      refine ⟨2 * N - 1, ?_, by omega, ?_, ?_, fun _ h => absurd h (lt_irrefl _), fun h => absurd h (by norm_num)⟩
      · apply pyInt_eq_of_int
        rw [hkN1]
        have := hc
        push_cast [Nat.cast_sub hN] at this ⊢; linarith
      · rw [hc]; linarith
      · rw [hc]; linarith
    · simp only [if_neg h90, if_pos hpos]
      have hlt : lon < 180 := lt_of_le_of_ne h2 h90
      obtain ⟨k, hk, hkN, a, b⟩ := floor_scaled hN (c := 180) (by norm_num) hpos.le hlt
      rw [pyInt_nonneg (q := lon / (180 / N)) (div_nonneg hpos.le hr.le), hk]
      refine ⟨N + k, ?_, by omega, ?_, ?_, fun _ _ => ?_, fun h => absurd h (by linarith)⟩
      · apply pyInt_eq_of_int; push_cast; ring
      · push_cast; linarith
      · push_cast; linarith
      · push_cast; linarith
  · have hle : lon ≤ 0 := by linarith
    by_cases hm : lon = -180
    · subst hm
      have hne : ¬ ((-180:Rat) + 1/1000 = 180) := by norm_num
      have hp2 : ¬ ((-180:Rat) + 1/1000 > 0) := by norm_num
      simp only [if_true, if_neg hne, if_neg hp2]
      obtain ⟨k, hk, hkN1⟩ := edge
      have hneg : (-180 + 1/1000 : Rat) / (180 / N) = -((180 - 1/1000) / (180/N)) := by ring
      have hqpos : 0 < (180 - 1/1000 : Rat) / (180/N) := by positivity
      rw [hneg, pyInt_neg (neg_lt_zero.2 hqpos), Int.ceil_neg, hk]
      refine ⟨0, ?_, by omega, ?_, ?_, fun h => absurd h (by norm_num), fun _ h => absurd h (lt_irrefl _)⟩
      · apply pyInt_eq_of_int
        rw [hkN1]
        push_cast [Nat.cast_sub hN]; ring
      · push_cast; linarith
      · push_cast; linarith
    · have h180 : ¬ lon = 180 := by linarith
      simp only [if_neg hm, if_neg h180, if_neg hpos]
      have hlt : -180 < lon := lt_of_le_of_ne h1 (Ne.symm hm)
      obtain ⟨k, hk, hkN, a, b⟩ := floor_scaled hN (c := 180) (q := -lon) (by norm_num) (by linarith) (by linarith)
      have hneg : lon / (180 / N) = -((-lon) / (180/N)) := by ring
      have hp : pyInt (lon / (180 / N)) = -(k:Int) := by
        by_cases hz : lon = 0
        · subst hz
          have : k = 0 := by simpa using hk.symm
          subst this
          simp [pyInt]
        · have : 0 < -lon := by
            rcases lt_or_eq_of_le hle with h | h
            · linarith
            · exact absurd h hz
          rw [hneg, pyInt_neg (neg_lt_zero.2 (div_pos this hr)), Int.ceil_neg, hk]
      rw [hp]
      have hc : ((N - 1 - k : Nat) : Rat) = N - 1 - k := by
        rw [Nat.cast_sub (by omega), Nat.cast_sub (by omega)]; push_cast; ring
      refine ⟨N - 1 - k, ?_, by omega, ?_, ?_, fun h => absurd h (by linarith), fun _ _ => ?_⟩
      · apply pyInt_eq_of_int
        have := hc; push_cast at this ⊢; linarith
      · rw [hc]; linarith
      · rw [hc]; linarith
      · rw [hc]; linarith

/-- C15: east of 180 the MDS longitude index leaves the grid (no wrapping). -/
theorem C15_mds_lon_beyond_dateline : mdsLonToXindex 200 1 = 380 := by decide +kernel

example : mdsLatToYindex 1 1 = 88 ∧ mdsLatToYindex (-1) 1 = 91 ∧ mdsLatToYindex 0 1 = 90 ∧
    mdsLatToYindex 90 1 = 0 ∧ mdsLatToYindex (-90) 1 = 179 := by decide +kernel
example : mdsLonToXindex 1 1 = 181 ∧ mdsLonToXindex (-1) 1 = 178 ∧ mdsLonToXindex 0 1 = 179 ∧
    mdsLonToXindex 180 1 = 359 ∧ mdsLonToXindex (-180) 1 = 0 := by decide +kernel

end MarineQC
