import Verif.Grid.Props
import Mathlib.Tactic.FinCases
import Mathlib.Data.Fin.VecNotation

/-!
# Properties C16 and C17: surrounding points and interpolation
-/

namespace MarineQC
open Spec

/-! ## C16 surrounding grid points -/

/-- `x` is the middle of a one-degree cell (or of its continuation past the pole or date line). -/
def IsCentre (x : Rat) : Prop := ∃ k : Int, x = k + 1 / 2

theorem centre_of_column (j : Nat) (hj : j < 360) :
    xindexToLon j 1 = .ok (-180 + j + 1 / 2) := by
  have := (C14_column_centre 360 (by norm_num) j).1 j rfl hj
  norm_num at this
  rw [this]
  congr 1
  unfold colWest colEast
  push_cast; ring

theorem centre_of_row (i : Nat) (hi : i < 180) : yindexToLat i 1 = .ok (90 - i - 1 / 2) := by
  have := (C13_row_centre 180 (by norm_num) i).1 i rfl hi
  norm_num at this
  rw [this]
  congr 1
  unfold rowSouth rowNorth
  push_cast; ring

/-- The eastern centre. -/
theorem east_centre (lon : Rat) (h1 : -180 ≤ lon) (h2 : lon ≤ 180) :
    ∃ x, xindexToLon (lonToXindex (lon + 1 / 2) 1) 1 = .ok x ∧
      lon < (if x < lon then x + 360 else x) ∧ (if x < lon then x + 360 else x) ≤ lon + 1 ∧
      IsCentre (if x < lon then x + 360 else x) := by
  obtain ⟨j, x, e, hj, ⟨k, hk⟩, a, b⟩ := C14_lon_column 360 (by norm_num) (lon + 1/2) (by linarith)
  norm_num at e
  rw [e]
  unfold colWest colEast at *
  norm_num at a b
  have hj' : (j:Rat) + 1 ≤ 360 := by exact_mod_cast hj
  have hj0 : (0:Rat) ≤ j := by positivity
  refine ⟨_, centre_of_column j hj, ?_⟩
  have k0 : (k:Rat) < 1 := by linarith
  have k1 : (-2:Rat) < k := by linarith
  have k0' : k < 1 := by exact_mod_cast k0
  have k1' : -2 < k := by exact_mod_cast k1
  have hkk : k = 0 ∨ k = -1 := by omega
  rcases hkk with rfl | rfl
  · push_cast at hk
    have : ¬ (-180 + (j:Rat) + 1/2 < lon) := by linarith
    simp only [this, if_false]
    exact ⟨by linarith, by linarith, ⟨-180 + j, by push_cast; ring⟩⟩
  · push_cast at hk
    have : -180 + (j:Rat) + 1/2 < lon := by linarith
    simp only [this, if_true]
    exact ⟨by linarith, by linarith, ⟨-180 + j + 360, by push_cast; ring⟩⟩

/-- The western centre. -/
theorem west_centre (lon : Rat) (h1 : -180 ≤ lon) (h2 : lon ≤ 180) :
    ∃ x, xindexToLon (lonToXindex (lon - 1 / 2) 1) 1 = .ok x ∧
      (if x > lon then x - 360 else x) ≤ lon ∧ lon < (if x > lon then x - 360 else x) + 1 ∧
      IsCentre (if x > lon then x - 360 else x) := by
  obtain ⟨j, x, e, hj, ⟨k, hk⟩, a, b⟩ := C14_lon_column 360 (by norm_num) (lon - 1/2) (by linarith)
  norm_num at e
  rw [e]
  unfold colWest colEast at *
  norm_num at a b
  have hj' : (j:Rat) + 1 ≤ 360 := by exact_mod_cast hj
  have hj0 : (0:Rat) ≤ j := by positivity
  refine ⟨_, centre_of_column j hj, ?_⟩
  have k0 : (k:Rat) < 2 := by linarith
  have k1 : (-1:Rat) < k := by linarith
  have k0' : k < 2 := by exact_mod_cast k0
  have k1' : -1 < k := by exact_mod_cast k1
  have hkk : k = 0 ∨ k = 1 := by omega
  rcases hkk with rfl | rfl
  · push_cast at hk
    have : ¬ (-180 + (j:Rat) + 1/2 > lon) := by linarith
    simp only [this, if_false]
    exact ⟨by linarith, by linarith, ⟨-180 + j, by push_cast; ring⟩⟩
  · push_cast at hk
    have : -180 + (j:Rat) + 1/2 > lon := by linarith
    simp only [this, if_true]
    exact ⟨by linarith, by linarith, ⟨-180 + j - 360, by push_cast; ring⟩⟩

theorem north_centre (lat : Rat) (h1 : -90 ≤ lat) (h2 : lat + 1/2 ≤ 90) :
    ∃ y, yindexToLat (latToYindex (lat + 1 / 2) 1) 1 = .ok y ∧ lat ≤ y ∧ y < lat + 1 ∧ IsCentre y ∧
      -179/2 ≤ y ∧ y ≤ 179 / 2 := by
  obtain ⟨i, e, hi, a, b, c⟩ := C13_lat_row 180 (by norm_num) (lat + 1/2) (by linarith) h2
  norm_num at e
  rw [e]
  unfold rowSouth rowNorth at *
  have c := c (by linarith)
  norm_num at b c
  have hi' : (i:Rat) + 1 ≤ 180 := by exact_mod_cast hi
  have hi0 : (0:Rat) ≤ i := by positivity
  exact ⟨_, centre_of_row i hi, by linarith, by linarith, ⟨89 - i, by push_cast; ring⟩, by linarith,
    by linarith⟩

theorem south_centre (lat : Rat) (h1 : -90 ≤ lat - 1/2) (h2 : lat ≤ 90) :
    ∃ y, yindexToLat (latToYindex (lat - 1 / 2) 1) 1 = .ok y ∧ y ≤ lat ∧
      (lat ≠ -179/2 → y < lat) ∧ lat ≤ y + 1 ∧ IsCentre y ∧ -179/2 ≤ y ∧ y ≤ 179 / 2 := by
  obtain ⟨i, e, hi, a, b, c⟩ := C13_lat_row 180 (by norm_num) (lat - 1/2) h1 (by linarith)
  norm_num at e
  rw [e]
  unfold rowSouth rowNorth at *
  norm_num at a b c
  have hi' : (i:Rat) + 1 ≤ 180 := by exact_mod_cast hi
  have hi0 : (0:Rat) ≤ i := by positivity
  refine ⟨_, centre_of_row i hi, by linarith, ?_, by linarith, ⟨89 - i, by push_cast; ring⟩, by linarith,
    by linarith⟩
  intro hne
  have := c (by intro h; apply hne; linarith)
  linarith

theorem centre_gap {a b : Rat} (ha : IsCentre a) (hb : IsCentre b) (h0 : 0 < b - a) (h1 : b - a < 2) :
    b - a = 1 := by
  obtain ⟨k, rfl⟩ := ha
  obtain ⟨l, rfl⟩ := hb
  have h0' : (k:Rat) < l := by linarith
  have h1' : (l:Rat) < k + 2 := by linarith
  have a1 : k < l := by exact_mod_cast h0'
  have a2 : l < k + 2 := by exact_mod_cast h1'
  have : l = k + 1 := by omega
  subst this
  push_cast; ring

/-- Full description of the four points: the longitudes always bracket; `y` are the unclamped latitudes,
which bracket except at -89.5. -/
theorem fourPoints (lat lon : Rat) (h1 : -90 ≤ lat) (h2 : lat ≤ 90) (h3 : -180 ≤ lon) (h4 : lon ≤ 180)
    (hne : lat ≠ -179/2) :
    ∃ x1 x2 y1 y2 : Rat,
      (∀ m : Int, getFourSurroundingPoints lat lon m =
        .ok (x1, x2, if m = 0 then y1 else max (-179/2) y1, if m = 0 then y2 else min (179/2) y2)) ∧
      x1 ≤ lon ∧ lon < x2 ∧ x2 - x1 = 1 ∧ y1 ≤ lat ∧ lat ≤ y2 ∧ y2 - y1 = 1 ∧
      IsCentre x1 ∧ IsCentre x2 ∧ IsCentre y1 ∧ IsCentre y2 ∧ y2 ≥ -179/2 ∧ y1 ≤ 179/2 := by
  obtain ⟨X2, ex2, a1, a2, a3⟩ := east_centre lon h3 h4
  obtain ⟨X1, ex1, b1, b2, b3⟩ := west_centre lon h3 h4
  have hx := centre_gap b3 a3 (by linarith) (by linarith)
  have core : ∀ (y1 y2 : Rat),
      (∀ m : Int, (if lat + 1 / 2 ≤ 90 then yindexToLat (latToYindex (lat + 1 / 2) 1) 1
           else .ok (if m = 0 then 181 / 2 else 179 / 2)) = .ok (if m = 0 then y2 else min (179/2) y2)) →
      (∀ m : Int, (if lat - 1 / 2 ≥ -90 then yindexToLat (latToYindex (lat - 1 / 2) 1) 1
           else .ok (if m = 0 then -181 / 2 else -179 / 2)) = .ok (if m = 0 then y1 else max (-179/2) y1)) →
      ∀ m : Int, getFourSurroundingPoints lat lon m =
        .ok ((if X1 > lon then X1 - 360 else X1), (if X2 < lon then X2 + 360 else X2),
          if m = 0 then y1 else max (-179/2) y1, if m = 0 then y2 else min (179/2) y2) := by
    intro y1 y2 e2 e1 m
    unfold getFourSurroundingPoints
    have g1 : (decide (-90 ≤ lat) && decide (lat ≤ 90)) = true := by simp [h1, h2]
    have g2 : (decide (-180 ≤ lon) && decide (lon ≤ 180)) = true := by simp [h3, h4]
    have e1 := e1 m
    have e2 := e2 m
    by_cases c1 : lat + 1 / 2 ≤ 90 <;> by_cases c2 : lat - 1 / 2 ≥ -90 <;>
      simp only [c1, c2, if_true, if_false, Except.ok.injEq] at e1 e2 <;>
      simp only [g1, g2, pyAssert_true, except_bind_ok, ex2, ex1, c1, c2, if_true, if_false, e1, e2,
        except_pure]
  have ny : ∃ y2, (∀ m : Int, (if lat + 1 / 2 ≤ 90 then yindexToLat (latToYindex (lat + 1 / 2) 1) 1
           else .ok (if m = 0 then 181 / 2 else 179 / 2)) = .ok (if m = 0 then y2 else min (179/2) y2)) ∧
      lat ≤ y2 ∧ y2 < lat + 1 ∧ IsCentre y2 ∧ -179/2 ≤ y2 := by
    by_cases hc : lat + 1/2 ≤ 90
    · obtain ⟨y, e, c1, c2, c3, c4, c5⟩ := north_centre lat h1 hc
      refine ⟨y, fun m => ?_, c1, c2, c3, c4⟩
      rw [if_pos hc, e, min_eq_right c5]; split <;> rfl
    · refine ⟨181/2, fun m => ?_, by linarith, by linarith, ⟨90, by norm_num⟩, by norm_num⟩
      rw [if_neg hc, min_eq_left (by norm_num)]
  have sy : ∃ y1, (∀ m : Int, (if lat - 1 / 2 ≥ -90 then yindexToLat (latToYindex (lat - 1 / 2) 1) 1
           else .ok (if m = 0 then -181 / 2 else -179 / 2)) = .ok (if m = 0 then y1 else max (-179/2) y1)) ∧
      y1 < lat ∧ lat ≤ y1 + 1 ∧ IsCentre y1 ∧ y1 ≤ 179/2 := by
    by_cases hc : lat - 1/2 ≥ -90
    · obtain ⟨y, e, c1, c1', c2, c3, c4, c5⟩ := south_centre lat hc h2
      refine ⟨y, fun m => ?_, c1' hne, c2, c3, c5⟩
      rw [if_pos hc, e, max_eq_right c4]; split <;> rfl
    · refine ⟨-181/2, fun m => ?_, by linarith, by linarith, ⟨-91, by norm_num⟩, by norm_num⟩
      rw [if_neg hc, max_eq_left (by norm_num)]
  obtain ⟨y2, e2, p1, p2, p3, p4⟩ := ny
  obtain ⟨y1, e1, q1, q2, q3, q4⟩ := sy
  exact ⟨_, _, y1, y2, core y1 y2 e2 e1, b1, a1, hx, q1.le, p1, centre_gap q3 p3 (by linarith) (by linarith),
    b3, a3, q3, p3, p4, q4⟩

/-- C16 for every latitude except -89.5 (there the two latitudes coincide, see
`C16_surrounding_points_violation`). -/
theorem C16_surrounding_points_partial (lat lon : Rat) (h1 : -90 ≤ lat) (h2 : lat ≤ 90) (h3 : -180 ≤ lon)
    (h4 : lon ≤ 180) (hne : lat ≠ -179/2) :
    ∃ x1 x2 y1 y2, getFourSurroundingPoints lat lon 0 = .ok (x1, x2, y1, y2) ∧
      x1 ≤ lon ∧ lon ≤ x2 ∧ x2 - x1 = 1 ∧ y1 ≤ lat ∧ lat ≤ y2 ∧ y2 - y1 = 1 ∧
      IsCentre x1 ∧ IsCentre x2 ∧ IsCentre y1 ∧ IsCentre y2 := by
  obtain ⟨x1, x2, y1, y2, e, a, b, c, d, f, g, c1, c2, c3, c4, _, _⟩ := fourPoints lat lon h1 h2 h3 h4 hne
  exact ⟨x1, x2, y1, y2, e 0, a, b.le, c, d, f, g, c1, c2, c3, c4⟩

/-- C16, `max90 ≠ 0`: the same points with the latitudes kept within the northernmost and southernmost
row. -/
theorem C16_clamped_points_partial (lat lon : Rat) (h1 : -90 ≤ lat) (h2 : lat ≤ 90) (h3 : -180 ≤ lon)
    (h4 : lon ≤ 180) (hne : lat ≠ -179/2) :
    ∃ x1 x2 y1 y2, getFourSurroundingPoints lat lon 0 = .ok (x1, x2, y1, y2) ∧
      getFourSurroundingPoints lat lon 1 = .ok (x1, x2, max (-179/2) y1, min (179/2) y2) := by
  obtain ⟨x1, x2, y1, y2, e, _⟩ := fourPoints lat lon h1 h2 h3 h4 hne
  exact ⟨x1, x2, y1, y2, e 0, by simpa using e 1⟩

/-- C16 is false at latitude -89.5: both latitudes are -89.5, at every longitude. -/
theorem C16_surrounding_points_violation (lon : Rat) (h3 : -180 ≤ lon) (h4 : lon ≤ 180) (m : Int) :
    ∃ x1 x2, getFourSurroundingPoints (-179/2) lon m = .ok (x1, x2, -179/2, -179/2) := by
  obtain ⟨X2, ex2, _⟩ := east_centre lon h3 h4
  obtain ⟨X1, ex1, _⟩ := west_centre lon h3 h4
  refine ⟨(if X1 > lon then X1 - 360 else X1), (if X2 < lon then X2 + 360 else X2), ?_⟩
  unfold getFourSurroundingPoints
  have g1 : (decide (-90 ≤ (-179/2 : Rat)) && decide ((-179/2 : Rat) ≤ 90)) = true := by decide +kernel
  have g2 : (decide (-180 ≤ lon) && decide (lon ≤ 180)) = true := by simp [h3, h4]
  have e1 : yindexToLat (latToYindex (-179/2 - 1 / 2) 1) 1 = .ok (-179/2) := by decide +kernel
  have e2 : yindexToLat (latToYindex (-179/2 + 1 / 2) 1) 1 = .ok (-179/2) := by decide +kernel
  have c1 : (-179/2 : Rat) + 1/2 ≤ 90 := by norm_num
  have c2 : (-179/2 : Rat) - 1/2 ≥ -90 := by norm_num
  simp only [g1, g2, pyAssert_true, except_bind_ok, ex2, ex1, if_pos c1, if_pos c2, e1, e2, except_pure]

/-- Positions outside the accepted range are rejected. -/
theorem C16_rejects (lat lon : Rat) (m : Int)
    (h : ¬ (-90 ≤ lat ∧ lat ≤ 90 ∧ -180 ≤ lon ∧ lon ≤ 180)) :
    getFourSurroundingPoints lat lon m = .error .assertion := by
  unfold getFourSurroundingPoints
  rw [pyAssert_bind]
  split
  · rw [pyAssert_bind]
    rename_i h1
    simp only [Bool.and_eq_true, decide_eq_true_eq] at h1
    rw [if_neg]
    simp only [Bool.and_eq_true, decide_eq_true_eq]
    intro h2
    exact h ⟨h1.1, h1.2, h2.1, h2.2⟩
  · rfl

/-! ## C17 bilinear interpolation -/

/-- The interpolated value as a convex combination. -/
theorem bilinear_between {x1 x2 y1 y2 x y a b c d lo hi : Rat} (hx1 : x1 ≤ x) (hx2 : x ≤ x2)
    (hy1 : y1 ≤ y) (hy2 : y ≤ y2) (hx : x1 < x2) (hy : y1 < y2)
    (ha : lo ≤ a ∧ a ≤ hi) (hb : lo ≤ b ∧ b ≤ hi) (hc : lo ≤ c ∧ c ≤ hi) (hd : lo ≤ d ∧ d ≤ hi) :
    lo ≤ bilinearCore x1 x2 y1 y2 x y a b c d ∧ bilinearCore x1 x2 y1 y2 x y a b c d ≤ hi := by
  unfold bilinearCore
  have p : 0 < (x2 - x1) * (y2 - y1) := mul_pos (by linarith) (by linarith)
  have w1 : 0 ≤ (x2 - x) * (y2 - y) := mul_nonneg (by linarith) (by linarith)
  have w2 : 0 ≤ (x - x1) * (y2 - y) := mul_nonneg (by linarith) (by linarith)
  have w3 : 0 ≤ (x2 - x) * (y - y1) := mul_nonneg (by linarith) (by linarith)
  have w4 : 0 ≤ (x - x1) * (y - y1) := mul_nonneg (by linarith) (by linarith)
  have sum : (x2 - x) * (y2 - y) + (x - x1) * (y2 - y) + (x2 - x) * (y - y1) + (x - x1) * (y - y1)
      = (x2 - x1) * (y2 - y1) := by ring
  constructor
  · rw [le_div_iff₀ p, ← sum]
    have := mul_le_mul_of_nonneg_left ha.1 w1
    have := mul_le_mul_of_nonneg_left hc.1 w2
    have := mul_le_mul_of_nonneg_left hb.1 w3
    have := mul_le_mul_of_nonneg_left hd.1 w4
    linarith
  · rw [div_le_iff₀ p, ← sum]
    have := mul_le_mul_of_nonneg_left ha.2 w1
    have := mul_le_mul_of_nonneg_left hc.2 w2
    have := mul_le_mul_of_nonneg_left hb.2 w3
    have := mul_le_mul_of_nonneg_left hd.2 w4
    linarith

/-- Inside a proper rectangle with four present corners `bilinear_interp` does not raise. -/
theorem bilinearInterp_ok {x1 x2 y1 y2 x y : Rat} (a b c d : Rat) (hx1 : x1 ≤ x) (hx2 : x ≤ x2)
    (hy1 : y1 ≤ y) (hy2 : y ≤ y2) (hx : x1 < x2) (hy : y1 < y2) :
    bilinearInterp x1 x2 y1 y2 x y (some a) (some b) (some c) (some d)
      = .ok (bilinearCore x1 x2 y1 y2 x y a b c d) := by
  have key := bilinear_between (a := a) (b := b) (c := c) (d := d) (lo := min (min a b) (min c d))
    (hi := max (max a b) (max c d)) hx1 hx2 hy1 hy2 hx hy
    ⟨by simp, by simp⟩ ⟨by simp, by simp⟩ ⟨by simp, by simp⟩ ⟨by simp, by simp⟩
  have u : bilinearCore x1 x2 y1 y2 x y a b c d ≤ 1 / 10000 + max (max a b) (max c d) := by linarith
  have l : bilinearCore x1 x2 y1 y2 x y a b c d ≥ -1 / 10000 + min (min a b) (min c d) := by linarith
  simp only [bilinearInterp]
  simp only [hx1, hx2, hy1, hy2, hx, hy, decide_true, Bool.and_self, pyAssert_true,
    except_bind_ok, u, l, except_pure]

/-- C17: inside a proper rectangle the result exists and lies between the smallest and largest corner. -/
theorem C17_bilinear_bounds (x1 x2 y1 y2 x y a b c d : Rat) (hx1 : x1 ≤ x) (hx2 : x ≤ x2)
    (hy1 : y1 ≤ y) (hy2 : y ≤ y2) (hx : x1 < x2) (hy : y1 < y2) :
    ∃ v, bilinearInterp x1 x2 y1 y2 x y (some a) (some b) (some c) (some d) = .ok v ∧
      (v ≤ a ∨ v ≤ b ∨ v ≤ c ∨ v ≤ d) ∧ (a ≤ v ∨ b ≤ v ∨ c ≤ v ∨ d ≤ v) := by
  refine ⟨_, bilinearInterp_ok a b c d hx1 hx2 hy1 hy2 hx hy, ?_⟩
  have key := bilinear_between (a := a) (b := b) (c := c) (d := d) (lo := min (min a b) (min c d))
    (hi := max (max a b) (max c d)) hx1 hx2 hy1 hy2 hx hy
    ⟨by simp, by simp⟩ ⟨by simp, by simp⟩ ⟨by simp, by simp⟩ ⟨by simp, by simp⟩
  constructor
  · have := key.2; simp only [le_max_iff] at this; tauto
  · have := key.1; simp only [min_le_iff] at this; tauto

/-- C17: a field that is affine in longitude and latitude, plus a multiple of their product, is
reproduced exactly; `q11` belongs to `(x1,y1)`, `q12` to `(x1,y2)`, `q21` to `(x2,y1)`, `q22` to
`(x2,y2)`. -/
theorem C17_bilinear_reproduces (x1 x2 y1 y2 x y p q r s : Rat) (hx1 : x1 ≤ x) (hx2 : x ≤ x2)
    (hy1 : y1 ≤ y) (hy2 : y ≤ y2) (hx : x1 < x2) (hy : y1 < y2) (f : Rat → Rat → Rat)
    (hf : ∀ u v, f u v = p + q * u + r * v + s * (u * v)) :
    bilinearInterp x1 x2 y1 y2 x y (some (f x1 y1)) (some (f x1 y2)) (some (f x2 y1)) (some (f x2 y2))
      = .ok (f x y) := by
  rw [bilinearInterp_ok _ _ _ _ hx1 hx2 hy1 hy2 hx hy]
  congr 1
  unfold bilinearCore
  have hx' : x2 - x1 ≠ 0 := by intro h; linarith
  have hy' : y2 - y1 ≠ 0 := by intro h; linarith
  rw [div_eq_iff (mul_ne_zero hx' hy')]
  simp only [hf]
  ring

/-- C17: corners. -/
theorem C17_bilinear_corners (x1 x2 y1 y2 a b c d : Rat) (hx : x1 < x2) (hy : y1 < y2) :
    bilinearInterp x1 x2 y1 y2 x1 y1 (some a) (some b) (some c) (some d) = .ok a ∧
    bilinearInterp x1 x2 y1 y2 x1 y2 (some a) (some b) (some c) (some d) = .ok b ∧
    bilinearInterp x1 x2 y1 y2 x2 y1 (some a) (some b) (some c) (some d) = .ok c ∧
    bilinearInterp x1 x2 y1 y2 x2 y2 (some a) (some b) (some c) (some d) = .ok d := by
  have hx' : x2 - x1 ≠ 0 := by intro h; linarith
  have hy' : y2 - y1 ≠ 0 := by intro h; linarith
  refine ⟨?_, ?_, ?_, ?_⟩ <;>
  · rw [bilinearInterp_ok _ _ _ _ (by linarith) (by linarith) (by linarith) (by linarith) hx hy]
    congr 1
    unfold bilinearCore
    rw [div_eq_iff (mul_ne_zero hx' hy')]
    ring

/-- C17: a missing corner, an improper rectangle or a position outside it is rejected. -/
theorem C17_bilinear_rejects (x1 x2 y1 y2 x y : Rat) (a b c d : Option Rat)
    (h : a = none ∨ b = none ∨ c = none ∨ d = none ∨ x2 ≤ x1 ∨ y2 ≤ y1 ∨ x < x1 ∨ x2 < x ∨ y < y1 ∨ y2 < y) :
    bilinearInterp x1 x2 y1 y2 x y a b c d = .error .assertion := by
  unfold bilinearInterp
  rw [pyAssert_bind]; split
  · rw [pyAssert_bind]; split
    · rw [pyAssert_bind]; split
      · rw [pyAssert_bind]; split
        · rename_i h1 h2 h3 h4
          simp only [Bool.and_eq_true, decide_eq_true_eq] at h1 h2 h3 h4
          rcases h with h | h | h | h | h | h | h | h | h | h
          · subst h; rfl
          · subst h; cases a <;> rfl
          · subst h; cases a <;> cases b <;> rfl
          · subst h; cases a <;> cases b <;> cases c <;> rfl
          all_goals (exfalso; linarith [h1.1, h1.2, h2.1, h2.2])
        · rfl
      · rfl
    · rfl
  · rfl

example : bilinearInterp 0 1 0 1 (1/2) (1/4) (some 1) (some 2) (some 3) (some 8) = .ok (11/4) := by
  rw [bilinearInterp_ok] <;> norm_num [bilinearCore]

theorem fill_one (q p1 p2 r : Option Rat) (v : Rat)
    (h : (if (if q.isNone then missingMean [p1, p2] else q).isNone then r
      else (if q.isNone then missingMean [p1, p2] else q)) = some v) :
    (∃ u, (q = some u ∨ p1 = some u ∨ p2 = some u ∨ r = some u) ∧ u ≤ v) ∧
    (∃ u, (q = some u ∨ p1 = some u ∨ p2 = some u ∨ r = some u) ∧ v ≤ u) := by
  have triv : (q = some v ∨ p1 = some v ∨ p2 = some v ∨ r = some v) →
      (∃ u, (q = some u ∨ p1 = some u ∨ p2 = some u ∨ r = some u) ∧ u ≤ v) ∧
      (∃ u, (q = some u ∨ p1 = some u ∨ p2 = some u ∨ r = some u) ∧ v ≤ u) :=
    fun h => ⟨⟨v, h, le_refl v⟩, ⟨v, h, le_refl v⟩⟩
  cases q with
  | some q => apply triv; left; simpa using h
  | none =>
    cases p1 with
    | none =>
      cases p2 with
      | none => apply triv; right; right; right; simpa [missingMean] using h
      | some p2 => apply triv; right; right; left; simpa [missingMean] using h
    | some p1 =>
      cases p2 with
      | none => apply triv; right; left; simpa [missingMean] using h
      | some p2 =>
        have h' : (p1 + p2) / 2 = v := by
          norm_num [missingMean] at h
          exact h
        rcases le_total p1 p2 with hh | hh
        · exact ⟨⟨p1, by simp, by linarith⟩, ⟨p2, by simp, by linarith⟩⟩
        · exact ⟨⟨p2, by simp, by linarith⟩, ⟨p1, by simp, by linarith⟩⟩

/-- C17: `fill_missing_vals` keeps present corners, leaves nothing missing when anything is present, returns
nothing when nothing is present, and every filled value lies between two present ones. -/
theorem C17_fill_missing (q : Fin 4 → Option Rat) :
    ∃ o : Fin 4 → Option Rat, fillMissingVals (q 0) (q 1) (q 2) (q 3) = (o 0, o 1, o 2, o 3) ∧
      (∀ i v, q i = some v → o i = some v) ∧
      ((∃ i, q i ≠ none) → ∀ i, o i ≠ none) ∧
      ((∀ i, q i = none) → ∀ i, o i = none) ∧
      (∀ i v, o i = some v → (∃ j u, q j = some u ∧ u ≤ v) ∧ (∃ j u, q j = some u ∧ v ≤ u)) := by
  obtain ⟨a, ha⟩ : ∃ a, a = q 0 := ⟨_, rfl⟩
  obtain ⟨b, hb⟩ : ∃ b, b = q 1 := ⟨_, rfl⟩
  obtain ⟨c, hc⟩ : ∃ c, c = q 2 := ⟨_, rfl⟩
  obtain ⟨d, hd⟩ : ∃ d, d = q 3 := ⟨_, rfl⟩
  refine ⟨![(fillMissingVals (q 0) (q 1) (q 2) (q 3)).1, (fillMissingVals (q 0) (q 1) (q 2) (q 3)).2.1,
    (fillMissingVals (q 0) (q 1) (q 2) (q 3)).2.2.1, (fillMissingVals (q 0) (q 1) (q 2) (q 3)).2.2.2],
    rfl, ?_, ?_, ?_, ?_⟩
  · intro i v h
    fin_cases i <;> simp_all [fillMissingVals]
  · rintro ⟨j, hj⟩ i
    have hj' : a ≠ none ∨ b ≠ none ∨ c ≠ none ∨ d ≠ none := by
      fin_cases j <;> simp_all
    simp only [← ha, ← hb, ← hc, ← hd]
    clear hj ha hb hc hd
    cases a <;> cases b <;> cases c <;> cases d <;> fin_cases i <;>
      simp_all [fillMissingVals, missingMean] <;> norm_num <;> simp
  · intro h i
    simp only [h]
    fin_cases i <;> simp [fillMissingVals, missingMean]
  · intro i v h
    simp only [← ha, ← hb, ← hc, ← hd] at h
    have conv : (∃ x : Option Rat, (x = a ∨ x = b ∨ x = c ∨ x = d) ∧ ∃ u, x = some u ∧ u ≤ v) ∧
        (∃ x : Option Rat, (x = a ∨ x = b ∨ x = c ∨ x = d) ∧ ∃ u, x = some u ∧ v ≤ u) := by
      have close : ∀ q p1 p2 r : Option Rat, (q = a ∨ q = b ∨ q = c ∨ q = d) → (p1 = a ∨ p1 = b ∨ p1 = c ∨ p1 = d) →
          (p2 = a ∨ p2 = b ∨ p2 = c ∨ p2 = d) → (r = a ∨ r = b ∨ r = c ∨ r = d) →
          (if (if q.isNone then missingMean [p1, p2] else q).isNone then r
            else (if q.isNone then missingMean [p1, p2] else q)) = some v →
          (∃ x : Option Rat, (x = a ∨ x = b ∨ x = c ∨ x = d) ∧ ∃ u, x = some u ∧ u ≤ v) ∧
          (∃ x : Option Rat, (x = a ∨ x = b ∨ x = c ∨ x = d) ∧ ∃ u, x = some u ∧ v ≤ u) := by
        intro q p1 p2 r h1 h2 h3 h4 h
        obtain ⟨⟨u, hu, hl⟩, ⟨u', hu', hl'⟩⟩ := fill_one q p1 p2 r v h
        constructor
        · rcases hu with e | e | e | e
          · exact ⟨q, h1, u, e, hl⟩
          · exact ⟨p1, h2, u, e, hl⟩
          · exact ⟨p2, h3, u, e, hl⟩
          · exact ⟨r, h4, u, e, hl⟩
        · rcases hu' with e | e | e | e
          · exact ⟨q, h1, u', e, hl'⟩
          · exact ⟨p1, h2, u', e, hl'⟩
          · exact ⟨p2, h3, u', e, hl'⟩
          · exact ⟨r, h4, u', e, hl'⟩
      clear ha hb hc hd
      fin_cases i
      · exact close a b c d (by simp) (by simp) (by simp) (by simp) h
      · exact close b a d c (by simp) (by simp) (by simp) (by simp) h
      · exact close c a d b (by simp) (by simp) (by simp) (by simp) h
      · exact close d b c a (by simp) (by simp) (by simp) (by simp) h
    obtain ⟨⟨x, hx, u, hu, hl⟩, ⟨x', hx', u', hu', hl'⟩⟩ := conv
    constructor
    · rcases hx with rfl | rfl | rfl | rfl
      · exact ⟨0, u, by rw [← ha, hu], hl⟩
      · exact ⟨1, u, by rw [← hb, hu], hl⟩
      · exact ⟨2, u, by rw [← hc, hu], hl⟩
      · exact ⟨3, u, by rw [← hd, hu], hl⟩
    · rcases hx' with rfl | rfl | rfl | rfl
      · exact ⟨0, u', by rw [← ha, hu'], hl'⟩
      · exact ⟨1, u', by rw [← hb, hu'], hl'⟩
      · exact ⟨2, u', by rw [← hc, hu'], hl'⟩
      · exact ⟨3, u', by rw [← hd, hu'], hl'⟩

example : fillMissingVals none (some 1) (some 3) none = (some 2, some 1, some 3, some 2) := by
  decide +kernel

end MarineQC
