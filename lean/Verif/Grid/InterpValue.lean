import Verif.Grid.Clim

/-!
# Property C71: interpolated climatology values
-/

namespace MarineQC
open Spec

/-- Two longitudes between the same whole degrees have the same column. -/
theorem col_same {u v : Rat} {k : Int} (hu : -540 ≤ u) (hv : -540 ≤ v) (u1 : k ≤ u) (u2 : u < k + 1)
    (v1 : k ≤ v) (v2 : v < k + 1) : lonToXindex u 1 = lonToXindex v 1 := by
  obtain ⟨i, p, ei, hi, a1, a2⟩ := lonToXindex_spec 360 (by norm_num) u hu
  obtain ⟨j, q, ej, hj, b1, b2⟩ := lonToXindex_spec 360 (by norm_num) v hv
  norm_num at ei ej a1 a2 b1 b2
  rw [ei, ej]
  have e1 : (i:Int) = k + 360 * p + 180 := by
    have l1 : (i:Rat) < ((k + 360 * p + 180 : Int) : Rat) + 1 := by push_cast; linarith
    have l2 : ((k + 360 * p + 180 : Int) : Rat) < (i:Rat) + 1 := by push_cast; linarith
    have m1 : (i:Int) < k + 360 * p + 180 + 1 := by exact_mod_cast l1
    have m2 : k + 360 * p + 180 < (i:Int) + 1 := by exact_mod_cast l2
    omega
  have e2 : (j:Int) = k + 360 * q + 180 := by
    have l1 : (j:Rat) < ((k + 360 * q + 180 : Int) : Rat) + 1 := by push_cast; linarith
    have l2 : ((k + 360 * q + 180 : Int) : Rat) < (j:Rat) + 1 := by push_cast; linarith
    have m1 : (j:Int) < k + 360 * q + 180 + 1 := by exact_mod_cast l1
    have m2 : k + 360 * q + 180 < (j:Int) + 1 := by exact_mod_cast l2
    omega
  omega

/-- Two latitudes between the same whole degrees have the same row. -/
theorem row_same {u v : Rat} {k : Int} (hu : -90 < u) (hu' : u ≤ 90) (hv : -90 < v) (hv' : v ≤ 90)
    (u1 : k < u) (u2 : u ≤ k + 1) (v1 : k < v) (v2 : v ≤ k + 1) : latToYindex u 1 = latToYindex v 1 := by
  have e1 := latToYindex_eq 180 (by norm_num) u hu.le hu'
  have e2 := latToYindex_eq 180 (by norm_num) v hv.le hv'
  norm_num at e1 e2
  rw [if_neg (by linarith)] at e1
  rw [if_neg (by linarith)] at e2
  rw [e1, e2]
  have f1 : ⌊90 - u⌋ = 89 - k := by
    rw [Int.floor_eq_iff]; push_cast; constructor <;> linarith
  have f2 : ⌊90 - v⌋ = 89 - k := by
    rw [Int.floor_eq_iff]; push_cast; constructor <;> linarith
  rw [f1, f2]

/-- Value of a one-degree field at a position, for the `n`-th day. -/
def cellValue (a : Arr3) (n : Nat) (lat lon : Rat) : Option Rat :=
  a.val (timeSlot a.nt n) (latToYindex lat 1).toNat (lonToXindex lon 1).toNat

theorem getValue_cell (a : Arr3) (ha : a.nt = 1 ∨ a.nt = 73 ∨ a.nt = 365) (hy : a.ny = 180)
    (hx : a.nx = 360) (m d : Int) (hd : IsDate 2004 m d) (n : Nat) (hs : CalendarSlot m d n)
    (lat lon : Rat) (h1 : -90 ≤ lat) (h2 : lat ≤ 90) (h3 : -540 ≤ lon) :
    a.getValue lat lon (some m) (some d) = .ok (cellValue a n lat lon) := by
  obtain ⟨i, ei, hi, i1, i2, _⟩ := C13_lat_row 180 (by norm_num) lat h1 h2
  obtain ⟨j, x, ej, hj, sm, j1, j2⟩ := C14_lon_column 360 (by norm_num) lon h3
  have hr : a.res = 1 := by unfold Arr3.res; rw [hy]; norm_num
  norm_num at ei ej
  unfold cellValue
  rw [ei, ej]
  exact getValue_eq a ha lat lon m d n i j hs (by rw [hr]; exact ei) (by omega) (by rw [hr]; exact ej)
    (by omega) hd

/-- A column near the position: one of the two surrounding ones. -/
theorem near_col {x1 x2 lon u : Rat} (c1 : IsCentre x1) (h1 : x1 ≤ lon) (h2 : lon < x2) (h3 : x2 - x1 = 1)
    (hl : -180 ≤ lon) (u1 : lon - 1/2 ≤ u) (u2 : u ≤ lon + 1/2) :
    lonToXindex u 1 = lonToXindex x1 1 ∨ lonToXindex u 1 = lonToXindex x2 1 := by
  obtain ⟨k, rfl⟩ := c1
  by_cases h : u < k + 1
  · left; exact col_same (k := k) (by linarith) (by linarith) (by linarith) h (by linarith) (by linarith)
  · right
    exact col_same (k := k + 1) (by linarith) (by linarith) (by push_cast; linarith) (by push_cast; linarith)
      (by push_cast; linarith) (by push_cast; linarith)

/-- A row near the position: one of the two surrounding ones (kept inside the grid). -/
theorem near_row {y1 y2 lat u : Rat} (c1 : IsCentre y1) (h1 : y1 ≤ lat) (h2 : lat ≤ y2) (h3 : y2 - y1 = 1)
    (g1 : y2 ≥ -179/2) (g2 : y1 ≤ 179/2) (u1 : lat - 1/2 < u) (u2 : u ≤ lat + 1/2)
    (l1 : -90 < u) (l2 : u < 90) :
    latToYindex u 1 = latToYindex (max (-179/2) y1) 1 ∨ latToYindex u 1 = latToYindex (min (179/2) y2) 1 := by
  obtain ⟨k, rfl⟩ := c1
  by_cases h : u ≤ k + 1
  · left
    have hk : -91 < k := by
      have : (-91 : Rat) < k := by linarith
      exact_mod_cast this
    have hk' : (-90:Rat) ≤ k := by
      have : -90 ≤ k := by omega
      exact_mod_cast this
    rw [max_eq_right (by linarith)]
    exact row_same (k := k) l1 l2.le (by linarith) (by linarith) (by linarith) h (by linarith) (by linarith)
  · right
    have hk : k < 89 := by
      have : (k : Rat) < 89 := by linarith
      exact_mod_cast this
    have hk' : (k:Rat) ≤ 88 := by
      have : k ≤ 88 := by omega
      exact_mod_cast this
    rw [min_eq_right (by linarith)]
    exact row_same (k := k + 1) l1 l2.le (by linarith) (by linarith) (by push_cast; linarith)
      (by push_cast; linarith) (by push_cast; linarith) (by push_cast; linarith)

theorem fill_some {a b c d : Option Rat} (h : a ≠ none ∨ b ≠ none ∨ c ≠ none ∨ d ≠ none) :
    ∃ a' b' c' d' : Rat, fillMissingVals a b c d = (some a', some b', some c', some d') ∧
      (∀ v, a = some v → a' = v) ∧ (∀ v, b = some v → b' = v) ∧ (∀ v, c = some v → c' = v) ∧
      (∀ v, d = some v → d' = v) ∧
      ∀ lo hi : Rat, (∀ u, (a = some u ∨ b = some u ∨ c = some u ∨ d = some u) → lo ≤ u ∧ u ≤ hi) →
        (lo ≤ a' ∧ a' ≤ hi) ∧ (lo ≤ b' ∧ b' ≤ hi) ∧ (lo ≤ c' ∧ c' ≤ hi) ∧ (lo ≤ d' ∧ d' ≤ hi) := by
  obtain ⟨o, e, keep, full, _, betw⟩ := C17_fill_missing ![a, b, c, d]
  have hne : ∃ i, (![a, b, c, d] : Fin 4 → Option Rat) i ≠ none := by
    rcases h with h | h | h | h
    · exact ⟨0, h⟩
    · exact ⟨1, h⟩
    · exact ⟨2, h⟩
    · exact ⟨3, h⟩
  have full := full hne
  obtain ⟨a', ea⟩ := Option.ne_none_iff_exists'.1 (full 0)
  obtain ⟨b', eb⟩ := Option.ne_none_iff_exists'.1 (full 1)
  obtain ⟨c', ec⟩ := Option.ne_none_iff_exists'.1 (full 2)
  obtain ⟨d', ed⟩ := Option.ne_none_iff_exists'.1 (full 3)
  refine ⟨a', b', c', d', ?_, ?_, ?_, ?_, ?_, ?_⟩
  · rw [← ea, ← eb, ← ec, ← ed]; exact e
  · intro v hv; have := keep 0 v hv; rw [ea] at this; simpa using this
  · intro v hv; have := keep 1 v hv; rw [eb] at this; simpa using this
  · intro v hv; have := keep 2 v hv; rw [ec] at this; simpa using this
  · intro v hv; have := keep 3 v hv; rw [ed] at this; simpa using this
  · intro lo hi hb
    have hb' : ∀ j u, (![a, b, c, d] : Fin 4 → Option Rat) j = some u → lo ≤ u ∧ u ≤ hi := by
      intro j u hj
      apply hb
      fin_cases j
      · exact Or.inl hj
      · exact Or.inr (Or.inl hj)
      · exact Or.inr (Or.inr (Or.inl hj))
      · exact Or.inr (Or.inr (Or.inr hj))
    have key : ∀ i v, o i = some v → lo ≤ v ∧ v ≤ hi := by
      intro i v hv
      obtain ⟨⟨j, u, e1, l1⟩, ⟨j', u', e2, l2⟩⟩ := betw i v hv
      have := hb' j u e1
      have := hb' j' u' e2
      constructor <;> linarith
    exact ⟨key 0 a' ea, key 1 b' eb, key 2 c' ec, key 3 d' ed⟩

/-- The interpolation step once the surrounding points are known. -/
theorem interp_core (a : Arr3) (ha : a.nt = 1 ∨ a.nt = 73 ∨ a.nt = 365) (hy : a.ny = 180)
    (hx : a.nx = 360) (m d : Int) (hd : IsDate 2004 m d) (n : Nat) (hs : CalendarSlot m d n)
    (lat lon : Rat) (h1 : -90 ≤ lat) (h2 : lat ≤ 90) (h3 : -180 ≤ lon) (h4 : lon ≤ 180)
    (hne : lat ≠ -179/2) :
    ∃ x1 x2 y1 y2 : Rat, x1 ≤ lon ∧ lon < x2 ∧ x2 - x1 = 1 ∧ y1 ≤ lat ∧ lat ≤ y2 ∧ y2 - y1 = 1 ∧
      IsCentre x1 ∧ IsCentre x2 ∧ IsCentre y1 ∧ IsCentre y2 ∧ y2 ≥ -179/2 ∧ y1 ≤ 179/2 ∧
    ((∀ s t : Rat, (s = 1/1000 ∨ s = -1/1000) → (t = 1/1000 ∨ t = -1/1000) → -90 < lat + s → lat + s < 90 →
        cellValue a n (lat + s) (lon + t) = none) →
      a.getInterpolatedValue lat lon (some m) (some d) = .ok none) ∧
    ((∃ s t : Rat, (s = 1/1000 ∨ s = -1/1000) ∧ (t = 1/1000 ∨ t = -1/1000) ∧ -90 < lat + s ∧ lat + s < 90 ∧
        cellValue a n (lat + s) (lon + t) ≠ none) →
      ∃ a' b' c' d' : Rat,
        fillMissingVals (cellValue a n (max (-179/2) y1) x1) (cellValue a n (min (179/2) y2) x1)
          (cellValue a n (max (-179/2) y1) x2) (cellValue a n (min (179/2) y2) x2)
          = (some a', some b', some c', some d') ∧
        (∀ v, cellValue a n (max (-179/2) y1) x1 = some v → a' = v) ∧
        (∀ v, cellValue a n (min (179/2) y2) x1 = some v → b' = v) ∧
        (∀ v, cellValue a n (max (-179/2) y1) x2 = some v → c' = v) ∧
        (∀ v, cellValue a n (min (179/2) y2) x2 = some v → d' = v) ∧
        (∀ lo hi : Rat, (∀ u, (cellValue a n (max (-179/2) y1) x1 = some u ∨
            cellValue a n (min (179/2) y2) x1 = some u ∨ cellValue a n (max (-179/2) y1) x2 = some u ∨
            cellValue a n (min (179/2) y2) x2 = some u) → lo ≤ u ∧ u ≤ hi) →
          (lo ≤ a' ∧ a' ≤ hi) ∧ (lo ≤ b' ∧ b' ≤ hi) ∧ (lo ≤ c' ∧ c' ≤ hi) ∧ (lo ≤ d' ∧ d' ≤ hi)) ∧
        a.getInterpolatedValue lat lon (some m) (some d)
          = .ok (some (bilinearCore x1 x2 y1 y2 lon lat a' b' c' d'))) := by
  obtain ⟨x1, x2, y1, y2, e, b1, b2, b3, b4, b5, b6, c1, c2, c3, c4, g1, g2⟩ :=
    fourPoints lat lon h1 h2 h3 h4 hne
  refine ⟨x1, x2, y1, y2, b1, b2, b3, b4, b5, b6, c1, c2, c3, c4, g1, g2, ?_⟩
  have gv : ∀ la lo : Rat, -90 ≤ la → la ≤ 90 → -540 ≤ lo →
      a.getValue la lo (some m) (some d) = .ok (cellValue a n la lo) :=
    fun la lo p q r => getValue_cell a ha hy hx m d hd n hs la lo p q r
  have e0 : getFourSurroundingPoints lat lon 0 = .ok (x1, x2, y1, y2) := by simpa using e 0
  have e1 : getFourSurroundingPoints lat lon 1 = .ok (x1, x2, max (-179/2) y1, min (179/2) y2) := by
    simpa using e 1
  have my1 : -90 ≤ max (-179/2) y1 ∧ max (-179/2) y1 ≤ 90 :=
    ⟨le_trans (by norm_num) (le_max_left _ _), max_le (by norm_num) (by linarith)⟩
  have my2 : -90 ≤ min (179/2) y2 ∧ min (179/2) y2 ≤ 90 :=
    ⟨le_min (by norm_num) (by linarith), le_trans (min_le_left _ _) (by norm_num)⟩
  have q1 := gv _ x1 my1.1 my1.2 (by linarith)
  have q2 := gv _ x1 my2.1 my2.2 (by linarith)
  have q3 := gv _ x2 my1.1 my1.2 (by linarith)
  have q4 := gv _ x2 my2.1 my2.2 (by linarith)
  -- the four perturbed values
  obtain ⟨p1, hp1⟩ : ∃ p, p = (if lat + 1/1000 < 90 then cellValue a n (lat + 1/1000) (lon + 1/1000) else none) := ⟨_, rfl⟩
  obtain ⟨p2, hp2⟩ : ∃ p, p = (if lat + 1/1000 < 90 then cellValue a n (lat + 1/1000) (lon - 1/1000) else none) := ⟨_, rfl⟩
  obtain ⟨p3, hp3⟩ : ∃ p, p = (if lat - 1/1000 > -90 then cellValue a n (lat - 1/1000) (lon + 1/1000) else none) := ⟨_, rfl⟩
  obtain ⟨p4, hp4⟩ : ∃ p, p = (if lat - 1/1000 > -90 then cellValue a n (lat - 1/1000) (lon - 1/1000) else none) := ⟨_, rfl⟩
  have unf : a.getInterpolatedValue lat lon (some m) (some d) =
      if p1.isNone && p2.isNone && p3.isNone && p4.isNone then .ok none
      else do
        let (x1, x2, y1, y2) ← getFourSurroundingPoints lat lon 1
        let q11 := tryValue (a.getValue y1 x1 (some m) (some d))
        let q22 := tryValue (a.getValue y2 x2 (some m) (some d))
        let q12 := tryValue (a.getValue y2 x1 (some m) (some d))
        let q21 := tryValue (a.getValue y1 x2 (some m) (some d))
        let (q11, q12, q21, q22) := fillMissingVals q11 q12 q21 q22
        let (x1, x2, y1, y2) ← getFourSurroundingPoints lat lon 0
        let v ← bilinearInterp x1 x2 y1 y2 lon lat q11 q12 q21 q22
        return some v := by
    unfold Arr3.getInterpolatedValue
    by_cases k1 : lat + 1/1000 < 90 <;> by_cases k2 : lat - 1/1000 > -90
    · rw [if_pos k1] at hp1 hp2
      rw [if_pos k2] at hp3 hp4
      simp only [k1, k2, if_true]
      rw [gv _ _ (by linarith) (by linarith) (by linarith), gv _ _ (by linarith) (by linarith) (by linarith),
        gv _ _ (by linarith) (by linarith) (by linarith), gv _ _ (by linarith) (by linarith) (by linarith)]
      simp only [except_bind_ok, except_pure, ← hp1, ← hp2, ← hp3, ← hp4]
    · rw [if_pos k1] at hp1 hp2
      rw [if_neg k2] at hp3 hp4
      simp only [k1, k2, if_true, if_false]
      rw [gv _ _ (by linarith) (by linarith) (by linarith), gv _ _ (by linarith) (by linarith) (by linarith)]
      simp only [except_bind_ok, except_pure, ← hp1, ← hp2, hp3, hp4]
    · rw [if_neg k1] at hp1 hp2
      rw [if_pos k2] at hp3 hp4
      simp only [k1, k2, if_true, if_false]
      rw [gv _ _ (by linarith) (by linarith) (by linarith), gv _ _ (by linarith) (by linarith) (by linarith)]
      simp only [except_bind_ok, except_pure, hp1, hp2, ← hp3, ← hp4]
    · exfalso; linarith
  constructor
  · intro hall
    have z1 : p1 = none := by
      rw [hp1]; split
      · exact hall _ _ (Or.inl rfl) (Or.inl rfl) (by linarith) (by linarith)
      · rfl
    have z2 : p2 = none := by
      rw [hp2]; split
      · have := hall (1/1000) (-1/1000) (Or.inl rfl) (Or.inr rfl) (by linarith) (by linarith)
        rw [← this]; congr 1; ring
      · rfl
    have z3 : p3 = none := by
      rw [hp3]; split
      · have := hall (-1/1000) (1/1000) (Or.inr rfl) (Or.inl rfl) (by linarith) (by linarith)
        rw [← this]; congr 1; ring
      · rfl
    have z4 : p4 = none := by
      rw [hp4]; split
      · have := hall (-1/1000) (-1/1000) (Or.inr rfl) (Or.inr rfl) (by linarith) (by linarith)
        rw [← this]; congr 1 <;> ring
      · rfl
    rw [unf, z1, z2, z3, z4]; rfl
  · rintro ⟨s, t, hs', ht', l1, l2, hv⟩
    have some_pert : (p1.isNone && p2.isNone && p3.isNone && p4.isNone) = false := by
      have : p1 ≠ none ∨ p2 ≠ none ∨ p3 ≠ none ∨ p4 ≠ none := by
        rcases hs' with rfl | rfl <;> rcases ht' with rfl | rfl
        · left; rw [hp1, if_pos l2]; exact hv
        · right; left; rw [hp2, if_pos l2]
          rw [show lon - 1/1000 = lon + -1/1000 by ring]; exact hv
        · right; right; left; rw [hp3, if_pos (by linarith)]
          rw [show lat - 1/1000 = lat + -1/1000 by ring]; exact hv
        · right; right; right; rw [hp4, if_pos (by linarith)]
          rw [show lat - 1/1000 = lat + -1/1000 by ring, show lon - 1/1000 = lon + -1/1000 by ring]; exact hv
      rcases this with h | h | h | h <;> obtain ⟨w, hw⟩ := Option.ne_none_iff_exists'.1 h <;> rw [hw] <;> simp
    have s1 : -1/1000 ≤ s ∧ s ≤ 1/1000 := by rcases hs' with rfl | rfl <;> norm_num
    have t1 : -1/1000 ≤ t ∧ t ≤ 1/1000 := by rcases ht' with rfl | rfl <;> norm_num
    have nr := near_row (u := lat + s) c3 b4 b5 b6 g1 g2 (by linarith [s1.1]) (by linarith [s1.2]) l1 l2
    have nc := near_col (u := lon + t) c1 b1 b2 b3 h3 (by linarith [t1.1]) (by linarith [t1.2])
    have hq : cellValue a n (max (-179/2) y1) x1 ≠ none ∨ cellValue a n (min (179/2) y2) x1 ≠ none ∨
        cellValue a n (max (-179/2) y1) x2 ≠ none ∨ cellValue a n (min (179/2) y2) x2 ≠ none := by
      unfold cellValue at hv ⊢
      rcases nr with r | r <;> rcases nc with c | c <;> rw [r, c] at hv
      · exact Or.inl hv
      · exact Or.inr (Or.inr (Or.inl hv))
      · exact Or.inr (Or.inl hv)
      · exact Or.inr (Or.inr (Or.inr hv))
    obtain ⟨a', b', c', d', ef, k1, k2, k3, k4, kb⟩ := fill_some hq
    refine ⟨a', b', c', d', ef, k1, k2, k3, k4, kb, ?_⟩
    rw [unf, some_pert]
    simp only [Bool.false_eq_true, if_false, e1, e0, except_bind_ok, q1, q2, q3, q4, tryValue, ef,
      except_pure]
    rw [bilinearInterp_ok a' b' c' d' b1 b2.le b4 b5 (by linarith) (by linarith)]
    rfl

theorem exists_least (l : List (Option Rat)) (h : ∃ u, some u ∈ l) :
    ∃ lo, some lo ∈ l ∧ ∀ u, some u ∈ l → lo ≤ u := by
  induction l with
  | nil => simp at h
  | cons o l ih =>
    by_cases hl : ∃ u, some u ∈ l
    · obtain ⟨lo, m, hlo⟩ := ih hl
      cases o with
      | none => exact ⟨lo, by simp [m], fun u hu => hlo u (by simpa using hu)⟩
      | some w =>
        rcases le_total lo w with c | c
        · refine ⟨lo, by simp [m], fun u hu => ?_⟩
          rcases List.mem_cons.1 hu with e | e
          · rw [Option.some.inj e]; exact c
          · exact hlo u e
        · refine ⟨w, by simp, fun u hu => ?_⟩
          rcases List.mem_cons.1 hu with e | e
          · rw [Option.some.inj e]
          · exact le_trans c (hlo u e)
    · obtain ⟨u, hu⟩ := h
      have hu' : some u = o := by
        rcases List.mem_cons.1 hu with e | e
        · exact e
        · exact absurd ⟨u, e⟩ hl
      refine ⟨u, hu, fun w hw => ?_⟩
      rcases List.mem_cons.1 hw with e | e
      · rw [← hu'] at e; rw [Option.some.inj e]
      · exact absurd ⟨w, e⟩ hl

theorem exists_greatest (l : List (Option Rat)) (h : ∃ u, some u ∈ l) :
    ∃ hi, some hi ∈ l ∧ ∀ u, some u ∈ l → u ≤ hi := by
  obtain ⟨u, hu⟩ := h
  obtain ⟨lo, m, hlo⟩ := exists_least (l.map (Option.map fun x => -x)) ⟨-u, by
    rw [List.mem_map]; exact ⟨some u, hu, rfl⟩⟩
  obtain ⟨o, ho, e⟩ := List.mem_map.1 m
  cases o with
  | none => simp at e
  | some w =>
    have ew : -w = lo := by simpa using e
    refine ⟨w, ho, fun z hz => ?_⟩
    have := hlo (-z) (List.mem_map.2 ⟨some z, hz, rfl⟩)
    linarith

/-- C71 on one-degree fields, every latitude except -89.5: `get_interpolated_value` never raises; it is
`None` exactly when the field is missing at all the points 0.001 degrees north/south and east/west of the
position that lie between the poles; otherwise the result lies between two values the field holds, on that
day, in cells whose centres are at most one degree away. -/
theorem C71_interpolated_partial (a : Arr3) (ha : a.nt = 1 ∨ a.nt = 73 ∨ a.nt = 365) (hy : a.ny = 180)
    (hx : a.nx = 360) (m d : Int) (hd : IsDate 2004 m d)
    (lat lon : Rat) (h1 : -90 ≤ lat) (h2 : lat ≤ 90) (h3 : -180 ≤ lon) (h4 : lon ≤ 180)
    (hne : lat ≠ -179/2) :
    ∃ r, a.getInterpolatedValue lat lon (some m) (some d) = .ok r ∧
      (r = none ↔ ∀ s t : Rat, (s = 1/1000 ∨ s = -1/1000) → (t = 1/1000 ∨ t = -1/1000) →
        -90 < lat + s → lat + s < 90 → a.getValue (lat + s) (lon + t) (some m) (some d) = .ok none) ∧
      ∀ v, r = some v → ∃ la lo u la' lo' u' : Rat,
        |la - lat| ≤ 1 ∧ |lo - lon| ≤ 1 ∧ a.getValue la lo (some m) (some d) = .ok (some u) ∧ u ≤ v ∧
        |la' - lat| ≤ 1 ∧ |lo' - lon| ≤ 1 ∧ a.getValue la' lo' (some m) (some d) = .ok (some u') ∧ v ≤ u' := by
  obtain ⟨n, hs⟩ := calendarSlot_exists hd
  obtain ⟨x1, x2, y1, y2, b1, b2, b3, b4, b5, b6, c1, c2, c3, c4, g1, g2, hnone, hsome⟩ :=
    interp_core a ha hy hx m d hd n hs lat lon h1 h2 h3 h4 hne
  have gv : ∀ la lo : Rat, -90 ≤ la → la ≤ 90 → -540 ≤ lo →
      a.getValue la lo (some m) (some d) = .ok (cellValue a n la lo) :=
    fun la lo p q r => getValue_cell a ha hy hx m d hd n hs la lo p q r
  have near : ∀ s t : Rat, (s = 1/1000 ∨ s = -1/1000) → (t = 1/1000 ∨ t = -1/1000) →
      -90 < lat + s → lat + s < 90 →
      a.getValue (lat + s) (lon + t) (some m) (some d) = .ok (cellValue a n (lat + s) (lon + t)) := by
    intro s t _ ht l1 l2
    have : -1/1000 ≤ t := by rcases ht with rfl | rfl <;> norm_num
    exact gv _ _ l1.le l2.le (by linarith)
  by_cases hall : ∀ s t : Rat, (s = 1/1000 ∨ s = -1/1000) → (t = 1/1000 ∨ t = -1/1000) →
      -90 < lat + s → lat + s < 90 → cellValue a n (lat + s) (lon + t) = none
  · refine ⟨none, hnone hall, ⟨fun _ s t p q r w => by rw [near s t p q r w, hall s t p q r w], fun _ => rfl⟩, ?_⟩
    intro v hv; simp at hv
  · push Not at hall
    obtain ⟨s, t, p, q, r, w, hv⟩ := hall
    obtain ⟨a', b', c', d', ef, -, -, -, -, kb, er⟩ := hsome ⟨s, t, p, q, r, w, hv⟩
    refine ⟨_, er, ⟨fun h => by simp at h, fun h => ?_⟩, ?_⟩
    · have := h s t p q r w
      rw [near s t p q r w] at this
      exact absurd (Except.ok.inj this) hv
    · intro v hv'
      have hv' := Option.some.inj hv'
      -- corner positions
      have my1 : -90 ≤ max (-179/2) y1 ∧ max (-179/2) y1 ≤ 90 :=
        ⟨le_trans (by norm_num) (le_max_left _ _), max_le (by norm_num) (by linarith)⟩
      have my2 : -90 ≤ min (179/2) y2 ∧ min (179/2) y2 ≤ 90 :=
        ⟨le_min (by norm_num) (by linarith), le_trans (min_le_left _ _) (by norm_num)⟩
      have d1 : |max (-179/2) y1 - lat| ≤ 1 := by
        rw [abs_le]
        constructor
        · have := le_max_right (-179/2) y1; linarith
        · rcases max_choice (-179/2) y1 with h | h <;> rw [h] <;> linarith
      have d2 : |min (179/2) y2 - lat| ≤ 1 := by
        rw [abs_le]
        constructor
        · rcases min_choice (179/2) y2 with h | h <;> rw [h] <;> linarith
        · have := min_le_right (179/2) y2; linarith
      have d3 : |x1 - lon| ≤ 1 := by rw [abs_le]; constructor <;> linarith
      have d4 : |x2 - lon| ≤ 1 := by rw [abs_le]; constructor <;> linarith
      have corner : ∀ u, (cellValue a n (max (-179/2) y1) x1 = some u ∨
            cellValue a n (min (179/2) y2) x1 = some u ∨ cellValue a n (max (-179/2) y1) x2 = some u ∨
            cellValue a n (min (179/2) y2) x2 = some u) →
          ∃ la lo : Rat, |la - lat| ≤ 1 ∧ |lo - lon| ≤ 1 ∧ a.getValue la lo (some m) (some d) = .ok (some u) := by
        rintro u (h | h | h | h)
        · exact ⟨_, _, d1, d3, by rw [gv _ x1 my1.1 my1.2 (by linarith), h]⟩
        · exact ⟨_, _, d2, d3, by rw [gv _ x1 my2.1 my2.2 (by linarith), h]⟩
        · exact ⟨_, _, d1, d4, by rw [gv _ x2 my1.1 my1.2 (by linarith), h]⟩
        · exact ⟨_, _, d2, d4, by rw [gv _ x2 my2.1 my2.2 (by linarith), h]⟩
      have lst : ∀ u, (cellValue a n (max (-179/2) y1) x1 = some u ∨
            cellValue a n (min (179/2) y2) x1 = some u ∨ cellValue a n (max (-179/2) y1) x2 = some u ∨
            cellValue a n (min (179/2) y2) x2 = some u) ↔ some u ∈ [cellValue a n (max (-179/2) y1) x1,
            cellValue a n (min (179/2) y2) x1, cellValue a n (max (-179/2) y1) x2,
            cellValue a n (min (179/2) y2) x2] := by
        intro u
        simp only [List.mem_cons, List.not_mem_nil, or_false, eq_comm (a := some u)]
      have hex : ∃ u, some u ∈ [cellValue a n (max (-179/2) y1) x1,
            cellValue a n (min (179/2) y2) x1, cellValue a n (max (-179/2) y1) x2,
            cellValue a n (min (179/2) y2) x2] := by
        by_contra hc
        push Not at hc
        have := kb 1 0 (fun u hu => absurd ((lst u).1 hu) (hc u))
        linarith [this.1.1, this.1.2]
      obtain ⟨lo, lo1, lo2⟩ := exists_least _ hex
      obtain ⟨hi, hi1, hi2⟩ := exists_greatest _ hex
      have kk := kb lo hi (fun u hu => ⟨lo2 u ((lst u).1 hu), hi2 u ((lst u).1 hu)⟩)
      have bb := bilinear_between b1 b2.le b4 b5 (by linarith) (by linarith) kk.1 kk.2.1 kk.2.2.1 kk.2.2.2
      rw [hv'] at bb
      obtain ⟨la, lo', r1, r2, r3⟩ := corner lo ((lst lo).2 lo1)
      obtain ⟨la', lo'', r1', r2', r3'⟩ := corner hi ((lst hi).2 hi1)
      exact ⟨la, lo', lo, la', lo'', hi, r1, r2, r3, bb.1, r1', r2', r3', bb.2⟩

/-- C71: at the centre of a cell (not in the southernmost row) the interpolated value is the value of
that cell. -/
theorem C71_at_cell_centre (a : Arr3) (ha : a.nt = 1 ∨ a.nt = 73 ∨ a.nt = 365) (hy : a.ny = 180)
    (hx : a.nx = 360) (m d : Int) (hd : IsDate 2004 m d) (i j : Nat) (hi : i < 179) (hj : j < 360) :
    a.getInterpolatedValue (rowCentre 180 i) (colCentre 360 j) (some m) (some d) =
      a.getValue (rowCentre 180 i) (colCentre 360 j) (some m) (some d) := by
  have hi' : (i:Rat) ≤ 178 := by exact_mod_cast Nat.le_of_lt_succ hi
  have hi0 : (0:Rat) ≤ i := by positivity
  have hj' : (j:Rat) ≤ 359 := by exact_mod_cast Nat.le_of_lt_succ hj
  have hj0 : (0:Rat) ≤ j := by positivity
  obtain ⟨lat, hlat⟩ : ∃ lat, lat = rowCentre 180 i := ⟨_, rfl⟩
  obtain ⟨lon, hlon⟩ : ∃ lon, lon = colCentre 360 j := ⟨_, rfl⟩
  rw [← hlat, ← hlon]
  have e1 : lat = 89 - i + 1/2 := by rw [hlat]; unfold rowCentre; norm_num; ring
  have e2 : lon = -180 + j + 1/2 := by rw [hlon]; unfold colCentre; norm_num; ring
  obtain ⟨n, hs⟩ := calendarSlot_exists hd
  obtain ⟨x1, x2, y1, y2, b1, b2, b3, b4, b5, b6, ⟨k1, c1⟩, ⟨k2, c2⟩, ⟨k3, c3⟩, ⟨k4, c4⟩, g1, g2, hnone, hsome⟩ :=
    interp_core a ha hy hx m d hd n hs lat lon (by linarith) (by linarith) (by linarith) (by linarith)
      (by intro h; linarith)
  rw [getValue_cell a ha hy hx m d hd n hs lat lon (by linarith) (by linarith) (by linarith)]
  have near : ∀ s t : Rat, (s = 1/1000 ∨ s = -1/1000) → (t = 1/1000 ∨ t = -1/1000) →
      cellValue a n (lat + s) (lon + t) = cellValue a n lat lon := by
    intro s t hs ht
    have s1 : -1/1000 ≤ s ∧ s ≤ 1/1000 := by rcases hs with rfl | rfl <;> norm_num
    have t1 : -1/1000 ≤ t ∧ t ≤ 1/1000 := by rcases ht with rfl | rfl <;> norm_num
    unfold cellValue
    rw [row_same (u := lat + s) (v := lat) (k := 89 - i) (by linarith [s1.1]) (by linarith [s1.2]) (by linarith)
      (by linarith) (by push_cast; linarith [s1.1]) (by push_cast; linarith [s1.2]) (by push_cast; linarith)
      (by push_cast; linarith),
      col_same (u := lon + t) (v := lon) (k := -180 + j) (by linarith [t1.1]) (by linarith)
      (by push_cast; linarith [t1.1]) (by push_cast; linarith [t1.2]) (by push_cast; linarith)
      (by push_cast; linarith)]
  -- the western and northern surrounding points are the position itself
  have hx1 : x1 = lon := by
    have l1 : (k1:Rat) ≤ ((-180 + j : Int) : Rat) := by push_cast; linarith
    have l2 : ((-180 + j : Int) : Rat) < k1 + 1 := by push_cast; linarith
    have m1 : k1 ≤ -180 + (j:Int) := by exact_mod_cast l1
    have m2 : -180 + (j:Int) < k1 + 1 := by exact_mod_cast l2
    have : k1 = -180 + (j:Int) := by omega
    rw [c1, e2, this]; push_cast; ring
  cases hv : cellValue a n lat lon with
  | none => exact hnone fun s t p q _ _ => by rw [near s t p q, hv]
  | some v =>
    obtain ⟨a', b', c', d', -, ka, kb, kc, kd, -, er⟩ := hsome ⟨-1/1000, 1/1000, Or.inr rfl, Or.inl rfl,
      by linarith, by linarith, by rw [near _ _ (Or.inr rfl) (Or.inl rfl), hv]; simp⟩
    rw [er]
    congr 2
    -- either y2 = lat or y1 = lat
    have hy12 : y2 = lat ∨ y1 = lat := by
      have l1 : ((89 - i : Int) : Rat) ≤ k4 := by push_cast; linarith
      have l2 : (k4:Rat) ≤ ((89 - i : Int) : Rat) + 1 := by push_cast; linarith
      have m1 : 89 - (i:Int) ≤ k4 := by exact_mod_cast l1
      have m2 : k4 ≤ 89 - (i:Int) + 1 := by exact_mod_cast l2
      have : k4 = 89 - (i:Int) ∨ k4 = 89 - (i:Int) + 1 := by omega
      rcases this with h | h
      · left; rw [c4, e1, h]; push_cast; ring
      · right
        have : y2 = lat + 1 := by rw [c4, e1, h]; push_cast; ring
        linarith
    have hxx : x2 = lon + 1 := by linarith
    rcases hy12 with h | h
    · have hm : min (179/2) y2 = lat := by rw [h]; exact min_eq_right (by linarith)
      have := kb v (by rw [hm, hx1]; exact hv)
      have hyy : y1 = lat - 1 := by linarith
      unfold bilinearCore
      rw [hx1, h, this, hxx, hyy]
      ring
    · have hm : max (-179/2) y1 = lat := by rw [h]; exact max_eq_right (by linarith)
      have := ka v (by rw [hm, hx1]; exact hv)
      have hyy : y2 = lat + 1 := by linarith
      unfold bilinearCore
      rw [hx1, h, this, hxx, hyy]
      ring

/-- C71 is false at latitude -89.5: there the call raises whenever the field has a value in the cell of
the position. -/
theorem C71_interpolated_violation (a : Arr3) (ha : a.nt = 1 ∨ a.nt = 73 ∨ a.nt = 365) (hy : a.ny = 180)
    (hx : a.nx = 360) (m d : Int) (hd : IsDate 2004 m d) (j : Nat) (hj : j < 360) (v : Rat)
    (hv : a.getValue (-179/2) (colCentre 360 j) (some m) (some d) = .ok (some v)) :
    a.getInterpolatedValue (-179/2) (colCentre 360 j) (some m) (some d) = .error .assertion := by
  have hj' : (j:Rat) ≤ 359 := by exact_mod_cast Nat.le_of_lt_succ hj
  have hj0 : (0:Rat) ≤ j := by positivity
  obtain ⟨lon, hlon⟩ : ∃ lon, lon = colCentre 360 j := ⟨_, rfl⟩
  rw [← hlon] at hv ⊢
  have e2 : lon = -180 + j + 1/2 := by rw [hlon]; unfold colCentre; norm_num; ring
  obtain ⟨n, hs⟩ := calendarSlot_exists hd
  have gv : ∀ la lo : Rat, -90 ≤ la → la ≤ 90 → -540 ≤ lo →
      a.getValue la lo (some m) (some d) = .ok (cellValue a n la lo) :=
    fun la lo p q r => getValue_cell a ha hy hx m d hd n hs la lo p q r
  have hv' : cellValue a n (-179/2) lon = some v := by
    rw [gv _ _ (by norm_num) (by norm_num) (by linarith)] at hv
    exact Except.ok.inj hv
  have p1 : cellValue a n (-179/2 + 1/1000) (lon + 1/1000) = some v := by
    rw [← hv']
    unfold cellValue
    rw [row_same (u := -179/2 + 1/1000) (v := -179/2) (k := -90) (by norm_num) (by norm_num) (by norm_num)
      (by norm_num) (by norm_num) (by norm_num) (by norm_num) (by norm_num),
      col_same (u := lon + 1/1000) (v := lon) (k := -180 + j) (by linarith) (by linarith)
      (by push_cast; linarith) (by push_cast; linarith) (by push_cast; linarith) (by push_cast; linarith)]
  obtain ⟨x1, x2, e1⟩ := C16_surrounding_points_violation lon (by linarith) (by linarith) 1
  obtain ⟨x1', x2', e0⟩ := C16_surrounding_points_violation lon (by linarith) (by linarith) 0
  have k1 : (-179/2 : Rat) + 1/1000 < 90 := by norm_num
  have k2 : (-179/2 : Rat) - 1/1000 > -90 := by norm_num
  unfold Arr3.getInterpolatedValue
  simp only [k1, k2, if_true]
  rw [gv _ _ (by norm_num) (by norm_num) (by linarith), gv _ _ (by norm_num) (by norm_num) (by linarith),
    gv _ _ (by norm_num) (by norm_num) (by linarith), gv _ _ (by norm_num) (by norm_num) (by linarith)]
  simp only [except_bind_ok, except_pure, p1, Option.isNone_some, Bool.false_and, Bool.false_eq_true, if_false,
    e1, e0]
  rw [C17_bilinear_rejects _ _ _ _ _ _ _ _ _ _ (by
    right; right; right; right; right; left; exact le_refl _)]
  rfl

example : exampleField.getInterpolatedValue (1/2) (1/2) (some 1) (some 1) =
    exampleField.getValue (1/2) (1/2) (some 1) (some 1) := by
  have := C71_at_cell_centre exampleField (by simp [exampleField]) rfl rfl 1 1 (by decide) 89 180
    (by norm_num) (by norm_num)
  norm_num [rowCentre, colCentre] at this
  norm_num
  exact this

end MarineQC
