import Verif.Grid.Interp
import Mathlib.Tactic.LinearCombination

/-!
# Properties C18, C19 and C71: climatology lookups, loading and interpolation
-/

namespace MarineQC
open Spec

/-! ## Specification -/

/-- `(m, d)` is the `n`-th day (from 0) of the 365-day calendar; 29 February counts as 1 March. -/
def Spec.CalendarSlot (m d : Int) (n : Nat) : Prop :=
  n < 365 ∧ (Spec.dayOfYear n = (m, d) ∨ (m = 2 ∧ d = 29 ∧ n = 59))

/-- Position along the time axis of a field with `nt` times for the `n`-th day of the year. -/
def Spec.timeSlot (nt n : Nat) : Nat := if nt = 1 then 0 else if nt = 73 then n / 5 else n

/-- The cell `(i, j)` of an `ny` by `nx` grid contains the position (longitude up to whole turns). -/
def Spec.InCell (ny nx : Nat) (lat lon : Rat) (i j : Nat) : Prop :=
  i < ny ∧ j < nx ∧ rowSouth ny i ≤ lat ∧ lat ≤ rowNorth ny i ∧
    ∃ x, SameMeridian x lon ∧ colWest nx j ≤ x ∧ x ≤ colEast nx j

/-! ## C18 -/

theorem calendarSlot_exists {m d : Int} (h : IsDate 2004 m d) : ∃ n, CalendarSlot m d n := by
  rcases leapDate_cases h with h | ⟨rfl, rfl⟩
  · obtain ⟨n, hn, e⟩ := exists_dayOfYear h
    exact ⟨n, hn, Or.inl (by unfold dayOfYear; rw [e])⟩
  · exact ⟨59, by norm_num, Or.inr ⟨rfl, rfl, rfl⟩⟩

/-- C18: the time index is the slot of the calendar day, inside the time axis. -/
theorem C18_time_index (a : Arr3) (ha : a.nt = 1 ∨ a.nt = 73 ∨ a.nt = 365) (m d : Int) (n : Nat)
    (h : CalendarSlot m d n) :
    a.getTindex m d = .ok ((timeSlot a.nt n : Nat) : Int) ∧ timeSlot a.nt n < a.nt := by
  obtain ⟨hn, h⟩ := h
  have hp : whichPentad m d = .ok ((n / 5 : Nat) + 1) := by
    rcases h with h | ⟨rfl, rfl, rfl⟩
    · have := C02_pentad_of_day n hn; rw [h] at this; exact this
    · decide +kernel
  have hd : dayInYear m d = .ok ((n : Int) + 1) := by
    rcases h with h | ⟨rfl, rfl, rfl⟩
    · have := C03_day_in_year_counts n hn; rw [h] at this; exact this
    · decide +kernel
  unfold Arr3.getTindex timeSlot
  rcases ha with e | e | e <;> rw [e]
  · simp
  · rw [hp]
    refine ⟨?_, by norm_num; omega⟩
    norm_num
  · rw [hd]
    refine ⟨?_, by norm_num; omega⟩
    norm_num

theorem badMonthDay_iff (mo dy : Option Int) :
    badMonthDay mo dy = false ↔ ∃ m d, mo = some m ∧ dy = some d ∧ IsDate 2004 m d := by
  cases mo with
  | none => simp [badMonthDay]
  | some m =>
    cases dy with
    | none => simp [badMonthDay]
    | some d =>
      simp only [badMonthDay, Option.some.injEq, exists_eq_left', exists_and_left]
      by_cases h : m < 1 ∨ m > 12
      · simp only [h, if_true, Bool.true_eq_false, false_iff]
        unfold IsDate; omega
      · rw [if_neg h, getElem_monthLengths 2004 m (by omega) (by omega)]
        simp only [decide_eq_false_iff_not]
        unfold IsDate; omega

theorem npAxis_nat {n i : Nat} (h : i < n) : npAxis n (i : Int) = .ok i := by
  unfold npAxis
  have h1 : ¬ ((i : Int) < 0) := by omega
  have h2 : (0 : Int) ≤ i ∧ (i : Int) < n := by omega
  simp [h1, h]

theorem Arr3.get_nat (a : Arr3) {t y x : Nat} (ht : t < a.nt) (hy : y < a.ny) (hx : x < a.nx) :
    a.get t y x = .ok (a.val t y x) := by
  unfold Arr3.get
  rw [npAxis_nat ht, npAxis_nat hy, npAxis_nat hx]
  rfl

/-- C18: months and days that do not exist in a leap year (or are missing) give `None`, whatever the
position. -/
theorem C18_bad_dates (a : Arr3) (lat lon : Rat) (mo dy : Option Int)
    (h : ¬ ∃ m d, mo = some m ∧ dy = some d ∧ IsDate 2004 m d) :
    a.getValue lat lon mo dy = .ok none ∧ a.getValueMds lat lon mo dy = .ok none := by
  have : badMonthDay mo dy = true := by
    cases hb : badMonthDay mo dy with
    | true => rfl
    | false => exact absurd ((badMonthDay_iff mo dy).1 hb) h
  simp [Arr3.getValue, Arr3.getValueMds, this]

theorem getValue_eq (a : Arr3) (ha : a.nt = 1 ∨ a.nt = 73 ∨ a.nt = 365)
    (lat lon : Rat) (m d : Int) (n i j : Nat) (hs : CalendarSlot m d n)
    (hi : latToYindex lat a.res = i) (hin : i < a.ny) (hj : lonToXindex lon a.res = j) (hjn : j < a.nx)
    (hd : IsDate 2004 m d) :
    a.getValue lat lon (some m) (some d) = .ok (a.val (timeSlot a.nt n) i j) := by
  have hb := (badMonthDay_iff (some m) (some d)).2 ⟨m, d, rfl, rfl, hd⟩
  obtain ⟨t1, t2⟩ := C18_time_index a ha m d n hs
  unfold Arr3.getValue
  simp only [hb, Bool.false_eq_true, if_false, Option.getD_some, t1, except_bind_ok, hi, hj]
  exact a.get_nat t2 hin hjn

/-- C18: `get_value` returns the entry stored for the day and the cell containing the position, for every
grid of `ny` rows and `2 ny` columns. -/
theorem C18_get_value (a : Arr3) (ha : a.nt = 1 ∨ a.nt = 73 ∨ a.nt = 365) (hy : 0 < a.ny)
    (hx : a.nx = 2 * a.ny) (lat lon : Rat) (h1 : -90 ≤ lat) (h2 : lat ≤ 90) (h3 : -540 ≤ lon)
    (m d : Int) (hd : IsDate 2004 m d) :
    ∃ n i j, CalendarSlot m d n ∧ InCell a.ny a.nx lat lon i j ∧ timeSlot a.nt n < a.nt ∧
      a.getValue lat lon (some m) (some d) = .ok (a.val (timeSlot a.nt n) i j) := by
  obtain ⟨n, hs⟩ := calendarSlot_exists hd
  obtain ⟨i, ei, hi, i1, i2, _⟩ := C13_lat_row a.ny hy lat h1 h2
  obtain ⟨j, x, ej, hj, sm, j1, j2⟩ := C14_lon_column a.nx (by omega) lon h3
  have hres : a.res = 360 / a.nx := by
    have : (0:Rat) < a.ny := by exact_mod_cast hy
    unfold Arr3.res; rw [hx]; push_cast; field_simp; norm_num
  rw [← hres] at ej
  exact ⟨n, i, j, hs, ⟨hi, hj, i1, i2, x, sm, j1, j2.le⟩, (C18_time_index a ha m d n hs).2,
    getValue_eq a ha lat lon m d n i j hs ei hi ej hj hd⟩

/-- C18: `get_value_mds_style` likewise on the one-degree grid, with the MDS border rule. -/
theorem C18_get_value_mds (a : Arr3) (ha : a.nt = 1 ∨ a.nt = 73 ∨ a.nt = 365) (hy : a.ny = 180)
    (hx : a.nx = 360) (lat lon : Rat) (h1 : -90 ≤ lat) (h2 : lat ≤ 90) (h3 : -180 ≤ lon) (h4 : lon ≤ 180)
    (m d : Int) (hd : IsDate 2004 m d) :
    ∃ n i j, CalendarSlot m d n ∧ InCell a.ny a.nx lat lon i j ∧ timeSlot a.nt n < a.nt ∧
      mdsLatToYindex lat 1 = i ∧ mdsLonToXindex lon 1 = j ∧
      a.getValueMds lat lon (some m) (some d) = .ok (a.val (timeSlot a.nt n) i j) := by
  obtain ⟨n, hs⟩ := calendarSlot_exists hd
  obtain ⟨i, ei, hi, i1, i2, _⟩ := C15_mds_lat_row 90 (by norm_num) (by norm_num) lat h1 h2
  obtain ⟨j, ej, hj, j1, j2, _⟩ := C15_mds_lon_column 180 (by norm_num) (by norm_num) lon h3 h4
  norm_num at ei ej
  have hb := (badMonthDay_iff (some m) (some d)).2 ⟨m, d, rfl, rfl, hd⟩
  obtain ⟨t1, t2⟩ := C18_time_index a ha m d n hs
  refine ⟨n, i, j, hs, ?_, t2, ei, ej, ?_⟩
  · rw [hy, hx]
    exact ⟨hi, hj, i1, i2, lon, ⟨0, by simp⟩, j1, j2⟩
  · unfold Arr3.getValueMds
    simp only [hb, Bool.false_eq_true, if_false, Option.getD_some, t1, except_bind_ok, ei, ej]
    exact a.get_nat t2 (by omega) (by omega)

/-- C18: `get_value_ostia` on the 0.05 degree grid. -/
theorem C18_get_value_ostia (a : Arr3) (ht : 0 < a.nt) (hy : a.ny = 3600)
    (hx : a.nx = 7200) (lat lon : Rat) (h1 : -90 ≤ lat) (h2 : lat ≤ 90) (h3 : -180 ≤ lon) (h4 : lon ≤ 180) :
    ∃ i j, InCell a.ny a.nx lat lon i j ∧ a.getValueOstia lat lon = .ok (a.val 0 i j) := by
  obtain ⟨i, ei, hi, i1, i2, _⟩ := C15_mds_lat_row 1800 (by norm_num) (by norm_num) lat h1 h2
  obtain ⟨j, ej, hj, j1, j2, _⟩ := C15_mds_lon_column 3600 (by norm_num) (by norm_num) lon h3 h4
  norm_num at ei ej
  refine ⟨i, j, ?_, ?_⟩
  · rw [hy, hx]
    exact ⟨hi, hj, i1, i2, lon, ⟨0, by simp⟩, j1, j2⟩
  · unfold Arr3.getValueOstia
    rw [show (1/20 : Rat) = 1/20 from rfl, ei, ej]
    exact a.get_nat ht (by omega) (by omega)

/-- A pentad field on the one-degree grid, used in the examples. -/
def exampleField : Arr3 := { nt := 73, ny := 180, nx := 360, val := fun t y x => some (t + y + x) }

example : exampleField.getValueMds 0 0 (some 2) (some 29) = .ok (some (11 + 90 + 179)) := by
  decide +kernel
example : exampleField.getValueMds 0 0 (some 2) (some 30) = .ok none := by decide +kernel

/-! ## C19 loading -/

/-- Centre of row `i`, counted from the north. -/
def Spec.rowCentre (ny i : Nat) : Rat := 90 - ((i:Rat) + 1 / 2) * (180 / ny)
/-- Centre of column `j`, counted from -180. -/
def Spec.colCentre (nx j : Nat) : Rat := -180 + ((j:Rat) + 1 / 2) * (360 / nx)
/-- Latitude of stored row `y`, in a file listing latitudes from the south or from the north. -/
def Spec.storedLat (southFirst : Bool) (ny y : Nat) : Rat :=
  if southFirst then -90 + ((y:Rat) + 1 / 2) * (180 / ny) else 90 - ((y:Rat) + 1 / 2) * (180 / ny)
/-- Longitude of stored column `x`, in a file starting at longitude 0 or at -180. -/
def Spec.storedLon (zeroFirst : Bool) (nx x : Nat) : Rat :=
  if zeroFirst then ((x:Rat) + 1 / 2) * (360 / nx) else -180 + ((x:Rat) + 1 / 2) * (360 / nx)

/-- The loaded field holds at each cell what the file stores for the centre of that cell. -/
def Spec.LoadedFrom (f a : Arr3) (lat lon : Nat → Rat) : Prop :=
  f.nt = a.nt ∧ ∀ t y x i j, t < a.nt → y < f.ny → x < f.nx → i < f.ny → j < f.nx →
    rowCentre f.ny i = lat y → SameMeridian (colCentre f.nx j) (lon x) → f.val t i j = a.val t y x

theorem row_match {s : Bool} {ny y i : Nat} (hny : 0 < ny) (hy : y < ny)
    (h : rowCentre ny i = storedLat s ny y) : y = if s then ny - 1 - i else i := by
  have hn' : (0 : Rat) < ny := by exact_mod_cast hny
  unfold rowCentre storedLat at h
  cases s
  · simp at h ⊢
    rcases h with h | h
    · exact_mod_cast h.symm
    · omega
  · simp only [if_true] at h ⊢
    have e : (ny : Rat) * (180 / ny) = 180 := by field_simp
    have : (ny - 1 - (i:Rat) - y) * (180 / ny) = 0 := by linear_combination e + h
    have hr : (180 : Rat) / ny ≠ 0 := by positivity
    have := (mul_eq_zero.1 this).resolve_right hr
    have : (ny : Rat) = i + y + 1 := by linarith
    have : ny = i + y + 1 := by exact_mod_cast this
    omega

theorem col_match {z : Bool} {nx x j : Nat} (hnx : 0 < nx) (hev : 2 ∣ nx) (hx : x < nx) (hj : j < nx)
    (h : SameMeridian (colCentre nx j) (storedLon z nx x)) :
    x = if z then (j + (nx - nx / 2)) % nx else j := by
  have hn' : (0 : Rat) < nx := by exact_mod_cast hnx
  obtain ⟨k, h⟩ := h
  obtain ⟨h2, hh⟩ := hev
  have e : (nx : Rat) * (360 / nx) = 360 := by field_simp
  have hr : (360 : Rat) / nx ≠ 0 := by positivity
  unfold colCentre storedLon at h
  cases z
  · simp only [Bool.false_eq_true, if_false] at h ⊢
    have : ((j:Rat) - x - nx * k) * (360 / nx) = 0 := by linear_combination h - k * e
    have := (mul_eq_zero.1 this).resolve_right hr
    have : (j : Rat) = x + nx * k := by linarith
    have hz : (j : Int) = x + nx * k := by exact_mod_cast this
    have k0 : k = 0 := by
      rcases lt_trichotomy k 0 with c | c | c
      · nlinarith
      · exact c
      · nlinarith
    rw [k0] at hz; omega
  · simp only [if_true] at h ⊢
    have : (2 * (j:Rat) - nx - 2 * x - 2 * nx * k) * (360 / nx) = 0 := by
      linear_combination 2 * h - 2 * k * e - e
    have := (mul_eq_zero.1 this).resolve_right hr
    have : 2 * (j : Rat) = nx + 2 * x + 2 * nx * k := by linarith
    have hz : 2 * (j : Int) = nx + 2 * x + 2 * nx * k := by exact_mod_cast this
    have hk : k = 0 ∨ k = -1 := by
      have c1 : -2 < k := by nlinarith
      have c2 : k < 1 := by nlinarith
      omega
    rcases hk with rfl | rfl
    · have : j + (nx - nx / 2) = x + nx := by omega
      rw [this, Nat.add_mod_right, Nat.mod_eq_of_lt hx]
    · have : j + (nx - nx / 2) = x := by omega
      rw [this, Nat.mod_eq_of_lt hx]

/-- The flips and rolls of `from_filename` after the transposition. -/
theorem orient_spec (a : Arr3) (s z : Bool) (hy : 2 ≤ a.ny) (hx : 180 < a.nx) (hev : 2 ∣ a.nx) :
    let f := if storedLat s a.ny 0 < 0 then a.flip1 else a
    let g := if storedLon z a.nx 0 > 0 ∧ storedLon z a.nx 0 < 1 then f.roll2 (f.nx / 2) else f
    g.nt = a.nt ∧ g.ny = a.ny ∧ g.nx = a.nx ∧ LoadedFrom g a (storedLat s a.ny) (storedLon z a.nx) := by
  have hn1 : (2 : Rat) ≤ a.ny := by exact_mod_cast hy
  have hn2 : (180 : Rat) < a.nx := by exact_mod_cast hx
  have hlat : storedLat s a.ny 0 < 0 ↔ s = true := by
    unfold storedLat
    have p : (180:Rat) / a.ny ≤ 90 := by rw [div_le_iff₀ (by linarith)]; linarith
    cases s
    · simp; linarith
    · simp; linarith
  have hlon : (storedLon z a.nx 0 > 0 ∧ storedLon z a.nx 0 < 1) ↔ z = true := by
    unfold storedLon
    have p : (360:Rat) / a.nx < 2 := by rw [div_lt_iff₀ (by linarith)]; linarith
    have p0 : (0:Rat) < 360 / a.nx := div_pos (by norm_num) (by linarith)
    cases z
    · simp; intro; linarith
    · simp; constructor <;> linarith
  intro f g
  have hf : f = if s then a.flip1 else a := by simp only [f, hlat]
  have hg : g = if z then f.roll2 (f.nx / 2) else f := by simp only [g, hlon]
  have d : g.nt = a.nt ∧ g.ny = a.ny ∧ g.nx = a.nx := by
    rw [hg, hf]; cases s <;> cases z <;> exact ⟨rfl, rfl, rfl⟩
  refine ⟨d.1, d.2.1, d.2.2, d.1, ?_⟩
  rw [d.2.1, d.2.2]
  intro t y x i j _ hy' hx' hi' hj' er ec
  have r1 := row_match (by omega) hy' er
  have c1 := col_match (by omega) hev hx' hj' ec
  rw [r1, c1, hg, hf]
  cases s <;> cases z <;> rfl

/-- C19 for three-dimensional variables on grids finer than two degrees: whichever way the file orders its
latitudes and wherever its longitudes start, the loaded field holds for each cell what the file stores for
that position.  Coarser grids starting at longitude 0 and four-dimensional variables are mishandled, see
the violations below. -/
theorem C19_load_partial (a : Arr3) (s z : Bool) (ht : a.nt = 1 ∨ a.nt = 73 ∨ a.nt = 365) (hy : 2 ≤ a.ny)
    (hx : 180 < a.nx) (hev : 2 ∣ a.nx) :
    ∃ f, fromFile3 a (storedLat s a.ny 0) (storedLon z a.nx 0) = .ok f ∧ f.ny = a.ny ∧ f.nx = a.nx ∧
      LoadedFrom f a (storedLat s a.ny) (storedLon z a.nx) := by
  have hnot : ¬ (a.nt = 1 ∧ a.ny = 360 ∧ a.nx = 180) := by omega
  obtain ⟨d1, d2, d3, hl⟩ := orient_spec a s z hy hx hev
  unfold fromFile3
  simp only [if_neg hnot]
  refine ⟨_, ?_, d2, d3, hl⟩
  unfold climInit
  have : (decide ((if storedLon z a.nx 0 > 0 ∧ storedLon z a.nx 0 < 1 then
      (if storedLat s a.ny 0 < 0 then a.flip1 else a).roll2 ((if storedLat s a.ny 0 < 0 then a.flip1 else a).nx / 2)
      else if storedLat s a.ny 0 < 0 then a.flip1 else a).nt = 1) ||
      decide ((if storedLon z a.nx 0 > 0 ∧ storedLon z a.nx 0 < 1 then
      (if storedLat s a.ny 0 < 0 then a.flip1 else a).roll2 ((if storedLat s a.ny 0 < 0 then a.flip1 else a).nx / 2)
      else if storedLat s a.ny 0 < 0 then a.flip1 else a).nt = 73) ||
      decide ((if storedLon z a.nx 0 > 0 ∧ storedLon z a.nx 0 < 1 then
      (if storedLat s a.ny 0 < 0 then a.flip1 else a).roll2 ((if storedLat s a.ny 0 < 0 then a.flip1 else a).nx / 2)
      else if storedLat s a.ny 0 < 0 then a.flip1 else a).nt = 365)) = true := by
    rw [d1]; rcases ht with h | h | h <;> simp [h]
  rw [this]
  rfl

/-- C19: a single one-degree field stored longitude first is transposed. -/
theorem C19_load_transposed (a : Arr3) (s z : Bool) (ht : a.nt = 1) (hy : a.ny = 360) (hx : a.nx = 180) :
    ∃ f, fromFile3 a (storedLat s 180 0) (storedLon z 360 0) = .ok f ∧ f.ny = 180 ∧ f.nx = 360 ∧
      ∀ y x i j, y < 180 → x < 360 → i < 180 → j < 360 →
        rowCentre 180 i = storedLat s 180 y → SameMeridian (colCentre 360 j) (storedLon z 360 x) →
        f.val 0 i j = a.val 0 x y := by
  have hyes : a.nt = 1 ∧ a.ny = 360 ∧ a.nx = 180 := ⟨ht, hy, hx⟩
  have ty : a.transpose.ny = 180 := hx
  have tx : a.transpose.nx = 360 := hy
  have tt : a.transpose.nt = 1 := ht
  have hl := C19_load_partial a.transpose s z (Or.inl tt) (by omega) (by omega) (by omega)
  obtain ⟨f, e, f1, f2, f3, f4⟩ := hl
  rw [ty, tx] at e f4
  refine ⟨f, ?_, by omega, by omega, ?_⟩
  · rw [← e]
    unfold fromFile3
    have hnot : ¬ (a.transpose.nt = 1 ∧ a.transpose.ny = 360 ∧ a.transpose.nx = 180) := by omega
    simp only [if_pos hyes, if_neg hnot]
  · intro y x i j h1 h2 h3 h4 h5 h6
    have := f4 0 y x i j (by omega) (by omega) (by omega) (by omega) (by omega)
      (by rw [f1, ty]; exact h5) (by rw [f2, tx]; exact h6)
    rw [this]
    rfl

/-- C19: any other number of times is rejected. -/
theorem C19_rejects (a : Arr3) (lat0 lon0 : Rat) (h : a.nt ≠ 1 ∧ a.nt ≠ 73 ∧ a.nt ≠ 365) :
    fromFile3 a lat0 lon0 = .error .assertion := by
  unfold fromFile3
  have hnot : ¬ (a.nt = 1 ∧ a.ny = 360 ∧ a.nx = 180) := by omega
  simp only [if_neg hnot]
  have : ∀ f : Arr3, f.nt = a.nt → climInit f = .error .assertion := by
    intro f hf
    simp [climInit, hf, h]
  apply this
  split <;> split <;> rfl

/-- C19 is false for grids of two degrees or coarser: a 5-degree field starting at longitude 2.5 is not
rolled, so the cell at the date line holds the value the file stores for Greenwich. -/
theorem C19_coarse_violation :
    ∃ (a f : Arr3), a.nt = 1 ∧ a.ny = 36 ∧ a.nx = 72 ∧
      fromFile3 a (storedLat false 36 0) (storedLon true 72 0) = .ok f ∧
      ¬ LoadedFrom f a (storedLat false 36) (storedLon true 72) := by
  refine ⟨⟨1, 36, 72, fun _ _ x => some x⟩, ⟨1, 36, 72, fun _ _ x => some x⟩, rfl, rfl, rfl, ?_, ?_⟩
  · unfold fromFile3
    have h1 : ¬ (storedLat false 36 0 < 0) := by norm_num [storedLat]
    have h2 : ¬ (storedLon true 72 0 > 0 ∧ storedLon true 72 0 < 1) := by norm_num [storedLon]
    simp only [if_neg h1, if_neg h2]
    rfl
  · rintro ⟨_, h⟩
    have := h 0 0 36 0 0 (by simp) (by simp) (by simp) (by simp) (by simp) (by norm_num [rowCentre, storedLat])
      ⟨-1, by norm_num [colCentre, storedLon]⟩
    simp at this

/-- C19 is false for four-dimensional variables: the level axis is reversed instead of the latitude axis,
so a file listing latitudes from the south ends up upside down. -/
theorem C19_four_dim_violation :
    ∃ (a : Arr4) (f : Arr3), a.nt = 1 ∧ a.nz = 1 ∧ a.ny = 180 ∧ a.nx = 360 ∧
      fromFile4 a (storedLat true 180 0) (storedLon false 360 0) = .ok f ∧
      ∃ y i, rowCentre 180 i = storedLat true 180 y ∧ f.val 0 i 0 ≠ a.val 0 0 y 0 := by
  refine ⟨⟨1, 1, 180, 360, fun _ _ y _ => some y⟩, ⟨1, 180, 360, fun _ y _ => some y⟩, rfl, rfl, rfl, rfl,
    ?_, 0, 179, ?_, ?_⟩
  · unfold fromFile4
    have h1 : (storedLat true 180 0 < 0) := by norm_num [storedLat]
    have h2 : ¬ (storedLon false 360 0 > 0 ∧ storedLon false 360 0 < 1) := by norm_num [storedLon]
    simp only [if_pos h1, if_neg h2]
    rfl
  · norm_num [rowCentre, storedLat]
  · simp

example : storedLat true 180 0 = -179/2 ∧ storedLon true 360 0 = 1/2 := by norm_num [storedLat, storedLon]

end MarineQC
