import Verif.Lookup.Model
import Verif.Grid.InterpValue
import Verif.Report.Props

/-!
# Properties of the look-up functions (C112-C114)
-/

namespace MarineQC

open Spec

/-- The arguments of a look-up: a place on the earth, the longitude within the bounds, and a day of a leap year. -/
def Spec.Within (lo hi : Rat) (lat lon : Option Rat) (month day : Option Int) : Prop :=
  ∃ la x m d, lat = some la ∧ lon = some x ∧ month = some m ∧ day = some d ∧ -90 ≤ la ∧ la ≤ 90 ∧ lo ≤ x ∧ x ≤ hi ∧ IsDate 2004 m d

theorem placeAndDay_ok {lo hi la x : Rat} {m d : Int} (h1 : -90 ≤ la) (h2 : la ≤ 90) (h3 : lo ≤ x) (h4 : x ≤ hi)
    (hd : IsDate 2004 m d) : placeAndDay lo hi (some la) (some x) (some m) (some d) = .ok (la, x, m, d) := by
  obtain ⟨d1, d2, d3, d4⟩ := hd
  unfold placeAndDay
  simp only [pyAssert_bind, h1, h2, h3, h4, d1, d2, d3, decide_true, if_true, ge_iff_le]
  rw [getElem_monthLengths 2004 m d1 d2]
  simp only [d4, decide_true, pyAssert_bind, if_true]
  rfl

theorem placeAndDay_error {lo hi : Rat} {lat lon : Option Rat} {month day : Option Int} (h : ¬ Within lo hi lat lon month day) :
    placeAndDay lo hi lat lon month day = .error .assertion := by
  unfold placeAndDay
  split
  · rename_i la x m d
    simp only [pyAssert_bind, ge_iff_le, decide_eq_true_eq]
    split_ifs with a1 a2 a3 a4 a5 a6 a7
    · rw [getElem_monthLengths 2004 m a5 a6]
      simp only [pyAssert_bind, decide_eq_true_eq]
      rw [if_neg]
      intro hd
      exact h ⟨la, x, m, d, rfl, rfl, rfl, rfl, a1, a2, a3, a4, a5, a6, a7, hd⟩
    all_goals rfl
  · rfl

/-- A look-up in a field of 73 pentads on the grid of one degree reads what `Climatology.get_value` reads. -/
theorem getSst_getValue (a : Arr3) (ht : a.nt = 73) (hy : a.ny = 180) (hx : a.nx = 360) {la x : Rat} {m d : Int}
    (h1 : -90 ≤ la) (h2 : la ≤ 90) (h3 : -185 ≤ x) (h4 : x ≤ 365) (hd : IsDate 2004 m d) :
    getSst (some la) (some x) (some m) (some d) a = a.getValue la x (some m) (some d) := by
  have hr : a.res = 1 := by unfold Arr3.res; rw [hy]; norm_num
  have hb : badMonthDay (some m) (some d) = false := (badMonthDay_iff _ _).mpr ⟨m, d, rfl, rfl, hd⟩
  unfold getSst Arr3.getValue
  rw [placeAndDay_ok h1 h2 h3 h4 hd, hb]
  simp only [except_bind_ok, hy, hx, ht, hr, Option.getD_some, Arr3.getTindex]
  norm_num

theorem getSst_single (a : Arr3) (ht : a.nt = 1) (hy : a.ny = 180) (hx : a.nx = 360) {la x : Rat} {m d : Int}
    (h1 : -90 ≤ la) (h2 : la ≤ 90) (h3 : -180 ≤ x) (h4 : x ≤ 360) (hd : IsDate 2004 m d) :
    getSst (some la) (some x) (some m) (some d) a = a.getValue la x (some m) (some d) := by
  have hr : a.res = 1 := by unfold Arr3.res; rw [hy]; norm_num
  have hb : badMonthDay (some m) (some d) = false := (badMonthDay_iff _ _).mpr ⟨m, d, rfl, rfl, hd⟩
  unfold getSst Arr3.getValue
  rw [placeAndDay_ok h1 h2 (by linarith) (by linarith) hd, hb]
  simp only [except_bind_ok, hy, hx, ht, hr, Option.getD_some, Arr3.getTindex, getSstSingleField, pyAssert_bind, ge_iff_le, h1, h2,
    h3, h4, decide_true, if_true]
  norm_num

/-- **C112.**  `get_sst` reads a field of 73 pentads (longitudes from -185 to 365) or a single field (from -180 to 360), on the
grid of one degree, in the cell that holds the place, and in the pentad of the day; the result is `None` where the field is
masked. -/
theorem C112_get_sst_partial (a : Arr3) (hy : a.ny = 180) (hx : a.nx = 360) (la x : Rat) (m d : Int)
    (h1 : -90 ≤ la) (h2 : la ≤ 90) (h3 : (a.nt = 73 ∧ -185 ≤ x ∧ x ≤ 365) ∨ (a.nt = 1 ∧ -180 ≤ x ∧ x ≤ 360))
    (hd : IsDate 2004 m d) :
    ∃ n i j, CalendarSlot m d n ∧ InCell 180 360 la x i j ∧
      getSst (some la) (some x) (some m) (some d) a = .ok (a.val (if a.nt = 1 then 0 else n / 5) i j) := by
  have e : getSst (some la) (some x) (some m) (some d) a = a.getValue la x (some m) (some d) ∧ -540 ≤ x := by
    rcases h3 with ⟨h, a1, a2⟩ | ⟨h, a1, a2⟩
    · exact ⟨getSst_getValue a h hy hx h1 h2 a1 a2 hd, by linarith⟩
    · exact ⟨getSst_single a h hy hx h1 h2 a1 a2 hd, by linarith⟩
  have ht : a.nt = 1 ∨ a.nt = 73 ∨ a.nt = 365 := by
    rcases h3 with ⟨h, -⟩ | ⟨h, -⟩ <;> simp [h]
  obtain ⟨n, i, j, hs, hc, -, hv⟩ := C18_get_value a ht (by omega) (by omega) la x h1 h2 e.2 m d hd
  rw [hy, hx] at hc
  refine ⟨n, i, j, hs, hc, ?_⟩
  rw [e.1, hv]
  unfold timeSlot
  rcases h3 with ⟨h, -⟩ | ⟨h, -⟩ <;> simp [h]

/-- **C112.**  `get_hires_sst` reads the value of the cell of a quarter of a degree that holds the place, on the day; −999
stands for a missing value. -/
theorem C112_get_hires_sst (a : Arr4) (ht : a.nt = 365) (hz : 0 < a.nz) (hy : a.ny = 720) (hx : a.nx = 1440) (la x : Rat)
    (m d : Int) (h1 : -90 ≤ la) (h2 : la ≤ 90) (h3 : -180 ≤ x) (h4 : x ≤ 360) (hd : IsDate 2004 m d) :
    ∃ n i j, CalendarSlot m d n ∧ InCell 720 1440 la x i j ∧
      getHiresSst (some la) (some x) (some m) (some d) a =
        .ok (if a.val n 0 i j = some (-999) then none else a.val n 0 i j) := by
  obtain ⟨n, hs⟩ := calendarSlot_exists hd
  obtain ⟨i, ei, hi, i1, i2, _⟩ := C13_lat_row 720 (by norm_num) la h1 h2
  obtain ⟨j, y, ej, hj, sm, j1, j2⟩ := C14_lon_column 1440 (by norm_num) x (by linarith)
  norm_num at ei ej
  refine ⟨n, i, j, hs, ⟨hi, hj, i1, i2, y, sm, j1, j2.le⟩, ?_⟩
  have hday : dayInYear m d = .ok ((n : Int) + 1) := by
    have h365 : (⟨365, 1, 1, fun _ _ _ => none⟩ : Arr3).getTindex m d = .ok ((timeSlot 365 n : Nat) : Int) :=
      (C18_time_index ⟨365, 1, 1, fun _ _ _ => none⟩ (Or.inr (Or.inr rfl)) m d n hs).1
    unfold Arr3.getTindex timeSlot at h365
    norm_num at h365
    cases hh : dayInYear m d with
    | error e => rw [hh] at h365; cases h365
    | ok q =>
      rw [hh] at h365
      simp only [except_bind_ok, Except.ok.injEq] at h365
      congr 1
      omega
  unfold getHiresSst Arr4.get0
  rw [placeAndDay_ok h1 h2 h3 h4 hd]
  simp only [except_bind_ok, hday, ei, ej]
  have e0 : npAxis a.nt ((n : Int) + 1 - 1) = .ok n := by
    rw [show (n : Int) + 1 - 1 = (n : Int) by ring]
    exact npAxis_nat (by have := hs.1; omega)
  have e1 : npAxis a.nz 0 = .ok 0 := npAxis_nat hz
  rw [e0, e1, npAxis_nat (by omega), npAxis_nat (by omega)]
  rfl

/-- **C112.**  `get_sst_daily` reads a field of 365 days on the grid of one degree, for longitudes from -180 to 180. -/
theorem C112_get_sst_daily_partial (a : Arr3) (ht : a.nt = 365) (hy : a.ny = 180) (hx : a.nx = 360) (la x : Rat)
    (m d : Int) (h1 : -90 ≤ la) (h2 : la ≤ 90) (h3 : -180 ≤ x) (h4 : x ≤ 180) (hd : IsDate 2004 m d) :
    ∃ n i j, CalendarSlot m d n ∧ InCell 180 360 la x i j ∧
      getSstDaily (some la) (some x) (some m) (some d) a = .ok (a.val n i j) := by
  obtain ⟨n, i, j, hs, hc, -, -, -, hv⟩ := C18_get_value_mds a (Or.inr (Or.inr ht)) hy hx la x h1 h2 h3 h4 m d hd
  rw [hy, hx] at hc
  refine ⟨n, i, j, hs, hc, ?_⟩
  have hb : badMonthDay (some m) (some d) = false := (badMonthDay_iff _ _).mpr ⟨m, d, rfl, rfl, hd⟩
  unfold Arr3.getValueMds at hv
  rw [hb] at hv
  simp only [Arr3.getTindex, ht, Option.getD_some, timeSlot] at hv
  norm_num at hv
  unfold getSstDaily
  rw [placeAndDay_ok h1 h2 (by linarith) (by linarith) hd]
  simp only [except_bind_ok]
  cases hh : dayInYear m d with
  | error e => rw [hh] at hv; cases hv
  | ok q => rw [hh] at hv; exact hv

/-- **C112.**  A missing or impossible argument raises AssertionError in all look-ups. -/
theorem C112_rejects (a : Arr3) (b : Arr4) (lat lon : Option Rat) (month day : Option Int) :
    (¬ Within (-185) 365 lat lon month day → getSst lat lon month day a = .error .assertion ∧
      getSstDaily lat lon month day a = .error .assertion) ∧
    (¬ Within (-180) 360 lat lon month day → getHiresSst lat lon month day b = .error .assertion) := by
  refine ⟨fun h => ⟨?_, ?_⟩, fun h => ?_⟩
  · unfold getSst; rw [placeAndDay_error h]; rfl
  · unfold getSstDaily; rw [placeAndDay_error h]; rfl
  · unfold getHiresSst; rw [placeAndDay_error h]; rfl

/-- **C112 fails** for `get_sst_daily` east of 180: longitudes up to 365 pass its assertions, and all of them raise
IndexError. -/
theorem C112_daily_violation (a : Arr3) (ht : a.nt = 365) (hy : a.ny = 180) (hx : a.nx = 360) (la x : Rat) (m d : Int)
    (h1 : -90 ≤ la) (h2 : la ≤ 90) (h3 : 180 < x) (h4 : x ≤ 365) (hd : IsDate 2004 m d) :
    getSstDaily (some la) (some x) (some m) (some d) a = .error .index := by
  obtain ⟨n, i, j, hs, hc, -, ei, -, -⟩ := C18_get_value_mds a (Or.inr (Or.inr ht)) hy hx la 0 h1 h2 (by norm_num) (by norm_num) m d hd
  have htime := (C18_time_index a (Or.inr (Or.inr ht)) m d n hs)
  unfold Arr3.getTindex timeSlot at htime
  simp only [ht] at htime
  norm_num at htime
  unfold getSstDaily
  rw [placeAndDay_ok h1 h2 (by linarith) (by linarith) hd]
  simp only [except_bind_ok]
  cases hh : dayInYear m d with
  | error e => rw [hh] at htime; cases htime.1
  | ok q =>
    rw [hh] at htime
    simp only [except_bind_ok, Except.ok.injEq] at htime
    have hxi : 360 ≤ mdsLonToXindex x 1 := by
      unfold mdsLonToXindex
      have c1 : x ≠ -180 := by intro e; linarith
      have c2 : x ≠ 180 := by intro e; linarith
      simp only [c1, c2, if_false, show (0 : Rat) < x by linarith, if_true, div_one]
      have hfl : (180 : Int) ≤ pyInt x := by
        unfold pyInt
        rw [if_pos (by linarith)]
        exact Int.le_floor.mpr (by push_cast; linarith)
      have : ((pyInt x : Rat) + 180) = ((pyInt x + 180 : Int) : Rat) := by push_cast; ring
      rw [this]
      generalize pyInt x = k at hfl
      have hk : (0 : Rat) ≤ ((k + 180 : Int) : Rat) := by exact_mod_cast (by omega : (0 : Int) ≤ k + 180)
      unfold pyInt
      rw [if_pos hk, Int.floor_intCast]
      omega
    unfold Arr3.get
    simp only [except_bind_ok]
    rw [htime.1, npAxis_nat (by omega), ei, npAxis_nat hc.1]
    simp only [except_bind_ok]
    have : npAxis a.nx (mdsLonToXindex x 1) = .error .index := by
      have c1 : ¬ mdsLonToXindex x 1 < 0 := by omega
      have c2 : ¬ (0 ≤ mdsLonToXindex x 1 ∧ mdsLonToXindex x 1 < a.nx) := by omega
      unfold npAxis
      simp only [c1, c2, if_false]
    rw [this]
    rfl

/-- **C112 fails** for single fields: `get_sst` takes longitudes from -185 to 365, but for a field of one time those beyond -180
and 360 raise AssertionError. -/
theorem C112_single_violation (a : Arr3) (ht : a.nt = 1) (hy : a.ny = 180) (hx : a.nx = 360) (la x : Rat) (m d : Int)
    (h1 : -90 ≤ la) (h2 : la ≤ 90) (h3 : (-185 ≤ x ∧ x < -180) ∨ (360 < x ∧ x ≤ 365)) (hd : IsDate 2004 m d) :
    getSst (some la) (some x) (some m) (some d) a = .error .assertion := by
  unfold getSst
  rw [placeAndDay_ok h1 h2 (by rcases h3 with h | h <;> linarith) (by rcases h3 with h | h <;> linarith) hd]
  simp only [except_bind_ok, hy, hx, ht, getSstSingleField, pyAssert_bind, ge_iff_le, h1, h2, decide_true, if_true]
  rcases h3 with ⟨h, h'⟩ | ⟨h, h'⟩
  · have : ¬ -180 ≤ x := by linarith
    simp [this]
  · have g : -180 ≤ x := by linarith
    have : ¬ x ≤ 360 := by linarith
    simp [this, g]

/-! ## Normals of reports -/

/-- The report has a place on the earth and a day of a leap year. -/
def Spec.HasPlaceAndDay (r : Report) (la x : Rat) (m d : Int) : Prop :=
  r.lat = some la ∧ r.lon = some x ∧ r.getint "MO" = some m ∧ r.getint "DY" = some d ∧ -90 ≤ la ∧ la ≤ 90 ∧ -180 ≤ x ∧ x ≤ 180 ∧
    IsDate 2004 m d

/-- A longitude of a report is at most 180 when it was at most 540. -/
theorem report_lon_le {r : Report} {x y : Rat} (h : r.lon = some x) (hl : r.getvar "LON" = some y) (hy : y ≤ 540) : x ≤ 180 := by
  unfold Report.lon at h
  rw [hl] at h
  simp only at h
  split_ifs at h with h1
  · cases h; linarith
  · cases h; linarith

/-- **C113.**  `get_clim` gives a report with a place and a day the value of the cell that holds it, in the pentad of the day,
and `None` where the field is masked. -/
theorem C113_get_clim (a : Arr3) (ht : a.nt = 73 ∨ a.nt = 1) (hy : a.ny = 180) (hx : a.nx = 360) (r : Report) (la x : Rat)
    (m d : Int) (h : HasPlaceAndDay r la x m d) :
    ∃ n i j, CalendarSlot m d n ∧ InCell 180 360 la x i j ∧ getClim r a = a.val (if a.nt = 1 then 0 else n / 5) i j := by
  obtain ⟨e1, e2, e3, e4, h1, h2, h3, h4, hd⟩ := h
  obtain ⟨n, i, j, hs, hc, hv⟩ := C112_get_sst_partial a hy hx la x m d h1 h2 (by
    rcases ht with ht | ht
    · exact Or.inl ⟨ht, by linarith, by linarith⟩
    · exact Or.inr ⟨ht, by linarith, by linarith⟩) hd
  refine ⟨n, i, j, hs, hc, ?_⟩
  unfold getClim
  rw [e1, e2, e3, e4, hv]
  rfl

/-- **C113.**  The same for `get_hires_clim`, where −999 stands for a missing value. -/
theorem C113_get_hires_clim (a : Arr4) (ht : a.nt = 365) (hz : 0 < a.nz) (hy : a.ny = 720) (hx : a.nx = 1440) (r : Report)
    (la x : Rat) (m d : Int) (h : HasPlaceAndDay r la x m d) :
    ∃ n i j, CalendarSlot m d n ∧ InCell 720 1440 la x i j ∧
      getHiresClim r a = if a.val n 0 i j = some (-999) then none else a.val n 0 i j := by
  obtain ⟨e1, e2, e3, e4, h1, h2, h3, h4, hd⟩ := h
  obtain ⟨n, i, j, hs, hc, hv⟩ := C112_get_hires_sst a ht hz hy hx la x m d h1 h2 h3 (by linarith) hd
  refine ⟨n, i, j, hs, hc, ?_⟩
  unfold getHiresClim
  rw [e1, e2, e3, e4, hv]
  rfl

/-- **C113.**  A report that has no latitude, longitude or day that exists, or a latitude off the earth, has no normal. -/
theorem C113_missing (a : Arr3) (b : Arr4) (r : Report)
    (h : r.lat = none ∨ r.lon = none ∨ (∃ la, r.lat = some la ∧ (la < -90 ∨ 90 < la)) ∨
      ¬ ∃ m d, r.getint "MO" = some m ∧ r.getint "DY" = some d ∧ IsDate 2004 m d) :
    getClim r a = none ∧ getHiresClim r b = none := by
  have key : ∀ lo hi, ¬ Within lo hi r.lat r.lon (r.getint "MO") (r.getint "DY") := by
    rintro lo hi ⟨la, x, m, d, e1, e2, e3, e4, h1, h2, -, -, hd⟩
    rcases h with h | h | ⟨la', h, h'⟩ | h
    · rw [h] at e1; cases e1
    · rw [h] at e2; cases e2
    · rw [h] at e1
      cases e1
      rcases h' with h' | h' <;> linarith
    · exact h ⟨m, d, e3, e4, hd⟩
  constructor
  · unfold getClim
    rw [((C112_rejects a b _ _ _ _).1 (key _ _)).1]
    rfl
  · unfold getHiresClim
    rw [(C112_rejects a b _ _ _ _).2 (key _ _)]
    rfl

/-! ## Interpolation -/

/-- On a field of pentads `get_clim_interpolated` computes what `Climatology.get_interpolated_value` computes. -/
theorem climInterpolated_eq (a : Arr3) (ht : a.nt = 73) (hy : a.ny = 180) (hx : a.nx = 360) (r : Report) (la x : Rat) (m d : Int)
    (h : HasPlaceAndDay r la x m d) (hne : la ≠ -179 / 2) :
    getClimInterpolated r a = a.getInterpolatedValue la x (some m) (some d) := by
  obtain ⟨e1, e2, e3, e4, h1, h2, h3, h4, hd⟩ := h
  obtain ⟨n, hs⟩ := calendarSlot_exists hd
  have ht3 : a.nt = 1 ∨ a.nt = 73 ∨ a.nt = 365 := Or.inr (Or.inl ht)
  have gv : ∀ u v : Rat, -90 ≤ u → u ≤ 90 → -540 ≤ v → a.getValue u v (some m) (some d) = .ok (cellValue a n u v) :=
    fun u v p q w => getValue_cell a ht3 hy hx m d hd n hs u v p q w
  have gs : ∀ u v : Rat, -90 ≤ u → u ≤ 90 → -185 ≤ v → v ≤ 365 → tryValue (getSst (some u) (some v) (some m) (some d) a) =
      cellValue a n u v := by
    intro u v p q w z
    rw [getSst_getValue a ht hy hx p q w z hd, gv u v p q (by linarith)]
    rfl
  have gn : ∀ u v : Rat, ¬ (-90 ≤ u ∧ u ≤ 90) → tryValue (getSst (some u) (some v) (some m) (some d) a) = none := by
    intro u v hc
    rw [((C112_rejects a ⟨0, 0, 0, 0, fun _ _ _ _ => none⟩ (some u) (some v) (some m) (some d)).1 ?_).1]
    · rfl
    · rintro ⟨u', v', m', d', f1, f2, f3, f4, g1, g2, -⟩
      cases f1
      exact hc ⟨g1, g2⟩
  obtain ⟨x1, x2, y1, y2, p0, p1, p2, p3, p4, p5, p6, c1, c2, c3, c4, g1, g2⟩ := fourPoints la x h1 h2 h3 h4 hne
  have e0 : getFourSurroundingPoints la x 0 = .ok (x1, x2, y1, y2) := by simpa using p0 0
  have e1' : getFourSurroundingPoints la x 1 = .ok (x1, x2, max (-179/2) y1, min (179/2) y2) := by simpa using p0 1
  have my1 : -90 ≤ max (-179/2) y1 ∧ max (-179/2) y1 ≤ 90 :=
    ⟨le_trans (by norm_num) (le_max_left _ _), max_le (by norm_num) (by linarith)⟩
  have my2 : -90 ≤ min (179/2) y2 ∧ min (179/2) y2 ≤ 90 :=
    ⟨le_min (by norm_num) (by linarith), le_trans (min_le_left _ _) (by norm_num)⟩
  have q1 := gv _ x1 my1.1 my1.2 (by linarith)
  have q2 := gv _ x1 my2.1 my2.2 (by linarith)
  have q3 := gv _ x2 my1.1 my1.2 (by linarith)
  have q4 := gv _ x2 my2.1 my2.2 (by linarith)
  have r1 := gs _ x1 my1.1 my1.2 (by linarith) (by linarith)
  have r2 := gs _ x1 my2.1 my2.2 (by linarith) (by linarith)
  have r3 := gs _ x2 my1.1 my1.2 (by linarith) (by linarith)
  have r4 := gs _ x2 my2.1 my2.2 (by linarith) (by linarith)
  unfold getClimInterpolated Arr3.getInterpolatedValue
  rw [e1, e2, e3, e4]
  have t : ∀ o, tryValue (.ok o) = o := fun _ => rfl
  by_cases k1 : la + 1/1000 < 90
  · by_cases k2 : la - 1/1000 > -90
    · simp only [k1, k2, if_true]
      rw [gv _ _ (by linarith) (by linarith) (by linarith), gv _ _ (by linarith) (by linarith) (by linarith),
        gv _ _ (by linarith) (by linarith) (by linarith), gv _ _ (by linarith) (by linarith) (by linarith),
        gs _ _ (by linarith) (by linarith) (by linarith) (by linarith), gs _ _ (by linarith) (by linarith) (by linarith) (by linarith),
        gs _ _ (by linarith) (by linarith) (by linarith) (by linarith), gs _ _ (by linarith) (by linarith) (by linarith) (by linarith)]
      simp only [except_bind_ok, except_pure, e0, e1', q1, q2, q3, q4, r1, r2, r3, r4, t]
    · simp only [k1, k2, if_true, if_false]
      rw [gv _ _ (by linarith) (by linarith) (by linarith), gv _ _ (by linarith) (by linarith) (by linarith),
        gs _ _ (by linarith) (by linarith) (by linarith) (by linarith), gs _ _ (by linarith) (by linarith) (by linarith) (by linarith)]
      simp only [except_bind_ok, except_pure, e0, e1', q1, q2, q3, q4, r1, r2, r3, r4, t, Option.isNone_none, Bool.and_true]
      rcases lt_or_eq_of_le (not_lt.mp k2) with k3 | k3
      · rw [gn _ _ (by intro h; linarith [h.1]), gn _ _ (by intro h; linarith [h.1])]
        simp only [Option.isNone_none, Bool.and_true]
      · have same : ∀ v : Rat, -185 ≤ v → v ≤ 365 →
            tryValue (getSst (some (la - 1/1000)) (some v) (some m) (some d) a) = cellValue a n (la + 1/1000) v := by
          intro v p q
          rw [gs _ _ (by linarith) (by linarith) p q]
          unfold cellValue
          have ea : la = -89999/1000 := by linarith
          have el : latToYindex (-89999/1000 - 1/1000) 1 = latToYindex (-89999/1000 + 1/1000) 1 := by decide +kernel
          rw [ea, el]
        rw [same _ (by linarith) (by linarith), same _ (by linarith) (by linarith)]
        congr 1
        cases cellValue a n (la + 1/1000) (x + 1/1000) <;> cases cellValue a n (la + 1/1000) (x - 1/1000) <;> rfl
  · have k2 : la - 1/1000 > -90 := by linarith
    simp only [k1, k2, if_true, if_false]
    rw [gv _ _ (by linarith) (by linarith) (by linarith), gv _ _ (by linarith) (by linarith) (by linarith),
      gs (la - 1/1000) _ (by linarith) (by linarith) (by linarith) (by linarith),
      gs (la - 1/1000) _ (by linarith) (by linarith) (by linarith) (by linarith)]
    simp only [except_bind_ok, except_pure, e0, e1', q1, q2, q3, q4, r1, r2, r3, r4, t, Option.isNone_none, Bool.true_and]
    rcases lt_or_eq_of_le (not_lt.mp k1) with k3 | k3
    · rw [gn _ _ (by intro h; linarith [h.2]), gn _ _ (by intro h; linarith [h.2])]
      simp only [Option.isNone_none, Bool.true_and]
    · have same : ∀ v : Rat, -185 ≤ v → v ≤ 365 →
          tryValue (getSst (some (la + 1/1000)) (some v) (some m) (some d) a) = cellValue a n (la - 1/1000) v := by
        intro v p q
        rw [gs _ _ (by linarith) (by linarith) p q]
        unfold cellValue
        have ea : la = 89999/1000 := by linarith
        have el : latToYindex (89999/1000 + 1/1000) 1 = latToYindex (89999/1000 - 1/1000) 1 := by decide +kernel
        rw [ea, el]
      rw [same _ (by linarith) (by linarith), same _ (by linarith) (by linarith)]
      congr 1
      cases cellValue a n (la - 1/1000) (x + 1/1000) <;> cases cellValue a n (la - 1/1000) (x - 1/1000) <;> rfl

/-- **C114, part.**  `get_clim_interpolated` on a field of pentads does not raise for a report with a place and a day, except at
latitude -89.5.  The result is `None` exactly when the field has no value at any of the places 0.001 degrees to the north or
south and to the east or west that lie between the poles; otherwise it lies between two values that the field has, on the day,
at places not more than a degree away.  *Missing:* latitude -89.5, and single fields. -/
theorem C114_interpolated_partial (a : Arr3) (ht : a.nt = 73) (hy : a.ny = 180) (hx : a.nx = 360) (r : Report) (la x : Rat)
    (m d : Int) (h : HasPlaceAndDay r la x m d) (hne : la ≠ -179 / 2) :
    ∃ o, getClimInterpolated r a = .ok o ∧
      (o = none ↔ ∀ s t : Rat, (s = 1/1000 ∨ s = -1/1000) → (t = 1/1000 ∨ t = -1/1000) → -90 < la + s → la + s < 90 →
        getSst (some (la + s)) (some (x + t)) (some m) (some d) a = .ok none) ∧
      ∀ v, o = some v → ∃ p q u p' q' u' : Rat,
        |p - la| ≤ 1 ∧ |q - x| ≤ 1 ∧ a.getValue p q (some m) (some d) = .ok (some u) ∧ u ≤ v ∧
        |p' - la| ≤ 1 ∧ |q' - x| ≤ 1 ∧ a.getValue p' q' (some m) (some d) = .ok (some u') ∧ v ≤ u' := by
  have e := climInterpolated_eq a ht hy hx r la x m d h hne
  obtain ⟨-, -, -, -, h1, h2, h3, h4, hd⟩ := h
  obtain ⟨o, o1, o2, o3⟩ := C71_interpolated_partial a (Or.inr (Or.inl ht)) hy hx m d hd la x h1 h2 h3 h4 hne
  refine ⟨o, e.trans o1, o2.trans ?_, o3⟩
  have key : ∀ s t : Rat, (t = 1/1000 ∨ t = -1/1000) → -90 < la + s → la + s < 90 →
      getSst (some (la + s)) (some (x + t)) (some m) (some d) a = a.getValue (la + s) (x + t) (some m) (some d) := by
    intro s t ht' l1 l2
    have t1 : -1/1000 ≤ t ∧ t ≤ 1/1000 := by rcases ht' with rfl | rfl <;> norm_num
    exact getSst_getValue a ht hy hx l1.le l2.le (by linarith [t1.1]) (by linarith [t1.2]) hd
  constructor
  · intro hh s t a1 a2 a3 a4
    rw [key s t a2 a3 a4]
    exact hh s t a1 a2 a3 a4
  · intro hh s t a1 a2 a3 a4
    rw [← key s t a2 a3 a4]
    exact hh s t a1 a2 a3 a4

/-- **C114.**  At the centre of a cell (not in the southernmost row) the result is the value of that cell. -/
theorem C114_at_cell_centre (a : Arr3) (ht : a.nt = 73) (hy : a.ny = 180) (hx : a.nx = 360) (r : Report) (m d : Int) (i j : Nat)
    (hi : i < 179) (hj : j < 360) (h : HasPlaceAndDay r (rowCentre 180 i) (colCentre 360 j) m d) :
    getClimInterpolated r a = .ok (getClim r a) := by
  have hi' : (i : Rat) ≤ 178 := by exact_mod_cast Nat.le_of_lt_succ hi
  have e := climInterpolated_eq a ht hy hx r _ _ m d h (by unfold rowCentre; norm_num; intro hc; linarith)
  obtain ⟨e1, e2, e3, e4, h1, h2, h3, h4, hd⟩ := h
  rw [e, C71_at_cell_centre a (Or.inr (Or.inl ht)) hy hx m d hd i j hi hj]
  unfold getClim
  rw [e1, e2, e3, e4, getSst_getValue a ht hy hx h1 h2 (by linarith) (by linarith) hd]
  obtain ⟨n, i', j', -, -, -, hv⟩ := C18_get_value a (Or.inr (Or.inl ht)) (by omega) (by omega) _ _ h1 h2 (by linarith) m d hd
  rw [hv]
  rfl

/-- **C114.**  A report without a place, or without a day that exists, gets `None`. -/
theorem C114_missing (a : Arr3) (r : Report)
    (h : r.lat = none ∨ r.lon = none ∨ ¬ ∃ m d, r.getint "MO" = some m ∧ r.getint "DY" = some d ∧ IsDate 2004 m d) :
    getClimInterpolated r a = .ok none := by
  unfold getClimInterpolated
  rcases h with h | h | h
  · rw [h]
  · rw [h]
    cases r.lat <;> rfl
  · cases r.lat with
    | none => rfl
    | some la =>
      cases r.lon with
      | none => rfl
      | some x =>
        have : ∀ u v : Rat, tryValue (getSst (some u) (some v) (r.getint "MO") (r.getint "DY") a) = none := by
          intro u v
          rw [((C112_rejects a ⟨0, 0, 0, 0, fun _ _ _ _ => none⟩ (some u) (some v) _ _).1 ?_).1]
          · rfl
          · rintro ⟨u', v', m', d', f1, f2, f3, f4, g1, g2, -, -, hd⟩
            exact h ⟨m', d', f3, f4, hd⟩
        simp only [this]
        rfl

/-- **C114 fails** at latitude -89.5: as soon as the field has a value just to the north-east of the report, the interpolation
ends in an `AssertionError`. -/
theorem C114_south_violation (a : Arr3) (r : Report) (x : Rat) (m d : Int) (h : HasPlaceAndDay r (-179/2) x m d) (v : Rat)
    (hv : getSst (some (-179/2 + 1/1000)) (some (x + 1/1000)) (some m) (some d) a = .ok (some v)) :
    getClimInterpolated r a = .error .assertion := by
  obtain ⟨h1, h2, h3, h4, -, -, h5, h6, -⟩ := h
  obtain ⟨x1, x2, e1⟩ := C16_surrounding_points_violation x h5 h6 1
  obtain ⟨x1', x2', e0⟩ := C16_surrounding_points_violation x h5 h6 0
  unfold getClimInterpolated
  rw [h1, h2, h3, h4]
  have t : tryValue (.ok (some v)) = some v := rfl
  simp only [hv, t, Option.isNone_some, Bool.false_and, Bool.false_eq_true, if_false, e1, e0, except_bind_ok]
  rw [C17_bilinear_rejects _ _ _ _ _ _ _ _ _ _ (by right; right; right; right; right; left; exact le_refl _)]
  rfl

/-- Non-vacuity of the theorem above. -/
example : ∃ r, HasPlaceAndDay r (-179/2) 0 1 1 ∧
    getSst (some (-179/2 + 1/1000)) (some (0 + 1/1000)) (some 1) (some 1) ⟨73, 180, 360, fun _ _ _ => some 5⟩ = .ok (some 5) := by
  refine ⟨{ Report.empty none none with data := fun k => List.lookup k [("LAT", (-179/2 : Rat)), ("LON", 0), ("MO", 1), ("DY", 1)] }, ?_, ?_⟩
  · unfold HasPlaceAndDay
    decide +kernel
  · have hd : IsDate 2004 1 1 := by decide
    obtain ⟨n, hs⟩ := calendarSlot_exists hd
    rw [getSst_getValue _ rfl rfl rfl (by norm_num) (by norm_num) (by norm_num) (by norm_num) hd,
      getValue_cell _ (Or.inr (Or.inl rfl)) rfl rfl 1 1 hd n hs _ _ (by norm_num) (by norm_num) (by norm_num)]
    rfl

theorem lon_column {x : Rat} (k : Int) (h : -180 ≤ x) (h' : x < 180) (hk : pyInt (x + 180) = k) (hk' : k < 360) :
    lonToXindex x 1 = k := by
  unfold lonToXindex
  simp only [show ¬ (x ≥ 180) by intro hc; linarith, show ¬ (x < -180) by intro hc; linarith, if_false, if_true, hk]
  rw [wrapIndex, if_neg]
  · unfold pyInt; split_ifs <;> simp
  · rintro ⟨-, h⟩
    have : (360 : Int) ≤ k := by exact_mod_cast h
    omega

/-- A single field that is 0 in the easternmost column and 10 elsewhere. -/
def datelineField : Arr3 := ⟨1, 180, 360, fun _ _ j => some (if j = 359 then 0 else 10)⟩

/-- A report a quarter of a degree east of the date line. -/
def datelineReport : Report :=
  { Report.empty (some "A") (some "U") with
    data := fun k => List.lookup k [("LAT", (1/2 : Rat)), ("LON", -719/4), ("YR", 2003), ("MO", 1), ("DY", 1)] }

/-- **C114 fails** for single fields next to the date line: a quarter of a degree east of it the neighbours to the west are left
out, and the result is 10 where interpolation between 0 and 10 gives 7.5. -/
theorem C114_dateline_violation :
    HasPlaceAndDay datelineReport (1/2) (-719/4) 1 1 ∧ getClimInterpolated datelineReport datelineField = .ok (some 10) ∧
    datelineField.getInterpolatedValue (1/2) (-719/4) (some 1) (some 1) = .ok (some (15/2)) := by
  have hp : HasPlaceAndDay datelineReport (1/2) (-719/4) 1 1 := by
    unfold HasPlaceAndDay
    decide +kernel
  refine ⟨hp, ?_⟩
  have hd : IsDate 2004 1 1 := by decide
  obtain ⟨e1, e2, e3, e4, -⟩ := hp
  obtain ⟨n, hs⟩ := calendarSlot_exists hd
  have gv : ∀ u v : Rat, -90 ≤ u → u ≤ 90 → -540 ≤ v → datelineField.getValue u v (some 1) (some 1) =
      .ok (some (if (lonToXindex v 1).toNat = 359 then 0 else 10)) :=
    fun u v p q w => getValue_cell datelineField (Or.inl rfl) rfl rfl 1 1 hd n hs u v p q w
  have gs : ∀ u v : Rat, -90 ≤ u → u ≤ 90 → -180 ≤ v → v ≤ 360 →
      tryValue (getSst (some u) (some v) (some 1) (some 1) datelineField) = some (if (lonToXindex v 1).toNat = 359 then 0 else 10) := by
    intro u v p q w z
    rw [getSst_single datelineField rfl rfl rfl p q w z hd, gv u v p q (by linarith)]
    rfl
  have gn : ∀ u : Rat, -90 ≤ u → u ≤ 90 → tryValue (getSst (some u) (some (-361/2)) (some 1) (some 1) datelineField) = none := by
    intro u p q
    rw [C112_single_violation datelineField rfl rfl rfl u (-361/2) 1 1 p q (Or.inl (by norm_num)) hd]
    rfl
  have c1 : lonToXindex (-719/4 + 1/1000) 1 = 0 := lon_column 0 (by norm_num) (by norm_num) (by decide +kernel) (by norm_num)
  have c2 : lonToXindex (-719/4 - 1/1000) 1 = 0 := lon_column 0 (by norm_num) (by norm_num) (by decide +kernel) (by norm_num)
  have c3 : lonToXindex (-719/4 + 1/2) 1 = 0 := lon_column 0 (by norm_num) (by norm_num) (by decide +kernel) (by norm_num)
  have c5 : lonToXindex (-359/2) 1 = 0 := lon_column 0 (by norm_num) (by norm_num) (by decide +kernel) (by norm_num)
  have west : ∀ v : Rat, -181 ≤ v → v < -180 → lonToXindex v 1 = 359 := by
    intro v w1 w2
    have := lon_column (x := v + 360) 359 (by linarith) (by linarith) (by
      unfold pyInt
      rw [if_pos (by linarith), Int.floor_eq_iff]
      constructor <;> push_cast <;> linarith) (by norm_num)
    rw [← this]
    unfold lonToXindex
    simp only [show ¬ (v ≥ 180) by intro hc; linarith, show v < -180 from w2, show ¬ (v + 360 ≥ 180 ∧ v + 360 < -180) by intro hc; linarith [hc.2],
      show ¬ (v + 360 < -180) by intro hc; linarith, show ¬ (v + 360 ≥ 180) by intro hc; linarith, if_false, if_true]
  have c4 := west (-719/4 - 1/2) (by norm_num) (by norm_num)
  have c6 := west (-361/2) (by norm_num) (by norm_num)
  have f : ∀ k, getFourSurroundingPoints (1/2) (-719/4) k = .ok (-361/2, -359/2, -1/2, 1/2) := by
    intro k
    unfold getFourSurroundingPoints
    rw [c3, c4]
    have y1 : yindexToLat (latToYindex (1/2 + 1/2) 1) 1 = .ok (1/2) := by decide +kernel
    have y2 : yindexToLat (latToYindex (1/2 - 1/2) 1) 1 = .ok (-1/2) := by decide +kernel
    have x1 : xindexToLon 0 1 = .ok (-359/2) := by decide +kernel
    have x2 : xindexToLon 359 1 = .ok (359/2) := by decide +kernel
    rw [y1, y2, x1, x2]
    norm_num [pyAssert_bind, except_bind_ok]
  constructor
  · unfold getClimInterpolated
    rw [e1, e2, e3, e4]
    simp only [f, except_bind_ok]
    simp only [gn (-1/2) (by norm_num) (by norm_num), gn (1/2) (by norm_num) (by norm_num),
      gs (1/2 + 1/1000) (-719/4 + 1/1000) (by norm_num) (by norm_num) (by norm_num) (by norm_num),
      gs (1/2 + 1/1000) (-719/4 - 1/1000) (by norm_num) (by norm_num) (by norm_num) (by norm_num),
      gs (1/2 - 1/1000) (-719/4 + 1/1000) (by norm_num) (by norm_num) (by norm_num) (by norm_num),
      gs (1/2 - 1/1000) (-719/4 - 1/1000) (by norm_num) (by norm_num) (by norm_num) (by norm_num),
      gs (-1/2) (-359/2) (by norm_num) (by norm_num) (by norm_num) (by norm_num),
      gs (1/2) (-359/2) (by norm_num) (by norm_num) (by norm_num) (by norm_num), c1, c2, c5]
    decide +kernel
  · unfold Arr3.getInterpolatedValue
    simp only [f, except_bind_ok, show (1/2 : Rat) + 1/1000 < 90 by norm_num, show (1/2 : Rat) - 1/1000 > -90 by norm_num, if_true]
    rw [gv _ _ (by norm_num) (by norm_num) (by norm_num), gv _ _ (by norm_num) (by norm_num) (by norm_num),
      gv _ _ (by norm_num) (by norm_num) (by norm_num), gv _ _ (by norm_num) (by norm_num) (by norm_num),
      gv _ _ (by norm_num) (by norm_num) (by norm_num), gv _ _ (by norm_num) (by norm_num) (by norm_num),
      gv _ _ (by norm_num) (by norm_num) (by norm_num), gv _ _ (by norm_num) (by norm_num) (by norm_num), c1, c2, c5, c6]
    decide +kernel

/-! ## Cases -/

/-- Non-vacuity of C112 to C114: a field of pentads whose value tells pentad, row and column; the report is in row 89 and column
0, and the cell centre of C114 is reached. -/
example : getClim datelineReport ⟨73, 180, 360, fun t i j => some (100000 * t + 1000 * i + j)⟩ = some 89000 := by
  have hp := C114_dateline_violation.1
  obtain ⟨e1, e2, e3, e4, h1, h2, h3, h4, hd⟩ := hp
  unfold getClim
  rw [e1, e2, e3, e4]
  unfold getSst
  rw [placeAndDay_ok h1 h2 (by linarith) (by linarith) hd]
  have c : lonToXindex (-719/4) 1 = 0 := lon_column 0 (by norm_num) (by norm_num) (by decide +kernel) (by norm_num)
  simp only [except_bind_ok, c]
  decide +kernel

/-- Non-vacuity of the cell centre in C114. -/
example : ∃ r, HasPlaceAndDay r (rowCentre 180 89) (colCentre 360 0) 1 1 :=
  ⟨{ Report.empty none none with data := fun k => List.lookup k [("LAT", (1/2 : Rat)), ("LON", -359/2), ("MO", 1), ("DY", 1)] }, by
    unfold HasPlaceAndDay rowCentre colCentre
    decide +kernel⟩

end MarineQC
