import Verif.Buddy.Model
import Verif.Calendar.Props
import Verif.Grid.Props
import Mathlib.Tactic.Linarith

/-!
# C54: super-observations
-/

namespace MarineQC

namespace Spec

/-- The one-degree column of a longitude, counted eastwards from 180 W.  East of Greenwich borders belong to the column
east of them, elsewhere to the column west of them; 180 E and 180 W belong to the last and the first column. -/
def InColumn (x : Nat) (lon : Rat) : Prop :=
  x < 360 ∧ ((0 < lon ∧ (x : Rat) - 180 ≤ lon ∧ (lon < x - 179 ∨ (lon = 180 ∧ x = 359)))
    ∨ (lon ≤ 0 ∧ lon ≤ x - 179 ∧ ((x : Rat) - 180 < lon ∨ (lon = -180 ∧ x = 0))))

/-- The one-degree row of a latitude, counted southwards from the north pole.  In the north borders belong to the row
north of them, elsewhere to the row south of them; the poles belong to the first and the last row. -/
def InRow (y : Nat) (lat : Rat) : Prop :=
  y < 180 ∧ ((0 < lat ∧ 89 - (y : Rat) ≤ lat ∧ (lat < 90 - y ∨ (lat = 90 ∧ y = 0)))
    ∨ (lat ≤ 0 ∧ lat ≤ 90 - y ∧ (89 - (y : Rat) < lat ∨ (lat = -90 ∧ y = 179))))

/-- The block of five days of a date, leap days with 1 March. -/
def InPentad (p : Nat) (m d : Int) : Prop :=
  (∃ n, n < 365 ∧ (m, d) = Spec.dayOfYear n ∧ p = n / 5) ∨ (m = 2 ∧ d = 29 ∧ p = 11)

/-- An observation: place, date and anomaly. -/
structure Obs where
  lat : Option Rat
  lon : Option Rat
  month : Option Int
  day : Option Int
  anom : Option Rat
deriving DecidableEq

/-- The observation falls into the cell. -/
def FallsIn (c : Cell) (o : Obs) : Prop :=
  ∃ lat lon m d, o.lat = some lat ∧ o.lon = some lon ∧ o.month = some m ∧ o.day = some d
    ∧ InColumn c.1 lon ∧ InRow c.2.1 lat ∧ InPentad c.2.2 m d

open Classical in
/-- The anomalies of the observations in the cell, those that have one. -/
noncomputable def anomaliesIn (c : Cell) (l : List Obs) : List Rat :=
  (l.filter fun o => decide (FallsIn c o)).filterMap (·.anom)

/-- Each cell of the grid holds the number and the mean of the anomalies of the observations in it. -/
def IsMeanGrid (l : List Obs) (g : SuperOb) : Prop :=
  ∀ c, g.nobs c = (anomaliesIn c l).length ∧ g.grid c * (anomaliesIn c l).length = (anomaliesIn c l).sum
    ∧ (anomaliesIn c l = [] → g.grid c = 0)

end Spec

open Spec

/-- Adding an observation to the grid. -/
def SuperOb.addObs (g : SuperOb) (o : Obs) : Except Err SuperOb := g.addRep o.lat o.lon o.month o.day o.anom

theorem mdsLon_iff (lon : Rat) (x : Nat) : (mdsLonToXindex lon 1 = x ∧ x < 360) ↔ InColumn x lon := by
  unfold mdsLonToXindex InColumn
  have key : ∀ (z : Int) (k : Rat) (j : Int), k = (j : Rat) → pyInt ((z : Rat) + k) = z + j := by
    intro z k j hk
    subst hk
    unfold pyInt
    rw [← Int.cast_add, Int.floor_intCast, Int.ceil_intCast, ite_self]
  simp only [div_one]
  have e1 : ∀ z : Int, pyInt ((z : Rat) + 180) = z + 180 := fun z => key z 180 180 (by norm_num)
  have e2 : ∀ z : Int, pyInt ((z : Rat) + 180 - 1) = z + 179 := fun z => by
    rw [add_sub_assoc]; exact key z _ 179 (by norm_num)
  simp only [e1, e2]
  rcases eq_or_ne lon (-180) with h1 | h1
  · subst h1
    have : pyInt (-180 + 1 / 1000) = -179 := by decide +kernel
    norm_num
    rw [show pyInt (-(179999 / 1000)) = -179 by decide +kernel]
    constructor
    · rintro ⟨a, b⟩
      have : x = 0 := by omega
      subst this
      norm_num
    · rintro ⟨a, b, c⟩
      rcases c with c | c
      · exfalso
        have : (0 : Rat) ≤ x := by positivity
        linarith
      · subst c; norm_num
  rcases eq_or_ne lon 180 with h2 | h2
  · subst h2
    norm_num
    rw [show pyInt (179999 / 1000) = 179 by decide +kernel]
    constructor
    · rintro ⟨a, b⟩
      have : x = 359 := by omega
      subst this
      norm_num
    · rintro ⟨a, b, c⟩
      rcases c with c | c
      · exfalso
        have : ((x : Int) : Rat) ≤ 359 := by
          have : (x : Int) ≤ 359 := by omega
          exact_mod_cast this
        push_cast at this
        linarith
      · subst c; norm_num
  simp only [h1, h2, if_false, false_and, or_false]
  by_cases h0 : 0 < lon
  · have : ¬ lon ≤ 0 := not_le.2 h0
    simp only [h0, gt_iff_lt, if_true, this, false_and, or_false, true_and]
    unfold pyInt
    rw [if_pos h0.le]
    have hf := Int.floor_eq_iff (z := (x : Int) - 180) (a := lon)
    push_cast at hf
    constructor
    · rintro ⟨a, b⟩
      have := hf.1 (by omega)
      exact ⟨b, this.1, by linarith [this.2]⟩
    · rintro ⟨b, c, d⟩
      have := hf.2 ⟨c, by linarith⟩
      exact ⟨by omega, b⟩
  · have h0' : lon ≤ 0 := not_lt.1 h0
    simp only [h0, gt_iff_lt, if_false, h0', false_and, false_or, true_and]
    have hp : pyInt lon = ⌈lon⌉ := by
      unfold pyInt
      split
      · have : lon = 0 := le_antisymm h0' ‹_›
        subst this
        simp
      · rfl
    rw [hp]
    have hf := Int.ceil_eq_iff (z := (x : Int) - 179) (a := lon)
    push_cast at hf
    constructor
    · rintro ⟨a, b⟩
      have := hf.1 (by omega)
      exact ⟨b, this.2, by linarith [this.1]⟩
    · rintro ⟨b, c, d⟩
      have := hf.2 ⟨by linarith, c⟩
      exact ⟨by omega, b⟩

theorem mdsLat_iff (lat : Rat) (y : Nat) : (mdsLatToYindex lat 1 = y ∧ y < 180) ↔ InRow y lat := by
  unfold mdsLatToYindex InRow
  have key : ∀ (z : Int) (k : Rat) (j : Int), k = (j : Rat) → pyInt (k - (z : Rat)) = j - z := by
    intro z k j hk
    subst hk
    unfold pyInt
    rw [← Int.cast_sub, Int.floor_intCast, Int.ceil_intCast, ite_self]
  simp only [div_one]
  have e1 : ∀ z : Int, pyInt (90 - 1 - (z : Rat)) = 89 - z := fun z => key z (90 - 1) 89 (by norm_num)
  have e2 : ∀ z : Int, pyInt (90 - (z : Rat)) = 90 - z := fun z => key z _ 90 (by norm_num)
  simp only [e1, e2]
  rcases eq_or_ne lat (-90) with h1 | h1
  · subst h1
    norm_num
    rw [show pyInt (-(89999 / 1000)) = -89 by decide +kernel]
    constructor
    · rintro ⟨a, b⟩
      have : y = 179 := by omega
      subst this
      norm_num
    · rintro ⟨a, b, c⟩
      rcases c with c | c
      · exfalso
        have : ((y : Int) : Rat) ≤ 179 := by
          have : (y : Int) ≤ 179 := by omega
          exact_mod_cast this
        push_cast at this
        linarith
      · subst c; norm_num
  rcases eq_or_ne lat 90 with h2 | h2
  · subst h2
    norm_num
    rw [show pyInt (89999 / 1000) = 89 by decide +kernel]
    constructor
    · rintro ⟨a, b⟩
      have : y = 0 := by omega
      subst this
      norm_num
    · rintro ⟨a, b, c⟩
      rcases c with c | c
      · exfalso
        have : (0 : Rat) ≤ y := by positivity
        linarith
      · subst c; norm_num
  simp only [h1, h2, if_false, false_and, or_false]
  by_cases h0 : 0 < lat
  · have : ¬ lat ≤ 0 := not_le.2 h0
    simp only [h0, gt_iff_lt, if_true, this, false_and, or_false, true_and]
    unfold pyInt
    rw [if_pos h0.le]
    have hf := Int.floor_eq_iff (z := 89 - (y : Int)) (a := lat)
    push_cast at hf
    constructor
    · rintro ⟨a, b⟩
      have := hf.1 (by omega)
      exact ⟨b, this.1, by linarith [this.2]⟩
    · rintro ⟨b, c, d⟩
      have := hf.2 ⟨c, by linarith⟩
      exact ⟨by omega, b⟩
  · have h0' : lat ≤ 0 := not_lt.1 h0
    simp only [h0, gt_iff_lt, if_false, h0', false_and, false_or, true_and]
    have hp : pyInt lat = ⌈lat⌉ := by
      unfold pyInt
      split
      · have : lat = 0 := le_antisymm h0' ‹_›
        subst this
        simp
      · rfl
    rw [hp]
    have hf := Int.ceil_eq_iff (z := 90 - (y : Int)) (a := lat)
    push_cast at hf
    constructor
    · rintro ⟨a, b⟩
      have := hf.1 (by omega)
      exact ⟨b, this.2, by linarith [this.1]⟩
    · rintro ⟨b, c, d⟩
      have := hf.2 ⟨by linarith, c⟩
      exact ⟨by omega, b⟩

theorem pentad_iff (p : Nat) (m d : Int) : whichPentad m d = .ok ((p : Int) + 1) ↔ InPentad p m d := by
  constructor
  · intro h
    by_cases hv : IsDate 2004 m d
    · rcases leapDate_cases hv with hv | ⟨rfl, rfl⟩
      · obtain ⟨n, hn, e⟩ := exists_dayOfYear hv
        left
        have e' : (m, d) = Spec.dayOfYear n := by simp [Spec.dayOfYear, e]
        refine ⟨n, hn, e', ?_⟩
        have := C02_pentad_of_day n hn
        rw [← e'] at this
        simp only at this
        rw [h, Except.ok.injEq] at this
        push_cast at this
        omega
      · right
        rw [C02_leap_day.1, C02_leap_day.2, Except.ok.injEq] at h
        exact ⟨rfl, rfl, by omega⟩
    · rw [(C02_which_pentad_domain m d).2 hv] at h
      simp at h
  · rintro (⟨n, hn, e, rfl⟩ | ⟨rfl, rfl, rfl⟩)
    · have := C02_pentad_of_day n hn
      rw [← e] at this
      rw [this]
    · rw [C02_leap_day.1, C02_leap_day.2]
      rfl

theorem pentad_lt {p : Nat} {m d : Int} (h : InPentad p m d) : p < 73 := by
  rcases h with ⟨n, hn, -, rfl⟩ | ⟨-, -, rfl⟩ <;> omega

theorem cellIndex_of_fallsIn {c : Cell} {o : Obs} (h : FallsIn c o) :
    cellIndex o.lat o.lon o.month o.day = .ok ((c.1 : Int), (c.2.1 : Int), (c.2.2 : Int))
      ∧ c.1 < 360 ∧ c.2.1 < 180 ∧ c.2.2 < 73 := by
  obtain ⟨lat, lon, m, d, h1, h2, h3, h4, h5, h6, h7⟩ := h
  have a := (mdsLon_iff lon c.1).2 h5
  have b := (mdsLat_iff lat c.2.1).2 h6
  refine ⟨?_, a.2, b.2, pentad_lt h7⟩
  unfold cellIndex
  rw [h1, h2, h3, h4]
  simp only
  rw [(pentad_iff _ _ _).2 h7, except_bind_ok, except_pure, a.1, b.1, add_sub_cancel_right]

theorem fallsIn_of_cellIndex {o : Obs} {i : Int × Int × Int} (h : cellIndex o.lat o.lon o.month o.day = .ok i)
    (hx : 0 ≤ i.1 ∧ i.1 < 360) (hy : 0 ≤ i.2.1 ∧ i.2.1 < 180) (hp : 0 ≤ i.2.2 ∧ i.2.2 < 73) :
    FallsIn (i.1.toNat, i.2.1.toNat, i.2.2.toNat) o := by
  unfold cellIndex at h
  cases h1 : o.lon with
  | none => rw [h1] at h; simp at h
  | some lon =>
  cases h2 : o.lat with
  | none => rw [h1, h2] at h; simp at h
  | some lat =>
  cases h3 : o.month with
  | none => rw [h1, h2, h3] at h; simp at h
  | some m =>
  cases h4 : o.day with
  | none => rw [h1, h2, h3, h4] at h; simp at h
  | some d =>
    rw [h1, h2, h3, h4] at h
    simp only at h
    cases h5 : whichPentad m d with
    | error e => rw [h5] at h; simp at h
    | ok p =>
      rw [h5, except_bind_ok, except_pure, Except.ok.injEq] at h
      subst h
      simp only at hx hy hp
      refine ⟨lat, lon, m, d, h2, h1, h3, h4, (mdsLon_iff _ _).1 ⟨?_, ?_⟩, (mdsLat_iff _ _).1 ⟨?_, ?_⟩,
        (pentad_iff _ _ _).1 ?_⟩
      · simp only; omega
      · simp only; omega
      · simp only; omega
      · simp only; omega
      · rw [h5]
        congr 1
        simp only
        omega

theorem fallsIn_unique {c c' : Cell} {o : Obs} (h : FallsIn c o) (h' : FallsIn c' o) : c = c' := by
  have a := (cellIndex_of_fallsIn h).1
  rw [(cellIndex_of_fallsIn h').1, Except.ok.injEq, Prod.mk.injEq, Prod.mk.injEq] at a
  obtain ⟨a1, a2, a3⟩ := a
  ext <;> omega

/-- The grid with one more anomaly in a cell. -/
def SuperOb.put (g : SuperOb) (c : Cell) (a : Option Rat) : SuperOb :=
  match a with
  | some a => ⟨fun c' => if c' = c then g.grid c' + a else g.grid c',
      fun c' => if c' = c then g.nobs c' + 1 else g.nobs c'⟩
  | none => g

theorem addObs_ok {g : SuperOb} {o : Obs} {c : Cell} (h : FallsIn c o) : g.addObs o = .ok (g.put c o.anom) := by
  obtain ⟨h1, h2, h3, h4⟩ := cellIndex_of_fallsIn h
  unfold SuperOb.addObs SuperOb.addRep SuperOb.put
  rw [h1, except_bind_ok, pyAssert_bind, if_pos (by simp; omega), pyAssert_bind, if_pos (by simp; omega),
    pyAssert_bind, if_pos (by simp; omega)]
  cases o.anom <;> simp

theorem addObs_fallsIn {g g' : SuperOb} {o : Obs} (h : g.addObs o = .ok g') : ∃ c, FallsIn c o := by
  unfold SuperOb.addObs SuperOb.addRep at h
  cases h1 : cellIndex o.lat o.lon o.month o.day with
  | error e => rw [h1] at h; simp at h
  | ok i =>
    rw [h1, except_bind_ok, pyAssert_bind] at h
    split at h
    · rename_i a1
      rw [pyAssert_bind] at h
      split at h
      · rename_i a2
        rw [pyAssert_bind] at h
        split at h
        · rename_i a3
          simp only [Bool.and_eq_true, decide_eq_true_eq] at a1 a2 a3
          exact ⟨_, fallsIn_of_cellIndex h1 a1 a2 a3⟩
        · simp at h
      · simp at h
    · simp at h

open Classical in
theorem anomaliesIn_cons (c : Cell) (o : Obs) (l : List Obs) :
    anomaliesIn c (o :: l) = (if FallsIn c o then o.anom.toList else []) ++ anomaliesIn c l := by
  classical
  unfold anomaliesIn
  rw [List.filter_cons]
  by_cases h : FallsIn c o
  · simp only [h, decide_true, if_true, List.filterMap_cons]
    cases o.anom <;> simp
  · simp [h]

theorem put_eq {g : SuperOb} {c c' : Cell} {a : Option Rat} :
    (g.put c a).nobs c' = g.nobs c' + (if c' = c then a.toList.length else 0)
      ∧ (g.put c a).grid c' = g.grid c' + (if c' = c then a.toList.sum else 0) := by
  unfold SuperOb.put
  cases a with
  | none => simp
  | some a => by_cases h : c' = c <;> simp [h]

/-- Adding a list of observations. -/
theorem addObs_fold {l : List Obs} {g g' : SuperOb} (h : l.foldlM SuperOb.addObs g = .ok g') (c : Cell) :
    g'.nobs c = g.nobs c + (anomaliesIn c l).length ∧ g'.grid c = g.grid c + (anomaliesIn c l).sum := by
  classical
  induction l generalizing g with
  | nil =>
    simp only [List.foldlM_nil, except_pure, Except.ok.injEq] at h
    subst h
    simp [anomaliesIn]
  | cons o l ih =>
    rw [List.foldlM_cons] at h
    cases h1 : g.addObs o with
    | error e => rw [h1] at h; simp at h
    | ok g1 =>
      rw [h1, except_bind_ok] at h
      obtain ⟨c0, hc0⟩ := addObs_fallsIn h1
      rw [addObs_ok hc0, Except.ok.injEq] at h1
      subst h1
      obtain ⟨i1, i2⟩ := ih h
      obtain ⟨p1, p2⟩ := put_eq (g := g) (c := c0) (c' := c) (a := o.anom)
      have hiff : FallsIn c o ↔ c = c0 := ⟨fun hc => fallsIn_unique hc hc0, fun e => e ▸ hc0⟩
      rw [i1, i2, p1, p2, anomaliesIn_cons, List.length_append, List.sum_append]
      by_cases hc : c = c0
      · have := hiff.2 hc
        simp only [hc] at this ⊢
        simp only [this, if_true]
        exact ⟨by ring, by ring⟩
      · have : ¬ FallsIn c o := fun x => hc (hiff.1 x)
        simp [hc, this]

theorem addObs_fold_ok {l : List Obs} {g : SuperOb} :
    (∃ g', l.foldlM SuperOb.addObs g = .ok g') ↔ ∀ o ∈ l, ∃ c, FallsIn c o := by
  induction l generalizing g with
  | nil => simp [except_pure]
  | cons o l ih =>
    rw [List.foldlM_cons]
    constructor
    · rintro ⟨g', h⟩
      cases h1 : g.addObs o with
      | error e => rw [h1] at h; simp at h
      | ok g1 =>
        rw [h1, except_bind_ok] at h
        intro o' ho'
        rcases List.mem_cons.1 ho' with rfl | ho'
        · exact addObs_fallsIn h1
        · exact ih.1 ⟨g', h⟩ o' ho'
    · intro h
      obtain ⟨c, hc⟩ := h o (List.mem_cons_self ..)
      rw [addObs_ok hc, except_bind_ok]
      exact ih.2 fun o' ho' => h o' (List.mem_cons_of_mem _ ho')

theorem takeAverage_isMeanGrid {l : List Obs} {g : SuperOb} (h : l.foldlM SuperOb.addObs SuperOb.empty = .ok g) :
    IsMeanGrid l g.takeAverage := by
  intro c
  obtain ⟨h1, h2⟩ := addObs_fold h c
  simp only [SuperOb.empty, zero_add] at h1 h2
  unfold SuperOb.takeAverage
  simp only
  refine ⟨h1, ?_, ?_⟩
  · rw [h1, h2]
    split
    · rename_i h0
      have : ((anomaliesIn c l).length : Rat) ≠ 0 := by exact_mod_cast h0
      field_simp
    · rename_i h0
      have : anomaliesIn c l = [] := by simpa using h0
      rw [this]
      simp
  · intro h0
    rw [h1, h2, h0]
    simp

/-- C54. After adding a list of observations to an empty grid and averaging, every cell holds the number and the mean
of the anomalies of the observations that fall into it. -/
theorem C54_super_observations (l : List Obs) (g : SuperOb) (h : l.foldlM SuperOb.addObs SuperOb.empty = .ok g) :
    IsMeanGrid l g.takeAverage := takeAverage_isMeanGrid h

/-- C54: adding succeeds exactly when every observation has a place and date that fall into some cell. -/
theorem C54_completes (l : List Obs) :
    (∃ g, l.foldlM SuperOb.addObs SuperOb.empty = .ok g) ↔ ∀ o ∈ l, ∃ c, FallsIn c o := addObs_fold_ok

/-- C54: that is, when it has a latitude and longitude on the globe and a date that exists in a leap year; the cell is
unique. -/
theorem C54_cell (o : Obs) :
    ((∃ c, FallsIn c o) ↔ ∃ lat lon m d, o.lat = some lat ∧ o.lon = some lon ∧ o.month = some m ∧ o.day = some d
      ∧ -90 ≤ lat ∧ lat ≤ 90 ∧ -180 ≤ lon ∧ lon ≤ 180 ∧ IsDate 2004 m d)
    ∧ ∀ c c', FallsIn c o → FallsIn c' o → c = c' := by
  refine ⟨⟨?_, ?_⟩, fun c c' => fallsIn_unique⟩
  · rintro ⟨c, lat, lon, m, d, h1, h2, h3, h4, ⟨hx, h5⟩, ⟨hy, h6⟩, h7⟩
    have hx' : (c.1 : Rat) ≤ 359 := by exact_mod_cast (by omega : c.1 ≤ 359)
    have hx0 : (0 : Rat) ≤ c.1 := by positivity
    have hy' : (c.2.1 : Rat) ≤ 179 := by exact_mod_cast (by omega : c.2.1 ≤ 179)
    have hy0 : (0 : Rat) ≤ c.2.1 := by positivity
    refine ⟨lat, lon, m, d, h1, h2, h3, h4, ?_, ?_, ?_, ?_, ?_⟩
    · rcases h6 with ⟨a, b, e | e⟩ | ⟨a, b, e | e⟩ <;> linarith
    · rcases h6 with ⟨a, b, e | e⟩ | ⟨a, b, e | e⟩ <;> linarith
    · rcases h5 with ⟨a, b, e | e⟩ | ⟨a, b, e | e⟩ <;> linarith
    · rcases h5 with ⟨a, b, e | e⟩ | ⟨a, b, e | e⟩ <;> linarith
    · by_contra hd
      have := (pentad_iff _ _ _).2 h7
      rw [(C02_which_pentad_domain m d).2 hd] at this
      simp at this
  · rintro ⟨lat, lon, m, d, h1, h2, h3, h4, a1, a2, a3, a4, hd⟩
    obtain ⟨i, hi, hi', -⟩ := C15_mds_lat_row 90 (by norm_num) (by norm_num) lat a1 a2
    obtain ⟨j, hj, hj', -⟩ := C15_mds_lon_column 180 (by norm_num) (by norm_num) lon a3 a4
    rw [show (90 : Rat) / ((90 : Nat) : Rat) = 1 by norm_num] at hi
    rw [show (180 : Rat) / ((180 : Nat) : Rat) = 1 by norm_num] at hj
    obtain ⟨p, hp, p1, p2⟩ := (C02_which_pentad_domain m d).1 hd
    refine ⟨(j, i, (p - 1).toNat), lat, lon, m, d, h1, h2, h3, h4, (mdsLon_iff _ _).1 ⟨hj, by simpa using hj'⟩,
      (mdsLat_iff _ _).1 ⟨hi, by simpa using hi'⟩, (pentad_iff _ _ _).1 ?_⟩
    rw [hp]
    congr 1
    simp only
    omega

/-- C54: the order of the observations does not matter. -/
theorem C54_order_independent (l l' : List Obs) (hp : l.Perm l') (g : SuperOb)
    (h : l.foldlM SuperOb.addObs SuperOb.empty = .ok g) : l'.foldlM SuperOb.addObs SuperOb.empty = .ok g := by
  obtain ⟨g', h'⟩ := (C54_completes l').2 fun o ho => (C54_completes l).1 ⟨g, h⟩ o (hp.mem_iff.2 ho)
  rw [h']
  congr 1
  have key : ∀ c, g'.nobs c = g.nobs c ∧ g'.grid c = g.grid c := by
    intro c
    obtain ⟨a1, a2⟩ := addObs_fold h c
    obtain ⟨b1, b2⟩ := addObs_fold h' c
    have hpp : (anomaliesIn c l).Perm (anomaliesIn c l') := (hp.filter _).filterMap _
    rw [a1, a2, b1, b2, hpp.length_eq, hpp.sum_eq]
    exact ⟨rfl, rfl⟩
  cases g
  cases g'
  simp only [SuperOb.mk.injEq]
  exact ⟨funext fun c => (key c).2, funext fun c => (key c).1⟩

/-- Three observations, two in one cell. -/
example : FallsIn (183, 40, 0) ⟨some (99 / 2), some (7 / 2), some 1, some 3, some 2⟩
    ∧ FallsIn (183, 40, 0) ⟨some 49, some 3, some 1, some 5, some 1⟩
    ∧ FallsIn (359, 179, 11) ⟨some (-90), some 180, some 2, some 29, none⟩ := by
  refine ⟨⟨_, _, _, _, rfl, rfl, rfl, rfl, ?_, ?_, Or.inl ⟨2, by norm_num, by decide +kernel, rfl⟩⟩,
    ⟨_, _, _, _, rfl, rfl, rfl, rfl, ?_, ?_, Or.inl ⟨4, by norm_num, by decide +kernel, rfl⟩⟩,
    ⟨_, _, _, _, rfl, rfl, rfl, rfl, ?_, ?_, Or.inr ⟨rfl, rfl, rfl⟩⟩⟩ <;>
  norm_num [InColumn, InRow]

/-- Their mean. -/
example : ([⟨some (99 / 2), some (7 / 2), some 1, some 3, some 2⟩, ⟨some 49, some 3, some 1, some 5, some 1⟩,
    ⟨some (-90), some 180, some 2, some 29, none⟩].foldlM SuperOb.addObs SuperOb.empty).map
    (fun g => (g.takeAverage.grid (183, 40, 0), g.takeAverage.nobs (183, 40, 0))) = .ok (3 / 2, 2) := by
  decide +kernel

end MarineQC
