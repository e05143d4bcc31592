import Verif.Checks.Model
import Verif.Calendar.Spec
import Verif.Calendar.Props
import Mathlib.Tactic.Linarith
import Mathlib.Tactic.NormNum
import Mathlib.Tactic.Positivity
import Mathlib.Tactic.FieldSimp

/-!
# C25-C26: the day test and the distance between angles
-/

namespace MarineQC

open Spec

/-! ## C25 -/

/-- `dayinyear` counts from 1 and stays within the year. -/
theorem C04_dayinyear_range (y m d : Int) (h : IsDate y m d) (k : Int) (hk : dayinyear y m d = .ok k) :
    1 ≤ k ∧ k ≤ if LeapYear y then 366 else 365 := by
  rw [dayinyear_ok h] at hk
  simp only [Except.ok.injEq] at hk
  have hl := C04_dayinyear_last y
  rw [dayinyear_ok ⟨by omega, by omega, by omega, by simp [monthLength]⟩] at hl
  simp only [Except.ok.injEq] at hl
  rw [julDayCore_day y m d] at hk
  rw [julDayCore_day y 12 31] at hl
  obtain ⟨h1, h2, h3, h4⟩ := h
  have hp1 : julDayCore y 1 1 ≤ julDayCore y m 1 := by
    rcases eq_or_lt_of_le h1 with rfl | hlt
    · exact le_refl _
    · have := julDayCore_month_lt (y := y) (le_refl 1) hlt h2
      have := monthLength_pos y 1
      omega
  have hp2 : julDayCore y m 1 + monthLength y m ≤ julDayCore y 12 1 + 31 := by
    rcases eq_or_lt_of_le h2 with rfl | hlt
    · have : monthLength y 12 = 31 := by simp [monthLength]
      omega
    · have := julDayCore_month_lt (y := y) h1 hlt (le_refl 12)
      omega
  constructor <;> omega

theorem C04_dayinyear_pos (y m d : Int) (h : IsDate y m d) (k : Int) (hk : dayinyear y m d = .ok k) : 1 ≤ k :=
  (C04_dayinyear_range y m d h k hk).1

theorem C04_dayinyear_le (y m d : Int) (h : IsDate y m d) (k : Int) (hk : dayinyear y m d = .ok k) :
    k ≤ 366 := by
  have := (C04_dayinyear_range y m d h k hk).2
  split_ifs at this <;> omega

/-- The day before an existing date: either in the same year with the preceding number, or 31 December. -/
theorem exists_dayBefore {y m d : Int} (h : IsDate y m d) {n : Int} (hn : dayinyear y m d = .ok n) :
    (1 < n → ∃ m' d', IsDate y m' d' ∧ nextDay (y, m', d') = (y, m, d) ∧ dayinyear y m' d' = .ok (n - 1)) ∧
    (n ≤ 1 → nextDay (y - 1, 12, 31) = (y, m, d)) := by
  have h0 := h
  obtain ⟨hm1, hm2, hd1, hd2⟩ := h
  by_cases hd : d = 1
  · subst hd
    by_cases hm : m = 1
    · subst hm
      rw [C04_dayinyear_first] at hn
      simp only [Except.ok.injEq] at hn
      subst hn
      refine ⟨fun h => by omega, fun _ => ?_⟩
      simp [nextDay, monthLength]
    · have hp : IsDate y (m - 1) (monthLength y (m - 1)) :=
        ⟨by omega, by omega, by have := monthLength_pos y (m - 1); omega, le_refl _⟩
      have hnx : nextDay (y, m - 1, monthLength y (m - 1)) = (y, m, 1) := by
        simp only [nextDay]
        rw [if_neg (lt_irrefl _), if_pos (by omega)]
        simp
      obtain ⟨k, hk⟩ := (C04_dayinyear_domain y (m - 1) (monthLength y (m - 1))).1 hp
      have hs := C04_dayinyear_step y _ _ _ _ hp hnx k hk
      rw [hn] at hs
      simp only [Except.ok.injEq] at hs
      subst hs
      refine ⟨fun _ => ⟨m - 1, _, hp, hnx, by rw [hk]; congr 1; omega⟩, fun h1 => ?_⟩
      exfalso
      have := C04_dayinyear_pos y _ _ hp k hk
      omega
  · have hp : IsDate y m (d - 1) := ⟨hm1, hm2, by omega, by omega⟩
    have hnx : nextDay (y, m, d - 1) = (y, m, d) := by
      simp only [nextDay]
      rw [if_pos (by omega)]
      simp
    obtain ⟨k, hk⟩ := (C04_dayinyear_domain y m (d - 1)).1 hp
    have hs := C04_dayinyear_step y _ _ _ _ hp hnx k hk
    rw [hn] at hs
    simp only [Except.ok.injEq] at hs
    subst hs
    refine ⟨fun _ => ⟨m, _, hp, hnx, by rw [hk]; congr 1; omega⟩, fun h1 => ?_⟩
    exfalso
    have := C04_dayinyear_pos y _ _ hp k hk
    omega

/-- A coordinate of exactly zero is replaced by a ten-thousandth of a degree. -/
def offZero (x : Rat) : Rat := if x = 0 then 1 / 10000 else x

theorem guard_ok {n : Int} {h mi lat : Rat} (h1 : 1 ≤ n) (h2 : n ≤ 366) (h3 : 0 ≤ h) (h4 : h < 24)
    (h5 : 0 ≤ mi) (h6 : mi < 60) (h7 : -90 ≤ lat) (h8 : lat ≤ 90) :
    sunangleGuard n h mi (offZero lat) = .ok () := by
  have a1 : (decide (0 < n) && decide (n ≤ 366)) = true := by simp; omega
  have a2 : (decide (0 ≤ h) && decide (h < 24)) = true := by simp [h3, h4]
  have a3 : (decide (0 ≤ mi) && decide (mi < 60)) = true := by simp [h5, h6]
  have a4 : (decide (90 ≥ offZero lat) && decide (offZero lat ≥ -90)) = true := by
    unfold offZero
    split_ifs <;> simp [h7, h8] <;> norm_num
  unfold sunangleGuard
  rw [a1, a2, a3, a4]
  simp

private theorem frac_bounds (h : Rat) : 0 ≤ (h - (⌊h⌋ : Int)) * 60 ∧ (h - (⌊h⌋ : Int)) * 60 < 60 := by
  have a := Int.floor_le h
  have b := Int.lt_floor_add_one h
  constructor <;> nlinarith

/-- C25: for an existing date, an hour of the day and a shift of `T` whole hours (`T ≤ 24`), `day_test`
compares with zero the elevation of the sun at exactly `T` hours before the report: on the same calendar
day, or at the corresponding hour of the calendar day before. -/
theorem C25_day_test {F : Type} [LinearOrder F] [Zero F] (elev : Int → Int → Rat → Rat → Rat → Rat → F)
    (y m d : Int) (h lat lon : Rat) (T : Nat) (hd : IsDate y m d) (hh : 0 ≤ h) (hh' : h < 24) (hT : T ≤ 24)
    (hl : -90 ≤ lat) (hl' : lat ≤ 90) :
    ∃ (y' m' d' n : Int) (h' mi : Rat),
      IsDate y' m' d' ∧ dayinyear y' m' d' = .ok n ∧
      0 ≤ h' + mi / 60 ∧ h' + mi / 60 < 24 ∧ 0 ≤ mi ∧ mi < 60 ∧
      (((y', m', d') = (y, m, d) ∧ h' + mi / 60 = h - T) ∨
       (nextDay (y', m', d') = (y, m, d) ∧ h' + mi / 60 = h - T + 24)) ∧
      dayTest elev (some y) (some m) (some d) (some h) (some lat) lon T =
        .ok (if 0 < elev y' n h' mi (offZero lat) (offZero lon) then 1 else 0) := by
  obtain ⟨n, hn⟩ := (C04_dayinyear_domain y m d).1 hd
  have hn1 := C04_dayinyear_pos y m d hd n hn
  have hn2 := C04_dayinyear_le y m d hd n hn
  obtain ⟨hm0, hm60⟩ := frac_bounds h
  have hf0 : (0 : Int) ≤ ⌊h⌋ := Int.floor_nonneg.2 hh
  have hf24 : ⌊h⌋ ≤ 23 := by
    have : ⌊h⌋ < 24 := Int.floor_lt.2 (by exact_mod_cast hh')
    omega
  have hsplit : ((⌊h⌋ : Int) : Rat) + (h - (⌊h⌋ : Int)) * 60 / 60 = h := by ring
  have hd31 : d ≤ 31 := by
    have : monthLength y m ≤ 31 := by unfold monthLength; split_ifs <;> omega
    have := hd.2.2.2
    omega
  have a1 : (decide (1 ≤ m) && decide (m ≤ 12)) = true := by simp [hd.1, hd.2.1]
  have a2 : (decide (1 ≤ d) && decide (d ≤ 31)) = true := by simp [hd.2.2.1, hd31]
  have a3 : (decide (0 ≤ h) && decide (h ≤ 24)) = true := by simp [hh, hh'.le]
  have a4 : (decide (90 ≥ lat) && decide (lat ≥ -90)) = true := by simp [hl, hl']
  have hcast : ((⌊h⌋ : Int) : Rat) - (T : Rat) = ((⌊h⌋ - (T : Int) : Int) : Rat) := by push_cast; ring
  unfold dayTest
  simp only [a1, a2, a3, a4, pyAssert_true, except_bind_ok, hn, hcast]
  by_cases hneg : ((⌊h⌋ - (T : Int) : Int) : Rat) < 0
  · have hneg' : ⌊h⌋ - (T : Int) < 0 := by exact_mod_cast hneg
    have hb : (0 : Rat) ≤ ((⌊h⌋ - (T : Int) : Int) : Rat) + 24 := by
      have : (0 : Int) ≤ (⌊h⌋ - (T : Int)) + 24 := by omega
      exact_mod_cast this
    have hb' : ((⌊h⌋ - (T : Int) : Int) : Rat) + 24 < 24 := by linarith
    have hb'' : ((⌊h⌋ - (T : Int) : Int) : Rat) + 24 ≤ 23 := by
      have : (⌊h⌋ - (T : Int)) + 24 ≤ 23 := by omega
      exact_mod_cast this
    simp only [hneg, if_true]
    by_cases h1 : n - 1 ≤ 0
    · have hlast := C04_dayinyear_last (y - 1)
      simp only [h1, if_true, hlast, except_bind_ok, except_pure]
      have hb3 := guard_ok (n := if LeapYear (y - 1) then 366 else 365) (lat := lat)
        (h := ((⌊h⌋ - (T : Int) : Int) : Rat) + 24) (mi := (h - (⌊h⌋ : Int)) * 60)
        (by split_ifs <;> omega) (by split_ifs <;> omega) hb hb' hm0 hm60 hl hl'
      refine ⟨y - 1, 12, 31, _, ((⌊h⌋ - (T : Int) : Int) : Rat) + 24, _, ?_, hlast, ?_, ?_, hm0, hm60, Or.inr ⟨?_, ?_⟩, ?_⟩
      · exact ⟨by omega, by omega, by omega, by simp [monthLength]⟩
      · positivity
      · have : (h - (⌊h⌋ : Int)) * 60 / 60 < 1 := by linarith
        linarith
      · exact (exists_dayBefore hd hn).2 (by omega)
      · push_cast
        linarith
      · rw [show (if lat = 0 then (1 / 10000 : Rat) else lat) = offZero lat from rfl, hb3]
        simp only [except_bind_ok, gt_iff_lt, offZero]
        split_ifs <;> rfl
    · obtain ⟨m', d', hp, hnx, hk⟩ := (exists_dayBefore hd hn).1 (by omega)
      simp only [h1, if_false, except_bind_ok, except_pure]
      have hb3 := guard_ok (n := n - 1) (lat := lat)
        (h := ((⌊h⌋ - (T : Int) : Int) : Rat) + 24) (mi := (h - (⌊h⌋ : Int)) * 60)
        (by omega) (by omega) hb hb' hm0 hm60 hl hl'
      refine ⟨y, m', d', _, ((⌊h⌋ - (T : Int) : Int) : Rat) + 24, _, hp, hk, ?_, ?_, hm0, hm60,
        Or.inr ⟨hnx, ?_⟩, ?_⟩
      · positivity
      · have : (h - (⌊h⌋ : Int)) * 60 / 60 < 1 := by linarith
        linarith
      · push_cast
        linarith
      · rw [show (if lat = 0 then (1 / 10000 : Rat) else lat) = offZero lat from rfl, hb3]
        simp only [except_bind_ok, gt_iff_lt, offZero]
        split_ifs <;> rfl
  · have hpos' : 0 ≤ ⌊h⌋ - (T : Int) := by
      have := not_lt.1 hneg
      exact_mod_cast this
    have hb : (0 : Rat) ≤ ((⌊h⌋ - (T : Int) : Int) : Rat) := by exact_mod_cast hpos'
    have hb'' : ((⌊h⌋ - (T : Int) : Int) : Rat) ≤ 23 := by
      have : ⌊h⌋ - (T : Int) ≤ 23 := by omega
      exact_mod_cast this
    simp only [hneg, if_false, except_bind_ok, except_pure]
    have hb3 := guard_ok (n := n) (lat := lat)
      (h := ((⌊h⌋ - (T : Int) : Int) : Rat)) (mi := (h - (⌊h⌋ : Int)) * 60)
      (by omega) (by omega) hb (by linarith) hm0 hm60 hl hl'
    refine ⟨y, m, d, n, ((⌊h⌋ - (T : Int) : Int) : Rat), _, hd, hn, ?_, ?_, hm0, hm60,
      Or.inl ⟨rfl, ?_⟩, ?_⟩
    · positivity
    · have : (h - (⌊h⌋ : Int)) * 60 / 60 < 1 := by linarith
      linarith
    · push_cast
      linarith
    · rw [show (if lat = 0 then (1 / 10000 : Rat) else lat) = offZero lat from rfl, hb3]
      simp only [except_bind_ok, gt_iff_lt, offZero]
      split_ifs <;> rfl

/-- C25: on 1 January before `T` o'clock the test looks at 31 December of the previous year. -/
theorem C25_new_year {F : Type} [LinearOrder F] [Zero F] (elev : Int → Int → Rat → Rat → Rat → Rat → F)
    (y : Int) (h lat lon : Rat) (hh : 0 ≤ h) (hh' : h < 1) (hl : -90 ≤ lat) (hl' : lat ≤ 90) :
    dayTest elev (some y) (some 1) (some 1) (some h) (some lat) lon 1 =
      .ok (if 0 < elev (y - 1) (if LeapYear (y - 1) then 366 else 365) 23 (h * 60) (offZero lat) (offZero lon)
        then 1 else 0) := by
  have hf : ⌊h⌋ = 0 := Int.floor_eq_zero_iff.2 ⟨hh, hh'⟩
  have a3 : (decide (0 ≤ h) && decide (h ≤ 24)) = true := by simp [hh]; linarith
  have a4 : (decide (90 ≥ lat) && decide (lat ≥ -90)) = true := by simp [hl, hl']
  have hb3 := guard_ok (n := if LeapYear (y - 1) then 366 else 365) (lat := lat)
    (h := 23) (mi := h * 60) (by split_ifs <;> omega) (by split_ifs <;> omega)
    (by norm_num) (by norm_num) (by linarith) (by linarith) hl hl'
  unfold dayTest
  simp only [a3, a4, pyAssert_true, except_bind_ok, C04_dayinyear_first, C04_dayinyear_last, hf,
    Int.cast_zero, sub_zero, zero_sub]
  rw [show (-1 + 24 : Rat) = 23 by norm_num]
  simp only [show (-1 : Rat) < 0 by norm_num, if_true, sub_self, le_refl, except_pure, except_bind_ok]
  rw [show (if lat = 0 then (1 / 10000 : Rat) else lat) = offZero lat from rfl, hb3]
  simp only [except_bind_ok, gt_iff_lt, offZero]
  simp
  split_ifs <;> rfl

/-- C25: without a year the test answers "night". -/
theorem C25_no_year {F : Type} [LinearOrder F] [Zero F] (elev : Int → Int → Rat → Rat → Rat → Rat → F)
    (m d : Int) (h lat lon T : Rat) (hm : 1 ≤ m ∧ m ≤ 12) (hd : 1 ≤ d ∧ d ≤ 31) (hh : 0 ≤ h ∧ h ≤ 24)
    (hl : -90 ≤ lat ∧ lat ≤ 90) :
    dayTest elev none (some m) (some d) (some h) (some lat) lon T = .ok 0 := by
  simp [dayTest, hm, hd, hh, hl]

/-- C25: `track_day_test` evaluates the elevation at the report time, against the limit given. -/
theorem C25_track_day_test {F : Type} [LinearOrder F] (elev : Int → Int → Rat → Rat → Rat → Rat → F)
    (y m d : Int) (h lat lon : Rat) (lim : F) (hd : IsDate y m d) (hh : 0 ≤ h) (hh' : h < 24)
    (hl : -90 ≤ lat) (hl' : lat ≤ 90) :
    ∃ (n : Int) (h' mi : Rat), dayinyear y m d = .ok n ∧ h' + mi / 60 = h ∧ 0 ≤ mi ∧ mi < 60 ∧
      (∃ k : Int, h' = k) ∧
      trackDayTest elev (some y) (some m) (some d) (some h) (some lat) (some lon) lim =
        .ok (decide (lim < elev y n h' mi (offZero lat) (offZero lon))) := by
  obtain ⟨n, hn⟩ := (C04_dayinyear_domain y m d).1 hd
  have hn1 := C04_dayinyear_pos y m d hd n hn
  have hn2 := C04_dayinyear_le y m d hd n hn
  obtain ⟨hm0, hm60⟩ := frac_bounds h
  have hf0 : (0 : Rat) ≤ (⌊h⌋ : Int) := by
    have : (0 : Int) ≤ ⌊h⌋ := Int.floor_nonneg.2 hh
    exact_mod_cast this
  have hf24 : ((⌊h⌋ : Int) : Rat) < 24 := lt_of_le_of_lt (Int.floor_le h) hh'
  have hd31 : d ≤ 31 := by
    have : monthLength y m ≤ 31 := by unfold monthLength; split_ifs <;> omega
    have := hd.2.2.2
    omega
  have a1 : (decide (1 ≤ m) && decide (m ≤ 12)) = true := by simp [hd.1, hd.2.1]
  have a2 : (decide (1 ≤ d) && decide (d ≤ 31)) = true := by simp [hd.2.2.1, hd31]
  have a3 : (decide (0 ≤ h) && decide (h ≤ 24)) = true := by simp [hh, hh'.le]
  have a4 : (decide (90 ≥ lat) && decide (lat ≥ -90)) = true := by simp [hl, hl']
  refine ⟨n, (⌊h⌋ : Int), (h - (⌊h⌋ : Int)) * 60, hn, by ring, hm0, hm60, ⟨_, rfl⟩, ?_⟩
  have hb3 := guard_ok (n := n) (lat := lat) (h := (⌊h⌋ : Int)) (mi := (h - (⌊h⌋ : Int)) * 60)
      (by omega) (by omega) hf0 hf24 hm0 hm60 hl hl'
  unfold trackDayTest
  simp only [a1, a2, a3, a4, pyAssert_true, except_bind_ok, hn]
  rw [show (if lat = 0 then (1 / 10000 : Rat) else lat) = offZero lat from rfl, hb3]
  rfl

/-- C25: at hour 24, which `track_day_test` accepts, the elevation routine raises. -/
theorem C25_track_day_test_hour_24 {F : Type} [LinearOrder F] (elev : Int → Int → Rat → Rat → Rat → Rat → F)
    (y m d : Int) (lat lon : Rat) (lim : F) (hd : IsDate y m d) (hl : -90 ≤ lat) (hl' : lat ≤ 90) :
    trackDayTest elev (some y) (some m) (some d) (some 24) (some lat) (some lon) lim = .error .assertion := by
  obtain ⟨n, hn⟩ := (C04_dayinyear_domain y m d).1 hd
  have hd31 : d ≤ 31 := by
    have : monthLength y m ≤ 31 := by unfold monthLength; split_ifs <;> omega
    have := hd.2.2.2
    omega
  have a1 : (decide (1 ≤ m) && decide (m ≤ 12)) = true := by simp [hd.1, hd.2.1]
  have a2 : (decide (1 ≤ d) && decide (d ≤ 31)) = true := by simp [hd.2.2.1, hd31]
  have a3 : (decide ((0 : Rat) ≤ 24) && decide ((24 : Rat) ≤ 24)) = true := by simp
  have a4 : (decide (90 ≥ lat) && decide (lat ≥ -90)) = true := by simp [hl, hl']
  have hfl : ⌊(24 : Rat)⌋ = 24 := by norm_num
  unfold trackDayTest
  simp only [a1, a2, a3, a4, pyAssert_true, except_bind_ok, hn, hfl]
  unfold sunangleGuard
  cases hq : (decide (0 < n) && decide (n ≤ 366)) <;> simp

example : IsDate 2004 3 1 ∧
    dayTest (fun _ day hour _ _ _ => (day : Rat) - 60 + (hour - 23)) (some 2004) (some 3) (some 1) (some (1/2))
      (some 10) 20 1 = .ok 0 ∧
    dayTest (fun _ day hour _ _ _ => (day : Rat) - 60 + (hour - 22)) (some 2004) (some 3) (some 1) (some (1/2))
      (some 10) 20 1 = .ok 1 := by decide +kernel

/-! ## C26 -/

/-- C26: symmetric, and zero for equal angles. -/
theorem C26_symm (a b : ℝ) : angleDiff a b = angleDiff b a ∧ angleDiff a a = 0 := by
  constructor
  · unfold angleDiff
    rw [abs_sub_comm]
  · unfold angleDiff
    simp [Real.pi_pos.le.not_gt]

/-- C26: for angles at most a full turn apart the result lies in `[0, π]` and is the distance on the circle:
the least of the distances `|a - b + 2πk|` over all whole numbers of turns. -/
theorem C26_circle_distance (a b : ℝ) (h : |a - b| ≤ 2 * Real.pi) :
    0 ≤ angleDiff a b ∧ angleDiff a b ≤ Real.pi ∧
    (∀ k : ℤ, angleDiff a b ≤ |a - b + 2 * Real.pi * k|) ∧
    (∃ k : ℤ, angleDiff a b = |a - b + 2 * Real.pi * k|) := by
  have hpi := Real.pi_pos
  -- every representative of the difference is at least the smaller of `x` and `2π - x`, `x = |a - b|`
  have key : ∀ k : ℤ, |a - b| ≤ |a - b + 2 * Real.pi * k| ∨ 2 * Real.pi - |a - b| ≤ |a - b + 2 * Real.pi * k| := by
    intro k
    rcases eq_or_ne k 0 with rfl | hk
    · left; simp
    · right
      have h1 : (1 : ℝ) ≤ |(k : ℝ)| := by
        have : (1 : ℤ) ≤ |k| := Int.one_le_abs hk
        exact_mod_cast this
      have h2 : |2 * Real.pi * k| ≤ |a - b + 2 * Real.pi * k| + |a - b| := by
        have := abs_sub (a - b + 2 * Real.pi * k) (a - b)
        simpa using this
      rw [abs_mul, abs_of_pos (by positivity : (0:ℝ) < 2 * Real.pi)] at h2
      nlinarith
  unfold angleDiff
  dsimp only
  by_cases hgt : |a - b| > Real.pi
  · rw [if_pos hgt]
    refine ⟨by linarith, by linarith, fun k => ?_, ?_⟩
    · rcases key k with h' | h' <;> linarith
    · rcases le_total 0 (a - b) with h0 | h0
      · refine ⟨-1, ?_⟩
        rw [abs_of_nonneg h0] at h ⊢
        rw [abs_of_nonpos (by push_cast; linarith)]
        push_cast; ring
      · refine ⟨1, ?_⟩
        rw [abs_of_nonpos h0] at h ⊢
        rw [abs_of_nonneg (by push_cast; linarith)]
        push_cast; ring
  · rw [if_neg hgt]
    refine ⟨abs_nonneg _, by linarith, fun k => ?_, ⟨0, by simp⟩⟩
    rcases key k with h' | h' <;> linarith

/-- C26: beyond a full turn apart the result can be negative, so the restriction is needed. -/
theorem C26_beyond_a_turn_violation : angleDiff (5 * Real.pi) 0 < 0 := by
  have hpi := Real.pi_pos
  unfold angleDiff
  simp only [sub_zero]
  rw [abs_of_pos (by positivity), if_pos (by linarith)]
  linarith

example : |(0 : ℝ) - (3 / 2) * Real.pi| ≤ 2 * Real.pi ∧ angleDiff 0 ((3 / 2) * Real.pi) = Real.pi / 2 := by
  have hpi := Real.pi_pos
  unfold angleDiff
  simp only [zero_sub, abs_neg]
  rw [abs_of_pos (by positivity), if_pos (by linarith)]
  constructor <;> linarith

end MarineQC
