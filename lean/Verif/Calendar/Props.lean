import Verif.Calendar.Lemmas
import Mathlib.Tactic.IntervalCases
import Mathlib.Tactic.FieldSimp

/-!
# Calendar properties C01 - C09

The statements use `Spec` (Calendar/Spec.lean) only; the calendar there is defined by leap rule, month
lengths and "the next day".
-/

namespace MarineQC
open Spec

/-! ## C01 `yesterday` -/

theorem datetimeOk_iff (y m d : Int) :
    datetimeOk y m d = true ↔ (1 ≤ y ∧ y ≤ 9999 ∧ IsDate y m d) := by
  unfold datetimeOk IsDate
  by_cases h1 : 1 ≤ m
  · by_cases h2 : m ≤ 12
    · rw [getElem_monthLengths y m h1 h2]
      simp [h1, h2]; tauto
    · simp [h2]
  · simp [h1]

/-- Every existing date of years 1..9999 except 1 January of year 1 has a `yesterday`, which is an
existing date, and the next day of which is the date itself. -/
theorem C01_yesterday_predecessor (y m d : Int) (hy : 1 ≤ y) (hy' : y ≤ 9999) (h : IsDate y m d)
    (hfirst : (y, m, d) ≠ (1, 1, 1)) :
    ∃ y' m' d', yesterday y m d = some (y', m', d') ∧ IsDate y' m' d' ∧
      nextDay (y', m', d') = (y, m, d) := by
  have hok := (datetimeOk_iff y m d).2 ⟨hy, hy', h⟩
  obtain ⟨h1, h2, h3, h4⟩ := h
  unfold yesterday
  simp only [hok, if_true]
  by_cases hd : 1 < d
  · refine ⟨y, m, d - 1, by simp [hd], ⟨h1, h2, by omega, by omega⟩, ?_⟩
    have : d - 1 < monthLength y m := by omega
    simp [nextDay, this]
  · by_cases hm : 1 < m
    · have e := getElem_monthLengths y (m - 1) (by omega) (by omega)
      have e' : m - 1 - 1 = m - 2 := by ring
      rw [e'] at e
      have p := monthLength_pos y (m - 1)
      refine ⟨y, m - 1, monthLength y (m - 1), by simp [hd, hm, e], ⟨by omega, by omega, by omega, le_refl _⟩, ?_⟩
      have : m - 1 < 12 := by omega
      simp [nextDay, this]; omega
    · by_cases hy1 : 1 < y
      · refine ⟨y - 1, 12, 31, by simp [hd, hm, hy1], ⟨by omega, by omega, by omega, by simp [monthLength]⟩, ?_⟩
        simp [nextDay, monthLength]; omega
      · exfalso; apply hfirst
        simp; omega

/-- `yesterday` gives `(None, None, None)` exactly for triples that are not dates of years 1..9999, and
for 1 January of year 1. -/
theorem C01_yesterday_none (y m d : Int) :
    yesterday y m d = none ↔ (¬ (1 ≤ y ∧ y ≤ 9999 ∧ IsDate y m d) ∨ (y, m, d) = (1, 1, 1)) := by
  constructor
  · intro h
    by_contra hc
    rw [not_or, not_not] at hc
    obtain ⟨⟨a, b, c⟩, e⟩ := hc
    obtain ⟨_, _, _, hs, _⟩ := C01_yesterday_predecessor y m d a b c e
    rw [hs] at h; cases h
  · rintro (h | h)
    · have := (datetimeOk_iff y m d).not.2 h
      simp [yesterday, this]
    · simp only [Prod.mk.injEq] at h
      obtain ⟨rfl, rfl, rfl⟩ := h
      decide

example : yesterday 2000 3 1 = some (2000, 2, 29) := by decide
example : yesterday 1900 3 1 = some (1900, 2, 28) := by decide
example : yesterday 2001 2 29 = none := by decide
example : IsDate 2000 3 1 ∧ ((2000, 3, 1) : Int × Int × Int) ≠ (1, 1, 1) := by decide

/-! ## C02, C03 the 365-day year and its pentads -/

/-- Day `n` (counting from 0) of the non-leap calendar, as (month, day): `n` days after 1 January of the
non-leap year 2003. -/
def Spec.dayOfYear (n : Nat) : Int × Int := (daysLater n (2003, 1, 1)).2

theorem julDayCore_2003 : julDayCore 2003 1 1 = 2452641 := by decide

/-- Every day of a non-leap year is `dayOfYear n` for exactly one `n < 365`. -/
theorem exists_dayOfYear {m d : Int} (h : IsDate 2003 m d) :
    ∃ n, n < 365 ∧ daysLater n (2003, 1, 1) = (2003, m, d) := by
  have h0 : IsDate 2003 1 1 := by decide
  have hlast : julDayCore 2003 m d < julDayCore 2004 1 1 :=
    julDayCore_lt (a := (2003, m, d)) (b := (2004, 1, 1)) h (by decide) (.inl (by simp))
  have e4 : julDayCore 2004 1 1 = 2452641 + 365 := by decide
  rcases before_trichotomy (2003, 1, 1) (2003, m, d) with c | c | c
  · obtain ⟨n, hn⟩ := exists_daysLater (a := (2003,1,1)) (b := (2003, m, d)) h0 h c
    refine ⟨n, ?_, hn.symm⟩
    have := julDayCore_daysLater (t := (2003,1,1)) h0 n
    rw [← hn] at this
    simp only [julDayCore_2003] at this
    omega
  · exact ⟨0, by omega, c⟩
  · simp only [Before] at c
    obtain ⟨h1, _, h3, _⟩ := h
    omega

theorem leapDate_cases {m d : Int} (h : IsDate 2004 m d) : IsDate 2003 m d ∨ (m = 2 ∧ d = 29) := by
  obtain ⟨h1, h2, h3, h4⟩ := h
  have l1 : LeapYear 2004 := by decide
  have l2 : ¬ LeapYear 2003 := by decide
  unfold IsDate
  unfold monthLength at *
  simp only [l1, l2, if_true, if_false] at *
  split at h4 <;> rename_i hm
  · subst hm; simp; omega
  · simp only [hm, if_false]; left; exact ⟨h1, h2, h3, h4⟩

/-- Boolean table comparison used for the two theorems below; the 365 days are all there are. -/
def dayTable : Bool :=
  (List.range 365).all fun n =>
    decide (dayInYear (Spec.dayOfYear n).1 (Spec.dayOfYear n).2 = .ok ((n : Int) + 1))

theorem dayTable_true : dayTable = true := by decide +kernel

/-- C03: the `n`-th day of the non-leap year (from 0) has number `n + 1`; so the numbers are 1,...,365
without gap or repeat, in calendar order. -/
theorem C03_day_in_year_counts (n : Nat) (hn : n < 365) :
    dayInYear (Spec.dayOfYear n).1 (Spec.dayOfYear n).2 = .ok ((n : Int) + 1) := by
  have h := dayTable_true
  unfold dayTable at h
  rw [List.all_eq_true] at h
  simpa using h n (List.mem_range.2 hn)

/-- C03: 29 February gets the number of 1 March. -/
theorem C03_leap_day : dayInYear 2 29 = dayInYear 3 1 ∧ dayInYear 3 1 = .ok 60 := by decide +kernel

/-- C03: defined exactly for the days of a leap year, otherwise an assertion fails. -/
theorem C03_day_in_year_domain (m d : Int) :
    (IsDate 2004 m d → ∃ k, dayInYear m d = .ok k ∧ 1 ≤ k ∧ k ≤ 365) ∧
    (¬ IsDate 2004 m d → dayInYear m d = .error .assertion) := by
  constructor
  · intro h
    rcases leapDate_cases h with h | ⟨rfl, rfl⟩
    · obtain ⟨n, hn, e⟩ := exists_dayOfYear h
      have := C03_day_in_year_counts n hn
      simp only [Spec.dayOfYear, e] at this
      exact ⟨_, this, by omega, by omega⟩
    · exact ⟨60, by decide +kernel, by omega, by omega⟩
  · intro h
    unfold IsDate at h
    unfold dayInYear dayInYearStep
    by_cases h1 : 1 ≤ m <;> by_cases h2 : m ≤ 12 <;> by_cases h3 : 1 ≤ d <;> simp [h1, h2, h3]
    rw [pyIndex_monthLengths 2004 m h1 h2]
    have : ¬ d ≤ monthLength 2004 m := by tauto
    simp [this]

/-- C03: within the non-leap year the numbering is injective. -/
theorem C03_day_in_year_injective (m d m' d' : Int) (h : IsDate 2003 m d) (h' : IsDate 2003 m' d')
    (e : dayInYear m d = dayInYear m' d') : m = m' ∧ d = d' := by
  obtain ⟨n, hn, en⟩ := exists_dayOfYear h
  obtain ⟨n', hn', en'⟩ := exists_dayOfYear h'
  have a := C03_day_in_year_counts n hn
  have b := C03_day_in_year_counts n' hn'
  simp only [Spec.dayOfYear, en, en'] at a b
  rw [a, b] at e
  simp at e
  subst e
  rw [en] at en'
  simpa using en'

example : Spec.dayOfYear 59 = (3, 1) ∧ dayInYear 12 31 = .ok 365 := by decide +kernel
example : IsDate 2004 2 29 ∧ ¬ IsDate 2004 2 30 ∧ IsDate 2003 7 4 := by decide

/-- C02: the pentad of the `n`-th day (from 0) of the non-leap year is the five-day block it falls in. -/
theorem C02_pentad_of_day (n : Nat) (hn : n < 365) :
    whichPentad (Spec.dayOfYear n).1 (Spec.dayOfYear n).2 = .ok ((n / 5 : Nat) + 1) := by
  have hd := C03_day_in_year_counts n hn
  have hv := daysLater_isDate (t := (2003,1,1)) (by decide) n
  obtain ⟨h1, h2, h3, h4⟩ := hv
  have p := monthLength_pos (daysLater n (2003,1,1)).1 (daysLater n (2003,1,1)).2.1
  have h5 : (Spec.dayOfYear n).2 ≤ 31 := by simp only [Spec.dayOfYear]; omega
  unfold whichPentad
  simp only [hd]
  simp only [Spec.dayOfYear] at *
  have e : ((n:Int) + 1 - 1) / 5 + 1 = ((n / 5 : Nat) : Int) + 1 := by omega
  have l1 : (0:Int) ≤ (n:Int)/5 := by omega
  have l2 : (n:Int)/5 + 1 ≤ 73 := by omega
  simp [h1, h2, h3, h5, l1, l2]

/-- C02: 29 February shares the pentad of 1 March. -/
theorem C02_leap_day : whichPentad 2 29 = whichPentad 3 1 ∧ whichPentad 3 1 = .ok 12 := by decide +kernel

/-- C02: a number in 1..73 for every day of a leap year, an assertion failure for everything else. -/
theorem C02_which_pentad_domain (m d : Int) :
    (IsDate 2004 m d → ∃ p, whichPentad m d = .ok p ∧ 1 ≤ p ∧ p ≤ 73) ∧
    (¬ IsDate 2004 m d → whichPentad m d = .error .assertion) := by
  constructor
  · intro h
    rcases leapDate_cases h with h | ⟨rfl, rfl⟩
    · obtain ⟨n, hn, e⟩ := exists_dayOfYear h
      have := C02_pentad_of_day n hn
      simp only [Spec.dayOfYear, e] at this
      exact ⟨_, this, by omega, by omega⟩
    · exact ⟨12, by decide +kernel, by omega, by omega⟩
  · intro h
    have hk := (C03_day_in_year_domain m d).2 h
    unfold whichPentad
    rw [hk]
    simp only [pyAssert_bind]
    split
    · split <;> rfl
    · rfl

def pentadTable : Bool :=
  (List.range 73).all fun q =>
    decide (pentadToMonthDay ((q : Int) + 1) = .ok (Spec.dayOfYear (5 * q)))

theorem pentadTable_true : pentadTable = true := by decide +kernel

/-- C02: `pentad_to_month_day p` is the first day of the `p`-th block of five days, for 1 ≤ p ≤ 73, and
an assertion failure otherwise. -/
theorem C02_pentad_first_day (p : Int) :
    (1 ≤ p → p ≤ 73 → pentadToMonthDay p = .ok (Spec.dayOfYear (5 * (p - 1).toNat))) ∧
    (¬ (1 ≤ p ∧ p ≤ 73) → pentadToMonthDay p = .error .assertion) := by
  constructor
  · intro h1 h2
    have h := pentadTable_true
    unfold pentadTable at h
    rw [List.all_eq_true] at h
    have := h (p - 1).toNat (List.mem_range.2 (by omega))
    have e : (((p - 1).toNat : Nat) : Int) + 1 = p := by omega
    rw [e] at this
    simpa using this
  · intro h
    unfold pentadToMonthDay
    have : ¬ (0 < p ∧ p < 74) := by omega
    rw [pyAssert_bind]
    simp only [Bool.and_eq_true, decide_eq_true_eq, this, if_false]

/-- C02: reading back the pentad of the first day of pentad `p` gives `p`. -/
theorem C02_pentad_round_trip (p : Int) (h1 : 1 ≤ p) (h2 : p ≤ 73) :
    ∃ m d, pentadToMonthDay p = .ok (m, d) ∧ whichPentad m d = .ok p := by
  refine ⟨_, _, (C02_pentad_first_day p).1 h1 h2, ?_⟩
  have := C02_pentad_of_day (5 * (p - 1).toNat) (by omega)
  simp only [Spec.dayOfYear] at this
  rw [this]
  congr 1
  omega

/-- C02: pentad `p` holds exactly the five days `5(p-1), ..., 5(p-1)+4` of the non-leap year. -/
theorem C02_pentad_has_five_days (p : Int) (n : Nat) (hn : n < 365) :
    whichPentad (Spec.dayOfYear n).1 (Spec.dayOfYear n).2 = .ok p ↔
      5 * (p - 1) ≤ n ∧ (n : Int) < 5 * (p - 1) + 5 := by
  rw [C02_pentad_of_day n hn]
  simp only [Except.ok.injEq]
  omega

example : whichPentad 12 31 = .ok 73 ∧ pentadToMonthDay 73 = .ok (12, 27) := by decide +kernel

/-! ## C04 `dayinyear` -/

/-- C04: defined exactly on existing dates. -/
theorem C04_dayinyear_domain (y m d : Int) :
    (IsDate y m d → ∃ k, dayinyear y m d = .ok k) ∧
    (¬ IsDate y m d → dayinyear y m d = .error .assertion) :=
  ⟨fun h => ⟨_, dayinyear_ok h⟩, dayinyear_error⟩

/-- C04: 1 January is day 1. -/
theorem C04_dayinyear_first (y : Int) : dayinyear y 1 1 = .ok 1 := by
  rw [dayinyear_ok]
  · simp
  · exact ⟨by omega, by omega, by omega, by have := monthLength_pos y 1; omega⟩

/-- C04: one more than the day before, inside a year. -/
theorem C04_dayinyear_step (y m d m' d' : Int) (h : IsDate y m d)
    (hn : nextDay (y, m, d) = (y, m', d')) (k : Int) (hk : dayinyear y m d = .ok k) :
    dayinyear y m' d' = .ok (k + 1) := by
  have hd := nextDay_isDate h
  have hj := julDayCore_next h
  rw [hn] at hd hj
  simp only at hd hj
  rw [dayinyear_ok h] at hk
  rw [dayinyear_ok hd, hj]
  simp only [Except.ok.injEq] at *
  omega

/-- C04: 31 December has number 366 in leap years and 365 otherwise. -/
theorem C04_dayinyear_last (y : Int) :
    dayinyear y 12 31 = .ok (if LeapYear y then 366 else 365) := by
  rw [dayinyear_ok]
  · have := julDayCore_jan1_next y
    have e := julDayCore_year_step y
    rw [julDayCore_day y 12 31]
    congr 1
    omega
  · exact ⟨by omega, by omega, by omega, by simp [monthLength]⟩

example : dayinyear 2000 3 1 = .ok 61 ∧ dayinyear 1900 3 1 = .ok 60 := by decide
example : IsDate 1900 2 28 ∧ nextDay (1900, 2, 28) = (1900, 3, 1) := by decide

/-! ## C05 `jul_day` -/

/-- C05: the Julian day number of the following calendar day is one more. -/
theorem C05_jul_day_next (y m d y' m' d' : Int) (h : IsDate y m d)
    (hn : nextDay (y, m, d) = (y', m', d')) :
    ∃ j, julDay y m d = .ok j ∧ julDay y' m' d' = .ok (j + 1) := by
  have hd := nextDay_isDate h
  have hj := julDayCore_next h
  rw [hn] at hd hj
  exact ⟨_, julDay_ok h, by rw [julDay_ok hd, hj]⟩

/-- C05: strictly increasing in chronological order. -/
theorem C05_jul_day_strictMono (y m d y' m' d' : Int) (h : IsDate y m d) (h' : IsDate y' m' d')
    (hb : Before (y, m, d) (y', m', d')) :
    ∃ j j', julDay y m d = .ok j ∧ julDay y' m' d' = .ok j' ∧ j < j' :=
  ⟨_, _, julDay_ok h, julDay_ok h', julDayCore_lt (a := (y,m,d)) (b := (y',m',d')) h h' hb⟩

/-- C05: two dates have the same number only if they are the same date. -/
theorem C05_jul_day_injective (y m d y' m' d' : Int) (h : IsDate y m d) (h' : IsDate y' m' d')
    (e : julDay y m d = julDay y' m' d') : (y, m, d) = (y', m', d') := by
  rw [julDay_ok h, julDay_ok h'] at e
  exact julDayCore_inj (a := (y,m,d)) (b := (y',m',d')) h h' (by simpa using e)

example : julDay 2000 2 29 = .ok 2451604 ∧ julDay 2000 3 1 = .ok 2451605 := by decide
example : Before (1999, 12, 31) (2000, 1, 1) ∧ IsDate 1999 12 31 := by decide

/-! ## C06 `time_difference` -/

/-- C06: a missing hour gives `None`. -/
theorem C06_time_difference_missing (y1 m1 d1 : Int) (h1 : Option Rat) (y2 m2 d2 : Int) (h2 : Option Rat)
    (h : h1 = none ∨ h2 = none) : timeDifference y1 m1 d1 h1 y2 m2 d2 h2 = .ok none := by
  rcases h with rfl | rfl
  · cases h2 <;> rfl
  · cases h1 <;> rfl

/-- The exact value for every pair of dates, in terms of Julian days (helper). -/
theorem timeDifference_eq (y1 m1 d1 : Int) (h1 : Rat) (y2 m2 d2 : Int) (h2 : Rat)
    (v1 : IsDate y1 m1 d1) (v2 : IsDate y2 m2 d2)
    (a1 : 0 ≤ h1) (b1 : h1 < 24) (a2 : 0 ≤ h2) (b2 : h2 < 24) :
    timeDifference y1 m1 d1 (some h1) y2 m2 d2 (some h2) =
      .ok (some (24 * ((julDayCore y2 m2 d2 : Rat) - julDayCore y1 m1 d1) + (h2 - h1))) := by
  unfold timeDifference
  simp only
  by_cases ht : timeAfter y1 m1 d1 h1 y2 m2 d2 h2 = true
  · have ht' : timeAfter y2 m2 d2 h2 y1 m1 d1 h1 = false := by
      unfold timeAfter at *
      simp only [Bool.or_eq_true, Bool.and_eq_true, decide_eq_true_eq] at ht
      simp only [Bool.or_eq_false_iff, Bool.and_eq_false_iff, decide_eq_false_iff_not]
      rcases ht with ((h | h) | h) | ⟨⟨⟨rfl, rfl⟩, rfl⟩, h⟩
      · omega
      · omega
      · omega
      · simp; linarith
    unfold timeDifferenceStep
    simp only [ht, ht', a1, b1, a2, b2, decide_true, Bool.and_true, pyAssert_true, except_bind_ok, if_true,
      julDay_ok v1, julDay_ok v2, except_pure, Bool.false_eq_true, if_false]
    congr 2
    ring
  · unfold timeDifferenceStep
    simp only [ht, a1, b1, a2, b2, decide_true, Bool.and_true, pyAssert_true, except_bind_ok,
      julDay_ok v1, julDay_ok v2, except_pure, Bool.false_eq_true, if_false]
    congr 2
    ring

/-- C06: 24 hours per calendar day between the dates plus the hour difference (second date `n` days after
the first). -/
theorem C06_time_difference_exact (y1 m1 d1 : Int) (h1 : Rat) (n : Nat) (y2 m2 d2 : Int) (h2 : Rat)
    (v1 : IsDate y1 m1 d1) (hn : daysLater n (y1, m1, d1) = (y2, m2, d2))
    (a1 : 0 ≤ h1) (b1 : h1 < 24) (a2 : 0 ≤ h2) (b2 : h2 < 24) :
    timeDifference y1 m1 d1 (some h1) y2 m2 d2 (some h2) = .ok (some (24 * n + (h2 - h1))) ∧
    timeDifference y2 m2 d2 (some h2) y1 m1 d1 (some h1) = .ok (some (-(24 * n + (h2 - h1)))) := by
  have v2 := daysLater_isDate (t := (y1,m1,d1)) v1 n
  have hj := julDayCore_daysLater (t := (y1,m1,d1)) v1 n
  rw [hn] at v2 hj
  simp only at v2 hj
  rw [timeDifference_eq _ _ _ _ _ _ _ _ v1 v2 a1 b1 a2 b2,
      timeDifference_eq _ _ _ _ _ _ _ _ v2 v1 a2 b2 a1 b1, hj]
  constructor <;> (congr 2; push_cast; ring)

/-- C06: for any two dates one is a number of days after the other, so `C06_time_difference_exact` covers
every pair of valid inputs. -/
theorem C06_dates_comparable (a b : Int × Int × Int) (ha : IsDate a.1 a.2.1 a.2.2)
    (hb : IsDate b.1 b.2.1 b.2.2) : ∃ n, daysLater n a = b ∨ daysLater n b = a := by
  rcases before_trichotomy a b with c | c | c
  · obtain ⟨n, hn⟩ := exists_daysLater ha hb c; exact ⟨n, .inl hn.symm⟩
  · exact ⟨0, .inl c⟩
  · obtain ⟨n, hn⟩ := exists_daysLater hb ha c; exact ⟨n, .inr hn.symm⟩

/-- C06: antisymmetric. -/
theorem C06_time_difference_antisymm (y1 m1 d1 : Int) (h1 : Rat) (y2 m2 d2 : Int) (h2 : Rat)
    (v1 : IsDate y1 m1 d1) (v2 : IsDate y2 m2 d2)
    (a1 : 0 ≤ h1) (b1 : h1 < 24) (a2 : 0 ≤ h2) (b2 : h2 < 24) :
    ∃ r, timeDifference y1 m1 d1 (some h1) y2 m2 d2 (some h2) = .ok (some r) ∧
      timeDifference y2 m2 d2 (some h2) y1 m1 d1 (some h1) = .ok (some (-r)) := by
  rw [timeDifference_eq _ _ _ _ _ _ _ _ v1 v2 a1 b1 a2 b2,
      timeDifference_eq _ _ _ _ _ _ _ _ v2 v1 a2 b2 a1 b1]
  exact ⟨_, rfl, by congr 2; ring⟩

/-- C06: additive along any three times. -/
theorem C06_time_difference_additive (y1 m1 d1 : Int) (h1 : Rat) (y2 m2 d2 : Int) (h2 : Rat)
    (y3 m3 d3 : Int) (h3 : Rat)
    (v1 : IsDate y1 m1 d1) (v2 : IsDate y2 m2 d2) (v3 : IsDate y3 m3 d3)
    (a1 : 0 ≤ h1) (b1 : h1 < 24) (a2 : 0 ≤ h2) (b2 : h2 < 24) (a3 : 0 ≤ h3) (b3 : h3 < 24) :
    ∃ r s, timeDifference y1 m1 d1 (some h1) y2 m2 d2 (some h2) = .ok (some r) ∧
      timeDifference y2 m2 d2 (some h2) y3 m3 d3 (some h3) = .ok (some s) ∧
      timeDifference y1 m1 d1 (some h1) y3 m3 d3 (some h3) = .ok (some (r + s)) := by
  rw [timeDifference_eq _ _ _ _ _ _ _ _ v1 v2 a1 b1 a2 b2,
      timeDifference_eq _ _ _ _ _ _ _ _ v2 v3 a2 b2 a3 b3,
      timeDifference_eq _ _ _ _ _ _ _ _ v1 v3 a1 b1 a3 b3]
  exact ⟨_, _, rfl, rfl, by congr 2; ring⟩

/-- C06: positive exactly when the second time is after the first, zero exactly when they are the same
time. -/
theorem C06_time_difference_sign (y1 m1 d1 : Int) (h1 : Rat) (y2 m2 d2 : Int) (h2 : Rat)
    (v1 : IsDate y1 m1 d1) (v2 : IsDate y2 m2 d2)
    (a1 : 0 ≤ h1) (b1 : h1 < 24) (a2 : 0 ≤ h2) (b2 : h2 < 24) :
    ∃ r, timeDifference y1 m1 d1 (some h1) y2 m2 d2 (some h2) = .ok (some r) ∧
      (0 < r ↔ (Before (y1, m1, d1) (y2, m2, d2) ∨ ((y1, m1, d1) = (y2, m2, d2) ∧ h1 < h2))) ∧
      (r = 0 ↔ ((y1, m1, d1) = (y2, m2, d2) ∧ h1 = h2)) := by
  refine ⟨_, timeDifference_eq _ _ _ _ _ _ _ _ v1 v2 a1 b1 a2 b2, ?_⟩
  rcases before_trichotomy (y1, m1, d1) (y2, m2, d2) with c | c | c
  · have hj := julDayCore_lt (a := (y1,m1,d1)) (b := (y2,m2,d2)) v1 v2 c
    simp only at hj
    have hj' : (julDayCore y1 m1 d1 : Rat) + 1 ≤ julDayCore y2 m2 d2 := by exact_mod_cast hj
    have hpos : 0 < 24 * ((julDayCore y2 m2 d2 : Rat) - julDayCore y1 m1 d1) + (h2 - h1) := by linarith
    refine ⟨⟨fun _ => .inl c, fun _ => hpos⟩, ⟨fun h => by linarith, ?_⟩⟩
    rintro ⟨e, -⟩
    rw [e] at c; exact absurd c (before_asymm c)
  · have e := c
    simp only [Prod.mk.injEq] at e
    obtain ⟨rfl, rfl, rfl⟩ := e
    simp only [sub_self, mul_zero, zero_add, true_and, sub_pos]
    refine ⟨⟨.inr, ?_⟩, ⟨fun h => by linarith, fun h => by rw [h, sub_self]⟩⟩
    rintro (h | h)
    · exact absurd h (before_asymm h)
    · exact h
  · have hj := julDayCore_lt (a := (y2,m2,d2)) (b := (y1,m1,d1)) v2 v1 c
    simp only at hj
    have hj' : (julDayCore y2 m2 d2 : Rat) + 1 ≤ julDayCore y1 m1 d1 := by exact_mod_cast hj
    have hneg : 24 * ((julDayCore y2 m2 d2 : Rat) - julDayCore y1 m1 d1) + (h2 - h1) < 0 := by linarith
    refine ⟨⟨fun h => by linarith, ?_⟩, ⟨fun h => by linarith, ?_⟩⟩
    · rintro (h | ⟨e, _⟩)
      · exact absurd h (before_asymm c)
      · rw [e] at c; exact absurd c (before_asymm c)
    · rintro ⟨e, -⟩
      rw [e] at c; exact absurd c (before_asymm c)

/-- C06: an hour outside [0,24) is rejected. -/
theorem C06_time_difference_bad_hour (y1 m1 d1 : Int) (h1 : Rat) (y2 m2 d2 : Int) (h2 : Rat)
    (h : ¬ (0 ≤ h1 ∧ h1 < 24 ∧ 0 ≤ h2 ∧ h2 < 24)) :
    timeDifference y1 m1 d1 (some h1) y2 m2 d2 (some h2) = .error .assertion := by
  have : (decide (0 ≤ h1) && decide (h1 < 24) && (decide (0 ≤ h2) && decide (h2 < 24))) = false := by
    simp only [Bool.and_eq_false_iff, decide_eq_false_iff_not]; tauto
  simp [timeDifference, timeDifferenceStep, this]

example : timeDifference 1999 12 31 (some 23) 2000 1 1 (some (1/2)) = .ok (some (3/2)) := by
  decide +kernel
example : daysLater 1 (1999, 12, 31) = (2000, 1, 1) ∧ (0:Rat) ≤ 1/2 ∧ (1/2:Rat) < 24 := by decide +kernel

/-! ## C07 `year_month_gen` -/

/-- The list of `n + 1` consecutive months from `t` on. -/
def Spec.monthList (t : Int × Int) (n : Nat) : List (Int × Int) :=
  (List.range (n + 1)).map fun i => monthsLater i t

theorem monthsLater_succ' (n : Nat) (t : Int × Int) :
    monthsLater (n + 1) t = monthsLater n (succMonth t) := by
  induction n with
  | zero => rfl
  | succ n ih => rw [monthsLater, ih]; rfl

theorem monthList_cons (t : Int × Int) (n : Nat) :
    Spec.monthList t (n + 1) = t :: Spec.monthList (succMonth t) n := by
  unfold Spec.monthList
  rw [List.range_succ_eq_map]
  simp only [List.map_cons, List.map_map]
  congr 1
  apply List.map_congr_left
  intro i _
  simp [Function.comp, monthsLater_succ']

/-- Number of a month on the line of all months. -/
def monthNo (t : Int × Int) : Int := 12 * t.1 + t.2

theorem succMonth_valid {t : Int × Int} (h : 1 ≤ t.2 ∧ t.2 ≤ 12) :
    (1 ≤ (succMonth t).2 ∧ (succMonth t).2 ≤ 12) ∧ monthNo (succMonth t) = monthNo t + 1 := by
  obtain ⟨y, m⟩ := t
  simp only [succMonth, monthNo] at *
  split <;> simp <;> omega

theorem yearMonthLoop_finishes (y2 m2 : Int) (h2 : 1 ≤ m2 ∧ m2 ≤ 12) (n : Nat) :
    ∀ (y m : Int), 1 ≤ m ∧ m ≤ 12 → 12 * y2 + m2 = 12 * y + m + n →
      ∀ fuel, n < fuel → yearMonthLoop y2 m2 fuel y m = some (Spec.monthList (y, m) n) := by
  induction n with
  | zero =>
    intro y m hm e fuel hf
    obtain ⟨fuel, rfl⟩ : ∃ k, fuel = k + 1 := ⟨fuel - 1, by omega⟩
    have : y = y2 ∧ m = m2 := by omega
    simp [yearMonthLoop, this, Spec.monthList, monthsLater]
  | succ n ih =>
    intro y m hm e fuel hf
    obtain ⟨fuel, rfl⟩ : ∃ k, fuel = k + 1 := ⟨fuel - 1, by omega⟩
    have hne : ¬ (y = y2 ∧ m = m2) := by omega
    have hnext : (if m + 1 > 12 then (y + 1, (1:Int)) else (y, m + 1)) = succMonth (y, m) := by
      simp only [succMonth]
      by_cases h : m = 12
      · simp [h]
      · have : ¬ (m + 1 > 12) := by omega
        simp [h, this]
    have hv := succMonth_valid (t := (y, m)) hm
    simp only [monthNo] at hv
    unfold yearMonthLoop
    simp only [hne, if_false, hnext]
    rw [ih _ _ hv.1 (by push_cast at e; omega) fuel (by omega), monthList_cons]

/-- C07: for months in 1..12 and start not after end, the generator finishes (after `n+1` rounds of its
loop, hence with any larger allowance) and yields the `n + 1 = 12(y2-y1)+m2-m1+1` consecutive months
starting at the start month. -/
theorem C07_year_month_gen_enumerates (y1 m1 y2 m2 : Int) (h1 : 1 ≤ m1 ∧ m1 ≤ 12) (h2 : 1 ≤ m2 ∧ m2 ≤ 12)
    (n : Nat) (hn : (n : Int) = 12 * (y2 - y1) + m2 - m1) (fuel : Nat) (hf : n < fuel) :
    yearMonthGen fuel y1 m1 y2 m2 = .ok (some (Spec.monthList (y1, m1) n)) := by
  unfold yearMonthGen
  have e1 : y2 ≥ y1 := by omega
  have e2 : 0 < m1 := by omega
  rw [yearMonthLoop_finishes y2 m2 h2 n y1 m1 h1 (by omega) fuel hf]
  simp [e1, e2, h1.2]

theorem monthsLater_valid (n : Nat) {t : Int × Int} (h : 1 ≤ t.2 ∧ t.2 ≤ 12) :
    (1 ≤ (monthsLater n t).2 ∧ (monthsLater n t).2 ≤ 12) ∧ monthNo (monthsLater n t) = monthNo t + n := by
  induction n with
  | zero => simp [monthsLater, h]
  | succ n ih =>
    have := succMonth_valid ih.1
    simp only [monthsLater]
    exact ⟨this.1, by rw [this.2, ih.2]; push_cast; ring⟩

/-- C07: the yielded list ends with the end month, has no repeats, and contains a month exactly when it
lies between start and end. -/
theorem C07_year_month_list (y1 m1 y2 m2 : Int) (h1 : 1 ≤ m1 ∧ m1 ≤ 12) (h2 : 1 ≤ m2 ∧ m2 ≤ 12)
    (n : Nat) (hn : (n : Int) = 12 * (y2 - y1) + m2 - m1) :
    (Spec.monthList (y1, m1) n).length = n + 1 ∧
    (Spec.monthList (y1, m1) n).getLast? = some (y2, m2) ∧
    (Spec.monthList (y1, m1) n).Nodup ∧
    ∀ y m, (y, m) ∈ Spec.monthList (y1, m1) n ↔
      (1 ≤ m ∧ m ≤ 12 ∧ 12 * y1 + m1 ≤ 12 * y + m ∧ 12 * y + m ≤ 12 * y2 + m2) := by
  have key : ∀ i : Nat, monthNo (monthsLater i (y1, m1)) = 12 * y1 + m1 + i := fun i =>
    (monthsLater_valid i (t := (y1,m1)) h1).2
  have val : ∀ i : Nat, 1 ≤ (monthsLater i (y1, m1)).2 ∧ (monthsLater i (y1, m1)).2 ≤ 12 := fun i =>
    (monthsLater_valid i (t := (y1,m1)) h1).1
  have uniq : ∀ (i : Nat) (y m : Int), 1 ≤ m ∧ m ≤ 12 → 12 * y + m = 12 * y1 + m1 + i →
      monthsLater i (y1, m1) = (y, m) := by
    intro i y m hm e
    have k := key i; have v := val i
    generalize monthsLater i (y1, m1) = t at *
    obtain ⟨a, b⟩ := t
    simp only [monthNo] at k v
    simp only [Prod.mk.injEq]; omega
  refine ⟨by simp [Spec.monthList], ?_, ?_, ?_⟩
  · simp only [Spec.monthList, List.range_succ, List.map_append, List.map_cons, List.map_nil,
      List.getLast?_append, List.getLast?_singleton, Option.some_or]
    rw [uniq n y2 m2 h2 (by omega)]
  · unfold Spec.monthList
    rw [List.nodup_iff_pairwise_ne, List.pairwise_map]
    refine List.nodup_range.imp ?_
    intro i j hij e
    apply hij
    have := key i; rw [e, key j] at this; omega
  · intro y m
    simp only [Spec.monthList, List.mem_map, List.mem_range]
    constructor
    · rintro ⟨i, hi, e⟩
      have k := key i; have v := val i
      rw [e] at k v
      simp only [monthNo] at k v
      omega
    · rintro ⟨a, b, c, d⟩
      exact ⟨(12 * y + m - (12 * y1 + m1)).toNat, by omega, uniq _ _ _ ⟨a, b⟩ (by omega)⟩

/-- C07: an end year before the start year, or a start month that is no month, is rejected. -/
theorem C07_year_month_gen_rejects (fuel : Nat) (y1 m1 y2 m2 : Int)
    (h : y2 < y1 ∨ m1 < 1 ∨ 12 < m1) : yearMonthGen fuel y1 m1 y2 m2 = .error .assertion := by
  unfold yearMonthGen
  by_cases a : y2 ≥ y1 <;> by_cases b : 0 < m1 <;> by_cases c : m1 ≤ 12 <;> simp [a, b, c]
  omega

theorem yearMonthLoop_diverges (y2 m2 : Int) (fuel : Nat) :
    ∀ (y m : Int), 1 ≤ m ∧ m ≤ 12 → (m2 < 1 ∨ 12 < m2 ∨ 12 * y2 + m2 < 12 * y + m) →
      yearMonthLoop y2 m2 fuel y m = none := by
  induction fuel with
  | zero => intros; rfl
  | succ fuel ih =>
    intro y m hm h
    have hne : ¬ (y = y2 ∧ m = m2) := by omega
    unfold yearMonthLoop
    simp only [hne, if_false]
    by_cases hc : m + 1 > 12
    · simp only [hc, if_true]
      rw [ih (y+1) 1 (by omega) (by omega)]
    · simp only [hc, if_false]
      rw [ih y (m+1) (by omega) (by omega)]

/-- C07: when the end month precedes the start month of the same year, or the end month is not in 1..12,
the generator never stops: no number of rounds is enough. -/
theorem C07_year_month_gen_diverges (y1 m1 y2 m2 : Int) (hy : y1 ≤ y2) (h1 : 1 ≤ m1 ∧ m1 ≤ 12)
    (h : (y1 = y2 ∧ m2 < m1) ∨ m2 < 1 ∨ 12 < m2) (fuel : Nat) :
    yearMonthGen fuel y1 m1 y2 m2 = .ok none := by
  unfold yearMonthGen
  rw [yearMonthLoop_diverges y2 m2 fuel y1 m1 h1 (by omega)]
  have e2 : 0 < m1 := by omega
  simp [hy, e2, h1.2]

example : yearMonthGen 100 1999 11 2000 2 =
    .ok (some [(1999, 11), (1999, 12), (2000, 1), (2000, 2)]) := by decide
example : ((3 : Nat) : Int) = 12 * (2000 - 1999) + 2 - 11 := by decide
example : yearMonthGen 50 2000 5 2000 4 = .ok none := by decide

/-! ## C08 month stepping -/

/-- C08: stepping back then forward (and forward then back) returns to the month. -/
theorem C08_month_step_inverse (y m : Int) (h : 1 ≤ m ∧ m ≤ 12) :
    nextMonthIs (lastMonthWas y m).1 (lastMonthWas y m).2 = (y, m) ∧
    lastMonthWas (nextMonthIs y m).1 (nextMonthIs y m).2 = (y, m) := by
  constructor
  · unfold lastMonthWas nextMonthIs
    by_cases e : m - 1 = 0
    · simp [e]; omega
    · have : ¬ (m - 1 + 1 > 12) := by omega
      simp only [e, if_false, this, Prod.mk.injEq, true_and]; omega
  · unfold lastMonthWas nextMonthIs
    by_cases e : m + 1 > 12
    · simp [e]; omega
    · have : ¬ (m + 1 - 1 = 0) := by omega
      simp only [e, if_false, this, Prod.mk.injEq, true_and]; omega

/-- C08: `next_month_is` is the calendar's next month. -/
theorem C08_next_month (y m : Int) (h : 1 ≤ m ∧ m ≤ 12) : nextMonthIs y m = succMonth (y, m) := by
  unfold nextMonthIs succMonth
  by_cases e : m = 12
  · simp [e]
  · have : ¬ (m + 1 > 12) := by omega
    simp [e, this]

/-- C08: the main program reads exactly the previous month, the month and the next month, in order. -/
theorem C08_three_months (y m : Int) (h : 1 ≤ m ∧ m ≤ 12) (fuel : Nat) (hf : 3 ≤ fuel) :
    ∃ p q, succMonth p = (y, m) ∧ (1 ≤ p.2 ∧ p.2 ≤ 12) ∧ succMonth (y, m) = q ∧
      monthsRead fuel y m = .ok (some [p, (y, m), q]) := by
  have hp : 1 ≤ (lastMonthWas y m).2 ∧ (lastMonthWas y m).2 ≤ 12 := by
    unfold lastMonthWas
    by_cases e : m - 1 = 0 <;> simp [e] <;> omega
  have hpn : succMonth (lastMonthWas y m) = (y, m) := by
    rw [← (C08_month_step_inverse y m h).1, C08_next_month _ _ hp]
  have hq : 1 ≤ (succMonth (y, m)).2 ∧ (succMonth (y, m)).2 ≤ 12 := (succMonth_valid (t := (y,m)) h).1
  refine ⟨lastMonthWas y m, succMonth (y, m), hpn, hp, rfl, ?_⟩
  unfold monthsRead
  simp only [C08_next_month y m h]
  have n1 := (succMonth_valid (t := (y,m)) h).2
  have n0 := (succMonth_valid hp).2
  rw [hpn] at n0
  simp only [monthNo] at n0 n1
  rw [C07_year_month_gen_enumerates _ _ _ _ hp hq 2 (by push_cast; omega) fuel (by omega)]
  simp only [Spec.monthList, List.range_succ, List.range_zero, List.nil_append,
    List.map_cons, List.map_nil, monthsLater, hpn, Prod.mk.eta, List.cons_append]

example : monthsRead 3 2000 1 = .ok (some [(1999, 12), (2000, 1), (2000, 2)]) := by decide

/-- C08: `month_match` is 1 exactly when both months are the same month of the same year, else 0. -/
theorem C08_month_match (y1 m1 y2 m2 : Int) :
    (monthMatch y1 m1 y2 m2 = 1 ↔ (y1, m1) = (y2, m2)) ∧ (monthMatch y1 m1 y2 m2 = 0 ↔ (y1, m1) ≠ (y2, m2)) := by
  unfold monthMatch
  by_cases h : y1 = y2 ∧ m1 = m2 <;> simp [h]

example : monthMatch 2000 1 2001 1 = 0 ∧ monthMatch 2000 1 2000 1 = 1 := by decide

/-! ## C09 `season` -/

/-- C09, all integers except 0: the season of the month, or `None`. -/
theorem C09_season_partial (m : Int) (h : m ≠ 0) : season m = .ok (seasonOf m) := by
  by_cases h1 : 1 ≤ m
  · by_cases h2 : m ≤ 12
    · rcases month_cases h1 h2 with h | h | h | h | h | h | h | h | h | h | h | h <;> subst h <;> decide
    · unfold season
      have a : m < 0 ∨ m > 12 := by omega
      have b : seasonOf m = none := by
        unfold seasonOf
        rw [if_neg (by omega), if_neg (by omega), if_neg (by omega), if_neg (by omega)]
      simp [a, b]
  · unfold season
    have a : m < 0 ∨ m > 12 := by omega
    have b : seasonOf m = none := by
      unfold seasonOf
      rw [if_neg (by omega), if_neg (by omega), if_neg (by omega), if_neg (by omega)]
    simp [a, b]

/-- C09 is false of the code at 0: `season(0)` is 'DJF' (index -1 of the table), not `None`. -/
theorem C09_season_zero_violation : season 0 = .ok (some "DJF") ∧ ¬ (∀ m, season m = .ok (seasonOf m)) := by
  refine ⟨by decide, fun h => ?_⟩
  have := h 0
  revert this; decide

example : season 12 = .ok (some "DJF") ∧ season 13 = .ok none ∧ season 7 = .ok (some "JJA") := by decide

end MarineQC
