import Verif.Checks.Model
import Verif.Checks.Spec
import Verif.Calendar.Spec
import Verif.Calendar.Props
import Mathlib.Tactic.Linarith
import Mathlib.Tactic.NormNum
import Mathlib.Tactic.Positivity
import Mathlib.Tactic.FieldSimp
import Mathlib.Tactic.IntervalCases

/-!
# C20-C24: decision logic of the single-report checks
-/

namespace MarineQC

/-! ## C20 climatology checks -/

/-- C20: `climatology_check` fails iff an input is missing or the anomaly exceeds the limit. -/
theorem C20_climatology_check (v n l : Option Rat) :
    (climatologyCheck v n l = 1 ↔
      v = none ∨ n = none ∨ l = none ∨
        ∃ v' n' l', v = some v' ∧ n = some n' ∧ l = some l' ∧ l' < |v' - n'|) ∧
    (climatologyCheck v n l = 1 ∨ climatologyCheck v n l = 0) := by
  cases v <;> cases n <;> cases l <;> simp [climatologyCheck]
  exact lt_or_ge _ _

/-- The deviation forced into `[lo, hi]`. -/
def clampTo (lo hi s : Rat) : Rat := max lo (min hi s)

private theorem clamp_eq {lo hi s : Rat} (h : lo < hi) :
    (let stdev := if s < lo then lo else s
     if stdev > hi then hi else stdev) = clampTo lo hi s := by
  unfold clampTo
  dsimp only
  by_cases h1 : s < lo
  · simp only [h1, if_true]
    rw [if_neg (by linarith), min_eq_right (by linarith), max_eq_left (by linarith)]
  · simp only [h1, if_false]
    by_cases h2 : s > hi
    · simp only [h2, if_true]
      rw [min_eq_left (by linarith), max_eq_right (by linarith)]
    · simp only [h2, if_false]
      rw [min_eq_right (by linarith), max_eq_right (by linarith)]

/-- C20: `climatology_plus_stdev_check` with positive deviation limits fails iff an input is missing or the
anomaly exceeds `limit` clamped deviations; it never raises. -/
theorem C20_stdev_check (v n s : Option Rat) (lo hi limit : Rat) (h0 : 0 < lo) (h1 : lo < hi)
    (hl : 0 < limit) :
    (climatologyPlusStdevCheck v n s lo hi limit = .ok 1 ↔
      v = none ∨ n = none ∨ s = none ∨
        ∃ v' n' s', v = some v' ∧ n = some n' ∧ s = some s' ∧ limit * clampTo lo hi s' < |v' - n'|) ∧
    (climatologyPlusStdevCheck v n s lo hi limit = .ok 1 ∨
      climatologyPlusStdevCheck v n s lo hi limit = .ok 0) := by
  unfold climatologyPlusStdevCheck
  rw [decide_eq_true h1, decide_eq_true hl]
  cases v <;> cases n <;> cases s <;> simp
  rename_i v n s
  have hc := clamp_eq (s := s) h1
  dsimp only at hc
  simp only [hc]
  have hpos : 0 < clampTo lo hi s := lt_of_lt_of_le h0 (le_max_left _ _)
  rw [if_neg (ne_of_gt hpos)]
  by_cases hgt : limit < |v - n| / clampTo lo hi s
  · rw [if_pos hgt]
    simp [(lt_div_iff₀ hpos).1 hgt]
  · rw [if_neg hgt]
    have : ¬ limit * clampTo lo hi s < |v - n| := fun h => hgt ((lt_div_iff₀ hpos).2 h)
    simp [not_lt.1 this]

/-- C20: the low-bar variant with a positive deviation. -/
theorem C20_lowbar_check (v n s : Option Rat) (limit lowbar : Rat) (hl : 0 < limit)
    (hs : ∀ s', s = some s' → 0 < s') :
    (climatologyPlusStdevWithLowbar v n s limit lowbar = .ok 1 ↔
      v = none ∨ n = none ∨ s = none ∨
        ∃ v' n' s', v = some v' ∧ n = some n' ∧ s = some s' ∧ limit * s' < |v' - n'| ∧ lowbar < |v' - n'|) ∧
    (climatologyPlusStdevWithLowbar v n s limit lowbar = .ok 1 ∨
      climatologyPlusStdevWithLowbar v n s limit lowbar = .ok 0) := by
  unfold climatologyPlusStdevWithLowbar
  rw [decide_eq_true hl]
  cases v <;> cases n <;> cases s <;> simp
  rename_i v n s
  have hpos := hs s rfl
  rw [if_neg (ne_of_gt hpos)]
  by_cases hgt : limit < |v - n| / s ∧ lowbar < |v - n|
  · rw [if_pos hgt]
    simp [(lt_div_iff₀ hpos).1 hgt.1, hgt.2]
  · rw [if_neg hgt]
    simp only [not_and, not_lt] at hgt
    simp only [Except.ok.injEq, zero_ne_one, false_iff, not_and, not_lt, or_true, and_true]
    intro h
    exact hgt ((lt_div_iff₀ hpos).2 h)

/-- C20: a larger anomaly never turns a fail into a pass, for each of the three checks. -/
theorem C20_monotone (v v' n s lo hi limit lowbar : Rat) (h0 : 0 < lo) (h1 : lo < hi) (hl : 0 < limit)
    (hs : 0 < s) (h : |v - n| ≤ |v' - n|) :
    (climatologyCheck (some v) (some n) (some limit) = 1 → climatologyCheck (some v') (some n) (some limit) = 1) ∧
    (climatologyPlusStdevCheck (some v) (some n) (some s) lo hi limit = .ok 1 →
      climatologyPlusStdevCheck (some v') (some n) (some s) lo hi limit = .ok 1) ∧
    (climatologyPlusStdevWithLowbar (some v) (some n) (some s) limit lowbar = .ok 1 →
      climatologyPlusStdevWithLowbar (some v') (some n) (some s) limit lowbar = .ok 1) := by
  have hs' : ∀ s', some s = some s' → 0 < s' := by rintro _ ⟨⟩; exact hs
  rw [(C20_climatology_check _ _ _).1, (C20_climatology_check _ _ _).1,
    (C20_stdev_check _ _ _ lo hi limit h0 h1 hl).1, (C20_stdev_check _ _ _ lo hi limit h0 h1 hl).1,
    (C20_lowbar_check _ _ _ limit lowbar hl hs').1, (C20_lowbar_check _ _ _ limit lowbar hl hs').1]
  simp only [Option.some.injEq, reduceCtorEq, false_or]
  refine ⟨?_, ?_, ?_⟩
  · rintro ⟨_, _, _, rfl, rfl, rfl, a⟩
    exact ⟨_, _, _, rfl, rfl, rfl, lt_of_lt_of_le a h⟩
  · rintro ⟨_, _, _, rfl, rfl, rfl, a⟩
    exact ⟨_, _, _, rfl, rfl, rfl, lt_of_lt_of_le a h⟩
  · rintro ⟨_, _, _, rfl, rfl, rfl, a, b⟩
    exact ⟨_, _, _, rfl, rfl, rfl, lt_of_lt_of_le a h, lt_of_lt_of_le b h⟩

/-- C20: a zero deviation makes the low-bar check raise whenever nothing is missing: the check is only
usable with positive deviations. -/
theorem C20_lowbar_zero_deviation_raises (v n limit lowbar : Rat) (hl : 0 < limit) :
    climatologyPlusStdevWithLowbar (some v) (some n) (some 0) limit lowbar = .error .zeroDiv := by
  unfold climatologyPlusStdevWithLowbar
  rw [decide_eq_true hl]
  simp

example : climatologyCheck (some 20) (some 11) (some 8) = 1 ∧ climatologyCheck (some 19) (some 11) (some 8) = 0 ∧
    climatologyPlusStdevCheck (some 20) (some 15) (some (1/10)) 1 4 5 = .ok 0 ∧
    climatologyPlusStdevCheck (some 21) (some 15) (some (1/10)) 1 4 5 = .ok 1 ∧
    climatologyPlusStdevWithLowbar (some 20) (some 15) (some 1) 4 10 = .ok 0 ∧
    climatologyPlusStdevWithLowbar (some 26) (some 15) (some 1) 4 10 = .ok 1 := by decide +kernel

/-! ## C21 single value checks -/

/-- C21: `hard_limit` passes iff the value is present and inside the closed limits, else fails. -/
theorem C21_hard_limit (v : Option Rat) (lo hi : Rat) (h : lo < hi) :
    hardLimit v lo hi = .ok (if ∃ x, v = some x ∧ lo ≤ x ∧ x ≤ hi then 0 else 1) := by
  unfold hardLimit
  rw [decide_eq_true h]
  cases v with
  | none => simp
  | some x => by_cases hx : lo ≤ x ∧ x ≤ hi <;> simp [hx]

/-- C21: limits in the wrong order are rejected. -/
theorem C21_hard_limit_order (v : Option Rat) (lo hi : Rat) (h : hi ≤ lo) :
    hardLimit v lo hi = .error .assertion := by
  unfold hardLimit
  rw [decide_eq_false (not_lt.2 h)]
  rfl

/-- C21: `sst_freeze_check` fails iff the value is present and below the lowered freezing point. -/
theorem C21_freeze (v : Option Rat) (u f nSigma : Rat) :
    sstFreezeCheck v (some u) (some f) nSigma =
      .ok (if ∃ x, v = some x ∧ x < f - nSigma * u then 1 else 0) := by
  unfold sstFreezeCheck
  cases v with
  | none => simp
  | some x => by_cases hx : x < f - nSigma * u <;> simp [hx]

open Classical in
/-- C21: `supersat_check` fails iff a value is missing or dewpoint exceeds temperature. -/
theorem C21_supersat (td t : Option Rat) :
    supersatCheck td t = if td = none ∨ t = none ∨ ∃ a b, td = some a ∧ t = some b ∧ b < a then 1 else 0 := by
  cases td <;> cases t <;> simp [supersatCheck]

/-- C21: `value_check` and `no_normal_check` fail iff the value is missing. -/
theorem C21_missing (v : Option Rat) :
    (valueCheck v = if v = none then 1 else 0) ∧ (noNormalCheck v = if v = none then 1 else 0) := by
  cases v <;> simp [valueCheck, noNormalCheck]

/-- C21: `wind_consistency` fails iff the direction is "calm" (361) with a speed other than zero (a missing
speed counts as other than zero), or "variable" (362) with a speed above the limit. -/
theorem C21_wind (speed : Option Rat) (dir : Option Rat) (limit : Rat) :
    windConsistency speed dir limit =
      if (dir = some 361 ∧ speed ≠ some 0) ∨ (dir = some 362 ∧ ∃ w, speed = some w ∧ limit < w)
      then 1 else 0 := by
  unfold windConsistency
  by_cases h1 : dir = some 361
  · subst h1
    by_cases h2 : speed = some 0 <;> simp [h2]
  · by_cases h3 : dir = some 362
    · subst h3
      cases speed with
      | none => simp
      | some w => simp
    · simp [h1, h3]

example : hardLimit (some 3) 3 4 = .ok 0 ∧ hardLimit (some 5) 3 4 = .ok 1 ∧ hardLimit none 3 4 = .ok 1 ∧
    sstFreezeCheck (some (-5)) (some 1) (some (-18/10)) 2 = .ok 1 ∧
    sstFreezeCheck (some (-3)) (some 1) (some (-18/10)) 2 = .ok 0 ∧
    supersatCheck (some 5) (some 4) = 1 ∧ supersatCheck (some 4) (some 4) = 0 ∧
    windConsistency (some 3) (some 361) 5 = 1 ∧ windConsistency (some 6) (some 362) 5 = 1 ∧
    windConsistency (some 5) (some 362) 5 = 0 := by decide +kernel

/-! ## C22 position, time and date -/

/-- C22: `position_check` on present numbers. -/
theorem C22_position (la lo : Rat) :
    positionCheck (some la) (some lo) =
      .ok (if (-90 ≤ la ∧ la ≤ 90) ∧ (-180 ≤ lo ∧ lo ≤ 360) then 0 else 1) := by
  unfold positionCheck
  simp only [except_pure]
  congr 1
  by_cases h1 : la < -90 ∨ la > 90
  · have : ¬ (-90 ≤ la ∧ la ≤ 90) := by rintro ⟨a, b⟩; rcases h1 with h | h <;> linarith
    simp [h1, this]
  · have : -90 ≤ la ∧ la ≤ 90 := by
      simp only [not_or, not_lt] at h1; exact h1
    simp only [h1, if_false, this, true_and]
    by_cases h2 : lo < -180 ∨ lo > 360
    · have : ¬ (-180 ≤ lo ∧ lo ≤ 360) := by rintro ⟨a, b⟩; rcases h2 with h | h <;> linarith
      rw [if_pos h2, if_neg this]
    · have : -180 ≤ lo ∧ lo ≤ 360 := by simp only [not_or, not_lt] at h2; exact h2
      rw [if_neg h2]; simp [this]

/-- C22: a missing coordinate is rejected. -/
theorem C22_position_missing (x : Option Rat) :
    positionCheck none x = .error .assertion ∧ positionCheck x none = .error .assertion := by
  cases x <;> simp [positionCheck]

/-- C22: `time_check` passes iff the hour is present and in `[0, 24)`. -/
theorem C22_time (h : Option Rat) :
    timeCheck h = if ∃ x, h = some x ∧ 0 ≤ x ∧ x < 24 then 0 else 1 := by
  unfold timeCheck
  cases h with
  | none => simp
  | some x =>
    by_cases hx : 0 ≤ x ∧ x < 24
    · have : ¬ (x ≥ 24 ∨ x < 0) := by rintro (h | h) <;> linarith [hx.1, hx.2]
      simp [hx]
    · have : x ≥ 24 ∨ x < 0 := by
        by_contra hc
        simp only [ge_iff_le, not_or, not_le, not_lt] at hc
        exact hx ⟨hc.2, hc.1⟩
      simp only [this, if_true]
      simp [hx]

/-- C22: `date_check` on a year and a month 1..12 never raises, and passes iff the year is in 1850..2024
and the date exists. -/
theorem C22_date (y m : Int) (d : Option Int) (hm : 1 ≤ m ∧ m ≤ 12) :
    dateCheck (some y) (some m) d =
      .ok (if (1850 ≤ y ∧ y ≤ 2024) ∧ ∃ d', d = some d' ∧ Spec.IsDate y m d' then 0 else 1) := by
  cases d with
  | none => simp [dateCheck]
  | some d =>
    simp only [dateCheck]
    by_cases hd : d < 1
    · have : ¬ Spec.IsDate y m d := fun h => by have := h.2.2.1; omega
      simp [hd, this]
    · rw [if_neg hd, pyIndex_monthLengths y m hm.1 hm.2]
      simp only [except_bind_ok]
      by_cases hl : d > Spec.monthLength y m
      · have : ¬ Spec.IsDate y m d := fun h => by have := h.2.2.2; omega
        simp [hl, this]
      · have hI : Spec.IsDate y m d := ⟨hm.1, hm.2, by omega, by omega⟩
        rw [if_neg hl, if_neg (by omega : ¬ (m < 1 ∨ m > 12))]
        simp only [except_pure]
        congr 1
        simp only [Option.some.injEq, exists_eq_left', hI, and_true]
        split_ifs <;> first | rfl | omega

/-- C22: whatever the integers, a pass means a valid date. -/
theorem C22_date_pass (y m : Int) (d : Option Int) (h : dateCheck (some y) (some m) d = .ok 0) :
    (1850 ≤ y ∧ y ≤ 2024) ∧ ∃ d', d = some d' ∧ Spec.IsDate y m d' := by
  by_cases hm : 1 ≤ m ∧ m ≤ 12
  · rw [C22_date y m d hm] at h
    by_contra hc
    rw [if_neg hc] at h
    simp at h
  · exfalso
    cases d with
    | none => simp [dateCheck] at h
    | some d =>
      simp only [dateCheck] at h
      by_cases hd : d < 1
      · simp [hd] at h
      · rw [if_neg hd] at h
        rw [if_pos (by omega : m < 1 ∨ m > 12)] at h
        cases hp : pyIndex (getMonthLengths y) (m - 1) with
        | error e => rw [hp] at h; simp at h
        | ok l =>
          rw [hp] at h
          simp only [except_bind_ok, except_pure] at h
          split_ifs at h <;> simp at h

/-- C22: for a month above 12 (or below -11) and a present positive day the check does not return a flag,
it raises `IndexError`. -/
theorem C22_date_month_raises (y m d : Int) (hm : 13 ≤ m ∨ m ≤ -12) (hd : 1 ≤ d) :
    dateCheck (some y) (some m) (some d) = .error .index := by
  have hlen : (getMonthLengths y).length = 12 := by unfold getMonthLengths; split_ifs <;> rfl
  simp only [dateCheck]
  rw [if_neg (by omega : ¬ d < 1)]
  have : pyIndex (getMonthLengths y) (m - 1) = .error .index := by
    unfold pyIndex
    rw [hlen]
    dsimp only
    by_cases hj : (if m - 1 < 0 then m - 1 + ((12 : Nat) : Int) else m - 1) < 0
    · rw [if_pos hj]
    · rw [if_neg hj, List.getElem?_eq_none]
      rw [hlen]
      split_ifs at hj ⊢ <;> omega
  rw [this]
  rfl

example : dateCheck (some 2004) (some 2) (some 29) = .ok 0 ∧ dateCheck (some 2003) (some 2) (some 29) = .ok 1 ∧
    dateCheck (some 2025) (some 2) (some 1) = .ok 1 ∧ dateCheck (some 2003) (some 13) (some 1) = .error .index ∧
    dateCheck (some 2003) (some 0) (some 1) = .ok 1 := by
  decide +kernel
example : positionCheck (some 90) (some (-180)) = .ok 0 ∧ positionCheck (some 91) (some 0) = .ok 1 ∧
    positionCheck (some 0) (some (-181)) = .ok 1 ∧ timeCheck (some 24) = 1 ∧ timeCheck (some 0) = 0 ∧
    timeCheck (some (-1/2)) = 1 := by decide +kernel

/-! ## C23 the exclusion list -/

private def boxOf (e : Spec.Exclusion) : Int × Int × Int × Int := (e.west, e.south, e.east, e.north)

/-- The program's two tables and the specification's table agree, for every year. -/
theorem regions_agree (y : Int) :
    (∀ regs, yearToRegions y = some regs →
      regs.map blacklistRegion = (Spec.deck732.filter (fun e => y ∈ e.years)).map (fun e => some (boxOf e))) ∧
    (yearToRegions y = none → ∀ e ∈ Spec.deck732, y ∉ e.years) := by
  by_cases hy : 1958 ≤ y ∧ y ≤ 1974
  · have key : (yearToRegions y).map (List.map blacklistRegion) =
        some ((Spec.deck732.filter (fun e => y ∈ e.years)).map (fun e => some (boxOf e))) := by
      obtain ⟨h1, h2⟩ := hy
      interval_cases y <;> decide +kernel
    constructor
    · intro regs h
      rw [h] at key
      simpa using key
    · intro h
      rw [h] at key
      simp at key
  · have h1 : yearToRegions y = none := by
      unfold yearToRegions
      split <;> first | rfl | (exfalso; omega)
    refine ⟨fun regs h => ?_, fun _ e he hye => ?_⟩
    · rw [h1] at h
      simp at h
    · have hb : ∀ e ∈ Spec.deck732, ∀ z ∈ e.years, (1958 : Int) ≤ z ∧ z ≤ 1974 := by decide +kernel
      exact hy (hb e he y hye)

theorem regionLoop_spec (lat lon : Option Rat) (regs : List Nat) (boxes : List (Int × Int × Int × Int))
    (h : regs.map blacklistRegion = boxes.map some) (result : Int) :
    regionLoop lat lon regs result = .ok (if ∃ b ∈ boxes, inRegion b lat lon = true then 1 else result) := by
  induction regs generalizing boxes result with
  | nil =>
    cases boxes with
    | nil => simp [regionLoop]
    | cons => simp at h
  | cons r rs ih =>
    cases boxes with
    | nil => simp at h
    | cons b bs =>
      simp only [List.map_cons, List.cons.injEq] at h
      simp only [regionLoop, h.1]
      rw [ih bs h.2]
      congr 1
      by_cases hb : inRegion b lat lon = true
      · simp [hb]
      · simp only [List.mem_cons, exists_eq_or_imp, hb, false_or, Bool.false_eq_true, if_false]

private theorem inRegion_iff (e : Spec.Exclusion) (lat lon : Option Rat) :
    inRegion (boxOf e) lat lon = true ↔ ∃ la lo, lat = some la ∧ lon = some lo ∧ e.Contains la lo := by
  cases lat with
  | none => simp [inRegion]
  | some la =>
    cases lon with
    | none => simp [inRegion]
    | some lo =>
      simp only [inRegion, Bool.and_eq_true]
      constructor
      · rintro ⟨a, b⟩
        have a := of_decide_eq_true a
        have b := of_decide_eq_true b
        exact ⟨la, lo, rfl, rfl, a.1, a.2, b.1, b.2⟩
      · rintro ⟨_, _, ⟨⟩, ⟨⟩, a, b, c, d⟩
        exact ⟨decide_eq_true ⟨a, b⟩, decide_eq_true ⟨c, d⟩⟩

private theorem mem_ids (i : String) : i ∈ blacklistIds ↔ ∃ n ∈ Spec.badBuoys, i = Spec.padId n := by
  have : blacklistIds = Spec.badBuoys.map Spec.padId := by decide +kernel
  rw [this, List.mem_map]
  constructor
  · rintro ⟨n, h, e⟩; exact ⟨n, h, e.symm⟩
  · rintro ⟨n, h, e⟩; exact ⟨n, h, e.symm⟩

theorem ite_chain (p1 p2 p3 p4 p5 p6 : Prop) [Decidable p1] [Decidable p2] [Decidable p3] [Decidable p4]
    [Decidable p5] [Decidable p6] :
    (if p6 then (1 : Int) else if p5 then 1 else if p4 then 1 else if p3 then 1 else if p2 then 1
      else if p1 then 1 else 0) = if p1 ∨ p2 ∨ p3 ∨ p4 ∨ p5 ∨ p6 then 1 else 0 := by
  by_cases p1 <;> by_cases p2 <;> by_cases p3 <;> by_cases p4 <;> by_cases p5 <;> by_cases p6 <;> simp_all

open Classical in
/-- C23: `blacklist` never raises, and returns 1 exactly for the reports on the list, 0 for all others. -/
theorem C23_blacklist (id : Option String) (deck year month : Option Int) (lat lon : Option Rat)
    (pt : Option Int) :
    blacklist id deck year month lat lon pt =
      .ok (if Spec.Blacklisted id deck year month lat lon pt then 1 else 0) := by
  have hlon : blacklistLon lon = lon.map Spec.westLon := by
    cases lon with
    | none => rfl
    | some lo => simp only [blacklistLon, Option.map_some, Spec.westLon]; split_ifs <;> rfl
  unfold blacklist
  simp only [hlon]
  have h732 : ∀ result : Int, blacklistDeck732 deck year lat (lon.map Spec.westLon) result =
      .ok (if (deck = some 732 ∧ (∃ y la lo, year = some y ∧ lat = some la ∧ lon = some lo ∧
    ∃ e ∈ Spec.deck732, y ∈ e.years ∧ e.Contains la (Spec.westLon lo))) then 1 else result) := by
    intro result
    unfold blacklistDeck732
    by_cases hd : deck = some 732
    swap
    · simp [hd]
    simp only [hd, if_true, true_and]
    cases year with
    | none => simp
    | some y =>
      have ha := regions_agree y
      simp only
      cases hyr : yearToRegions y with
      | none =>
        replace ha := ha.2 hyr
        simp only
        rw [if_neg]
        rintro ⟨y', la, lo, e1, -, -, e, he, hm, -⟩
        cases e1
        exact ha e he hm
      | some regs =>
        replace ha := ha.1 regs hyr
        simp only
        rw [regionLoop_spec _ _ regs ((Spec.deck732.filter (fun e => y ∈ e.years)).map boxOf)
          (by rw [ha, List.map_map]; rfl)]
        congr 1
        have : (∃ b ∈ (Spec.deck732.filter (fun e => y ∈ e.years)).map boxOf,
            inRegion b lat (lon.map Spec.westLon) = true) ↔
            (∃ y' la lo, some y = some y' ∧ lat = some la ∧ lon = some lo ∧
              ∃ e ∈ Spec.deck732, y' ∈ e.years ∧ e.Contains la (Spec.westLon lo)) := by
          constructor
          · rintro ⟨b, hb, hin⟩
            obtain ⟨e, he, rfl⟩ := List.mem_map.1 hb
            obtain ⟨he1, he2⟩ := List.mem_filter.1 he
            obtain ⟨la, lo, h1, h2, h3⟩ := (inRegion_iff e _ _).1 hin
            cases lon with
            | none => simp at h2
            | some l =>
              simp only [Option.map_some, Option.some.injEq] at h2
              subst h2
              exact ⟨y, la, l, rfl, h1, rfl, e, he1, by simpa using he2, h3⟩
          · rintro ⟨y', la, lo, e1, h1, h2, e, he, hm, hc⟩
            cases e1
            refine ⟨boxOf e, List.mem_map.2 ⟨e, List.mem_filter.2 ⟨he, by simpa using hm⟩, rfl⟩, ?_⟩
            exact (inRegion_iff e _ _).2 ⟨la, _, h1, by rw [h2]; rfl, hc⟩
        simp only [this]
  have hwin : ((year = some 2005 ∧ month = some 11) ∨ (year = some 2005 ∧ month = some 12) ∨
        (year = some 2006 ∧ month = some 1)) ↔
      ((year = some 2005 ∧ (month = some 11 ∨ month = some 12)) ∨ (year = some 2006 ∧ month = some 1)) := by
    tauto
  have hid : ∀ result : Int, blacklistBuoys id year month result =
      if (((year = some 2005 ∧ (month = some 11 ∨ month = some 12)) ∨ (year = some 2006 ∧ month = some 1)) ∧
    ∃ n ∈ Spec.badBuoys, id = some (Spec.padId n)) then 1 else result := by
    intro result
    unfold blacklistBuoys
    simp only [hwin]
    by_cases hw : ((year = some 2005 ∧ (month = some 11 ∨ month = some 12)) ∨ (year = some 2006 ∧ month = some 1))
    · simp only [hw, if_true, true_and]
      cases id with
      | none => simp
      | some i => simp only [mem_ids, Option.some.injEq]
    · simp only [hw, if_false, false_and]
  simp only [hid, h732, except_bind_ok, except_pure]
  congr 1
  have hzero : (lat = some 0 ∧ lon.map Spec.westLon = some 0) ↔
      ∃ lo, lat = some 0 ∧ lon = some lo ∧ Spec.westLon lo = 0 := by
    cases lon <;> simp
  simp only [hzero]
  unfold Spec.Blacklisted
  refine (ite_chain _ _ _ _ _ _).trans ?_
  congr

/-- C23: adding a full turn to a western longitude does not change the verdict. -/
theorem C23_full_turn (id : Option String) (deck year month : Option Int) (lat : Option Rat) (lon : Rat)
    (pt : Option Int) (h : -180 < lon ∧ lon ≤ 0) :
    blacklist id deck year month lat (some (lon + 360)) pt = blacklist id deck year month lat (some lon) pt := by
  have e : Spec.westLon (lon + 360) = Spec.westLon lon := by
    unfold Spec.westLon
    rw [if_pos (by linarith [h.1]), if_neg (by linarith [h.2])]
    ring
  rw [C23_blacklist, C23_blacklist]
  congr 2
  unfold Spec.Blacklisted
  have h1 : (∃ lo, lat = some 0 ∧ some (lon + 360) = some lo ∧ Spec.westLon lo = 0) ↔
      ∃ lo, lat = some 0 ∧ some lon = some lo ∧ Spec.westLon lo = 0 := by
    simp [e]
  have h2 : (∃ y la lo, year = some y ∧ lat = some la ∧ some (lon + 360) = some lo ∧
      ∃ e ∈ Spec.deck732, y ∈ e.years ∧ e.Contains la (Spec.westLon lo)) ↔
      (∃ y la lo, year = some y ∧ lat = some la ∧ some lon = some lo ∧
      ∃ e ∈ Spec.deck732, y ∈ e.years ∧ e.Contains la (Spec.westLon lo)) := by
    constructor
    · rintro ⟨y, la, lo, a, b, c, d⟩
      cases c
      rw [e] at d
      exact ⟨y, la, lon, a, b, rfl, d⟩
    · rintro ⟨y, la, lo, a, b, c, d⟩
      cases c
      rw [← e] at d
      exact ⟨y, la, _, a, b, rfl, d⟩
  rw [h1, h2]

example : blacklist none (some 732) (some 1958) (some 5) (some 45) (some 187) none = .ok 1 ∧
    blacklist none (some 732) (some 1972) (some 5) (some 45) (some 187) none = .ok 0 ∧
    blacklist (some "53521    ") none (some 2005) (some 12) (some 45) (some 187) none = .ok 1 ∧
    blacklist (some "53521    ") none (some 2006) (some 12) (some 45) (some 187) none = .ok 0 ∧
    blacklist none none none none (some 0) (some 360) none = .ok 1 ∧
    blacklist none none none none none none (some 13) = .ok 1 := by decide +kernel

/-! ## C24 generic identifiers -/

private theorem generic_table :
    ∀ s, s ∈ genericIds ↔ s ∈ Spec.alwaysGenericLeft.map Spec.pad9 ++ Spec.alwaysGenericRight := by
  have h1 : ∀ s ∈ genericIds, s ∈ Spec.alwaysGenericLeft.map Spec.pad9 ++ Spec.alwaysGenericRight := by
    decide +kernel
  have h2 : ∀ s ∈ Spec.alwaysGenericLeft.map Spec.pad9 ++ Spec.alwaysGenericRight, s ∈ genericIds := by
    decide +kernel
  exact fun s => ⟨h1 s, h2 s⟩

private theorem sometimes_table : Spec.sometimesGeneric.map (fun e => (Spec.pad9 e.1, e.2)) =
    [("2        ", 1921, 1941), ("00002    ", 1921, 1941), ("3        ", 1930, 1937), ("7        ", 1934, 1954),
     ("00007    ", 1934, 1954)] := by decide +kernel

private theorem yearBetween_iff (lo hi : Int) (y : Option Int) :
    yearBetween lo hi y = true ↔ ∃ y', y = some y' ∧ lo ≤ y' ∧ y' ≤ hi := by
  cases y <;> simp [yearBetween]

private theorem generic_abstract (id : String) (year : Option Int) (s2 s22 s3 s7 s77 : String)
    (gs : List String) :
    decide (some id ∈
      (let ids : List (Option String) := none :: gs.map some
       let ids := if yearBetween 1921 1941 year then ids ++ [some s2] ++ [some s22] else ids
       let ids := if yearBetween 1930 1937 year then ids ++ [some s3] else ids
       let ids := if yearBetween 1934 1954 year then ids ++ [some s7] ++ [some s77] else ids
       ids)) = true ↔
    id ∈ gs ∨ ∃ e ∈ [(s2, (1921 : Int), (1941 : Int)), (s22, 1921, 1941), (s3, 1930, 1937), (s7, 1934, 1954),
      (s77, 1934, 1954)], id = e.1 ∧ yearBetween e.2.1 e.2.2 year = true := by
  simp only [decide_eq_true_eq, List.mem_cons, List.not_mem_nil, or_false, exists_eq_or_imp, exists_eq_left]
  cases yearBetween 1921 1941 year <;> cases yearBetween 1930 1937 year <;>
    cases yearBetween 1934 1954 year <;>
    simp [or_assoc]

/-- C24: which identifiers are generic, for every string and every year. -/
theorem C24_generic (id : String) (year : Option Int) :
    idIsGeneric (some id) year = true ↔
      (∃ s ∈ Spec.alwaysGenericLeft, id = Spec.pad9 s) ∨ id ∈ Spec.alwaysGenericRight ∨
      ∃ e ∈ Spec.sometimesGeneric, id = Spec.pad9 e.1 ∧ ∃ y, year = some y ∧ e.2.1 ≤ y ∧ y ≤ e.2.2 := by
  have hs : (∃ e ∈ Spec.sometimesGeneric, id = Spec.pad9 e.1 ∧ ∃ y, year = some y ∧ e.2.1 ≤ y ∧ y ≤ e.2.2) ↔
      ∃ e ∈ Spec.sometimesGeneric.map (fun e => (Spec.pad9 e.1, e.2)), id = e.1 ∧ yearBetween e.2.1 e.2.2 year = true := by
    simp only [List.mem_map, yearBetween_iff]
    constructor
    · rintro ⟨e, he, h⟩; exact ⟨_, ⟨e, he, rfl⟩, h⟩
    · rintro ⟨_, ⟨e, he, rfl⟩, h⟩; exact ⟨e, he, h⟩
  have hg : ((∃ s ∈ Spec.alwaysGenericLeft, id = Spec.pad9 s) ∨ id ∈ Spec.alwaysGenericRight) ↔ id ∈ genericIds := by
    rw [generic_table, List.mem_append, List.mem_map]
    simp only [eq_comm]
  rw [← or_assoc, hs, hg, sometimes_table]
  exact generic_abstract id year _ _ _ _ _ genericIds

/-- C24: a missing identifier is generic in every year. -/
theorem C24_missing (year : Option Int) : idIsGeneric none year = true := by
  simp only [idIsGeneric, decide_eq_true_eq]
  split_ifs <;> simp

/-- C24: for an identifier without a window the year is irrelevant. -/
theorem C24_year_irrelevant (id : String) (h : ∀ e ∈ Spec.sometimesGeneric, id ≠ Spec.pad9 e.1)
    (y y' : Option Int) : idIsGeneric (some id) y = idIsGeneric (some id) y' := by
  have key : ∀ z, idIsGeneric (some id) z = true ↔
      (∃ s ∈ Spec.alwaysGenericLeft, id = Spec.pad9 s) ∨ id ∈ Spec.alwaysGenericRight := by
    intro z
    rw [C24_generic]
    constructor
    · rintro (a | a | ⟨e, he, hi, -⟩)
      · exact Or.inl a
      · exact Or.inr a
      · exact absurd hi (h e he)
    · rintro (a | a)
      · exact Or.inl a
      · exact Or.inr (Or.inl a)
  rw [Bool.eq_iff_iff, key, key]

example : idIsGeneric (some "SHIP     ") (some 1800) = true ∧ idIsGeneric (some "7        ") (some 1954) = true ∧
    idIsGeneric (some "7        ") (some 1955) = false ∧ idIsGeneric (some "ABCDE    ") (some 1930) = false := by
  decide +kernel

end MarineQC
