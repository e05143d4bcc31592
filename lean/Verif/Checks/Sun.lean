import Verif.Checks.Model
import Verif.Checks.DayTest
import Mathlib.Analysis.SpecialFunctions.Trigonometric.Inverse
import Mathlib.Analysis.SpecialFunctions.Complex.Arg
import Mathlib.Analysis.SpecialFunctions.Trigonometric.Bounds
import Mathlib.Tactic.Linarith
import Mathlib.Tactic.NormNum
import Mathlib.Tactic.Positivity
import Mathlib.Tactic.FieldSimp

/-!
# The position of the sun: model of `sunangle` and C72-C73
-/

namespace MarineQC

open Real Spec

/-! ## Model -/

/-- qc.py:1106-1117 the whole days of `time`, "since start of January 1980".  `math.floor(delyear / 4.)` is
the integer quotient rounded down. -/
def sunDays (year day : Int) : Int :=
  let delyear := year - 1980
  let leap := delyear / 4
  let time := delyear * 365 + leap + day - 1
  let time := if delyear = leap * 4 then time - 1 else time
  if delyear < 0 ∧ delyear ≠ leap * 4 then time - 1 else time

/-- qc.py:1110 `time_in_hours`. -/
noncomputable def sunHours (hour minute sec zone dasvtm : ℝ) : ℝ :=
  hour + (minute + sec / 60) / 60 + zone - dasvtm

/-- qc.py:1103 `degrad`. -/
noncomputable def degrad : ℝ := π / 180

/-- qc.py:1119-1127 `long_of_sun` at a time in days. -/
noncomputable def longOfSun (time : ℝ) : ℝ :=
  let theta := (360 * time / 365.25) * degrad
  let meanAnomaly := -0.031271 - 4.5396e-7 * time + theta
  4.900968 + 3.6747e-7 * time + (0.033434 - 2.3e-9 * time) * sin meanAnomaly +
    0.000349 * sin (2 * meanAnomaly) + theta

/-- qc.py:1130 `angle_of_elliptic`. -/
noncomputable def angleOfElliptic (time : ℝ) : ℝ := 0.409140 - 6.2149e-9 * time

/-- `math.atan2` (y first), the argument of the complex number `x + iy`. -/
noncomputable def atan2 (y x : ℝ) : ℝ := Complex.arg ⟨x, y⟩

/-- qc.py:1131-1138 `right_ascension` in radians. -/
noncomputable def rightAscension (time : ℝ) : ℝ :=
  let a1 := sin (longOfSun time) * cos (angleOfElliptic time)
  let a2 := cos (longOfSun time)
  let r := atan2 a1 a2
  if r < 0 then r + 2 * π else r

/-- qc.py:1142 `declination` in radians. -/
noncomputable def sunDeclination (time : ℝ) : ℝ :=
  arcsin (sin (longOfSun time) * sin (angleOfElliptic time))

/-- qc.py:1145-1152 `local_siderial_time` in radians. -/
noncomputable def localSiderialTime (time delyear timeInHours lon : ℝ) : ℝ :=
  let s := 1.759335 + 2 * π * (time / 365.25 - delyear) + 3.694e-7 * time
  let s := if s ≥ 2 * π then s - 2 * π else s
  let l := s + (timeInHours * 15 + lon) * degrad
  if l ≥ 2 * π then l - 2 * π else l

/-- qc.py:1158-1161 `hour_angle` in radians. -/
noncomputable def hourAngle (time delyear timeInHours lon : ℝ) : ℝ :=
  let h := localSiderialTime time delyear timeInHours lon - rightAscension time
  if h < 0 then h + 2 * π else h

/-- qc.py:1170-1177 `sin_elevation`, clamped. -/
noncomputable def sinElevation (phi declination hourAngle : ℝ) : ℝ :=
  let s := sin phi * sin declination + cos phi * cos declination * cos hourAngle
  let s := if s > 1 then 1 else s
  if s < -1 then -1 else s

/-- qc.py:1183-1208 `azimuth` in degrees; a division by zero raises. -/
noncomputable def sunAzimuth (phi declination hourAngle elevation : ℝ) : Except Err ℝ :=
  let azimuth : ℝ := if phi - declination > 0 then 0 else 180
  if |elevation - 2 * π / 4| > 0.000001 then
    if cos elevation = 0 then .error .zeroDiv
    else
      let v := cos declination * sin hourAngle / cos elevation
      let v := if v > 1 then 1 else v
      let v := if v < -1 then -1 else v
      let azimuth := arcsin v / degrad
      if sin phi = 0 then .error .zeroDiv
      else
        let azimuth :=
          if sin elevation < sin declination / sin phi then
            180 - (if azimuth < 0 then azimuth + 360 else azimuth)
          else azimuth
        .ok (180 + azimuth)
  else .ok azimuth

/-- What `sunangle` returns, in degrees. -/
structure SunAngles where
  azimuth : ℝ
  elevation : ℝ
  rta : ℝ
  hra : ℝ
  sid : ℝ
  declination : ℝ

/-- qc.py:1059-1215 `sunangle`. -/
noncomputable def sunangle (year day : Int) (hour minute sec zone dasvtm lat lon : ℝ) : Except Err SunAngles :=
  open Classical in do
  pyAssert (decide (0 < day ∧ day ≤ 366))
  pyAssert (decide (0 ≤ hour ∧ hour < 24))
  pyAssert (decide (0 ≤ minute ∧ minute < 60))
  pyAssert (decide (0 ≤ sec ∧ sec < 60))
  pyAssert (decide (90 ≥ lat ∧ lat ≥ -90))
  let timeInHours := sunHours hour minute sec zone dasvtm
  let time : ℝ := (sunDays year day : ℝ) + timeInHours / 24
  let rta := rightAscension time / degrad
  let decl := sunDeclination time
  let delyear : ℝ := ((year - 1980 : Int) : ℝ)
  let lst := localSiderialTime time delyear timeInHours lon
  let sid := lst / degrad
  let sid := if sid < 0 then 360 + sid else sid
  let ha := hourAngle time delyear timeInHours lon
  let hra := ha / degrad
  let hra := if hra < 0 then 360 + hra else hra
  let phi := lat * degrad
  let elevation := arcsin (sinElevation phi decl ha)
  let azimuth ← sunAzimuth phi decl ha elevation
  let elevation := elevation / degrad
  let decl := decl / degrad
  pyAssert (decide (180 ≥ elevation ∧ elevation ≥ -180))
  return ⟨azimuth, elevation, rta, hra, sid, decl⟩

/-! ## Lemmas -/

theorem degrad_pos : 0 < degrad := by unfold degrad; positivity

theorem sin_elevation_bound (phi d h : ℝ) :
    |sin phi * sin d + cos phi * cos d * cos h| ≤ 1 := by
  rw [← sq_le_one_iff_abs_le_one]
  have h1 := sin_sq_add_cos_sq phi
  have h2 := sin_sq_add_cos_sq d
  have h3 : cos h ^ 2 ≤ 1 := by have := sin_sq_add_cos_sq h; nlinarith [sq_nonneg (sin h)]
  have h4 : (sin phi * sin d + cos phi * cos d * cos h) ^ 2 ≤
      (sin phi ^ 2 + cos phi ^ 2) * (sin d ^ 2 + (cos d * cos h) ^ 2) := by
    nlinarith [sq_nonneg (sin phi * (cos d * cos h) - cos phi * sin d)]
  have h5 : (cos d * cos h) ^ 2 ≤ cos d ^ 2 := by
    rw [mul_pow]; nlinarith [sq_nonneg (cos d)]
  rw [h1, one_mul] at h4
  linarith

/-- The clamp of lines 1174-1177 never acts in exact arithmetic. -/
theorem sinElevation_eq (phi d h : ℝ) :
    sinElevation phi d h = sin phi * sin d + cos phi * cos d * cos h := by
  have := abs_le.1 (sin_elevation_bound phi d h)
  unfold sinElevation
  simp only
  rw [if_neg (by linarith : ¬ (sin phi * sin d + cos phi * cos d * cos h > 1)), if_neg (by linarith)]

theorem sinElevation_range (phi d h : ℝ) : -1 ≤ sinElevation phi d h ∧ sinElevation phi d h ≤ 1 := by
  rw [sinElevation_eq]
  exact abs_le.1 (sin_elevation_bound phi d h)

theorem sunDeclination_range (t : ℝ) : -(π / 2) ≤ sunDeclination t ∧ sunDeclination t ≤ π / 2 :=
  ⟨neg_pi_div_two_le_arcsin _, arcsin_le_pi_div_two _⟩

theorem arcsin_deg (x : ℝ) : -90 ≤ arcsin x / degrad ∧ arcsin x / degrad ≤ 90 := by
  have hp := degrad_pos
  have h1 := neg_pi_div_two_le_arcsin x
  have h2 := arcsin_le_pi_div_two x
  constructor
  · rw [le_div_iff₀ hp]; unfold degrad; linarith
  · rw [div_le_iff₀ hp]; unfold degrad; linarith

theorem azimuth_range (phi d h e az : ℝ) (hz : sunAzimuth phi d h e = .ok az) : 0 ≤ az ∧ az ≤ 360 := by
  unfold sunAzimuth at hz
  simp only at hz
  by_cases h1 : |e - 2 * π / 4| > 0.000001
  · rw [if_pos h1] at hz
    by_cases h2 : cos e = 0
    · rw [if_pos h2] at hz; simp at hz
    · rw [if_neg h2] at hz
      by_cases h3 : sin phi = 0
      · rw [if_pos h3] at hz; simp at hz
      · rw [if_neg h3] at hz
        simp only [Except.ok.injEq] at hz
        set x := arcsin _ / degrad with hx
        have hb : -90 ≤ x ∧ x ≤ 90 := arcsin_deg _
        rw [← hz]
        split_ifs <;> constructor <;> linarith [hb.1, hb.2]
  · rw [if_neg h1] at hz
    simp only [Except.ok.injEq] at hz
    rw [← hz]
    split_ifs <;> constructor <;> norm_num

/-! ## C72 -/

/-- C72: whenever the arguments meet the documented ranges, latitude is not zero and the sun is not exactly
at the nadir, `sunangle` returns (its final assertion and its divisions do not fail), and the
angles returned are in range: azimuth in `[0, 360]`, elevation and declination in `[-90, 90]`, right
ascension in `[0, 360)`. -/
theorem C72_sunangle_ranges (year day : Int) (hour minute sec zone dasvtm lat lon : ℝ)
    (hd : 0 < day ∧ day ≤ 366) (hh : 0 ≤ hour ∧ hour < 24) (hm : 0 ≤ minute ∧ minute < 60)
    (hs : 0 ≤ sec ∧ sec < 60) (hl : -90 ≤ lat ∧ lat ≤ 90) (hl0 : lat ≠ 0)
    (hn : sinElevation (lat * degrad)
        (sunDeclination ((sunDays year day : ℝ) + sunHours hour minute sec zone dasvtm / 24))
        (hourAngle ((sunDays year day : ℝ) + sunHours hour minute sec zone dasvtm / 24)
          ((year - 1980 : Int) : ℝ) (sunHours hour minute sec zone dasvtm) lon) ≠ -1) :
    ∃ r, sunangle year day hour minute sec zone dasvtm lat lon = .ok r ∧
      0 ≤ r.azimuth ∧ r.azimuth ≤ 360 ∧ -90 ≤ r.elevation ∧ r.elevation ≤ 90 ∧
      0 ≤ r.rta ∧ r.rta < 360 ∧ -90 ≤ r.declination ∧ r.declination ≤ 90 := by
  have hp := degrad_pos
  have hpi := pi_pos
  set tih := sunHours hour minute sec zone dasvtm with htih
  set t : ℝ := (sunDays year day : ℝ) + tih / 24 with ht
  set dly : ℝ := ((year - 1980 : Int) : ℝ) with hdly
  set s := sinElevation (lat * degrad) (sunDeclination t) (hourAngle t dly tih lon) with hsdef
  have hsr := sinElevation_range (lat * degrad) (sunDeclination t) (hourAngle t dly tih lon)
  rw [← hsdef] at hsr
  have hsin : sin (lat * degrad) ≠ 0 := by
    have hb : -π < lat * degrad ∧ lat * degrad < π := by
      unfold degrad
      constructor <;> nlinarith [hl.1, hl.2]
    intro h
    rw [sin_eq_zero_iff_of_lt_of_lt hb.1 hb.2] at h
    rcases mul_eq_zero.1 h with h | h
    · exact hl0 h
    · exact hp.ne' h
  have haz : ∃ az, sunAzimuth (lat * degrad) (sunDeclination t) (hourAngle t dly tih lon) (arcsin s) = .ok az := by
    unfold sunAzimuth
    simp only
    by_cases h1 : |arcsin s - 2 * π / 4| > 0.000001
    · have hc : cos (arcsin s) ≠ 0 := by
        rw [cos_arcsin]
        have hs1 : s ≠ 1 := by
          intro h
          rw [h, arcsin_one] at h1
          have : π / 2 - 2 * π / 4 = 0 := by ring
          rw [this, abs_zero] at h1
          norm_num at h1
        have : 0 < 1 - s ^ 2 := by
          have a : -1 < s := lt_of_le_of_ne hsr.1 (Ne.symm hn)
          have b : s < 1 := lt_of_le_of_ne hsr.2 hs1
          nlinarith
        exact (sqrt_pos.2 this).ne'
      rw [if_pos h1, if_neg hc, if_neg hsin]
      exact ⟨_, rfl⟩
    · rw [if_neg h1]
      exact ⟨_, rfl⟩
  obtain ⟨az, haz⟩ := haz
  have hel := arcsin_deg s
  unfold sunangle
  simp only [← htih, ← ht, ← hdly]
  rw [decide_eq_true hd, decide_eq_true hh, decide_eq_true hm, decide_eq_true hs,
    decide_eq_true (show (90 : ℝ) ≥ lat ∧ lat ≥ -90 from ⟨hl.2, hl.1⟩)]
  simp only [pyAssert_true, except_bind_ok, ← hsdef, haz]
  rw [decide_eq_true (show (180 : ℝ) ≥ arcsin s / degrad ∧ arcsin s / degrad ≥ -180 from
    ⟨by linarith [hel.2], by linarith [hel.1]⟩)]
  simp only [pyAssert_true, except_bind_ok, except_pure]
  refine ⟨_, rfl, (azimuth_range _ _ _ _ _ haz).1, (azimuth_range _ _ _ _ _ haz).2, hel.1, hel.2, ?_, ?_,
    (arcsin_deg _).1, (arcsin_deg _).2⟩
  · apply div_nonneg _ hp.le
    unfold rightAscension
    dsimp only
    split_ifs with h
    · have := Complex.neg_pi_lt_arg ⟨cos (longOfSun t), sin (longOfSun t) * cos (angleOfElliptic t)⟩
      unfold atan2
      linarith
    · exact not_lt.1 h
  · rw [div_lt_iff₀ hp]
    have h360 : 360 * degrad = 2 * π := by unfold degrad; ring
    rw [h360]
    unfold rightAscension
    dsimp only
    split_ifs with h
    · linarith
    · have := Complex.arg_le_pi ⟨cos (longOfSun t), sin (longOfSun t) * cos (angleOfElliptic t)⟩
      unfold atan2
      linarith

/-- The elevation (degrees) for zone and daylight saving 0, as a function to be used by the day test. -/
noncomputable def sunElevation (year day : Int) (hour minute lat lon : Rat) : ℝ :=
  let tih := sunHours hour minute 0 0 0
  let t : ℝ := (sunDays year day : ℝ) + tih / 24
  arcsin (sinElevation (lat * degrad) (sunDeclination t)
    (hourAngle t ((year - 1980 : Int) : ℝ) tih lon)) / degrad

/-- C72: the elevation never exceeds its value at upper culmination, `90 - |latitude - declination|`,
and never falls below its value at lower culmination, `|latitude + declination| - 90`. -/
theorem C72_culmination (phi d h : ℝ) (hp : |phi| ≤ π / 2) (hd : |d| ≤ π / 2) :
    arcsin (sinElevation phi d h) ≤ π / 2 - |phi - d| ∧ |phi + d| - π / 2 ≤ arcsin (sinElevation phi d h) := by
  have hp' := abs_le.1 hp
  have hd' := abs_le.1 hd
  have hcp : 0 ≤ cos phi := cos_nonneg_of_mem_Icc ⟨hp'.1, hp'.2⟩
  have hcd : 0 ≤ cos d := cos_nonneg_of_mem_Icc ⟨hd'.1, hd'.2⟩
  have hcc := mul_nonneg hcp hcd
  rw [sinElevation_eq]
  have hpi := pi_pos
  constructor
  · have e : sin (π / 2 - |phi - d|) = cos (phi - d) := by rw [sin_pi_div_two_sub, cos_abs]
    have hb : |phi - d| ≤ π := by rw [abs_le]; constructor <;> linarith
    have h0 := abs_nonneg (phi - d)
    rw [← arcsin_sin (x := π / 2 - |phi - d|) (by linarith) (by linarith)]
    apply monotone_arcsin
    rw [e, cos_sub]
    nlinarith [cos_le_one h]
  · have e : sin (|phi + d| - π / 2) = - cos (phi + d) := by
      rw [← cos_abs (phi + d), ← neg_sub, sin_neg, sin_pi_div_two_sub]
    have hb : |phi + d| ≤ π := by rw [abs_le]; constructor <;> linarith
    have h0 := abs_nonneg (phi + d)
    rw [← arcsin_sin (x := |phi + d| - π / 2) (by linarith) (by linarith)]
    apply monotone_arcsin
    rw [e, cos_add]
    nlinarith [neg_one_le_cos h]

/-- C72: polar night.  If the latitude is at least 90 degrees from the declination at the time looked at,
the elevation is not positive. -/
theorem C72_polar_night (phi d h : ℝ) (hp : |phi| ≤ π / 2) (hd : |d| ≤ π / 2) (hn : π / 2 ≤ |phi - d|) :
    arcsin (sinElevation phi d h) ≤ 0 := by
  have := (C72_culmination phi d h hp hd).1
  linarith

/-- C72: at the North Pole the elevation is the declination. -/
theorem C72_pole (d h : ℝ) (hd : |d| ≤ π / 2) : arcsin (sinElevation (π / 2) d h) = d := by
  rw [sinElevation_eq, sin_pi_div_two, cos_pi_div_two, one_mul, zero_mul, zero_mul, add_zero]
  exact arcsin_sin (abs_le.1 hd).1 (abs_le.1 hd).2

/-- C72: at latitude exactly zero `sunangle` divides by zero unless the sun is at the zenith (the day tests
move the position off the equator for this reason). -/
theorem C72_equator_raises (d h e : ℝ) (he : |e - 2 * π / 4| > 0.000001) :
    sunAzimuth (0 * degrad) d h e = .error .zeroDiv := by
  unfold sunAzimuth
  simp only
  rw [if_pos he, zero_mul, sin_zero, if_pos rfl]
  split_ifs <;> rfl

/-- C72: the elevation used by the day tests is in range for every input. -/
theorem C72_elevation_range (year day : Int) (hour minute lat lon : Rat) :
    -90 ≤ sunElevation year day hour minute lat lon ∧ sunElevation year day hour minute lat lon ≤ 90 :=
  arcsin_deg _

example : |π / 2| ≤ π / 2 ∧ |(-0.4 : ℝ)| ≤ π / 2 ∧ π / 2 ≤ |π / 2 - (-0.4)| := by
  have := two_le_pi
  refine ⟨by rw [abs_of_pos (by positivity)], ?_, ?_⟩
  · rw [abs_of_neg (by norm_num)]; linarith
  · rw [abs_of_pos (by linarith)]; linarith

/-- The hypotheses of `C72_sunangle_ranges` are met at the North Pole on 2 January 1980, 0 UTC, when the
routine's clock reads 0. -/
example : ∃ r, sunangle 1980 2 0 0 0 0 0 90 0 = .ok r ∧ r.elevation ≤ 90 := by
  have e : (90 : ℝ) * degrad = π / 2 := by unfold degrad; ring
  have t0 : ((sunDays 1980 2 : Int) : ℝ) + sunHours 0 0 0 0 0 / 24 = 0 := by
    rw [show sunDays 1980 2 = 0 by decide]; unfold sunHours; norm_num
  obtain ⟨r, hr, -, -, -, h90, -⟩ := C72_sunangle_ranges 1980 2 0 0 0 0 0 90 0 (by norm_num) (by norm_num)
    (by norm_num) (by norm_num) (by norm_num) (by norm_num) (by
      rw [t0, e, sinElevation_eq, sin_pi_div_two, cos_pi_div_two, one_mul, zero_mul, zero_mul, add_zero]
      have ha : angleOfElliptic 0 = 0.409140 := by unfold angleOfElliptic; norm_num
      have h1 : |sin (longOfSun 0) * sin (angleOfElliptic 0)| ≤ 0.409140 := by
        rw [abs_mul, ha]
        have h2 := abs_sin_le_one (longOfSun 0)
        have h3 : |sin (0.409140 : ℝ)| ≤ 0.409140 := by
          rw [abs_of_nonneg (sin_nonneg_of_nonneg_of_le_pi (by norm_num) (by have := two_le_pi; linarith))]
          exact sin_le (by norm_num)
        nlinarith [abs_nonneg (sin (longOfSun 0)), abs_nonneg (sin (0.409140 : ℝ))]
      have h4 := abs_le.1 h1
      unfold sunDeclination
      rw [sin_arcsin (by linarith [h4.1]) (by linarith [h4.2])]
      intro hc
      linarith [h4.1])
  exact ⟨r, hr, h90⟩

/-! ## C73 the clock of the sun routine -/

/-- C73 (partial): for dates from 1 January 1980 to 31 December 2099 the sun routine's clock advances by
exactly one day from each calendar day to the next. -/
theorem C73_sun_clock_partial (y m d y' m' d' : Int) (h : IsDate y m d)
    (hn : nextDay (y, m, d) = (y', m', d')) (hy : 1980 ≤ y) (hy' : y' ≤ 2099) (n n' : Int)
    (e : dayinyear y m d = .ok n) (e' : dayinyear y' m' d' = .ok n') :
    sunDays y' n' = sunDays y n + 1 := by
  have hyy : y' = y ∨ (y' = y + 1 ∧ m' = 1 ∧ d' = 1 ∧ m = 12 ∧ d = 31) := by
    obtain ⟨h1, h2, h3, h4⟩ := h
    simp only [nextDay] at hn
    split_ifs at hn with a b
    · simp only [Prod.mk.injEq] at hn; omega
    · simp only [Prod.mk.injEq] at hn; omega
    · simp only [Prod.mk.injEq] at hn
      have hm : m = 12 := by omega
      subst hm
      have : monthLength y 12 = 31 := by simp [monthLength]
      right
      omega
  rcases hyy with rfl | ⟨rfl, rfl, rfl, rfl, rfl⟩
  · have := C04_dayinyear_step y' m d m' d' h hn n e
    rw [e'] at this
    simp only [Except.ok.injEq] at this
    subst this
    unfold sunDays
    simp only
    split_ifs <;> omega
  · rw [C04_dayinyear_first] at e'
    rw [C04_dayinyear_last] at e
    simp only [Except.ok.injEq] at e e'
    subst e'
    have hleap : LeapYear y ↔ 4 ∣ y := by
      unfold LeapYear
      omega
    simp only [hleap] at e
    subst e
    unfold sunDays
    simp only
    split_ifs <;> omega

/-- C73: inside a year, of any year, the clock advances by exactly one day a day. -/
theorem C73_sun_clock_within_year (y m d m' d' : Int) (h : IsDate y m d)
    (hn : nextDay (y, m, d) = (y, m', d')) (n n' : Int)
    (e : dayinyear y m d = .ok n) (e' : dayinyear y m' d' = .ok n') :
    sunDays y n' = sunDays y n + 1 := by
  have := C04_dayinyear_step y m d m' d' h hn n e
  rw [e'] at this
  simp only [Except.ok.injEq] at this
  subst this
  unfold sunDays
  simp only
  split_ifs <;> omega

/-- C73 fails before 1980: the clock stands still from 31 December 1976 to 1 January 1977, so `sunangle`
returns the same declination and right ascension on both days, and it jumps two days from
31 December 1979 to 1 January 1980. -/
theorem C73_sun_clock_violation :
    nextDay (1976, 12, 31) = (1977, 1, 1) ∧ dayinyear 1976 12 31 = .ok 366 ∧ dayinyear 1977 1 1 = .ok 1 ∧
    sunDays 1977 1 = sunDays 1976 366 ∧
    (∀ hour minute sec zone dasvtm lat lon r r',
      sunangle 1976 366 hour minute sec zone dasvtm lat lon = .ok r →
      sunangle 1977 1 hour minute sec zone dasvtm lat lon = .ok r' →
      r.declination = r'.declination ∧ r.rta = r'.rta) ∧
    nextDay (1979, 12, 31) = (1980, 1, 1) ∧ sunDays 1980 1 = sunDays 1979 365 + 2 := by
  refine ⟨by decide, by decide, by decide, by decide, ?_, by decide, by decide⟩
  intro hour minute sec zone dasvtm lat lon r r' h h'
  have e : sunDays 1977 1 = sunDays 1976 366 := by decide
  have ok_bind : ∀ {b : Bool} {α : Type} {f : Unit → Except Err α} {x : α},
      (pyAssert b >>= f) = .ok x → f () = .ok x := by
    intro b α f x hb
    cases b with
    | true => simpa using hb
    | false => simp at hb
  have key : ∀ (year day : Int) (q : SunAngles), sunangle year day hour minute sec zone dasvtm lat lon = .ok q →
      q.declination = sunDeclination ((sunDays year day : ℝ) + sunHours hour minute sec zone dasvtm / 24) / degrad ∧
      q.rta = rightAscension ((sunDays year day : ℝ) + sunHours hour minute sec zone dasvtm / 24) / degrad := by
    intro year day q hq
    unfold sunangle at hq
    simp only at hq
    have hq := ok_bind (ok_bind (ok_bind (ok_bind (ok_bind hq))))
    cases haz : sunAzimuth (lat * degrad) (sunDeclination ((sunDays year day : ℝ) + sunHours hour minute sec zone dasvtm / 24))
      (hourAngle ((sunDays year day : ℝ) + sunHours hour minute sec zone dasvtm / 24) ((year - 1980 : Int) : ℝ)
        (sunHours hour minute sec zone dasvtm) lon)
      (arcsin (sinElevation (lat * degrad) (sunDeclination ((sunDays year day : ℝ) + sunHours hour minute sec zone dasvtm / 24))
      (hourAngle ((sunDays year day : ℝ) + sunHours hour minute sec zone dasvtm / 24) ((year - 1980 : Int) : ℝ)
        (sunHours hour minute sec zone dasvtm) lon))) with
    | error e => rw [haz] at hq; simp at hq
    | ok az =>
      rw [haz] at hq
      simp only [except_bind_ok] at hq
      have hq := ok_bind hq
      simp only [except_pure, Except.ok.injEq] at hq
      rw [← hq]
      exact ⟨rfl, rfl⟩
  obtain ⟨a, b⟩ := key _ _ _ h
  obtain ⟨a', b'⟩ := key _ _ _ h'
  rw [a, a', b, b', e]
  exact ⟨rfl, rfl⟩

example : nextDay (2000, 2, 28) = (2000, 2, 29) ∧ dayinyear 2000 2 28 = .ok 59 ∧ dayinyear 2000 2 29 = .ok 60 ∧
    sunDays 2000 60 = sunDays 2000 59 + 1 := by decide

end MarineQC
