import Verif.Report.Props

/-!
# C75: the position a report gives
-/

namespace MarineQC

/-- C75. For a stored longitude above -180 and at most 540 `lon()` is above -180 and at most 180 and a whole number
of turns from the stored one; there is only one such number.  `lat()` is the stored latitude.  Both are missing
exactly when the stored value is. -/
theorem C75_longitude (r : Report) :
    r.lat = r.getvar "LAT" ∧ (r.lon = none ↔ r.getvar "LON" = none)
      ∧ ∀ x, r.getvar "LON" = some x → -180 < x → x ≤ 540 →
        ∃ y, r.lon = some y ∧ ∀ z : Rat, z = y ↔ -180 < z ∧ z ≤ 180 ∧ ∃ n : Int, z = x + 360 * n := by
  refine ⟨rfl, ?_, ?_⟩
  · unfold Report.lon
    cases r.getvar "LON" with
    | none => simp
    | some x => simp only [reduceCtorEq, iff_false]; split <;> simp
  · intro x hx h1 h2
    unfold Report.lon
    simp only [hx]
    have uniq : ∀ (y z : Rat), -180 < y → y ≤ 180 → (∃ n : Int, y = x + 360 * n) → -180 < z → z ≤ 180 →
        (∃ n : Int, z = x + 360 * n) → z = y := by
      rintro y z a1 a2 ⟨n, hn⟩ b1 b2 ⟨m, hm⟩
      have c1 : (360 : Rat) * (m - n) < 360 * 1 := by linarith
      have c2 : (360 : Rat) * (m - n) > 360 * (-1) := by linarith
      have d1 : (m : Rat) - n < 1 := lt_of_mul_lt_mul_left c1 (by norm_num)
      have d2 : (-1 : Rat) < (m : Rat) - n := lt_of_mul_lt_mul_left c2 (by norm_num)
      have e1 : m - n < 1 := by exact_mod_cast d1
      have e2 : -1 < m - n := by exact_mod_cast d2
      have : m = n := by omega
      rw [hn, hm, this]
    by_cases hc : x > 180
    · rw [if_pos hc]
      refine ⟨x - 360, rfl, fun z => ⟨?_, fun ⟨a, b, c⟩ => ?_⟩⟩
      · rintro rfl
        exact ⟨by linarith, by linarith, -1, by push_cast; ring⟩
      · exact uniq (x - 360) z (by linarith) (by linarith) ⟨-1, by push_cast; ring⟩ a b c
    · rw [if_neg hc]
      push Not at hc
      refine ⟨x, rfl, fun z => ⟨?_, fun ⟨a, b, c⟩ => ?_⟩⟩
      · rintro rfl
        exact ⟨h1, hc, 0, by simp⟩
      · exact uniq x z h1 hc ⟨0, by simp⟩ a b c

/-- Non-vacuity: 190 degrees east is 170 degrees west, 180 degrees stays, a missing longitude is missing. -/
example : (Report.mk "X" "U" (fun k => if k = "LON" then some 190 else none) (fun _ => none) (fun _ => none)
      (fun _ => none) none).lon = some (-170)
    ∧ (Report.mk "X" "U" (fun k => if k = "LON" then some 180 else none) (fun _ => none) (fun _ => none)
      (fun _ => none) none).lon = some 180
    ∧ (Report.mk "X" "U" (fun _ => none) (fun _ => none) (fun _ => none) (fun _ => none) none).lon = none := by
  decide +kernel

end MarineQC
