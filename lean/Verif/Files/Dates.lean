import Verif.Files.Names
import Verif.Calendar.Props

/-!
# C82: dates in ISO form
-/

namespace MarineQC

namespace Spec

/-- The character of a decimal digit. -/
def digit (n : Nat) : Char := Char.ofNat (48 + n)

/-- The ISO form of a date, digit by digit: four for the year, two for the month, two for the day. -/
def isoDate (y m d : Nat) : List Char :=
  [digit (y / 1000), digit (y / 100 % 10), digit (y / 10 % 10), digit (y % 10), '-',
   digit (m / 10), digit (m % 10), '-', digit (d / 10), digit (d % 10)]

end Spec

theorem zeroPad_two : ∀ n : Nat, n < 100 → zeroPad 2 (n : Int) = [Spec.digit (n / 10), Spec.digit (n % 10)] := by
  decide +kernel

theorem digitChar_eq (n : Nat) (h : n < 10) : Nat.digitChar n = Spec.digit n := by
  revert n; decide

theorem zeroPad_four (n : Nat) (h1 : 1000 ≤ n) (h2 : n ≤ 9999) : zeroPad 4 (n : Int) =
    [Spec.digit (n / 1000), Spec.digit (n / 100 % 10), Spec.digit (n / 10 % 10), Spec.digit (n % 10)] := by
  have e : natText n =
      [Spec.digit (n / 1000), Spec.digit (n / 100 % 10), Spec.digit (n / 10 % 10), Spec.digit (n % 10)] := by
    unfold natText
    rw [if_neg (by omega), Nat.digits_def' (by norm_num) (by omega), Nat.digits_def' (by norm_num) (by omega),
      Nat.digits_def' (by norm_num) (by omega), Nat.digits_def' (by norm_num) (by omega), Nat.div_div_eq_div_mul,
      Nat.div_div_eq_div_mul, Nat.div_div_eq_div_mul]
    norm_num
    have h0 : n / 10000 = 0 := by omega
    have h3 : n / 1000 % 10 = n / 1000 := by omega
    rw [h0, h3]
    simp only [Nat.digits_zero, List.map_nil, List.reverse_nil, List.nil_append]
    rw [digitChar_eq _ (by omega), digitChar_eq _ (by omega), digitChar_eq _ (by omega), digitChar_eq _ (by omega)]
  unfold zeroPad
  rw [if_neg (by omega), Int.natAbs_natCast, e]
  rfl

theorem digit_inj (m n : Nat) (hm : m < 10) (hn : n < 10) (h : Spec.digit m = Spec.digit n) : m = n := by
  have key : ∀ m < 10, ∀ n < 10, Spec.digit m = Spec.digit n → m = n := by decide
  exact key m hm n hn h

theorem date_bounds (y m d : Int) (h : Spec.IsDate y m d) : 1 ≤ m ∧ m ≤ 12 ∧ 1 ≤ d ∧ d ≤ 31 := by
  obtain ⟨h1, h2, h3, h4⟩ := h
  refine ⟨h1, h2, h3, ?_⟩
  unfold Spec.monthLength at h4
  split at h4
  · split at h4 <;> omega
  · split at h4 <;> omega

/-- **C82.** `datestring` writes every calendar date of the years 1000 to 9999 in ISO form (YYYY-MM-DD), and '0000-00-00'
for everything else. -/
theorem C82_iso (y m d : Int) :
    (1000 ≤ y → y ≤ 9999 → Spec.IsDate y m d → datestring y m d = Spec.isoDate y.toNat m.toNat d.toNat) ∧
    (¬ (1000 ≤ y ∧ y ≤ 9999 ∧ Spec.IsDate y m d) → datestring y m d = "0000-00-00".toList) := by
  constructor
  · intro h1 h2 h3
    have hb := date_bounds y m d h3
    unfold datestring
    rw [if_pos (by simp only [Bool.and_eq_true, decide_eq_true_eq]; exact ⟨⟨h1, h2⟩, (datetimeOk_iff y m d).mpr ⟨by omega, h2, h3⟩⟩)]
    obtain ⟨y, rfl⟩ := Int.eq_ofNat_of_zero_le (show 0 ≤ y by omega)
    obtain ⟨m, rfl⟩ := Int.eq_ofNat_of_zero_le (show 0 ≤ m by omega)
    obtain ⟨d, rfl⟩ := Int.eq_ofNat_of_zero_le (show 0 ≤ d by omega)
    rw [zeroPad_four y (by omega) (by omega), zeroPad_two m (by omega), zeroPad_two d (by omega)]
    rfl
  · intro h
    unfold datestring
    rw [if_neg]
    intro hc
    simp only [Bool.and_eq_true, decide_eq_true_eq] at hc
    exact h ⟨hc.1.1, hc.1.2, ((datetimeOk_iff y m d).mp hc.2).2.2⟩

/-- **C82.** Different dates have different texts, and no date has the text of a missing one. -/
theorem C82_distinct (y m d y' m' d' : Int) (h1 : 1000 ≤ y) (h2 : y ≤ 9999) (h3 : Spec.IsDate y m d)
    (h : datestring y m d = datestring y' m' d') : y' = y ∧ m' = m ∧ d' = d := by
  have hb := date_bounds y m d h3
  rw [(C82_iso y m d).1 h1 h2 h3] at h
  by_cases hv : 1000 ≤ y' ∧ y' ≤ 9999 ∧ Spec.IsDate y' m' d'
  · obtain ⟨g1, g2, g3⟩ := hv
    have gb := date_bounds y' m' d' g3
    rw [(C82_iso y' m' d').1 g1 g2 g3] at h
    unfold Spec.isoDate at h
    simp only [List.cons.injEq] at h
    obtain ⟨e1, e2, e3, e4, -, e5, e6, -, e7, e8, -⟩ := h
    have := digit_inj _ _ (by omega) (by omega) e1
    have := digit_inj _ _ (by omega) (by omega) e2
    have := digit_inj _ _ (by omega) (by omega) e3
    have := digit_inj _ _ (by omega) (by omega) e4
    have := digit_inj _ _ (by omega) (by omega) e5
    have := digit_inj _ _ (by omega) (by omega) e6
    have := digit_inj _ _ (by omega) (by omega) e7
    have := digit_inj _ _ (by omega) (by omega) e8
    omega
  · rw [(C82_iso y' m' d').2 hv] at h
    exfalso
    unfold Spec.isoDate at h
    have h0 : Spec.digit (y.toNat / 1000) = '0' := by
      have := congrArg List.head? h
      simpa using this
    have : y.toNat / 1000 = 0 := digit_inj _ 0 (by omega) (by omega) (by rw [h0]; decide)
    omega

example : datestring 2003 9 5 = "2003-09-05".toList ∧ datestring 2003 2 29 = "0000-00-00".toList ∧
    datestring 2004 2 29 = "2004-02-29".toList ∧ datestring 999 1 1 = "0000-00-00".toList ∧
    datestring 2003 13 5 = "0000-00-00".toList := by
  decide +kernel

example : Spec.IsDate 2004 2 29 := by decide

end MarineQC
