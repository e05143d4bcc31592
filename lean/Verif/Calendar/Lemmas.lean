import Verif.Calendar.Model
import Verif.Calendar.Spec
import Mathlib.Tactic.Linarith
import Mathlib.Tactic.Ring
import Mathlib.Tactic.NormNum

/-!
# Helper lemmas for the calendar properties
-/

namespace MarineQC
open Spec

theorem isleap_iff (y : Int) : isleap y = true ↔ LeapYear y := by
  unfold isleap LeapYear
  simp only [Bool.and_eq_true, Bool.or_eq_true, beq_iff_eq, bne_iff_ne, ne_eq]
  omega

theorem month_cases {m : Int} (h1 : 1 ≤ m) (h2 : m ≤ 12) :
    m = 1 ∨ m = 2 ∨ m = 3 ∨ m = 4 ∨ m = 5 ∨ m = 6 ∨ m = 7 ∨ m = 8 ∨ m = 9 ∨ m = 10 ∨ m = 11 ∨ m = 12 := by
  omega

theorem monthLength_pos (y m : Int) : 28 ≤ monthLength y m ∧ monthLength y m ≤ 31 := by
  unfold monthLength
  split <;> split <;> omega

theorem pyIndex_monthLengths (y m : Int) (h1 : 1 ≤ m) (h2 : m ≤ 12) :
    pyIndex (getMonthLengths y) (m - 1) = .ok (monthLength y m) := by
  have hl := isleap_iff y
  unfold getMonthLengths
  by_cases h : isleap y = true
  · have h' := hl.1 h
    rcases month_cases h1 h2 with h | h | h | h | h | h | h | h | h | h | h | h <;> subst h <;>
      simp [*, monthLength] <;> rfl
  · have h' : ¬ LeapYear y := fun c => h (hl.2 c)
    rcases month_cases h1 h2 with h | h | h | h | h | h | h | h | h | h | h | h <;> subst h <;>
      simp [*, monthLength] <;> rfl

theorem getElem_monthLengths (y m : Int) (h1 : 1 ≤ m) (h2 : m ≤ 12) :
    (getMonthLengths y)[(m - 1).toNat]? = some (monthLength y m) := by
  have hl := isleap_iff y
  unfold getMonthLengths
  by_cases h : isleap y = true
  · have h' := hl.1 h
    rcases month_cases h1 h2 with h | h | h | h | h | h | h | h | h | h | h | h <;> subst h <;>
      simp [*, monthLength]
  · have h' : ¬ LeapYear y := fun c => h (hl.2 c)
    rcases month_cases h1 h2 with h | h | h | h | h | h | h | h | h | h | h | h <;> subst h <;>
      simp [*, monthLength]

theorem nextDay_isDate {y m d : Int} (h : IsDate y m d) :
    IsDate (nextDay (y, m, d)).1 (nextDay (y, m, d)).2.1 (nextDay (y, m, d)).2.2 := by
  obtain ⟨h1, h2, h3, h4⟩ := h
  have p1 := monthLength_pos y (m+1)
  have p2 := monthLength_pos (y+1) 1
  unfold IsDate
  by_cases hd : d < monthLength y m
  · simp only [nextDay, hd, if_true]; omega
  · by_cases hm : m < 12
    · simp only [nextDay, hd, hm, if_true, if_false]; omega
    · simp only [nextDay, hd, hm, if_false]; omega

theorem daysLater_isDate {t : Int × Int × Int} (h : IsDate t.1 t.2.1 t.2.2) (n : Nat) :
    IsDate (daysLater n t).1 (daysLater n t).2.1 (daysLater n t).2.2 := by
  induction n with
  | zero => exact h
  | succ n ih => exact nextDay_isDate ih

theorem julDayCore_next {y m d : Int} (h : IsDate y m d) :
    julDayCore (nextDay (y, m, d)).1 (nextDay (y, m, d)).2.1 (nextDay (y, m, d)).2.2
      = julDayCore y m d + 1 := by
  obtain ⟨h1, h2, h3, h4⟩ := h
  by_cases hd : d < monthLength y m
  · simp only [nextDay, hd, if_true, julDayCore]; ring
  · have hd : d = monthLength y m := by omega
    rcases month_cases h1 h2 with h | h | h | h | h | h | h | h | h | h | h | h <;> subst h <;>
      simp [nextDay, julDayCore, hd, monthLength]
    case inr.inl =>
      by_cases hl : LeapYear y <;> simp only [hl, if_true, if_false] <;>
        unfold LeapYear at hl <;> omega
    all_goals omega

theorem julDay_ok {y m d : Int} (h : IsDate y m d) : julDay y m d = .ok (julDayCore y m d) := by
  obtain ⟨h1, h2, h3, h4⟩ := h
  have p := monthLength_pos y m
  have h5 : d ≤ 31 := by omega
  simp [julDay, h1, h2, h3, h5]

theorem julDayCore_daysLater {t : Int × Int × Int} (h : IsDate t.1 t.2.1 t.2.2) (n : Nat) :
    julDayCore (daysLater n t).1 (daysLater n t).2.1 (daysLater n t).2.2
      = julDayCore t.1 t.2.1 t.2.2 + n := by
  induction n with
  | zero => simp [daysLater]
  | succ n ih =>
    have := julDayCore_next (daysLater_isDate h n)
    rw [ih] at this
    simp only [daysLater]
    rw [this]; push_cast; ring

/-- Julian day of the first of the month. -/
theorem julDayCore_month_step {y m : Int} (h1 : 1 ≤ m) (h2 : m < 12) :
    julDayCore y (m+1) 1 = julDayCore y m 1 + monthLength y m := by
  have := julDayCore_next (y := y) (m := m) (d := monthLength y m)
    ⟨h1, by omega, by have := monthLength_pos y m; omega, le_refl _⟩
  simp [nextDay, h2] at this
  rw [this]; simp only [julDayCore]; ring

theorem julDayCore_day (y m d : Int) : julDayCore y m d = julDayCore y m 1 + (d - 1) := by
  simp only [julDayCore]; ring

theorem julDayCore_month_lt {y m m' : Int} (h1 : 1 ≤ m) (hlt : m < m') (h2 : m' ≤ 12) :
    julDayCore y m 1 + monthLength y m ≤ julDayCore y m' 1 := by
  induction m', hlt using Int.leInduction with
  | base => rw [julDayCore_month_step h1 (by omega)]
  | succ k hk ih =>
    have := ih (by omega)
    have s := julDayCore_month_step (y := y) (m := k) (by omega) (by omega)
    have p := monthLength_pos y k
    omega

theorem julDayCore_year_step (y : Int) : julDayCore y 12 1 + 31 = julDayCore (y+1) 1 1 := by
  have := julDayCore_next (y := y) (m := 12) (d := 31) (by unfold IsDate; simp [monthLength])
  simp [nextDay, monthLength] at this
  rw [this]; simp only [julDayCore]; ring

theorem julDayCore_year_lt {y y' : Int} (hlt : y < y') :
    julDayCore y 12 1 + 31 ≤ julDayCore y' 1 1 := by
  induction y', hlt using Int.leInduction with
  | base => rw [julDayCore_year_step]
  | succ k hk ih =>
    have s := julDayCore_year_step k
    have t := julDayCore_month_lt (y := k) (m := 1) (m' := 12) (by omega) (by omega) (by omega)
    have p := monthLength_pos k 1
    omega

theorem julDayCore_lt {a b : Int × Int × Int} (ha : IsDate a.1 a.2.1 a.2.2) (hb : IsDate b.1 b.2.1 b.2.2)
    (h : Before a b) : julDayCore a.1 a.2.1 a.2.2 < julDayCore b.1 b.2.1 b.2.2 := by
  obtain ⟨y, m, d⟩ := a
  obtain ⟨y', m', d'⟩ := b
  obtain ⟨h1, h2, h3, h4⟩ := ha
  obtain ⟨g1, g2, g3, g4⟩ := hb
  simp only [Before] at *
  rw [julDayCore_day y m d, julDayCore_day y' m' d']
  rcases h with h | ⟨rfl, h | ⟨rfl, h⟩⟩
  · have := julDayCore_year_lt h
    have e1 : julDayCore y m 1 + monthLength y m ≤ julDayCore y 12 1 + 31 := by
      rcases Int.lt_or_eq_of_le h2 with hlt | rfl
      · have := julDayCore_month_lt (y := y) h1 hlt (by omega); omega
      · have : monthLength y 12 = 31 := by simp [monthLength]
        omega
    have e2 : julDayCore y' 1 1 ≤ julDayCore y' m' 1 := by
      rcases Int.lt_or_eq_of_le g1 with hlt | rfl
      · have := julDayCore_month_lt (y := y') (m := 1) (by omega) hlt (by omega)
        have := monthLength_pos y' 1; omega
      · omega
    omega
  · have := julDayCore_month_lt (y := y) h1 h g2
    omega
  · omega

theorem before_trichotomy (a b : Int × Int × Int) : Before a b ∨ a = b ∨ Before b a := by
  obtain ⟨y, m, d⟩ := a
  obtain ⟨y', m', d'⟩ := b
  simp only [Before, Prod.mk.injEq]
  omega

theorem before_asymm {a b : Int × Int × Int} (h : Before a b) : ¬ Before b a := by
  obtain ⟨y, m, d⟩ := a
  obtain ⟨y', m', d'⟩ := b
  simp only [Before] at *
  omega

theorem julDayCore_inj {a b : Int × Int × Int} (ha : IsDate a.1 a.2.1 a.2.2) (hb : IsDate b.1 b.2.1 b.2.2)
    (h : julDayCore a.1 a.2.1 a.2.2 = julDayCore b.1 b.2.1 b.2.2) : a = b := by
  rcases before_trichotomy a b with c | c | c
  · have := julDayCore_lt ha hb c; omega
  · exact c
  · have := julDayCore_lt hb ha c; omega

theorem exists_daysLater {a b : Int × Int × Int} (ha : IsDate a.1 a.2.1 a.2.2)
    (hb : IsDate b.1 b.2.1 b.2.2) (h : Before a b) : ∃ n : Nat, b = daysLater n a := by
  have hlt := julDayCore_lt ha hb h
  refine ⟨(julDayCore b.1 b.2.1 b.2.2 - julDayCore a.1 a.2.1 a.2.2).toNat, ?_⟩
  refine julDayCore_inj hb (daysLater_isDate ha _) ?_
  rw [julDayCore_daysLater ha]
  omega

theorem daysLater_add (n k : Nat) (t : Int × Int × Int) :
    daysLater (n + k) t = daysLater n (daysLater k t) := by
  induction n with
  | zero => simp [daysLater]
  | succ n ih => rw [Nat.succ_add]; simp only [daysLater]; rw [ih]

/-! ## dayinyear -/

theorem sum_take_monthLengths (y m : Int) (h1 : 1 ≤ m) (h2 : m ≤ 12) :
    ((getMonthLengths y).take (m - 1).toNat).sum = julDayCore y m 1 - julDayCore y 1 1 := by
  have key : ∀ k : Nat, k ≤ 11 →
      ((getMonthLengths y).take k).sum = julDayCore y (k + 1) 1 - julDayCore y 1 1 := by
    intro k
    induction k with
    | zero => intro _; simp
    | succ k ih =>
      intro hk
      have ih := ih (by omega)
      have hs := julDayCore_month_step (y := y) (m := (k:Int) + 1) (by omega) (by omega)
      have hg := getElem_monthLengths y ((k:Int)+1) (by omega) (by omega)
      have e : ((k:Int) + 1 - 1).toNat = k := by omega
      rw [e] at hg
      rw [List.take_add_one, hg]
      simp only [Option.toList_some, List.sum_append, List.sum_cons, List.sum_nil, ih]
      push_cast
      omega
  have := key (m - 1).toNat (by omega)
  rw [this]
  have e : ((m - 1).toNat : Int) + 1 = m := by omega
  rw [e]

theorem julDayCore_jan1_next (y : Int) :
    julDayCore (y+1) 1 1 = julDayCore y 1 1 + (if LeapYear y then 366 else 365) := by
  have e := julDayCore_year_step y
  have s : ∀ m, 1 ≤ m → m < 12 → julDayCore y (m+1) 1 = julDayCore y m 1 + monthLength y m :=
    fun m => julDayCore_month_step
  have s1 := s 1 (by omega) (by omega)
  have s2 := s 2 (by omega) (by omega)
  have s3 := s 3 (by omega) (by omega)
  have s4 := s 4 (by omega) (by omega)
  have s5 := s 5 (by omega) (by omega)
  have s6 := s 6 (by omega) (by omega)
  have s7 := s 7 (by omega) (by omega)
  have s8 := s 8 (by omega) (by omega)
  have s9 := s 9 (by omega) (by omega)
  have s10 := s 10 (by omega) (by omega)
  have s11 := s 11 (by omega) (by omega)
  simp [monthLength] at s1 s2 s3 s4 s5 s6 s7 s8 s9 s10 s11
  split <;> simp_all <;> omega

theorem dayinyear_ok {y m d : Int} (h : IsDate y m d) :
    dayinyear y m d = .ok (julDayCore y m d - julDayCore y 1 1 + 1) := by
  have hd := h
  obtain ⟨h1, h2, h3, h4⟩ := h
  have hidx := pyIndex_monthLengths y m h1 h2
  have hsum := sum_take_monthLengths y m h1 h2
  have hr : (if m > 1 then d + ((getMonthLengths y).take (m - 1).toNat).sum else d)
      = julDayCore y m d - julDayCore y 1 1 + 1 := by
    rw [hsum, julDayCore_day y m d]
    split
    · omega
    · have : m = 1 := by omega
      subst this; omega
  have lo : julDayCore y 1 1 ≤ julDayCore y m d := by
    rcases before_trichotomy (y, 1, 1) (y, m, d) with c | c | c
    · have := julDayCore_lt (a := (y,1,1)) (b := (y,m,d))
        ⟨by simp, by simp, by simp, by have := monthLength_pos y 1; simp; omega⟩ hd c
      simp only at this; omega
    · simp only [Prod.mk.injEq] at c; obtain ⟨_, rfl, rfl⟩ := c; omega
    · simp only [Before] at c; omega
  have hi : julDayCore y m d < julDayCore (y+1) 1 1 := by
    have := julDayCore_lt (a := (y,m,d)) (b := (y+1,1,1)) hd
        ⟨by simp, by simp, by simp, by have := monthLength_pos (y+1) 1; simp; omega⟩
        (by simp [Before])
    simpa using this
  have hn := julDayCore_jan1_next y
  have hb : julDayCore (y+1) 1 1 ≤ julDayCore y 1 1 + 366 := by rw [hn]; split <;> omega
  unfold dayinyear
  simp only [hidx, hr]
  simp [h1, h2, h3, h4, lo]
  have : julDayCore y m d - julDayCore y 1 1 + 1 ≤ 366 := by omega
  simp [this]

theorem dayinyear_error {y m d : Int} (h : ¬ IsDate y m d) :
    dayinyear y m d = .error .assertion := by
  unfold IsDate at h
  unfold dayinyear
  by_cases h1 : 1 ≤ m <;> by_cases h2 : m ≤ 12 <;> by_cases h3 : 1 ≤ d <;>
    simp [h1, h2, h3]
  rw [pyIndex_monthLengths y m h1 h2]
  have : ¬ d ≤ monthLength y m := by tauto
  simp [this]

end MarineQC
