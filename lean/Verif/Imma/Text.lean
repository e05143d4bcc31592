import Verif.Imma.Model
import Mathlib.Tactic.Linarith
import Mathlib.Tactic.NormNum
import Mathlib.Data.Nat.Digits.Lemmas

/-!
# Numbers and blanks in fixed-width text
-/

namespace MarineQC

theorem digitChar_isDigit : ∀ d < 10, (Nat.digitChar d).isDigit = true := by decide

theorem digitChar_value : ∀ d < 10, (Nat.digitChar d).toNat - 48 = d := by decide

theorem isDigit_not_blank (c : Char) (h : c.isDigit = true) : isBlank c = false := by
  simp only [Char.isDigit, Bool.and_eq_true, decide_eq_true_eq] at h
  simp only [isBlank, Bool.or_eq_false_iff, beq_eq_false_iff_ne, ne_eq]
  refine ⟨⟨⟨⟨⟨?_, ?_⟩, ?_⟩, ?_⟩, ?_⟩, ?_⟩ <;>
    (intro e; subst e; revert h; decide)

theorem isDigit_not_sign (c : Char) (h : c.isDigit = true) : c ≠ '-' ∧ c ≠ '+' := by
  constructor <;> (intro e; subst e; revert h; decide)

theorem natText_digits (n : Nat) : ∀ c ∈ natText n, c.isDigit = true := by
  intro c hc
  unfold natText at hc
  split at hc
  · simp only [List.mem_singleton] at hc; subst hc; decide
  · rw [List.mem_reverse, List.mem_map] at hc
    obtain ⟨d, hd, rfl⟩ := hc
    exact digitChar_isDigit d (Nat.digits_lt_base (by norm_num) hd)

theorem natText_ne_nil (n : Nat) : natText n ≠ [] := by
  unfold natText
  split
  · simp
  · rename_i h
    simp [Nat.digits_ne_nil_iff_ne_zero, h]

theorem digitsValue_natText (n : Nat) : digitsValue (natText n) = n := by
  unfold natText
  split
  · rename_i h; subst h; decide
  · unfold digitsValue
    rw [List.foldl_reverse, List.foldr_map]
    have h : ∀ l : List Nat, (∀ d ∈ l, d < 10) →
        List.foldr (fun d a => 10 * a + ((Nat.digitChar d).toNat - 48)) 0 l = Nat.ofDigits 10 l := by
      intro l
      induction l with
      | nil => simp
      | cons d l ih =>
        intro hl
        rw [List.foldr_cons, ih fun e he => hl e (List.mem_cons_of_mem _ he), Nat.ofDigits_cons,
          digitChar_value d (hl d List.mem_cons_self)]
        omega
    rw [h _ fun d hd => Nat.digits_lt_base (by norm_num) hd, Nat.ofDigits_digits]

theorem natText_length_le (n w : Nat) (hw : 0 < w) (h : n < 10 ^ w) : (natText n).length ≤ w := by
  unfold natText
  split
  · simp only [List.length_singleton]; omega
  · simp only [List.length_reverse, List.length_map]
    rw [Nat.digits_length_le_iff (by norm_num)]
    exact h

theorem parseDigits_natText (n : Nat) : parseDigits (natText n) = .ok n := by
  unfold parseDigits
  rw [if_pos, digitsValue_natText]
  rw [Bool.and_eq_true]
  refine ⟨?_, List.all_eq_true.mpr (natText_digits n)⟩
  have := natText_ne_nil n
  cases h : natText n <;> simp_all

/-- A text that neither begins nor ends with a blank, with blanks around it. -/
theorem trim_blanks (s t u : List Char) (hs : ∀ c ∈ s, isBlank c = true) (hu : ∀ c ∈ u, isBlank c = true)
    (ht : ∀ c ∈ t, isBlank c = false) : pyRstrip ((s ++ t ++ u).dropWhile isBlank) = t := by
  have drop : ∀ (s t : List Char), (∀ c ∈ s, isBlank c = true) → (s ++ t).dropWhile isBlank = t.dropWhile isBlank := by
    intro s t h
    induction s with
    | nil => simp
    | cons a s ih =>
      rw [List.cons_append, List.dropWhile_cons_of_pos (h a List.mem_cons_self)]
      exact ih fun c hc => h c (List.mem_cons_of_mem _ hc)
  have keep : ∀ (t u : List Char), (∀ c ∈ t, isBlank c = false) → t ≠ [] → (t ++ u).dropWhile isBlank = t ++ u := by
    intro t u h hn
    cases t with
    | nil => exact absurd rfl hn
    | cons a t => rw [List.cons_append, List.dropWhile_cons_of_neg (by simp [h a List.mem_cons_self])]
  rw [List.append_assoc, drop _ _ hs]
  by_cases hn : t = []
  · subst hn
    rw [List.nil_append]
    have := drop u [] hu
    simp only [List.append_nil] at this
    rw [this]
    simp [pyRstrip]
  · rw [keep _ _ ht hn]
    unfold pyRstrip
    rw [List.reverse_append, drop _ _ (by simpa using hu)]
    have := keep t.reverse [] (by simpa using ht) (by simpa using hn)
    simp only [List.append_nil] at this
    rw [this, List.reverse_reverse]

theorem intText_not_blank (n : Int) : ∀ c ∈ intText n, isBlank c = false := by
  intro c hc
  unfold intText at hc
  split at hc
  · rcases List.mem_cons.mp hc with h | h
    · subst h; decide
    · exact isDigit_not_blank c (natText_digits _ c h)
  · exact isDigit_not_blank c (natText_digits _ c hc)

theorem parseSigned_intText (n : Int) : parseSigned (intText n) = .ok n := by
  unfold intText
  split
  · rename_i hn
    simp only [parseSigned, if_true, parseDigits_natText, except_bind_ok, except_pure]
    congr 1; omega
  · rename_i hn
    have e : ((n.natAbs : Nat) : Int) = n := by omega
    have hd := natText_digits n.natAbs
    have hp := parseDigits_natText n.natAbs
    cases ht : natText n.natAbs with
    | nil => exact absurd ht (natText_ne_nil _)
    | cons c t =>
      rw [ht] at hd hp
      obtain ⟨h1, h2⟩ := isDigit_not_sign c (hd c List.mem_cons_self)
      simp only [parseSigned, if_neg h1, if_neg h2, hp, except_bind_ok, except_pure, e]

theorem replicate_blank (n : Nat) : ∀ c ∈ List.replicate n ' ', isBlank c = true := by
  intro c hc
  rw [List.eq_of_mem_replicate hc]; decide

/-- `int` undoes `%d`, whatever the width and whatever the blanks around it. -/
theorem parseInt_padded (n : Int) (w m : Nat) :
    parseInt (padLeft w (intText n) ++ List.replicate m ' ') = .ok n := by
  unfold parseInt padLeft
  rw [trim_blanks _ _ _ (replicate_blank _) (replicate_blank _) (intText_not_blank n)]
  exact parseSigned_intText n

theorem parseInt_padLeft (n : Int) (w : Nat) : parseInt (padLeft w (intText n)) = .ok n := by
  have := parseInt_padded n w 0
  simpa using this

theorem padLeft_length (w : Nat) (s : List Char) (h : s.length ≤ w) : (padLeft w s).length = w := by
  unfold padLeft
  rw [List.length_append, List.length_replicate]
  omega

theorem padRight_length (w : Nat) (s : List Char) (h : s.length ≤ w) : (padRight w s).length = w := by
  unfold padRight
  rw [List.length_append, List.length_replicate]
  omega

theorem intText_nat (n : Nat) : intText (n : Int) = natText n := by
  unfold intText
  rw [if_neg (by omega)]
  simp

theorem isspace_false (s : List Char) (c : Char) (hc : c ∈ s) (h : isBlank c = false) : pyIsspace s = false := by
  unfold pyIsspace
  rw [Bool.and_eq_false_iff]
  right
  rw [List.all_eq_false]
  exact ⟨c, hc, by simp [h]⟩

theorem isspace_true (s : List Char) (hs : s ≠ []) (h : ∀ c ∈ s, isBlank c = true) : pyIsspace s = true := by
  unfold pyIsspace
  rw [Bool.and_eq_true]
  exact ⟨by cases s <;> simp_all, List.all_eq_true.mpr h⟩

theorem pyInt_half_nat (n : Nat) : pyInt ((n : Rat) + 1 / 2) = n := by
  have h : (0 : Rat) ≤ (n : Rat) + 1 / 2 := by positivity
  unfold pyInt
  rw [if_pos h, Int.floor_eq_iff]
  constructor
  · push_cast; linarith
  · push_cast; linarith

theorem pyInt_int (n : Int) : pyInt (n : Rat) = n := by
  unfold pyInt
  split <;> simp

theorem pyInt_nat (n : Nat) : pyInt (n : Rat) = n := by
  have := pyInt_int n
  rwa [Int.cast_natCast] at this

end MarineQC
