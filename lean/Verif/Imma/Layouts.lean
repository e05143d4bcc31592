import Verif.Imma.Fields

/-!
# C61 and C79: the layouts of the code, rounding, and values that are not restored
-/

namespace MarineQC

namespace Spec

/-- The attachments, other than the core, that have fixed-width fields and a two-digit length. -/
def regular : List Int := [1, 2, 3, 4, 5, 6, 7, 9, 95, 96, 98]

/-- A field that C61 covers: text, a base-36 digit, or a number in units that are not zero. -/
def Covered (f : Field) : Prop :=
  ∃ w, FixedWidth f w ∧ ((f.enc = 1 ∧ ∃ c, f.scale = some c ∧ 0 < c) ∨ (f.enc = 2 ∧ f.scale = some 1 ∧ w = 1) ∨
    (f.enc = 3 ∧ f.scale = none))

end Spec

/-- `Covered` as a test. -/
def coveredTest (f : Field) : Bool :=
  match f.width with
  | none => false
  | some w => decide (0 < w) && (match f.scale with
    | none => f.enc == 3
    | some c => (f.enc == 1 && decide (0 < c)) || (f.enc == 2 && decide (c = 1) && w == 1))

theorem coveredTest_iff (f : Field) (h : coveredTest f = true) : Spec.Covered f := by
  unfold coveredTest at h
  split at h
  · simp at h
  · rename_i w hw
    rw [Bool.and_eq_true, decide_eq_true_eq] at h
    refine ⟨w, ⟨hw, h.1⟩, ?_⟩
    have h2 := h.2
    split at h2
    · rename_i hs
      exact Or.inr (Or.inr ⟨by simpa using h2, hs⟩)
    · rename_i c hs
      rw [Bool.or_eq_true, Bool.and_eq_true, Bool.and_eq_true, Bool.and_eq_true] at h2
      rcases h2 with ⟨h3, h4⟩ | ⟨⟨h3, h4⟩, h5⟩
      · exact Or.inl ⟨by simpa using h3, c, hs, by simpa using h4⟩
      · have hc : c = 1 := by simpa using h4
        subst hc
        exact Or.inr (Or.inl ⟨by simpa using h3, hs, by simpa using h5⟩)

theorem layoutOf_ok (a : Int) (fs : List Field) (h : layoutOf a = .ok fs) : (a, fs) ∈ layouts := by
  unfold layoutOf at h
  split at h
  · rename_i p hp
    have h1 := List.mem_of_find?_eq_some hp
    have h2 := List.find?_some hp
    simp only [Except.ok.injEq] at h
    have : p.1 = a := by simpa using h2
    rw [← h, ← this]; exact h1
  · simp at h

/-- **C61.** The core and the attachments 1 to 9 (including 8), 95, 96 and 98 consist of fields that the theorem on one
attachment covers, except NU; their total widths are those of the format. -/
theorem C61_layouts : ∀ p ∈ [((0 : Int), 108), (1, 61), (2, 72), (3, 62), (4, 53), (5, 90), (6, 64), (7, 54), (8, 98), (9, 28),
    (95, 57), (96, 49), (98, 11)], ∃ fs, layoutOf p.1 = .ok fs ∧ Spec.width fs = p.2 ∧
      ∀ f ∈ fs, f.name ≠ "NU" → Spec.Covered f := by
  have key : ∀ p ∈ [((0 : Int), 108), (1, 61), (2, 72), (3, 62), (4, 53), (5, 90), (6, 64), (7, 54), (8, 98), (9, 28),
      (95, 57), (96, 49), (98, 11)], ∃ fs, layoutOf p.1 = .ok fs ∧ Spec.width fs = p.2 ∧
        fs.all (fun f => f.name == "NU" || coveredTest f) = true := by
    intro p hp
    have : (match layoutOf p.1 with
      | .ok fs => decide (Spec.width fs = p.2) && fs.all (fun f => f.name == "NU" || coveredTest f)
      | .error _ => false) = true := by
      revert p
      decide +kernel
    split at this
    · rename_i fs hfs
      rw [Bool.and_eq_true, decide_eq_true_eq] at this
      exact ⟨fs, hfs, this.1, this.2⟩
    · simp at this
  intro p hp
  obtain ⟨fs, h1, h2, h3⟩ := key p hp
  refine ⟨fs, h1, h2, fun f hf hn => coveredTest_iff f ?_⟩
  have := List.all_eq_true.mp h3 f hf
  rw [Bool.or_eq_true] at this
  rcases this with h | h
  · exact absurd (by simpa using h) hn
  · exact h

/-- **C61.** Any other number that is not negative is written as the nearest whole number of units (a half upwards), and
is read back as that. -/
theorem C61_nearest (f : Field) (w : Nat) (c q : Rat) (hw : Spec.FixedWidth f w) (he : f.enc = 1) (hc : f.scale = some c)
    (hc0 : 0 < c) (hq : 0 ≤ q) : ∃ m : Nat, ∃ t, encodeField f (some (.num q)) = .ok t ∧
      decodeField f t = .ok (some (.num (m * c))) ∧ m * c - c / 2 ≤ q ∧ q < m * c + c / 2 ∧
      (m < 10 ^ w → t.length = w) := by
  have h0 : 0 ≤ q / c + 1 / 2 := by positivity
  have hf0 : 0 ≤ ⌊q / c + 1 / 2⌋ := Int.floor_nonneg.mpr h0
  obtain ⟨m, hm⟩ := Int.eq_ofNat_of_zero_le hf0
  have hle : (m : Rat) ≤ q / c + 1 / 2 := by
    have := Int.floor_le (q / c + 1 / 2)
    rw [hm] at this; exact_mod_cast this
  have hlt : q / c + 1 / 2 < m + 1 := by
    have := Int.lt_floor_add_one (q / c + 1 / 2)
    rw [hm] at this; exact_mod_cast this
  have htx : encodeField f (some (.num q)) = .ok (padLeft w (intText m)) := by
    have hp : pyInt (q / c + 1 / 2) = m := by
      unfold pyInt
      rw [if_pos h0, hm]
    simp only [encodeField, scaleValue, hc, if_neg (ne_of_gt hc0), hp, except_bind_ok, digitValue, he, textValue, hw.1]
    simp [pyInt_nat]
  refine ⟨m, _, htx, ?_, ?_, ?_, ?_⟩
  · obtain ⟨d, hd⟩ := List.exists_mem_of_ne_nil _ (natText_ne_nil m)
    have hb := isDigit_not_blank d (natText_digits m d hd)
    have hd' : d ∈ padLeft w (intText m) := by
      rw [intText_nat]; unfold padLeft; exact List.mem_append_right _ hd
    unfold decodeField
    rw [isspace_false _ d hd' hb]
    simp only [Bool.false_eq_true, if_false, rawValue, he, parseInt_padLeft, if_neg (by decide : ¬ (1 : Nat) = 2),
      if_true, Except.map, except_bind_ok, except_pure, inUnits, hc]
    by_cases h1 : c = 1
    · subst h1; simp [except_bind_ok]
    · simp [h1, pyInt_nat, except_bind_ok]
  · have := mul_le_mul_of_nonneg_right hle hc0.le
    rw [add_mul, div_mul_cancel₀ _ (ne_of_gt hc0)] at this
    linarith
  · have := mul_lt_mul_of_pos_right hlt hc0
    rw [add_mul, div_mul_cancel₀ _ (ne_of_gt hc0), add_mul] at this
    linarith
  · intro h
    apply padLeft_length
    rw [intText_nat]
    exact natText_length_le m w hw.2 h

/-- Air temperature in attachment 0. -/
def fieldAT : Field := ⟨"AT", some 4, some (-(999 / 10)), some (999 / 10), none, none, some (1 / 10), 1⟩

example : fieldAT ∈ fields00 := by decide +kernel

/-- 18.26 degrees are read back as 18.3. -/
example : ∃ t, encodeField fieldAT (some (.num (1826 / 100))) = .ok t ∧
    decodeField fieldAT t = .ok (some (.num (183 / 10))) := ⟨" 183".toList, by decide +kernel, by decide +kernel⟩

/-- **C61, violated.** Every negative whole number of units is written one unit too high, and so is read back too high:
-1.2 degrees become -1.1 degrees. -/
theorem C61_negative_violation (f : Field) (w n : Nat) (c : Rat) (hw : Spec.FixedWidth f w) (he : f.enc = 1)
    (hc : f.scale = some c) (hc0 : c ≠ 0) (hn : 0 < n) : ∃ t, encodeField f (some (.num (-n * c))) = .ok t ∧
      decodeField f t = .ok (some (.num ((-n + 1) * c))) := by
  have hq : -(n : Rat) * c / c = -n := by field_simp
  have hp : pyInt (-(n : Rat) + 1 / 2) = -(n : Int) + 1 := by
    have h1 : (1 : Rat) ≤ n := by exact_mod_cast hn
    unfold pyInt
    rw [if_neg (by linarith), Int.ceil_eq_iff]
    push_cast
    constructor <;> linarith
  have hi : pyInt (-(n : Rat) + 1) = -(n : Int) + 1 := by
    have := pyInt_int (-(n : Int) + 1)
    push_cast at this
    exact this
  have htx : encodeField f (some (.num (-n * c))) = .ok (padLeft w (intText (-n + 1))) := by
    simp only [encodeField, scaleValue, hc, if_neg hc0, hq, hp, except_bind_ok, digitValue, he, textValue, hw.1]
    simp [hi]
  refine ⟨_, htx, ?_⟩
  have hex : ∃ d ∈ padLeft w (intText (-n + 1)), isBlank d = false := by
    have hne : intText (-(n : Int) + 1) ≠ [] := by
      unfold intText
      split
      · simp
      · exact natText_ne_nil _
    obtain ⟨d, hd⟩ := List.exists_mem_of_ne_nil _ hne
    exact ⟨d, by unfold padLeft; exact List.mem_append_right _ hd, intText_not_blank _ d hd⟩
  obtain ⟨d, hd, hb⟩ := hex
  unfold decodeField
  rw [isspace_false _ d hd hb]
  simp only [Bool.false_eq_true, if_false, rawValue, he, parseInt_padLeft, if_neg (by decide : ¬ (1 : Nat) = 2),
    if_true, Except.map, except_bind_ok, except_pure, inUnits, hc]
  by_cases h1 : c = 1
  · subst h1; simp [except_bind_ok]
  · simp [h1, except_bind_ok, hi]

example : ∃ t, encodeField fieldAT (some (.num (-12 / 10))) = .ok t ∧
    decodeField fieldAT t = .ok (some (.num (-11 / 10))) := ⟨" -11".toList, by decide +kernel, by decide +kernel⟩

theorem fieldNU_mem : ∃ fs, layoutOf 5 = .ok fs ∧ ∃ f ∈ fs, f.name = "NU" ∧ f.enc = 3 ∧ f.scale = some 1 := by
  refine ⟨fields05, rfl, ?_⟩
  have : fields05.any (fun f => f.name == "NU" && f.enc == 3 && decide (f.scale = some 1)) = true := by decide +kernel
  rw [List.any_eq_true] at this
  obtain ⟨f, hf, h⟩ := this
  rw [Bool.and_eq_true, Bool.and_eq_true] at h
  exact ⟨f, hf, by simpa using h.1.1, by simpa using h.1.2, by simpa using h.2⟩

/-- **C61, violated.** A character field with units — NU of attachment 5 — is read as text, and text cannot be written:
TypeError. -/
theorem C61_text_units_violation (f : Field) (he : f.enc = 3) (hc : f.scale = some 1) (s : List Char) (hs : Spec.IsEntry s) :
    decodeField f s = .ok (some (.str s)) ∧ encodeField f (some (.str s)) = .error .type := by
  obtain ⟨_, c, hcs, hcb⟩ := hs
  constructor
  · unfold decodeField
    rw [isspace_false s c hcs hcb]
    simp [rawValue, inUnits, he, hc, except_bind_ok, except_pure]
  · simp [encodeField, scaleValue, hc, except_bind_error]

/-- **C61, violated.** A base-36 field that holds another character is read as -1, which is written as 0; the number 36,
which the table allows, is written as a blank and read back as missing. -/
theorem C61_digit_violation (f : Field) (hw : f.width = some 1) (he : f.enc = 2) (hc : f.scale = some 1) :
    (∀ c, isBlank c = false → ¬ Spec.IsBase36 c → decodeField f [c] = .ok (some (.num (-1)))) ∧
      encodeField f (some (.num (-1))) = .ok ['0'] ∧ encodeField f (some (.num 36)) = .ok [' '] ∧
      decodeField f [' '] = .ok none := by
  refine ⟨?_, ?_, ?_, ?_⟩
  · intro c hb h
    unfold decodeField
    rw [isspace_false [c] c (by simp) hb]
    simp [rawValue, inUnits, he, hc, C60_other c h, except_bind_ok, except_pure]
  · have hp : pyInt ((-1 : Rat) / 1 + 1 / 2) = 0 := by decide +kernel
    simp only [encodeField, scaleValue, hc, hp, except_bind_ok, digitValue, he, if_neg (one_ne_zero (α := Rat)),
      if_true, pyInt_int, textValue, hw, Option.getD_some]
    rfl
  · have hp : pyInt ((36 : Rat) / 1 + 1 / 2) = 36 := by decide +kernel
    simp only [encodeField, scaleValue, hc, hp, except_bind_ok, digitValue, he, if_neg (one_ne_zero (α := Rat)),
      if_true, pyInt_int, textValue, hw, Option.getD_some]
    rfl
  · unfold decodeField
    rw [if_pos (by decide)]

/-! ## The declared ranges -/

namespace Spec

/-- The value lies in the range declared for the field. -/
def InRange (f : Field) (q : Rat) : Prop := (∀ l, f.lo = some l → l ≤ q) ∧ ∀ h, f.hi = some h → q ≤ h

end Spec

/-- Range check of one field. -/
def rangeTest (f : Field) : Bool :=
  if f.enc = 1 then
    match f.width, f.scale, f.lo, f.hi with
    | some w, some c, some l, some h =>
      decide (0 < c) && decide (0 < w) && decide (h / c < 10 ^ w) && decide (-l / c < 10 ^ (w - 1))
    | _, _, _, _ => f.name == "BSI"
  else true

theorem rangeTest_all : ∀ p ∈ layouts, p.1 ∉ [(97 : Int), 99] → p.2.all rangeTest = true := by
  decide +kernel

theorem natText_neg_length (n w : Nat) (hw : 1 < w) (h : n < 10 ^ (w - 1)) : (intText (-(n : Int))).length ≤ w := by
  unfold intText
  split
  · rw [List.length_cons]
    have := natText_length_le (-(n : Int)).natAbs (w - 1) (by omega) (by simpa using h)
    omega
  · have := natText_length_le (-(n : Int)).natAbs (w - 1) (by omega) (by simpa using h)
    omega

/-- **C79.** In every attachment except 97 and 99, a whole number of units within the declared range of an integer
parameter (BSI has no range) fits the declared width: its decimal text, with the sign, has at most that many
characters. -/
theorem C79_ranges_fit (a : Int) (ha : a ∉ [(97 : Int), 99]) (fs : List Field) (hfs : layoutOf a = .ok fs) (f : Field)
    (hf : f ∈ fs) (he : f.enc = 1) (hn : f.name ≠ "BSI") : ∃ w c, f.width = some w ∧ f.scale = some c ∧ 0 < c ∧
      ∀ n : Int, Spec.InRange f (n * c) → (intText n).length ≤ w := by
  have h := List.all_eq_true.mp (rangeTest_all _ (layoutOf_ok a fs hfs) ha) f hf
  unfold rangeTest at h
  rw [if_pos he] at h
  split at h
  · rename_i w c l hi hw hc hl hh
    simp only [Bool.and_eq_true, decide_eq_true_eq] at h
    obtain ⟨⟨⟨h1, h2⟩, h3⟩, h4⟩ := h
    refine ⟨w, c, hw, hc, h1, fun n ⟨hr1, hr2⟩ => ?_⟩
    have hr1 := hr1 l hl
    have hr2 := hr2 hi hh
    have e1 : (n : Rat) < 10 ^ w := by
      refine lt_of_le_of_lt ?_ h3
      rw [le_div_iff₀ h1]; exact hr2
    have e2 : -(n : Rat) < 10 ^ (w - 1) := by
      refine lt_of_le_of_lt ?_ h4
      rw [le_div_iff₀ h1]; linarith
    have e1' : n < (10 : Int) ^ w := by exact_mod_cast e1
    have e2' : -n < (10 : Int) ^ (w - 1) := by exact_mod_cast e2
    rcases lt_or_ge n 0 with hneg | hpos
    · obtain ⟨m, hm⟩ := Int.eq_ofNat_of_zero_le (by omega : 0 ≤ -n)
      have hnm : n = -(m : Int) := by omega
      have hm' : m < 10 ^ (w - 1) := by
        rw [hm] at e2'; exact_mod_cast e2'
      have hw1 : 1 < w := by
        by_contra hcon
        have hw0 : w - 1 = 0 := by omega
        rw [hw0] at hm'
        simp only [pow_zero] at hm'
        omega
      rw [hnm]
      exact natText_neg_length m w hw1 hm'
    · obtain ⟨m, rfl⟩ := Int.eq_ofNat_of_zero_le hpos
      rw [intText_nat]
      exact natText_length_le m w h2 (by exact_mod_cast e1')
  · exact absurd (by simpa using h) hn

example : Spec.InRange fieldAT ((-999 : Int) * (1 / 10)) ∧ (intText (-999)).length = 4 := by
  refine ⟨⟨?_, ?_⟩, by decide +kernel⟩
  · intro l hl
    simp only [fieldAT, Option.some.injEq] at hl
    subst hl; norm_num
  · intro l hl
    simp only [fieldAT, Option.some.injEq] at hl
    subst hl; norm_num

end MarineQC
