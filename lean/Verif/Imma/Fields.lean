import Verif.Imma.Text
import Mathlib.Tactic.IntervalCases
import Mathlib.Tactic.FieldSimp
import Mathlib.Tactic.Positivity

/-!
# C60 and C61: base-36 digits, and one attachment written and read back
-/

namespace MarineQC

/-! ## Specification -/

namespace Spec

/-- The characters '0' to '9' and 'A' to 'Z'. -/
def IsBase36 (c : Char) : Prop := ('0' ≤ c ∧ c ≤ '9') ∨ ('A' ≤ c ∧ c ≤ 'Z')

/-- Text that can stand in a field: its only white space is the blank, and it is not entirely blank. -/
def IsEntry (s : List Char) : Prop := (∀ c ∈ s, isBlank c = true → c = ' ') ∧ ∃ c ∈ s, isBlank c = false

/-- A field of known width. -/
def FixedWidth (f : Field) (w : Nat) : Prop := f.width = some w ∧ 0 < w

/-- Values a field of width `w` can hold: a whole number of units that is not negative and has at most `w` digits; a
base-36 digit; or text that fills the field. -/
def CanHold (f : Field) (w : Nat) (v : Val) : Prop :=
  (f.enc = 1 ∧ ∃ c : Rat, f.scale = some c ∧ c ≠ 0 ∧ ∃ n : Nat, n < 10 ^ w ∧ v = .num (n * c)) ∨
  (f.enc = 2 ∧ f.scale = some 1 ∧ w = 1 ∧ ∃ n : Nat, n < 36 ∧ v = .num n) ∨
  (f.enc = 3 ∧ f.scale = none ∧ ∃ s, v = .str s ∧ s.length = w ∧ IsEntry s)

/-- The layout has known widths and the record has a value the field can hold, or none, for each of its fields. -/
def Fits (fs : List Field) (d : String → Option (Option Val)) : Prop :=
  ∀ f ∈ fs, ∃ w, FixedWidth f w ∧ ∃ v, d f.name = some v ∧ ∀ x, v = some x → CanHold f w x

/-- The total width of a layout. -/
def width (fs : List Field) : Nat := (fs.map fun f => f.width.getD 0).sum

/-- Some parameter of the layout has a value. -/
def HasValue (fs : List Field) (d : String → Option (Option Val)) : Prop := ∃ f ∈ fs, ∃ x, d f.name = some (some x)

end Spec

/-! ## Base 36 -/

theorem base36_pair : ∀ n < 36, decodeBase36 (encodeBase36 ((n : Nat) : Int)) = n := by decide

/-- **C60.** Reading the base-36 digit of a number from 0 to 35 returns the number. -/
theorem C60_number (n : Int) (h0 : 0 ≤ n) (h : n < 36) : decodeBase36 (encodeBase36 n) = n := by
  obtain ⟨m, rfl⟩ := Int.eq_ofNat_of_zero_le h0
  exact base36_pair m (by omega)

theorem base36_chars : ∀ k < 128, ('0'.toNat ≤ k ∧ k ≤ '9'.toNat) ∨ ('A'.toNat ≤ k ∧ k ≤ 'Z'.toNat) →
    encodeBase36 (decodeBase36 [Char.ofNat k]) = [Char.ofNat k] ∧ 0 ≤ decodeBase36 [Char.ofNat k] ∧
      decodeBase36 [Char.ofNat k] < 36 := by decide

/-- **C60.** Writing the number of a digit or capital letter returns the character; the number is from 0 to 35. -/
theorem C60_character (c : Char) (h : Spec.IsBase36 c) :
    encodeBase36 (decodeBase36 [c]) = [c] ∧ 0 ≤ decodeBase36 [c] ∧ decodeBase36 [c] < 36 := by
  have hc : Char.ofNat c.toNat = c := Char.ofNat_toNat c
  have hk : ('0'.toNat ≤ c.toNat ∧ c.toNat ≤ '9'.toNat) ∨ ('A'.toNat ≤ c.toNat ∧ c.toNat ≤ 'Z'.toNat) := h
  have hl : c.toNat < 128 := by
    rcases hk with ⟨_, h⟩ | ⟨_, h⟩
    · exact lt_of_le_of_lt h (by decide)
    · exact lt_of_le_of_lt h (by decide)
  have := base36_chars c.toNat hl hk
  rwa [hc] at this

/-- **C60.** The digits are the usual ones: 0 to 9 stand for themselves, A to Z for 10 to 35. -/
theorem C60_digits (c : Char) (h : Spec.IsBase36 c) :
    decodeBase36 [c] = if c.isDigit then (c.toNat : Int) - 48 else (c.toNat : Int) - 55 := by
  have key : ∀ k < 128, ('0'.toNat ≤ k ∧ k ≤ '9'.toNat) ∨ ('A'.toNat ≤ k ∧ k ≤ 'Z'.toNat) →
      decodeBase36 [Char.ofNat k] = if (Char.ofNat k).isDigit then ((Char.ofNat k).toNat : Int) - 48
        else ((Char.ofNat k).toNat : Int) - 55 := by decide
  have hk : ('0'.toNat ≤ c.toNat ∧ c.toNat ≤ '9'.toNat) ∨ ('A'.toNat ≤ c.toNat ∧ c.toNat ≤ 'Z'.toNat) := h
  have hl : c.toNat < 128 := by
    rcases hk with ⟨_, h⟩ | ⟨_, h⟩
    · exact lt_of_le_of_lt h (by decide)
    · exact lt_of_le_of_lt h (by decide)
  have := key c.toNat hl hk
  rwa [Char.ofNat_toNat c] at this

/-- Every other single character is read as -1, without an error. -/
theorem C60_other (c : Char) (h : ¬ Spec.IsBase36 c) : decodeBase36 [c] = -1 := by
  have hn : c ∉ base36 := by
    intro hc
    apply h
    have : ∀ c ∈ base36, ('0' ≤ c ∧ c ≤ '9') ∨ ('A' ≤ c ∧ c ≤ 'Z') := by decide
    exact this c hc
  unfold decodeBase36
  have : (List.range (base36.length + 1)).find? (fun i => [c].isPrefixOf (base36.drop i)) = none := by
    rw [List.find?_eq_none]
    intro i _ hp
    rw [List.isPrefixOf_iff_prefix] at hp
    obtain ⟨t, ht⟩ := hp
    apply hn
    apply List.mem_of_mem_drop (i := i)
    rw [← ht]; simp
  rw [this]

example : Spec.IsBase36 'K' ∧ decodeBase36 ['K'] = 20 ∧ encodeBase36 20 = ['K'] := by
  refine ⟨Or.inr (by decide), by decide, by decide⟩

example : ¬ Spec.IsBase36 'k' ∧ decodeBase36 ['k'] = -1 := by
  refine ⟨?_, by decide⟩
  rintro (h | h) <;> revert h <;> decide

/-! ## One field -/

theorem encodeBase36_digit : ∀ n < 36, ∃ c, encodeBase36 ((n : Nat) : Int) = [c] ∧ isBlank c = false := by
  intro n hn
  have : ∀ n < 36, (encodeBase36 ((n : Nat) : Int)).length = 1 ∧
      (encodeBase36 ((n : Nat) : Int)).all (fun c => !isBlank c) = true := by decide
  obtain ⟨h1, h2⟩ := this n hn
  obtain ⟨c, hc⟩ := List.length_eq_one_iff.mp h1
  refine ⟨c, hc, ?_⟩
  rw [hc] at h2
  simpa using h2

theorem padRight_full (w : Nat) (s : List Char) (h : s.length = w) : padRight w s = s := by
  unfold padRight
  rw [h]; simp

/-- What is written for one field, and what is read back. -/
theorem field_round (f : Field) (w : Nat) (hw : Spec.FixedWidth f w) (v : Option Val)
    (hv : ∀ x, v = some x → Spec.CanHold f w x) :
    ∃ t, encodeField f v = .ok t ∧ t.length = w ∧ (∀ c ∈ t, isBlank c = true → c = ' ') ∧
      (v = none ↔ ∀ c ∈ t, isBlank c = true) ∧ decodeField f t = .ok v := by
  obtain ⟨hfw, hpos⟩ := hw
  cases v with
  | none =>
    refine ⟨padLeft w [' '], by simp [encodeField, hfw], padLeft_length w [' '] (by rw [List.length_singleton]; omega), ?_, ?_, ?_⟩
    · intro c hc _
      unfold padLeft at hc
      rcases List.mem_append.mp hc with h | h
      · exact List.eq_of_mem_replicate h
      · simpa using h
    · refine ⟨fun _ c hc => ?_, fun _ => rfl⟩
      unfold padLeft at hc
      rcases List.mem_append.mp hc with h | h
      · exact replicate_blank _ c h
      · have : c = ' ' := by simpa using h
        subst this; decide
    · unfold decodeField
      rw [if_pos]
      apply isspace_true
      · simp [padLeft]
      · intro c hc
        unfold padLeft at hc
        rcases List.mem_append.mp hc with h | h
        · exact replicate_blank _ c h
        · have : c = ' ' := by simpa using h
          subst this; decide
  | some x =>
    rcases hv x rfl with ⟨he, c, hc, hc0, n, hn, rfl⟩ | ⟨he, hc, rfl, n, hn, rfl⟩ | ⟨he, hc, s, rfl, hl, hs1, hs2⟩
    · have hlen : (natText n).length ≤ w := natText_length_le n w hpos hn
      have hq : (n : Rat) * c / c = n := by field_simp
      have htx : encodeField f (some (.num (n * c))) = .ok (padLeft w (intText n)) := by
        simp only [encodeField, scaleValue, hc, if_neg hc0, hq, pyInt_half_nat, except_bind_ok, digitValue, he,
          textValue, hfw]
        simp [pyInt_nat]
      have hmem : ∀ d ∈ padLeft w (intText n), d = ' ' ∨ isBlank d = false := by
        intro d hd
        unfold padLeft at hd
        rcases List.mem_append.mp hd with h | h
        · exact Or.inl (List.eq_of_mem_replicate h)
        · exact Or.inr (intText_not_blank _ d h)
      have hex : ∃ d ∈ padLeft w (intText n), isBlank d = false := by
        rw [intText_nat]
        obtain ⟨d, hd⟩ := List.exists_mem_of_ne_nil _ (natText_ne_nil n)
        exact ⟨d, by unfold padLeft; exact List.mem_append_right _ hd, isDigit_not_blank d (natText_digits n d hd)⟩
      refine ⟨_, htx, padLeft_length w _ (by rw [intText_nat]; exact hlen), ?_, ?_, ?_⟩
      · intro d hd hb
        rcases hmem d hd with h | h
        · exact h
        · rw [h] at hb; exact absurd hb (by simp)
      · obtain ⟨d, hd, hb⟩ := hex
        constructor
        · intro h; exact absurd h (by simp)
        · intro h; rw [h d hd] at hb; exact absurd hb (by simp)
      · obtain ⟨d, hd, hb⟩ := hex
        unfold decodeField
        rw [isspace_false _ d hd hb]
        simp only [Bool.false_eq_true, if_false, rawValue, he, parseInt_padLeft, if_neg (by decide : ¬ (1 : Nat) = 2),
          if_true, Except.map, except_bind_ok, except_pure, inUnits, hc]
        by_cases h1 : c = 1
        · subst h1; simp [except_bind_ok]
        · simp [h1, pyInt_nat, except_bind_ok]
    · obtain ⟨c, hcc, hcb⟩ := encodeBase36_digit n hn
      have htx : encodeField f (some (.num n)) = .ok [c] := by
        have hp : pyInt ((n : Rat) / 1 + 1 / 2) = n := by rw [div_one]; exact pyInt_half_nat n
        simp only [encodeField, scaleValue, hc, hp, except_bind_ok, digitValue, he, if_neg (one_ne_zero (α := Rat)),
          if_true, pyInt_int, hcc, textValue, hfw, Option.getD_some]
        rw [if_neg (by decide), padRight_full 1 [c] rfl]
      refine ⟨[c], htx, rfl, ?_, ?_, ?_⟩
      · intro d hd hb
        have : d = c := by simpa using hd
        rw [this, hcb] at hb; exact absurd hb (by simp)
      · constructor
        · intro h; exact absurd h (by simp)
        · intro h
          have := h c (by simp)
          rw [hcb] at this; exact absurd this (by simp)
      · unfold decodeField
        rw [isspace_false [c] c (by simp) hcb]
        have := base36_pair n hn
        rw [hcc] at this
        simp [rawValue, inUnits, he, hc, this, except_bind_ok, except_pure]
    · have htx : encodeField f (some (.str s)) = .ok s := by
        simp only [encodeField, scaleValue, hc, except_bind_ok, digitValue, he, textValue, hfw, Option.getD_some]
        rw [if_neg (by decide)]
        simp only [except_bind_ok]
        rw [if_neg (by decide), padRight_full w s hl]
      obtain ⟨c, hcs, hcb⟩ := hs2
      refine ⟨s, htx, hl, hs1, ?_, ?_⟩
      · constructor
        · intro h; exact absurd h (by simp)
        · intro h
          have := h c hcs
          rw [hcb] at this; exact absurd this (by simp)
      · unfold decodeField
        rw [isspace_false s c hcs hcb]
        simp [rawValue, inUnits, he, hc, except_bind_ok, except_pure]

/-! ## One attachment -/

/-- What is written for a layout, and what is read back. -/
theorem fields_round (d : String → Option (Option Val)) : ∀ (fs : List Field), Spec.Fits fs d →
    ∃ t, encodeFields d fs = .ok t ∧ t.length = Spec.width fs ∧ (∀ c ∈ t, isBlank c = true → c = ' ') ∧
      ((∀ c ∈ t, isBlank c = true) ↔ ¬ Spec.HasValue fs d) ∧
      ∀ (rest : List Char) (e : String → Option (Option Val)), decodeFields fs (t ++ rest) e =
        .ok fun k => if k ∈ fs.map Field.name then d k else e k
  | [], _ => ⟨[], rfl, rfl, by simp, by simp [Spec.HasValue], by simp [decodeFields]⟩
  | f :: fs, h => by
    obtain ⟨w, hw, v, hv, hh⟩ := h f List.mem_cons_self
    obtain ⟨t, ht, hl, hb, hn, hd⟩ := field_round f w hw v hh
    obtain ⟨u, hu, hul, hub, hun, hud⟩ := fields_round d fs fun g hg => h g (List.mem_cons_of_mem _ hg)
    refine ⟨t ++ u, ?_, ?_, ?_, ?_, ?_⟩
    · simp only [encodeFields, hv, ht, hu, except_bind_ok, except_pure]
    · rw [List.length_append, hl, hul]
      simp [Spec.width, hw.1]
    · intro c hc
      rcases List.mem_append.mp hc with h | h
      · exact hb c h
      · exact hub c h
    · have e1 : (∀ c ∈ t ++ u, isBlank c = true) ↔ (∀ c ∈ t, isBlank c = true) ∧ ∀ c ∈ u, isBlank c = true := by
        simp only [List.mem_append]
        constructor
        · intro h; exact ⟨fun c hc => h c (Or.inl hc), fun c hc => h c (Or.inr hc)⟩
        · rintro ⟨h1, h2⟩ c (hc | hc)
          · exact h1 c hc
          · exact h2 c hc
      rw [e1, hun, ← hn]
      constructor
      · rintro ⟨h1, h2⟩ ⟨g, hg, x, hx⟩
        rcases List.mem_cons.mp hg with rfl | hg
        · rw [hv, h1] at hx; simp at hx
        · exact h2 ⟨g, hg, x, hx⟩
      · intro h
        constructor
        · cases v with
          | none => rfl
          | some x => exact absurd ⟨f, List.mem_cons_self, x, hv⟩ h
        · rintro ⟨g, hg, x, hx⟩
          exact h ⟨g, List.mem_cons_of_mem _ hg, x, hx⟩
    · intro rest e
      have ht1 : (t ++ u ++ rest).take w = t := by
        rw [List.append_assoc, ← hl, List.take_left]
      have ht2 : (t ++ u ++ rest).drop w = u ++ rest := by
        rw [List.append_assoc, ← hl, List.drop_left]
      simp only [decodeFields, fieldText, afterField, hw.1, ht1, ht2, hd, except_bind_ok, hud]
      congr 1
      funext k
      by_cases h1 : k ∈ fs.map Field.name
      · rw [if_pos h1, if_pos (by rw [List.map_cons]; exact List.mem_cons_of_mem _ h1)]
      · rw [if_neg h1]
        by_cases h2 : k = f.name
        · rw [if_pos h2, if_pos (by rw [h2]; simp), h2, hv]
        · rw [if_neg h2, if_neg]
          rw [List.map_cons, List.mem_cons]
          rintro (h | h)
          · exact h2 h
          · exact h1 h

/-- **C61, part.** For a layout of fixed-width fields and any assignment of values the fields can hold (or none),
encoding yields exactly the declared number of characters, and decoding them — followed by anything, and over any other
values — returns the same values.  Missing: negative numbers, see the violation below. -/
theorem C61_attachment_partial (fs : List Field) (d : String → Option (Option Val)) (h : Spec.Fits fs d) :
    ∃ t, encodeFields d fs = .ok t ∧ t.length = Spec.width fs ∧
      ∀ (rest : List Char) (e : String → Option (Option Val)), ∃ e', decodeFields fs (t ++ rest) e = .ok e' ∧
        (∀ f ∈ fs, e' f.name = d f.name) ∧ ∀ k, (∀ f ∈ fs, f.name ≠ k) → e' k = e k := by
  obtain ⟨t, h1, h2, _, _, h3⟩ := fields_round d fs h
  refine ⟨t, h1, h2, fun rest e => ⟨_, h3 rest e, fun f hf => ?_, fun k hk => ?_⟩⟩
  · rw [if_pos (List.mem_map_of_mem hf)]
  · rw [if_neg]
    intro hm
    obtain ⟨f, hf, he⟩ := List.mem_map.mp hm
    exact hk f hf he

end MarineQC
