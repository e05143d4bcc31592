import Verif.Files.Model
import Verif.Imma.Record
import Mathlib.Tactic.FinCases

/-!
# C64, C65 and C80: filling placeholders, lists of IDs, legal and distinct file names
-/

namespace MarineQC

namespace Spec

/-- A part of a file name: fixed text or a placeholder. -/
inductive Seg where
  | text (t : List Char)
  | year
  | month
  | day

/-- How the part is written in a stub. -/
def Seg.stub : Seg → List Char
  | .text t => t
  | .year => "YYYY".toList
  | .month => "MMMM".toList
  | .day => "DDDD".toList

/-- What it is to become: four digits for the year, two for month and day. -/
def Seg.filled (year month day : Int) : Seg → List Char
  | .text t => t
  | .year => zeroPad 4 year
  | .month => zeroPad 2 month
  | .day => zeroPad 2 day

/-- Fixed text that cannot be mistaken for a placeholder: it contains none, and does not end with one of the letters
Y, M and D (which would run into a placeholder behind it). -/
def IsFixed (t : List Char) : Prop :=
  ∀ c ∈ ['Y', 'M', 'D'], t.getLast? ≠ some c ∧ ¬ List.replicate 4 c <:+: t

end Spec

/-! ## Replacing -/

theorem replace_skip (pat rep t rest : List Char)
    (h : ∀ i < t.length, ¬ pat <+: (t ++ rest).drop i) :
    replaceFrom pat rep 0 (t ++ rest) = t ++ replaceFrom pat rep 0 rest := by
  induction t with
  | nil => rfl
  | cons c t ih =>
    have h0 := h 0 (by simp)
    rw [List.cons_append, replaceFrom, if_neg, ih, List.cons_append]
    · intro i hi
      have := h (i + 1) (by simpa using hi)
      simpa using this
    · rw [List.isPrefixOf_iff_prefix]
      simpa using h0

/-- Text without the pattern, that does not end with its letter, is left alone. -/
theorem replace_fixed (c : Char) (rep t rest : List Char) (h1 : t.getLast? ≠ some c)
    (h2 : ¬ List.replicate 4 c <:+: t) :
    replaceFrom (List.replicate 4 c) rep 0 (t ++ rest) = t ++ replaceFrom (List.replicate 4 c) rep 0 rest := by
  apply replace_skip
  intro i hi hp
  rw [List.drop_append_of_le_length (by omega)] at hp
  have hpre : t.drop i <+: t.drop i ++ rest := List.prefix_append _ _
  rcases Nat.le_total (List.replicate 4 c).length (t.drop i).length with hle | hle
  · have := List.prefix_of_prefix_length_le hp hpre hle
    exact h2 (this.isInfix.trans (List.drop_suffix i t).isInfix)
  · have := List.prefix_of_prefix_length_le hpre hp hle
    have hne : t ≠ [] := by rintro rfl; simp at hi
    apply h1
    rw [List.getLast?_eq_getLast hne]
    congr 1
    have hd : t.drop i ≠ [] := by
      intro he
      have := congrArg List.length he
      rw [List.length_drop, List.length_nil] at this
      omega
    rw [← List.getLast_drop hd]
    exact List.eq_of_mem_replicate (this.subset (List.getLast_mem hd))

/-- A placeholder is replaced. -/
theorem replace_slot (c : Char) (rep rest : List Char) :
    replaceFrom (List.replicate 4 c) rep 0 (List.replicate 4 c ++ rest) =
      rep ++ replaceFrom (List.replicate 4 c) rep 0 rest := by
  simp [List.replicate, replaceFrom, List.isPrefixOf]

/-- Replacing in a sequence of pieces, each a placeholder or fixed. -/
theorem replace_pieces (c : Char) (rep : List Char) : ∀ (l : List (List Char × List Char)),
    (∀ p ∈ l, (p.1 = List.replicate 4 c ∧ p.2 = rep) ∨ (p.2 = p.1 ∧ p.1.getLast? ≠ some c ∧ ¬ List.replicate 4 c <:+: p.1)) →
    pyReplace (List.replicate 4 c) rep (l.map Prod.fst).flatten = (l.map Prod.snd).flatten
  | [], _ => rfl
  | p :: l, h => by
    have ih := replace_pieces c rep l fun q hq => h q (List.mem_cons_of_mem _ hq)
    unfold pyReplace at ih ⊢
    rw [List.map_cons, List.flatten_cons, List.map_cons, List.flatten_cons]
    rcases h p List.mem_cons_self with ⟨h1, h2⟩ | ⟨h1, h2, h3⟩
    · rw [h1, h2, replace_slot, ih]
    · rw [h1, replace_fixed c rep _ _ h2 h3, ih]

theorem zeroPad_chars (w : Nat) (n : Int) : ∀ c ∈ zeroPad w n, c = '-' ∨ c.isDigit = true := by
  have key : ∀ (k m : Nat), ∀ c ∈ List.replicate k '0' ++ natText m, c.isDigit = true := by
    intro k m c hc
    rcases List.mem_append.mp hc with h | h
    · rw [List.eq_of_mem_replicate h]; decide
    · exact natText_digits m c h
  intro c hc
  unfold zeroPad at hc
  split at hc
  · rcases List.mem_cons.mp hc with h | h
    · exact Or.inl h
    · exact Or.inr (key _ _ c h)
  · exact Or.inr (key _ _ c hc)

theorem fixed_of_not_mem (c : Char) (t : List Char) (h : c ∉ t) : t.getLast? ≠ some c ∧ ¬ List.replicate 4 c <:+: t := by
  constructor
  · intro hl
    exact h (List.mem_of_getLast? hl)
  · intro hi
    exact h (hi.subset (by simp))

theorem zeroPad_fixed (w : Nat) (n : Int) (c : Char) (hc : c ∈ ['Y', 'M', 'D']) : c ∉ zeroPad w n := by
  intro h
  have hm : c ≠ '-' ∧ c.isDigit = false := by fin_cases hc <;> decide
  rcases zeroPad_chars w n c h with h | h
  · exact hm.1 h
  · rw [hm.2] at h; simp at h

/-- **C64.** In a stub made of fixed text and placeholders, in any number and order, every placeholder is replaced by its
number and the text between is unchanged. -/
theorem C64_placeholders (l : List Spec.Seg) (hl : ∀ t, Spec.Seg.text t ∈ l → Spec.IsFixed t) (year month day : Int) :
    processString (l.map Spec.Seg.stub).flatten year month day = (l.map (Spec.Seg.filled year month day)).flatten := by
  have hY : "YYYY".toList = List.replicate 4 'Y' := rfl
  have hM : "MMMM".toList = List.replicate 4 'M' := rfl
  have hD : "DDDD".toList = List.replicate 4 'D' := rfl
  -- after the year
  have s1 := replace_pieces 'Y' (zeroPad 4 year) (l.map fun s => (s.stub, match s with
    | .year => zeroPad 4 year
    | s => s.stub)) (by
      intro p hp
      obtain ⟨s, hs, rfl⟩ := List.mem_map.mp hp
      cases s with
      | text t => exact Or.inr ⟨rfl, hl t hs 'Y' (by simp)⟩
      | year => exact Or.inl ⟨rfl, rfl⟩
      | month => exact Or.inr ⟨rfl, fixed_of_not_mem 'Y' "MMMM".toList (by decide)⟩
      | day => exact Or.inr ⟨rfl, fixed_of_not_mem 'Y' "DDDD".toList (by decide)⟩)
  have s2 := replace_pieces 'M' (zeroPad 2 month) (l.map fun s => ((match s with
    | .year => zeroPad 4 year
    | s => s.stub), match s with
    | .year => zeroPad 4 year
    | .month => zeroPad 2 month
    | s => s.stub)) (by
      intro p hp
      obtain ⟨s, hs, rfl⟩ := List.mem_map.mp hp
      cases s with
      | text t => exact Or.inr ⟨rfl, hl t hs 'M' (by simp)⟩
      | year => exact Or.inr ⟨rfl, fixed_of_not_mem 'M' _ (zeroPad_fixed 4 year 'M' (by simp))⟩
      | month => exact Or.inl ⟨rfl, rfl⟩
      | day => exact Or.inr ⟨rfl, fixed_of_not_mem 'M' "DDDD".toList (by decide)⟩)
  have s3 := replace_pieces 'D' (zeroPad 2 day) (l.map fun s => ((match s with
    | .year => zeroPad 4 year
    | .month => zeroPad 2 month
    | s => s.stub), s.filled year month day)) (by
      intro p hp
      obtain ⟨s, hs, rfl⟩ := List.mem_map.mp hp
      cases s with
      | text t => exact Or.inr ⟨rfl, hl t hs 'D' (by simp)⟩
      | year => exact Or.inr ⟨rfl, fixed_of_not_mem 'D' _ (zeroPad_fixed 4 year 'D' (by simp))⟩
      | month => exact Or.inr ⟨rfl, fixed_of_not_mem 'D' _ (zeroPad_fixed 2 month 'D' (by simp))⟩
      | day => exact Or.inl ⟨rfl, rfl⟩)
  simp only [List.map_map] at s1 s2 s3
  unfold processString
  rw [hY, hM, hD]
  have t1 : (l.map Spec.Seg.stub).flatten = (l.map (Prod.fst ∘ fun s => (s.stub, match s with
    | .year => zeroPad 4 year
    | s => s.stub))).flatten := rfl
  rw [t1, s1]
  exact (congrArg _ s2).trans s3

example : (∀ t, Spec.Seg.text t ∈ [Spec.Seg.text "MOD/".toList, .year, .month, .day, .text "-D1.nc".toList] → Spec.IsFixed t) ∧
    processString "MOD/YYYYMMMMDDDD-D1.nc".toList 2003 9 5 = "MOD/20030905-D1.nc".toList := by
  constructor
  · intro t ht c hc
    simp only [List.mem_cons, Spec.Seg.text.injEq, reduceCtorEq, List.not_mem_nil, or_false, false_or] at ht
    rcases ht with rfl | rfl <;> fin_cases hc <;> decide +kernel
  · decide +kernel

/-- **C64.** `make_filename` fills the placeholders of the directory and of the file name and joins the two with one
slash. -/
theorem C64_make_filename (d l : List Spec.Seg) (hd : ∀ t, Spec.Seg.text t ∈ d → Spec.IsFixed t)
    (hl : ∀ t, Spec.Seg.text t ∈ l → Spec.IsFixed t) (year month day : Int)
    (h1 : ((d.map (Spec.Seg.filled year month day)).flatten).getLast?.isSome)
    (h2 : ((d.map (Spec.Seg.filled year month day)).flatten).getLast? ≠ some '/')
    (h3 : ((l.map (Spec.Seg.filled year month day)).flatten).head? ≠ some '/') :
    makeFilename (d.map Spec.Seg.stub).flatten (l.map Spec.Seg.stub).flatten year month day =
      (d.map (Spec.Seg.filled year month day)).flatten ++ "/".toList ++ (l.map (Spec.Seg.filled year month day)).flatten := by
  have e : "/".toList = ['/'] := rfl
  unfold makeFilename pathJoin
  rw [C64_placeholders d hd, C64_placeholders l hl, if_neg h3, if_neg]
  · rw [e]; simp only [List.append_assoc, List.cons_append, List.nil_append]
  · rintro (h | h)
    · rw [h] at h1; simp at h1
    · exact h2 h

/-- The numbers filled in: a number from 0 on with at most `w` digits takes exactly `w` characters, all digits, and
these are the number. -/
theorem C64_numbers (w n : Nat) (hw : 0 < w) (h : n < 10 ^ w) : (zeroPad w n).length = w ∧
    (∀ c ∈ zeroPad w n, c.isDigit = true) ∧ digitsValue (zeroPad w n) = n := by
  have e : zeroPad w (n : Int) = List.replicate (w - (natText n).length) '0' ++ natText n := by
    unfold zeroPad
    rw [if_neg (by omega)]
    simp
  have hl := natText_length_le n w hw h
  refine ⟨?_, ?_, ?_⟩
  · rw [e, List.length_append, List.length_replicate]; omega
  · intro c hc
    rw [e] at hc
    rcases List.mem_append.mp hc with h | h
    · rw [List.eq_of_mem_replicate h]; decide
    · exact natText_digits n c h
  · rw [e]
    have key : ∀ k t, digitsValue (List.replicate k '0' ++ t) = digitsValue t := by
      intro k t
      induction k with
      | zero => rfl
      | succ k ih =>
        rw [List.replicate_succ, List.cons_append, ← ih]
        rfl
    rw [key, digitsValue_natText]

/-! ## The list of IDs -/

theorem padNine_eq (k : Nat) (s : List Char) (h : 9 ≤ s.length + k) : padNine k s = padRight 9 s := by
  induction k generalizing s with
  | zero =>
    unfold padNine padRight
    rw [Nat.sub_eq_zero_of_le (by omega)]; simp
  | succ k ih =>
    unfold padNine
    split
    · rename_i hl
      rw [ih _ (by rw [List.length_append, List.length_singleton]; omega)]
      unfold padRight
      rw [List.length_append, List.length_singleton]
      have : 9 - s.length = (9 - (s.length + 1)) + 1 := by omega
      rw [this, List.replicate_succ, List.append_assoc]; rfl
    · unfold padRight
      rw [Nat.sub_eq_zero_of_le (by omega)]; simp

theorem rstrip_padRight (s : List Char) (w : Nat) : pyRstrip (padRight w (pyRstrip s)) = pyRstrip s := by
  unfold padRight
  have : pyRstrip (pyRstrip s ++ List.replicate (w - (pyRstrip s).length) ' ') = pyRstrip (pyRstrip s) := by
    unfold pyRstrip
    rw [List.reverse_append, dropWhile_blank _ _ (by
      intro c hc
      rw [List.mem_reverse] at hc
      exact replicate_blank _ c hc)]
  rw [this]
  unfold pyRstrip
  rw [List.reverse_reverse]
  congr 1
  cases h : s.reverse.dropWhile isBlank with
  | nil => rfl
  | cons c t =>
    rw [List.dropWhile_cons_of_neg]
    have := List.head_dropWhile_not (p := isBlank) (l := s.reverse) (by rw [h]; simp)
    simpa [h] using this

theorem padRight_blank_iff (s : List Char) : padRight 9 (pyRstrip s) = List.replicate 9 ' ' ↔ pyRstrip s = [] := by
  constructor
  · intro h
    have := rstrip_padRight s 9
    rw [h] at this
    rw [← this]; decide
  · intro h; rw [h]; rfl

open Classical in
/-- **C64.** The list of IDs consists, in the order of the file, of the lines that are not blank, each without trailing
white space and filled up with blanks to nine characters. -/
theorem C64_bad_ids (lines : List (List Char)) :
    processBadIdFile lines = (lines.filter fun line => decide (∃ c ∈ line, isBlank c = false)).map
      fun line => padRight 9 (pyRstrip line) := by
  have hb : ∀ line : List Char, pyRstrip line = [] ↔ ¬ ∃ c ∈ line, isBlank c = false := by
    intro line
    rw [rstrip_nil_iff]
    simp
  unfold processBadIdFile
  induction lines with
  | nil => rfl
  | cons line l ih =>
    rw [List.filterMap_cons, padNine_eq 9 _ (by omega)]
    by_cases h : ∃ c ∈ line, isBlank c = false
    · rw [if_pos (fun he => (hb line).mp ((padRight_blank_iff line).mp he) h),
        List.filter_cons_of_pos (by simpa using h), List.map_cons, ih]
    · have e : padRight 9 (pyRstrip line) = List.replicate 9 ' ' := (padRight_blank_iff line).mpr ((hb line).mpr h)
      rw [if_neg (by simpa using e), List.filter_cons_of_neg (by simpa using h), ih]

/-- **C64.** A report's ID of nine characters, not blank and filled up with blanks, is on the list exactly when some line
of the file is the same up to trailing white space. -/
theorem C64_excluded (lines : List (List Char)) (ident : List Char) (h9 : ident.length = 9)
    (h1 : ∀ c ∈ ident, isBlank c = true → c = ' ') (h2 : ∃ c ∈ ident, isBlank c = false) :
    ident ∈ processBadIdFile lines ↔ ∃ line ∈ lines, pyRstrip line = pyRstrip ident := by
  rw [C64_bad_ids, List.mem_map]
  have hid : padRight 9 (pyRstrip ident) = ident := by rw [← h9]; exact padRight_rstrip ident h1
  have hne : pyRstrip ident ≠ [] := by
    rw [Ne, rstrip_nil_iff]
    obtain ⟨c, hc, hb⟩ := h2
    intro h
    rw [h c hc] at hb; simp at hb
  constructor
  · rintro ⟨line, hline, he⟩
    refine ⟨line, (List.mem_filter.mp hline).1, ?_⟩
    rw [← he, rstrip_padRight]
  · rintro ⟨line, hline, he⟩
    refine ⟨line, List.mem_filter.mpr ⟨hline, ?_⟩, by rw [he, hid]⟩
    rw [← he] at hne
    rw [Ne, rstrip_nil_iff] at hne
    simpa using hne

example : processBadIdFile ["SHIP\n".toList, "  \n".toList, "ABCDEFGHIJ".toList] =
    ["SHIP     ".toList, "ABCDEFGHIJ".toList] := by decide +kernel

/-! ## Safe file names -/

theorem replace_char (a b : Char) (s : List Char) : pyReplace [a] [b] s = s.map fun c => if c = a then b else c := by
  unfold pyReplace
  induction s with
  | nil => rfl
  | cons c s ih =>
    rw [replaceFrom, List.map_cons]
    by_cases h : c = a
    · rw [if_pos (by simp [List.isPrefixOf, h]), if_pos h]
      simp [ih]
    · rw [if_neg (by simp [List.isPrefixOf, Ne.symm h]), if_neg h, ih]

/-- **C65.** The safe name has the same length; at each place where the name has a slash or an asterisk it has an
underscore, and elsewhere it has the same character. -/
theorem C65_characters (s : List Char) : (safeFilename s).length = s.length ∧
    ∀ i (h : i < s.length) (h' : i < (safeFilename s).length),
      ((s[i] = '/' ∨ s[i] = '*') → (safeFilename s)[i] = '_') ∧
      (s[i] ≠ '/' → s[i] ≠ '*' → (safeFilename s)[i] = s[i]) := by
  have e : safeFilename s = s.map fun c => if (if c = '/' then '_' else c) = '*' then '_' else if c = '/' then '_' else c := by
    unfold safeFilename
    rw [replace_char, replace_char, List.map_map]
    rfl
  refine ⟨by rw [e]; simp, ?_⟩
  intro i h h'
  simp only [e, List.getElem_map]
  constructor
  · rintro (h | h) <;> rw [h] <;> decide
  · intro h1 h2
    rw [if_neg h1, if_neg h2]

/-- **C65.** The safe name contains neither a slash nor an asterisk, and making it safe again changes nothing. -/
theorem C65_legal (s : List Char) : '/' ∉ safeFilename s ∧ '*' ∉ safeFilename s ∧
    safeFilename (safeFilename s) = safeFilename s := by
  have h : ∀ c ∈ safeFilename s, c ≠ '/' ∧ c ≠ '*' := by
    intro c hc
    obtain ⟨i, hi, rfl⟩ := List.mem_iff_getElem.mp hc
    obtain ⟨hl, hc⟩ := C65_characters s
    obtain ⟨h1, h2⟩ := hc i (by omega) hi
    by_cases ha : s[i]'(by omega) = '/' ∨ s[i]'(by omega) = '*'
    · rw [h1 ha]; decide
    · rw [not_or] at ha
      rw [h2 ha.1 ha.2]; exact ha
  refine ⟨fun hc => (h _ hc).1 rfl, fun hc => (h _ hc).2 rfl, ?_⟩
  obtain ⟨hl, hc⟩ := C65_characters (safeFilename s)
  apply List.ext_getElem hl
  intro i h1 h2
  have hm := h _ (List.getElem_mem h2)
  exact (hc i h2 h1).2 hm.1 hm.2

/-- Different names can become the same: a caller that keeps one file per ID loses one of them. -/
theorem C65_collision : safeFilename "A/B".toList = safeFilename "A*B".toList ∧ "A/B".toList ≠ "A*B".toList := by
  constructor <;> decide

example : safeFilename "SH/P *1".toList = "SH_P _1".toList := by decide

/-! ## Distinct months have distinct names -/

theorem split_at (c : Char) : ∀ (a a' b b' : List Char), c ∉ a → c ∉ a' → a ++ c :: b = a' ++ c :: b' → a = a' ∧ b = b'
  | [], [], b, b', _, _, h => by simpa using h
  | [], x :: a', b, b', _, h', h => by
    simp only [List.nil_append, List.cons_append, List.cons.injEq] at h
    exact absurd (by rw [h.1]; simp) h'
  | x :: a, [], b, b', h', _, h => by
    simp only [List.nil_append, List.cons_append, List.cons.injEq] at h
    exact absurd (by rw [h.1]; simp) h'
  | x :: a, y :: a', b, b', h1, h2, h => by
    simp only [List.cons_append, List.cons.injEq] at h
    obtain ⟨e1, e2⟩ := split_at c a a' b b' (fun hc => h1 (List.mem_cons_of_mem _ hc))
      (fun hc => h2 (List.mem_cons_of_mem _ hc)) h.2
    exact ⟨by rw [h.1, e1], e2⟩

theorem intText_inj (m n : Int) (h : intText m = intText n) : m = n := by
  have h1 := parseSigned_intText m
  have h2 := parseSigned_intText n
  rw [h, h2] at h1
  simpa using h1.symm

theorem digitsValue_zeros (k : Nat) (t : List Char) : digitsValue (List.replicate k '0' ++ t) = digitsValue t := by
  induction k with
  | zero => rfl
  | succ k ih =>
    rw [List.replicate_succ, List.cons_append, ← ih]
    rfl

theorem zeroPad_inj (w : Nat) (m n : Int) (h : zeroPad w m = zeroPad w n) : m = n := by
  have hd : ∀ (k j : Nat), '-' ∉ List.replicate k '0' ++ natText j := by
    intro k j hc
    rcases List.mem_append.mp hc with h | h
    · exact absurd (List.eq_of_mem_replicate h) (by decide)
    · exact absurd (natText_digits j _ h) (by decide)
  unfold zeroPad at h
  split at h <;> split at h
  · simp only [List.cons.injEq, true_and] at h
    have := congrArg digitsValue h
    rw [digitsValue_zeros, digitsValue_zeros, digitsValue_natText, digitsValue_natText] at this
    omega
  · exact absurd (by rw [← h]; simp) (hd _ _)
  · exact absurd (by rw [h]; simp) (hd _ _)
  · have := congrArg digitsValue h
    rw [digitsValue_zeros, digitsValue_zeros, digitsValue_natText, digitsValue_natText] at this
    omega

theorem intText_no_sep (n : Int) (hn : 0 ≤ n) (c : Char) (hc : c.isDigit = false) : c ∉ intText n := by
  obtain ⟨m, rfl⟩ := Int.eq_ofNat_of_zero_le hn
  rw [intText_nat]
  intro h
  rw [natText_digits m c h] at hc
  simp at hc

/-- Year, separator, month and ending determine year and month. -/
theorem name_parts (c : Char) (hc : c.isDigit = false) (y m y' m' : Int) (hy : 0 ≤ y) (hy' : 0 ≤ y') (e : List Char)
    (h : intText y ++ (c :: (zeroPad 2 m ++ e)) = intText y' ++ (c :: (zeroPad 2 m' ++ e))) : y = y' ∧ m = m' := by
  obtain ⟨h1, h2⟩ := split_at c _ _ _ _ (intText_no_sep y hy c hc) (intText_no_sep y' hy' c hc) h
  exact ⟨intText_inj _ _ h1, zeroPad_inj 2 _ _ (List.append_cancel_right h2)⟩

/-- **C80.** Within a release version, different months (of years from 0 on) have different ICOADS files. -/
theorem C80_icoads_distinct (icoads : List Char) (version : String) (y m y' m' : Int) (hy : 0 ≤ y) (hy' : 0 ≤ y')
    (p : List Char) (h : icoadsFilename icoads y m version = .ok (some p))
    (h' : icoadsFilename icoads y' m' version = .ok (some p)) : y = y' ∧ m = m' := by
  unfold icoadsFilename at h h'
  by_cases hv : version = "2.5" ∨ version = "3.0"
  · rw [pyAssert_bind, if_pos (by simpa using hv)] at h h'
    simp only [except_pure, Except.ok.injEq] at h h'
    by_cases hv2 : version = "2.5"
    · simp only [hv2, if_true] at h h'
      split at h <;> split at h' <;> rw [← h'] at h <;>
        simp only [Option.some.injEq, List.append_assoc, List.append_cancel_left_eq, List.cons_append] at h
      · exact name_parts '.' (by decide) _ _ _ _ hy hy' _ h
      · simp at h
      · simp at h
      · exact name_parts '.' (by decide) _ _ _ _ hy hy' _ h
    · simp only [if_neg hv2] at h h'
      split at h <;> split at h' <;> rw [← h'] at h <;>
        simp only [Option.some.injEq, List.append_assoc, List.append_cancel_left_eq, List.cons_append] at h
      · exact name_parts '-' (by decide) _ _ _ _ hy hy' _ h
      · simp at h
      · simp at h
      · exact name_parts '-' (by decide) _ _ _ _ hy hy' _ h
  · rw [pyAssert_bind, if_neg (by simpa using hv)] at h
    simp at h

/-- **C80.** A name is returned for every year and month, but only for versions 2.5 and 3.0. -/
theorem C80_icoads_versions (icoads : List Char) (version : String) (y m : Int) :
    ((version = "2.5" ∨ version = "3.0") → ∃ p, icoadsFilename icoads y m version = .ok (some p)) ∧
    (version ≠ "2.5" → version ≠ "3.0" → icoadsFilename icoads y m version = .error .assertion) := by
  unfold icoadsFilename
  constructor
  · intro hv
    rw [pyAssert_bind, if_pos (by simpa using hv)]
    split <;> split <;> exact ⟨_, rfl⟩
  · intro h1 h2
    rw [pyAssert_bind, if_neg (by simp [h1, h2])]

example : icoadsFilename "/d".toList 2014 3 "3.0" = .ok (some "/d/ICOADS.3.0.0/IMMA1_R3.0.0_2014-03.gz".toList) := by
  decide +kernel

/-- **C80.** The release: version 2.5 is release 2.5.2 for 2008 to 2014 and 2.5.1 (in its own directory) otherwise;
version 3.0 is release 3.0.0 up to 2014 and 3.0.1 afterwards. -/
theorem C80_icoads_release (icoads : List Char) (y m : Int) :
    (2008 ≤ y → y ≤ 2014 → icoadsFilename icoads y m "2.5" =
      .ok (some (icoads ++ "/R2.5.2.".toList ++ intText y ++ ".".toList ++ zeroPad 2 m ++ ".gz".toList))) ∧
    (y ≤ 2007 ∨ 2015 ≤ y → icoadsFilename icoads y m "2.5" =
      .ok (some (icoads ++ "/ICOADS.2.5.1/R2.5.1.".toList ++ intText y ++ ".".toList ++ zeroPad 2 m ++ ".gz".toList))) ∧
    (y ≤ 2014 → icoadsFilename icoads y m "3.0" =
      .ok (some (icoads ++ "/ICOADS.3.0.0/IMMA1_R3.0.0_".toList ++ intText y ++ "-".toList ++ zeroPad 2 m ++ ".gz".toList))) ∧
    (2015 ≤ y → icoadsFilename icoads y m "3.0" =
      .ok (some (icoads ++ "/ICOADS.3.0.1/IMMA1_R3.0.1_".toList ++ intText y ++ "-".toList ++ zeroPad 2 m ++ ".gz".toList))) := by
  have e1 : ".".toList = ['.'] := rfl
  have e2 : "-".toList = ['-'] := rfl
  refine ⟨fun h1 h2 => ?_, fun h => ?_, fun h => ?_, fun h => ?_⟩ <;> unfold icoadsFilename <;> rw [pyAssert_bind, if_pos (by decide)]
  · rw [if_pos rfl, if_pos (by omega)]
    simp only [except_pure, e1, List.append_assoc, List.cons_append, List.nil_append]
  · rw [if_pos rfl, if_neg (by omega)]
    simp only [except_pure, e1, List.append_assoc, List.cons_append, List.nil_append]
  · rw [if_neg (by decide), if_pos (by omega)]
    simp only [except_pure, e2, List.append_assoc, List.cons_append, List.nil_append]
  · rw [if_neg (by decide), if_neg (by omega)]
    simp only [except_pure, e2, List.append_assoc, List.cons_append, List.nil_append]

/-- **C80.** Different months have different output directories. -/
theorem C80_directories_distinct (fs : FileSys) (out : List Char) (y m y' m' : Int)
    (h : (safeMakeDir fs out y m).2 = (safeMakeDir fs out y' m').2) : y = y' ∧ m = m' := by
  have hs : ∀ n : Int, '/' ∉ intText n := by
    intro n hc
    have : ∀ c ∈ intText n, c = '-' ∨ c.isDigit = true := by
      intro c hc
      unfold intText at hc
      split at hc
      · rcases List.mem_cons.mp hc with h | h
        · exact Or.inl h
        · exact Or.inr (natText_digits _ c h)
      · exact Or.inr (natText_digits _ c hc)
    rcases this _ hc with h | h
    · exact absurd h (by decide)
    · exact absurd h (by decide)
  have hz : ∀ n : Int, '/' ∉ zeroPad 2 n := by
    intro n hc
    rcases zeroPad_chars 2 n _ hc with h | h
    · exact absurd h (by decide)
    · exact absurd h (by decide)
  have hne : ∀ n : Int, intText n ≠ [] := by
    intro n
    unfold intText
    split
    · simp
    · exact natText_ne_nil _
  have head : ∀ l : List Char, '/' ∉ l → l.head? ≠ some '/' := by
    intro l hl hh
    exact hl (List.mem_of_head? hh)
  have last : ∀ (a l : List Char), l ≠ [] → '/' ∉ l → (a ++ l).getLast? ≠ some '/' := by
    intro a l hl hn hh
    rw [List.getLast?_append_of_ne_nil _ hl] at hh
    exact hn (List.mem_of_getLast? hh)
  -- the joined name has the form `q ++ year ++ '/' ++ month`
  have join : ∃ q : List Char, ∀ y m : Int, (safeMakeDir fs out y m).2 = some (q ++ (intText y ++ '/' :: zeroPad 2 m)) := by
    by_cases ho : out = [] ∨ out.getLast? = some '/'
    · refine ⟨out, fun y m => ?_⟩
      have e1 : pathJoin out (intText y) = out ++ intText y := by
        unfold pathJoin
        rw [if_neg (head _ (hs y)), if_pos ho]
      have e2 : pathJoin (out ++ intText y) (zeroPad 2 m) = out ++ intText y ++ '/' :: zeroPad 2 m := by
        unfold pathJoin
        rw [if_neg (head _ (hz m)), if_neg]
        rintro (h | h)
        · exact hne y (List.append_eq_nil_iff.mp h).2
        · exact last _ _ (hne y) (hs y) h
      simp [safeMakeDir, safeMakeDirGeneric, buildCompletions, e1, e2]
    · refine ⟨out ++ ['/'], fun y m => ?_⟩
      have e1 : pathJoin out (intText y) = out ++ '/' :: intText y := by
        unfold pathJoin
        rw [if_neg (head _ (hs y)), if_neg ho]
      have e2 : pathJoin (out ++ '/' :: intText y) (zeroPad 2 m) = out ++ '/' :: intText y ++ '/' :: zeroPad 2 m := by
        unfold pathJoin
        rw [if_neg (head _ (hz m)), if_neg]
        rintro (h | h)
        · simp at h
        · have := last (out ++ ['/']) (intText y) (hne y) (hs y)
          rw [List.append_assoc] at this
          exact this h
      simp [safeMakeDir, safeMakeDirGeneric, buildCompletions, e1, e2]
  obtain ⟨q, hq⟩ := join
  rw [hq, hq] at h
  simp only [Option.some.injEq, List.append_cancel_left_eq] at h
  obtain ⟨h1, h2⟩ := split_at '/' _ _ _ _ (hs y) (hs y') h
  exact ⟨intText_inj _ _ h1, zeroPad_inj 2 _ _ h2⟩

end MarineQC
