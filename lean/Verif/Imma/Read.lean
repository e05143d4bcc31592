import Verif.Imma.Record

/-!
# C78: reading any line; examples and violations for whole records
-/

namespace MarineQC

namespace Spec

/-- The exceptions reading may raise. -/
def IsReadError (e : Err) : Prop := e = .value ∨ e = .key

end Spec

/-! ## Every line -/

theorem parseDigits_error (s : List Char) (e : Err) (h : parseDigits s = .error e) : e = .value := by
  unfold parseDigits at h
  split at h <;> simp_all

theorem parseSigned_error (s : List Char) (e : Err) (h : parseSigned s = .error e) : e = .value := by
  cases s with
  | nil => simp only [parseSigned, Except.error.injEq] at h; exact h.symm
  | cons c t =>
    have key : ∀ (u : List Char) (g : Nat → Int), (parseDigits u >>= fun n => (pure (g n) : Except Err Int)) = .error e →
        e = .value := by
      intro u g hu
      cases hd : parseDigits u with
      | error e' =>
        rw [hd] at hu
        simp only [except_bind_error, Except.error.injEq] at hu
        rw [← hu]; exact parseDigits_error u e' hd
      | ok n => rw [hd] at hu; simp [except_bind_ok, except_pure] at hu
    simp only [parseSigned] at h
    split at h
    · exact key _ _ h
    · split at h
      · exact key _ _ h
      · exact key _ _ h

theorem parseInt_error (s : List Char) (e : Err) (h : parseInt s = .error e) : e = .value := parseSigned_error _ e h

theorem layoutOf_error (a : Int) (e : Err) (h : layoutOf a = .error e) : e = .key := by
  unfold layoutOf at h
  split at h <;> simp_all

theorem map_error {α β : Type} (x : Except Err α) (f : α → β) (e : Err) (h : x.map f = .error e) : x = .error e := by
  cases x <;> simp_all [Except.map]

theorem decodeField_error (f : Field) (s : List Char) (e : Err) (h : decodeField f s = .error e) : e = .value := by
  unfold decodeField at h
  split at h
  · simp at h
  · cases hr : rawValue f s with
    | error e' =>
      rw [hr] at h
      simp only [except_bind_error, Except.error.injEq] at h
      subst h
      unfold rawValue at hr
      split at hr
      · simp at hr
      · split at hr
        · exact parseInt_error s e' (map_error _ _ _ hr)
        · simp at hr
    | ok v =>
      rw [hr] at h
      simp only [except_bind_ok] at h
      cases hu : inUnits f v with
      | error e' =>
        rw [hu] at h
        simp only [except_bind_error, Except.error.injEq] at h
        subst h
        unfold inUnits at hu
        split at hu
        · simp at hu
        · split at hu
          · simp at hu
          · split at hu
            · simp at hu
            · exact parseInt_error _ e' (map_error _ _ _ hu)
      | ok v' => rw [hu] at h; simp [except_bind_ok, except_pure] at h

theorem decodeFields_error : ∀ (fs : List Field) (s : List Char) (d : String → Option (Option Val)) (e : Err),
    decodeFields fs s d = .error e → e = .value
  | [], s, d, e, h => by simp [decodeFields] at h
  | f :: fs, s, d, e, h => by
    simp only [decodeFields] at h
    cases hd : decodeField f (fieldText f s) with
    | error e' =>
      rw [hd] at h
      simp only [except_bind_error, Except.error.injEq] at h
      rw [← h]; exact decodeField_error f _ e' hd
    | ok v =>
      rw [hd] at h
      simp only [except_bind_ok] at h
      exact decodeFields_error fs _ _ e h

theorem decodeFields_keys : ∀ (fs : List Field) (s : List Char) (d d' : String → Option (Option Val)),
    decodeFields fs s d = .ok d' → (∀ f ∈ fs, (d' f.name).isSome = true) ∧ (∀ k, (d k).isSome = true → (d' k).isSome = true) ∧
      ∀ k, (∀ f ∈ fs, f.name ≠ k) → d' k = d k
  | [], s, d, d', h => by
    simp only [decodeFields, Except.ok.injEq] at h
    subst h; simp
  | f :: fs, s, d, d', h => by
    simp only [decodeFields] at h
    cases hd : decodeField f (fieldText f s) with
    | error e' => rw [hd] at h; simp [except_bind_error] at h
    | ok v =>
      rw [hd] at h
      simp only [except_bind_ok] at h
      obtain ⟨h1, h2, h3⟩ := decodeFields_keys fs _ _ d' h
      refine ⟨?_, ?_, ?_⟩
      · intro g hg
        rcases List.mem_cons.mp hg with rfl | hg
        · apply h2; simp
        · exact h1 g hg
      · intro k hk
        apply h2
        split
        · rfl
        · exact hk
      · intro k hk
        rw [h3 k fun g hg => hk g (List.mem_cons_of_mem _ hg), if_neg]
        intro he
        exact hk f List.mem_cons_self he.symm

theorem readLength_ok (t line : List Char) : (∃ x, readLength t line = .ok x ∧
    ((x.1 = none ∧ x.2 = line) ∨ (x.1 = some 0 ∧ x.2 = line) ∨ ∃ n, x.1 = some n ∧ x.2 = line.drop 4)) ∨
      readLength t line = .error .value := by
  unfold readLength
  split
  · exact Or.inl ⟨_, rfl, Or.inl ⟨rfl, rfl⟩⟩
  · cases h : parseInt t with
    | error e =>
      rw [parseInt_error t e h]
      exact Or.inr rfl
    | ok n =>
      simp only [except_bind_ok]
      split
      · exact Or.inl ⟨_, rfl, Or.inr (Or.inr ⟨_, rfl, rfl⟩)⟩
      · exact Or.inl ⟨_, rfl, Or.inr (Or.inl ⟨rfl, rfl⟩)⟩

theorem readHeader_cases (line : List Char) : (∃ a x, readHeader line = .ok (a, x) ∧ (∃ fs, layoutOf a = .ok fs) ∧
    ((x.1 = none ∧ x.2 = line) ∨ (x.1 = some 0 ∧ x.2 = line) ∨ ∃ n, x.1 = some n ∧ x.2 = line.drop 4)) ∨
      ∃ e, readHeader line = .error e ∧ Spec.IsReadError e := by
  unfold readHeader
  cases h : parseInt (line.take 2) with
  | error e => exact Or.inr ⟨e, rfl, Or.inl (parseInt_error _ e h)⟩
  | ok a =>
    simp only [except_bind_ok]
    rcases readLength_ok (if a = 8 then ['1', '0', '2'] else (line.drop 2).take 2) line with ⟨x, hx, hc⟩ | he
    · rw [hx]
      simp only [except_bind_ok]
      cases hl : layoutOf a with
      | error e => exact Or.inr ⟨e, rfl, Or.inr (layoutOf_error a e hl)⟩
      | ok fs => exact Or.inl ⟨a, x, rfl, ⟨fs, hl⟩, hc⟩
    · rw [he]
      exact Or.inr ⟨.value, rfl, Or.inl rfl⟩

/-- What a finished loop has done. -/
structure ReadSpec (a : Int) (line : List Char) (r r' : Imma) (l : List Int) : Prop where
  att : r'.attachments = r.attachments ++ l
  first : line ≠ [] → ∃ l', l = a :: l'
  known : ∀ b ∈ l, ∃ fs, layoutOf b = .ok fs
  named : ∀ b ∈ l, ∀ k, Spec.Named b k → (r'.data k).isSome = true
  keep : ∀ k, (r.data k).isSome = true → (r'.data k).isSome = true
  other : ∀ k, (∀ b ∈ l, ¬ Spec.Named b k) → r'.data k = r.data k
  nothing : line = [] → l = []

theorem sliceFrom_length (s : List Char) (n : Int) : (sliceFrom s n).length ≤ s.length := by
  unfold sliceFrom
  split <;> rw [List.length_drop] <;> omega

theorem padLine_slice (n : Int) (line : List Char) : (sliceFrom (padLine (some n) line) n).length ≤ line.length := by
  unfold padLine
  dsimp only
  split
  · rename_i h
    unfold sliceFrom
    rw [if_neg (by omega), List.length_drop, padRight_length _ _ (by omega)]
    omega
  · exact sliceFrom_length _ _

/-- The loop ends within the bound, and with no other exception than ValueError and KeyError.  Once the loop has been
told to stop after the current attachment, one more round is enough. -/
theorem readLoop_cases : ∀ (k : Nat) (a : Int) (len : Option Int) (line : List Char) (r : Imma),
    (line.length < k ∨ (0 < k ∧ (len = none ∨ len = some 0))) →
    (∃ r' l, readLoop k a len line r = .ok r' ∧ ReadSpec a line r r' l) ∨
      ∃ e, readLoop k a len line r = .error e ∧ Spec.IsReadError e
  | 0, a, len, line, r, hk => by rcases hk with h | h <;> omega
  | k + 1, a, len, line, r, hk => by
    by_cases h0 : line.length = 0
    · have hn : line = [] := List.length_eq_zero_iff.mp h0
      left
      refine ⟨r, [], by simp [readLoop, h0], by simp, ?_, by simp, by simp, fun _ h => h, fun _ _ => rfl, fun _ => rfl⟩
      intro hc; exact absurd hn hc
    · have hne : line ≠ [] := fun h => h0 (by rw [h]; rfl)
      cases hl : layoutOf a with
      | error e =>
        right
        exact ⟨e, by simp [readLoop, h0, hl, except_bind_error], Or.inr (layoutOf_error a e hl)⟩
      | ok fs =>
        cases hd : decodeFields fs (padLine len line) r.data with
        | error e =>
          right
          exact ⟨e, by simp [readLoop, h0, hl, hd, except_bind_ok, except_bind_error],
            Or.inl (decodeFields_error _ _ _ e hd)⟩
        | ok d =>
          obtain ⟨k1, k2, k3⟩ := decodeFields_keys fs _ _ d hd
          have named1 : ∀ k, Spec.Named a k → (d k).isSome = true := by
            rintro k ⟨fs', hfs', f, hf, rfl⟩
            rw [hl] at hfs'
            simp only [Except.ok.injEq] at hfs'
            subst hfs'
            exact k1 f hf
          have other1 : ∀ k, ¬ Spec.Named a k → d k = r.data k := by
            intro k hk
            exact k3 k fun f hf he => hk ⟨fs, hl, f, hf, he⟩
          have single : ReadSpec a line r ⟨r.attachments ++ [a], d⟩ [a] := by
            refine ⟨rfl, fun _ => ⟨[], rfl⟩, ?_, ?_, k2, ?_, fun h => absurd h hne⟩
            · intro b hb
              have : b = a := by simpa using hb
              subst this; exact ⟨fs, hl⟩
            · intro b hb
              have : b = a := by simpa using hb
              subst this; exact named1
            · intro k hk
              exact other1 k (hk a (by simp))
          cases len with
          | none =>
            left
            exact ⟨_, _, by simp [readLoop, h0, hl, hd, except_bind_ok, except_pure], single⟩
          | some n =>
            by_cases hn0 : n = 0
            · left
              exact ⟨_, _, by simp only [readLoop, if_neg h0, hl, hd, except_bind_ok, except_pure, if_pos hn0], single⟩
            · by_cases hrest : (sliceFrom (padLine (some n) line) n).length > 0
              · rcases readHeader_cases (sliceFrom (padLine (some n) line) n) with ⟨b, x, hx, hb, hc⟩ | ⟨e, he, hre⟩
                · have hbound : x.2.length < k ∨ (0 < k ∧ (x.1 = none ∨ x.1 = some 0)) := by
                    have hk' : line.length < k + 1 := by
                      rcases hk with h | ⟨_, h | h⟩
                      · exact h
                      · simp at h
                      · simp only [Option.some.injEq] at h; exact absurd h hn0
                    have hs := padLine_slice n line
                    have hkpos : 0 < k := by omega
                    rcases hc with ⟨h1, _⟩ | ⟨h1, _⟩ | ⟨m, h1, h2⟩
                    · exact Or.inr ⟨hkpos, Or.inl h1⟩
                    · exact Or.inr ⟨hkpos, Or.inr h1⟩
                    · left
                      rw [h2, List.length_drop]
                      omega
                  have step : readLoop (k + 1) a (some n) line r = readLoop k b x.1 x.2 ⟨r.attachments ++ [a], d⟩ := by
                    simp only [readLoop, if_neg h0, hl, hd, except_bind_ok, if_neg hn0, if_pos hrest, hx]
                  rcases readLoop_cases k b x.1 x.2 ⟨r.attachments ++ [a], d⟩ hbound with ⟨r', l, hr', S⟩ | ⟨e, he, hre⟩
                  · left
                    refine ⟨r', a :: l, by rw [step, hr'], ?_, fun _ => ⟨l, rfl⟩, ?_, ?_, ?_, ?_, fun h => absurd h hne⟩
                    · rw [S.att]; simp
                    · intro c hc
                      rcases List.mem_cons.mp hc with rfl | hc
                      · exact ⟨fs, hl⟩
                      · exact S.known c hc
                    · intro c hc
                      rcases List.mem_cons.mp hc with rfl | hc
                      · intro k hk; exact S.keep k (named1 k hk)
                      · exact S.named c hc
                    · intro k hk; exact S.keep k (k2 k hk)
                    · intro k hk
                      rw [S.other k fun c hc => hk c (List.mem_cons_of_mem _ hc)]
                      exact other1 k (hk a List.mem_cons_self)
                  · exact Or.inr ⟨e, by rw [step, he], hre⟩
                · right
                  exact ⟨e, by simp only [readLoop, if_neg h0, hl, hd, except_bind_ok, if_neg hn0, if_pos hrest, he,
                    except_bind_error], hre⟩
              · left
                exact ⟨_, _, by simp only [readLoop, if_neg h0, hl, hd, except_bind_ok, if_neg hn0, if_neg hrest,
                  except_pure], single⟩

theorem stripNewlines_length (s : List Char) : (stripNewlines s).length ≤ s.length := by
  unfold stripNewlines
  rw [List.length_reverse]
  have := (List.dropWhile_sublist (l := s.reverse) (· == '\n')).length_le
  simpa using this

theorem stripNewlines_nil_iff (s : List Char) : stripNewlines s = [] ↔ ∀ c ∈ s, c = '\n' := by
  unfold stripNewlines
  rw [List.reverse_eq_nil_iff, List.dropWhile_eq_nil_iff]
  simp

/-- **C78.** Reading ends for every line, with a record, a ValueError or a KeyError. -/
theorem C78_reading_ends (r : Imma) (line : List Char) :
    (∃ r', r.readstr line = .ok r') ∨ r.readstr line = .error .value ∨ r.readstr line = .error .key := by
  unfold Imma.readstr
  split
  · exact Or.inl ⟨_, rfl⟩
  · have hs := stripNewlines_length line
    rcases readLoop_cases (line.length + 1) 0 (some 108) (stripNewlines line) r (Or.inl (by omega)) with
      ⟨r', l, h, _⟩ | ⟨e, h, rfl | rfl⟩
    · exact Or.inl ⟨r', h⟩
    · exact Or.inr (Or.inl h)
    · exact Or.inr (Or.inr h)

/-- **C78.** If reading a line that is not just line ends succeeds, the attachments found are appended: first the core,
then only attachments that the format knows.  Every parameter of every attachment found is in the dictionary afterwards
(perhaps as missing), and parameters of other attachments are untouched. -/
theorem C78_reading_complete (r r' : Imma) (line : List Char) (hl : ∃ c ∈ line, c ≠ '\n') (h : r.readstr line = .ok r') :
    ∃ l, r'.attachments = r.attachments ++ 0 :: l ∧ (∀ a ∈ 0 :: l, ∃ fs, layoutOf a = .ok fs) ∧
      ∀ k, ((∃ a ∈ 0 :: l, Spec.Named a k) → ∃ v, r'.data k = some v) ∧
        ((∀ a ∈ 0 :: l, ¬ Spec.Named a k) → r'.data k = r.data k) := by
  obtain ⟨c, hc, hcn⟩ := hl
  have hne : line ≠ [] := by rintro rfl; simp at hc
  have hsn : stripNewlines line ≠ [] := by
    intro h'
    exact hcn ((stripNewlines_nil_iff line).mp h' c hc)
  unfold Imma.readstr at h
  rw [if_neg hne] at h
  have hs := stripNewlines_length line
  rcases readLoop_cases (line.length + 1) 0 (some 108) (stripNewlines line) r (Or.inl (by omega)) with
    ⟨r'', l, h', S⟩ | ⟨e, h', _⟩
  · rw [h] at h'
    simp only [Except.ok.injEq] at h'
    subst h'
    obtain ⟨l', rfl⟩ := S.first hsn
    refine ⟨l', S.att, S.known, fun k => ⟨?_, S.other k⟩⟩
    rintro ⟨a, ha, hn⟩
    exact Option.isSome_iff_exists.mp (S.named a ha k hn)
  · rw [h] at h'; simp at h'

/-- **C78.** A line of line ends only (or the empty string, at the end of a file) changes nothing. -/
theorem C78_blank_line (r : Imma) (line : List Char) (hl : ∀ c ∈ line, c = '\n') : r.readstr line = .ok r := by
  unfold Imma.readstr
  split
  · rfl
  · rw [(stripNewlines_nil_iff line).mpr hl]
    simp [readLoop]

/-- **C78.** Attachment 97 can never be read: its fourth parameter takes the whole rest of the line, and the empty text
left for CDE is not a number. -/
theorem C78_attachment97 (s : List Char) (d : String → Option (Option Val)) :
    decodeFields fields97 s d = .error .value := by
  have last : ∀ (fs : List Field) (d : String → Option (Option Val)), (∃ f ∈ fs, f.enc = 1 ∧ f.width = some 8) →
      decodeFields fs [] d = .error .value := by
    intro fs
    induction fs with
    | nil => intro d h; simp at h
    | cons f fs ih =>
      rintro d ⟨g, hg, hg1, hg2⟩
      cases hv : decodeField f (fieldText f []) with
      | error e =>
        simp only [decodeFields, hv, except_bind_error]
        rw [decodeField_error f _ e hv]
      | ok v =>
        rcases List.mem_cons.mp hg with rfl | hg
        · exfalso
          simp only [fieldText, hg2, List.take_nil, decodeField, rawValue, hg1] at hv
          revert hv
          simp [pyIsspace, parseInt, pyRstrip, parseSigned, Except.map, except_bind_error]
        · simp only [decodeFields, hv, except_bind_ok]
          have : afterField f [] = [] := by unfold afterField; cases f.width <;> simp
          rw [this]
          exact ih _ ⟨g, hg, hg1, hg2⟩
  have main : ∀ (fs : List Field) (s : List Char) (d : String → Option (Option Val)),
      (∃ l f r, fs = l ++ f :: r ∧ f.width = none ∧ ∃ g ∈ r, g.enc = 1 ∧ g.width = some 8) →
      decodeFields fs s d = .error .value := by
    intro fs
    induction fs with
    | nil => rintro s d ⟨l, f, r, h, _⟩; simp at h
    | cons f fs ih =>
      rintro s d ⟨l, f', r, h, hw, hg⟩
      cases hv : decodeField f (fieldText f s) with
      | error e =>
        simp only [decodeFields, hv, except_bind_error]
        rw [decodeField_error f _ e hv]
      | ok v =>
        simp only [decodeFields, hv, except_bind_ok]
        cases l with
        | nil =>
          simp only [List.nil_append, List.cons.injEq] at h
          obtain ⟨rfl, rfl⟩ := h
          have : afterField f s = [] := by unfold afterField; rw [hw]
          rw [this]
          exact last _ _ hg
        | cons a l =>
          simp only [List.cons_append, List.cons.injEq] at h
          exact ih _ _ ⟨l, f', r, h.2, hw, hg⟩
  apply main
  refine ⟨fields97.take 3, ⟨"ERRD", none, none, none, none, none, none, 1⟩, fields97.drop 4, by decide +kernel, rfl, ?_⟩
  have : (fields97.drop 4).any (fun g => g.enc == 1 && g.width == some 8) = true := by decide +kernel
  rw [List.any_eq_true] at this
  obtain ⟨g, hg, h⟩ := this
  rw [Bool.and_eq_true] at h
  exact ⟨g, hg, by simpa using h.1, by simpa using h.2⟩

end MarineQC
