import Verif.Base.ReadModel
import Verif.Imma.Read
import Verif.Imma.Layouts

/-!
# Which lines are used (C104)
-/

namespace MarineQC.Spec

/-- The columns `a + 1 … a + w` of a line; columns beyond its end are blank. -/
def columns (line : List Char) (a w : Nat) : List Char := ((padRight 108 (stripNewlines line)).drop a).take w

/-- Blank, or a number. -/
def BlankOrNumber (s : List Char) : Prop := (∀ c ∈ s, isBlank c = true) ∨ ∃ n, parseInt s = .ok n

/-- First column (from 0) and width of the numeric fields in front of the identifier: year, month, day, hour, latitude,
longitude, version, time and position indicators, course, speed, and two more. -/
def frontFields : List (Nat × Nat) :=
  [(0, 4), (4, 2), (6, 2), (8, 4), (12, 5), (17, 6), (23, 2), (26, 1), (27, 1), (28, 1), (29, 1), (30, 2), (32, 2)]

/-- The identifier of the line can be found: the line is not blank and every number in front of the identifier can be
read. -/
def HasIdentifier (line : List Char) : Prop :=
  (∃ c ∈ line, c ≠ '\n') ∧ ∀ p ∈ frontFields, BlankOrNumber (columns line p.1 p.2)

/-- The line is used for the month: it can be read, its year and month are those, and its identifier is not excluded. -/
def Used (excl : List (List Char)) (y m : Int) (line : List Char) (rec : Imma) : Prop :=
  Imma.empty.readstr line = .ok rec ∧ rec.data "YR" = some (some (.num y)) ∧ rec.data "MO" = some (some (.num m))
    ∧ ∀ t ∈ excl, rec.data "ID" ≠ some (some (.str t))

end MarineQC.Spec

namespace MarineQC

open Spec

theorem decodeState_eq : ∀ (fs : List Field) (s : List Char) (d : String → Option (Option Val)),
    decodeFields fs s d = match decodeState fs s d with
      | (d', none) => .ok d'
      | (_, some e) => .error e
  | [], _, _ => rfl
  | f :: fs, s, d => by
    unfold decodeFields decodeState
    cases h : decodeField f (fieldText f s) with
    | ok v => rw [except_bind_ok]; exact decodeState_eq fs _ _
    | error e => rfl

/-- The record left behind agrees with `readLoop`. -/
theorem readStateLoop_eq : ∀ (k : Nat) (a : Int) (len : Option Int) (line : List Char) (r : Imma),
    readLoop k a len line r = match readStateLoop k a len line r with
      | (r', none) => .ok r'
      | (_, some e) => .error e
  | 0, _, _, _, _ => rfl
  | k + 1, a, len, line, r => by
    unfold readLoop readStateLoop
    by_cases hl : line.length = 0
    · rw [if_pos hl, if_pos hl]
    · rw [if_neg hl, if_neg hl]
      cases hf : layoutOf a with
      | error e => rfl
      | ok fs =>
        simp only [except_bind_ok]
        rw [decodeState_eq]
        rcases hd : decodeState fs (padLine len line) r.data with ⟨d, _ | e⟩
        · simp only [except_bind_ok]
          cases len with
          | none => rfl
          | some n =>
            simp only
            by_cases hn : n = 0
            · rw [if_pos hn, if_pos hn]; rfl
            · rw [if_neg hn, if_neg hn]
              by_cases hs : (sliceFrom (padLine (some n) line) n).length > 0
              · rw [if_pos hs, if_pos hs]
                cases hh : readHeader (sliceFrom (padLine (some n) line) n) with
                | error e => rfl
                | ok h => simp only [except_bind_ok]; exact readStateLoop_eq k _ _ _ _
              · rw [if_neg hs, if_neg hs]; rfl
        · rfl

theorem readState_eq (line : List Char) : Imma.empty.readstr line = match readState line with
      | (r', none) => .ok r'
      | (_, some e) => .error e := by
  unfold Imma.readstr readState
  by_cases h : line = []
  · rw [if_pos h, if_pos h]
  · rw [if_neg h, if_neg h]; exact readStateLoop_eq _ _ _ _ _

theorem readState_ok {line : List Char} {rec : Imma} :
    Imma.empty.readstr line = .ok rec ↔ readState line = (rec, none) := by
  rw [readState_eq]
  rcases readState line with ⟨r, _ | e⟩ <;> simp

/-- Reading keeps what is there. -/
theorem decodeState_keeps : ∀ (fs : List Field) (s : List Char) (d : String → Option (Option Val)) (k : String),
    (d k).isSome = true → ((decodeState fs s d).1 k).isSome = true
  | [], _, _, _, h => h
  | f :: fs, s, d, k, h => by
    unfold decodeState
    cases hd : decodeField f (fieldText f s) with
    | ok v =>
      apply decodeState_keeps
      split
      · rfl
      · exact h
    | error e =>
      simp only
      split
      · rfl
      · exact h

theorem readStateLoop_keeps : ∀ (k : Nat) (a : Int) (len : Option Int) (line : List Char) (r : Imma) (n : String),
    (r.data n).isSome = true → ((readStateLoop k a len line r).1.data n).isSome = true
  | 0, _, _, _, _, _, h => h
  | k + 1, a, len, line, r, n, h => by
    unfold readStateLoop
    by_cases hl : line.length = 0
    · rw [if_pos hl]; exact h
    · rw [if_neg hl]
      cases hf : layoutOf a with
      | error e => exact h
      | ok fs =>
        simp only
        have hk := decodeState_keeps fs (padLine len line) r.data n h
        rcases hd : decodeState fs (padLine len line) r.data with ⟨d, _ | e⟩
        · rw [hd] at hk
          cases len with
          | none => exact hk
          | some m =>
            simp only
            by_cases hn : m = 0
            · rw [if_pos hn]; exact hk
            · rw [if_neg hn]
              by_cases hs : (sliceFrom (padLine (some m) line) m).length > 0
              · rw [if_pos hs]
                cases hh : readHeader (sliceFrom (padLine (some m) line) m) with
                | error e => exact hk
                | ok h => exact readStateLoop_keeps k _ _ _ _ n hk
              · rw [if_neg hs]; exact hk
        · rw [hd] at hk; exact hk

/-- The fields of fixed width with their first columns. -/
def starts : List Field → Nat → List (Field × Nat)
  | [], _ => []
  | f :: fs, a => (f, a) :: starts fs (a + f.width.getD 0)

/-- The field can be read. -/
def Reads (f : Field) (s : List Char) : Prop := ∃ v, decodeField f s = .ok v

/-- If all fields of the first part can be read, decoding goes on with the second; otherwise it stops there. -/
theorem decodeState_split : ∀ (pre post : List Field) (s : List Char) (a : Nat) (d : String → Option (Option Val)),
    (∀ f ∈ pre, f.width.isSome = true) →
    ((∀ p ∈ starts pre a, Reads p.1 ((s.drop p.2).take (p.1.width.getD 0))) →
      ∃ d', decodeState (pre ++ post) (s.drop a) d =
        decodeState post (s.drop (a + (pre.map fun f => f.width.getD 0).sum)) d') ∧
    ((¬ ∀ p ∈ starts pre a, Reads p.1 ((s.drop p.2).take (p.1.width.getD 0))) →
      (decodeState (pre ++ post) (s.drop a) d).2.isSome = true ∧
      ∀ k, (∀ f ∈ pre, f.name ≠ k) → (decodeState (pre ++ post) (s.drop a) d).1 k = d k)
  | [], post, s, a, d, _ => ⟨fun _ => ⟨d, by simp⟩, fun h => absurd (by simp [starts]) h⟩
  | f :: pre, post, s, a, d, hw => by
    have hwf := hw f List.mem_cons_self
    obtain ⟨w, hw'⟩ := Option.isSome_iff_exists.mp hwf
    have ht : fieldText f (s.drop a) = (s.drop a).take (f.width.getD 0) := by simp [fieldText, hw']
    have ha : afterField f (s.drop a) = s.drop (a + f.width.getD 0) := by simp [afterField, hw', List.drop_drop]
    simp only [List.cons_append, decodeState, starts, List.mem_cons, forall_eq_or_imp, List.map_cons, List.sum_cons]
    rw [ht, ha]
    cases hd : decodeField f ((s.drop a).take (f.width.getD 0)) with
    | ok v =>
      have hr : Reads f ((s.drop a).take (f.width.getD 0)) := ⟨v, hd⟩
      obtain ⟨i1, i2⟩ := decodeState_split pre post s (a + f.width.getD 0)
        (fun k => if k = f.name then some v else d k) (fun g hg => hw g (List.mem_cons_of_mem _ hg))
      constructor
      · rintro ⟨-, h⟩
        obtain ⟨d', e⟩ := i1 h
        exact ⟨d', by simp only; rw [e, Nat.add_assoc]⟩
      · intro h
        obtain ⟨j1, j2⟩ := i2 (fun h' => h ⟨hr, h'⟩)
        refine ⟨j1, ?_⟩
        rintro k ⟨k1, k2⟩
        simp only
        rw [j2 k k2, if_neg (Ne.symm k1)]
    | error e =>
      have hr : ¬ Reads f ((s.drop a).take (f.width.getD 0)) := by
        rintro ⟨v, hv⟩
        rw [hv] at hd; cases hd
      constructor
      · rintro ⟨h, -⟩; exact absurd h hr
      · intro _
        refine ⟨rfl, ?_⟩
        rintro k ⟨k1, -⟩
        simp only
        rw [if_neg (Ne.symm k1)]

/-- A field of whole numbers can be read exactly if it is blank or a number. -/
theorem reads_number (f : Field) (he : f.enc = 1) (s : List Char) : (s = [] → False) →
    (Reads f s ↔ BlankOrNumber s) := by
  intro hs
  have hb : pyIsspace s = true ↔ ∀ c ∈ s, isBlank c = true := by
    unfold pyIsspace
    cases s with
    | nil => exact absurd rfl hs
    | cons c s => simp
  unfold Reads BlankOrNumber decodeField
  by_cases h : pyIsspace s = true
  · rw [if_pos h]
    exact ⟨fun _ => Or.inl (hb.mp h), fun _ => ⟨_, rfl⟩⟩
  · rw [if_neg h]
    have hn : ¬ ∀ c ∈ s, isBlank c = true := fun h' => h (hb.mpr h')
    simp only [hn, false_or]
    unfold rawValue
    rw [if_neg (by omega), if_pos he]
    cases hp : parseInt s with
    | error e => simp [Except.map, except_bind_error]
    | ok n =>
      simp only [Except.map, except_bind_ok, Except.ok.injEq, exists_eq', iff_true]
      unfold inUnits
      cases f.scale with
      | none => exact ⟨_, rfl⟩
      | some c =>
        simp only
        by_cases hc : c = 1
        · rw [if_pos hc]; exact ⟨_, rfl⟩
        · rw [if_neg hc]; exact ⟨_, rfl⟩

theorem reads_base36 (f : Field) (he : f.enc = 2) (s : List Char) : Reads f s := by
  unfold Reads decodeField
  by_cases h : pyIsspace s = true
  · rw [if_pos h]; exact ⟨_, rfl⟩
  · rw [if_neg h]
    unfold rawValue
    rw [if_pos he, except_bind_ok]
    unfold inUnits
    cases f.scale with
    | none => exact ⟨_, rfl⟩
    | some c =>
      simp only
      by_cases hc : c = 1
      · rw [if_pos hc]; exact ⟨_, rfl⟩
      · rw [if_neg hc]; exact ⟨_, rfl⟩

/-- The fields in front of the identifier, the identifier and the fields behind it. -/
theorem fields00_split : fields00 = fields00.take 14 ++ fields00.drop 14 := by simp

theorem fields00_ident : ∃ g rest, fields00.drop 14 = g :: rest ∧ g.name = "ID" ∧ g.enc = 3 ∧ g.scale = none :=
  ⟨_, _, rfl, rfl, rfl, rfl⟩

theorem starts_front : (starts (fields00.take 14) 0).filterMap (fun p =>
      if p.1.enc = 1 then some (p.2, p.1.width.getD 0) else none) = frontFields ∧
    (∀ p ∈ starts (fields00.take 14) 0, p.1.enc = 1 ∨ p.1.enc = 2) := by
  constructor <;> decide +kernel

theorem padLine_core (s : List Char) : padLine (some 108) s = padRight 108 s := by
  unfold padLine
  by_cases h : (s.length : Int) < 108
  · simp only
    rw [if_pos ⟨by norm_num, h⟩]
    rfl
  · simp only
    rw [if_neg (fun h' => h h'.2)]
    unfold padRight
    rw [show 108 - s.length = 0 by omega]
    simp

theorem padRight_wide (w : Nat) (s : List Char) : w ≤ (padRight w s).length := by
  unfold padRight
  rw [List.length_append, List.length_replicate]
  omega

/-- The record left behind has an identifier exactly if the line has one. -/
theorem readState_identifier (line : List Char) :
    ((readState line).1.data "ID").isSome = true ↔ HasIdentifier line := by
  unfold HasIdentifier
  by_cases hl : ∃ c ∈ line, c ≠ '\n'
  · have hne : line ≠ [] := by rintro rfl; simp at hl
    have hsn : ¬ (stripNewlines line).length = 0 := by
      intro h'
      obtain ⟨c, hc, hcn⟩ := hl
      exact hcn ((stripNewlines_nil_iff line).mp (List.eq_nil_of_length_eq_zero h') c hc)
    have hlay : layoutOf 0 = .ok fields00 := rfl
    have hfront : (∀ p ∈ starts (fields00.take 14) 0,
        Reads p.1 (((padRight 108 (stripNewlines line)).drop p.2).take (p.1.width.getD 0))) ↔
        ∀ p ∈ frontFields, BlankOrNumber (columns line p.1 p.2) := by
      have hlen : ∀ p ∈ starts (fields00.take 14) 0, p.2 < 108 ∧ 0 < p.1.width.getD 0 := by decide +kernel
      have hpos : ∀ p ∈ starts (fields00.take 14) 0,
          ((padRight 108 (stripNewlines line)).drop p.2).take (p.1.width.getD 0) ≠ [] := by
        intro p hp h0
        obtain ⟨l1, l2⟩ := hlen p hp
        have := congrArg List.length h0
        rw [List.length_take, List.length_drop, List.length_nil] at this
        have hp := padRight_wide 108 (stripNewlines line)
        omega
      rw [← starts_front.1]
      constructor
      · intro h p hp
        rw [List.mem_filterMap] at hp
        obtain ⟨q, hq, e⟩ := hp
        by_cases he : q.1.enc = 1
        · rw [if_pos he] at e
          injection e with e
          subst e
          exact (reads_number q.1 he _ (fun h0 => hpos q hq h0)).mp (h q hq)
        · rw [if_neg he] at e; cases e
      · intro h q hq
        rcases starts_front.2 q hq with he | he
        · exact (reads_number q.1 he _ (fun h0 => hpos q hq h0)).mpr (h (q.2, q.1.width.getD 0) (by
            rw [List.mem_filterMap]
            exact ⟨q, hq, by rw [if_pos he]⟩))
        · exact reads_base36 q.1 he _
    have hw : ∀ f ∈ fields00.take 14, f.width.isSome = true := by decide +kernel
    obtain ⟨s1, s2⟩ := decodeState_split (fields00.take 14) (fields00.drop 14) (padRight 108 (stripNewlines line)) 0
      Imma.empty.data hw
    rw [List.drop_zero, ← fields00_split] at s1 s2
    have key : ((decodeState fields00 (padRight 108 (stripNewlines line)) Imma.empty.data).1 "ID").isSome = true ↔
        ∀ p ∈ frontFields, BlankOrNumber (columns line p.1 p.2) := by
      rw [← hfront]
      constructor
      · intro h
        by_contra hc
        have := (s2 hc).2 "ID" (by decide +kernel)
        rw [this] at h
        cases h
      · intro h
        obtain ⟨d', e⟩ := s1 h
        obtain ⟨g, rest, hg, gn, ge, gs⟩ := fields00_ident
        rw [e, hg]
        unfold decodeState
        cases hd : decodeField g (fieldText g ((padRight 108 (stripNewlines line)).drop
            (0 + ((fields00.take 14).map fun f => f.width.getD 0).sum))) with
        | ok v =>
          apply decodeState_keeps
          simp [gn]
        | error e => simp [gn]
    simp only [hl, true_and]
    rw [← key]
    unfold readState
    rw [if_neg hne]
    unfold readStateLoop
    rw [if_neg hsn, hlay]
    simp only
    rw [padLine_core]
    have hkeep : ∀ (h : Int × Option Int × List Char) (d : String → Option (Option Val)) (a : List Int),
        (d "ID").isSome = true →
        ((readStateLoop line.length h.1 h.2.1 h.2.2 ⟨a, d⟩).1.data "ID").isSome = true :=
      fun h d a hd => readStateLoop_keeps _ _ _ _ _ _ hd
    rcases hd : decodeState fields00 (padRight 108 (stripNewlines line)) Imma.empty.data with ⟨d, _ | e⟩
    · -- all fields were read, so the identifier is there
      have hid : (d "ID").isSome = true := by
        have := decodeState_eq fields00 (padRight 108 (stripNewlines line)) Imma.empty.data
        rw [hd] at this
        obtain ⟨g, hg, gn⟩ : ∃ g ∈ fields00, g.name = "ID" := by decide +kernel
        have h1 := (decodeFields_keys fields00 _ _ d this).1 g hg
        rw [gn] at h1
        exact h1
      simp only [hid, iff_true]
      rw [if_neg (by norm_num)]
      split
      · cases hh : readHeader (sliceFrom (padRight 108 (stripNewlines line)) 108) with
        | error e => exact hid
        | ok h => exact hkeep h d _ hid
      · exact hid
    · rfl
  · simp only [hl, false_and, iff_false]
    push Not at hl
    have := C78_blank_line Imma.empty line hl
    rw [readState_ok] at this
    rw [this]
    simp [Imma.empty]

/-- A record that has a year was read from a line that is not blank. -/
theorem readstr_identifier {line : List Char} {rec : Imma} (h : Imma.empty.readstr line = .ok rec)
    (hy : (rec.data "YR").isSome = true) : (rec.data "ID").isSome = true := by
  by_cases hl : ∃ c ∈ line, c ≠ '\n'
  · obtain ⟨l, -, -, hk⟩ := C78_reading_complete Imma.empty rec line hl h
    obtain ⟨v, hv⟩ := (hk "ID").1 ⟨0, List.mem_cons_self, by
      obtain ⟨g, hg, gn⟩ : ∃ g ∈ fields00, g.name = "ID" := by decide +kernel
      exact ⟨fields00, rfl, g, hg, gn⟩⟩
    rw [hv]; rfl
  · push Not at hl
    rw [C78_blank_line Imma.empty line hl] at h
    injection h with h
    subst h
    cases hy

/-- **C104.**  A line is taken for a month exactly if it can be read, the year and month in it are those of the file, and
its identifier is not excluded.  The program looks at what reading left behind even when reading failed; a line that
cannot be read is never taken all the same. -/
theorem C104_used (excl : List (List Char)) (y m : Int) (line : List Char) :
    wanted excl y m (readState line) = .ok true ↔ ∃ rec, Used excl y m line rec := by
  unfold wanted Used
  constructor
  · intro h
    cases hid : (readState line).1.data "ID" with
    | none => rw [hid] at h; cases h
    | some ident =>
      rw [hid] at h
      simp only at h
      by_cases hx : ident ∈ excl.map (fun t => some (Val.str t))
      · rw [if_pos hx] at h; cases h
      · rw [if_neg hx] at h
        rcases hs : readState line with ⟨r, _ | e⟩
        · rw [hs] at h hid
          simp only [Option.isSome_none, Bool.false_eq_true, if_false] at h
          cases hy : r.data "YR" with
          | none => rw [hy] at h; cases h
          | some yr =>
            rw [hy] at h
            simp only at h
            by_cases hyr : yr ≠ some (.num y)
            · rw [if_pos hyr] at h; cases h
            · rw [if_neg hyr] at h
              push Not at hyr
              cases hm : r.data "MO" with
              | none => rw [hm] at h; cases h
              | some mo =>
                rw [hm] at h
                simp only [Except.ok.injEq, decide_eq_true_eq] at h
                refine ⟨r, readState_ok.mpr hs, by rw [hy, hyr], by rw [hm, h], ?_⟩
                intro t ht hc
                rw [hid] at hc
                injection hc with hc
                exact hx (List.mem_map.mpr ⟨t, ht, hc.symm⟩)
        · rw [hs] at h
          simp at h
  · rintro ⟨rec, h, hy, hm, hx⟩
    have hid := readstr_identifier h (by rw [hy]; rfl)
    rw [readState_ok] at h
    rw [h]
    obtain ⟨ident, hid⟩ := Option.isSome_iff_exists.mp hid
    simp only [hid, hy, hm]
    rw [if_neg (by
      rw [List.mem_map]
      rintro ⟨t, ht, e⟩
      exact hx t ht (by rw [hid, ← e]))]
    simp

/-- The program stops at a line without identifier. -/
theorem wanted_error (excl : List (List Char)) (y m : Int) (line : List Char) :
    (∃ e, wanted excl y m (readState line) = .error e) ↔ ¬ HasIdentifier line := by
  rw [← readState_identifier]
  constructor
  · rintro ⟨e, h⟩ hc
    obtain ⟨ident, hid⟩ := Option.isSome_iff_exists.mp hc
    unfold wanted at h
    rw [hid] at h
    simp only at h
    by_cases hx : ident ∈ excl.map (fun t => some (Val.str t))
    · rw [if_pos hx] at h; cases h
    · rw [if_neg hx] at h
      rcases hs : readState line with ⟨r, _ | e⟩
      · rw [hs] at h hid
        simp only [Option.isSome_none, Bool.false_eq_true, if_false] at h
        have hr := readState_ok.mpr hs
        have hl : ∃ c ∈ line, c ≠ '\n' := by
          by_contra hl
          push Not at hl
          rw [C78_blank_line Imma.empty line hl] at hr
          injection hr with hr
          subst hr
          cases hid
        obtain ⟨l, -, -, hk⟩ := C78_reading_complete Imma.empty r line hl hr
        have hn : ∀ n ∈ ["YR", "MO"], ∃ v, r.data n = some v := by
          intro n hn
          apply (hk n).1
          obtain ⟨g, hg, gn⟩ : ∃ g ∈ fields00, g.name = n := by revert n; decide +kernel
          exact ⟨0, List.mem_cons_self, fields00, rfl, g, hg, gn⟩
        obtain ⟨yr, hy⟩ := hn "YR" (by decide)
        obtain ⟨mo, hm⟩ := hn "MO" (by decide)
        simp only [hy, hm] at h
        split at h <;> cases h
      · rw [hs] at h
        simp at h
  · intro h
    refine ⟨.key, ?_⟩
    unfold wanted
    cases hid : (readState line).1.data "ID" with
    | none => rfl
    | some v => rw [hid] at h; exact absurd rfl h

end MarineQC
