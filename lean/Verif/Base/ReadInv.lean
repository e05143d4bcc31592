import Verif.Base.ReadLine
import Verif.Report.BaseQc

/-!
# What every record that is read satisfies
-/

namespace MarineQC.Spec

/-- Variable, first column (from 0), width, and unit of the variables of a report that stand in the core of a line. -/
def coreColumns : List (String × Nat × Nat × Rat) :=
  [("YR", 0, 4, 1), ("MO", 4, 2, 1), ("DY", 6, 2, 1), ("HR", 8, 4, 1 / 100), ("LAT", 12, 5, 1 / 100),
   ("LON", 17, 6, 1 / 100), ("DS", 28, 1, 1), ("VS", 29, 1, 1), ("D", 46, 3, 1), ("W", 50, 3, 1 / 10), ("WW", 56, 2, 1),
   ("SLP", 59, 5, 1 / 10),
   ("AT", 69, 4, 1 / 10), ("DPT", 79, 4, 1 / 10), ("SST", 85, 4, 1 / 10)]

end MarineQC.Spec

namespace MarineQC

open Spec

theorem decodeFields_inv (P : String → Option Val → Prop) : ∀ (fs : List Field) (s : List Char)
    (d d' : String → Option (Option Val)),
    (∀ f ∈ fs, ∀ s v, decodeField f (fieldText f s) = .ok v → P f.name v) → decodeFields fs s d = .ok d' →
    (∀ k v, d k = some v → P k v) → ∀ k v, d' k = some v → P k v
  | [], s, d, d', _, h, hd => by
    injection h with h
    subst h
    exact hd
  | f :: fs, s, d, d', hf, h, hd => by
    unfold decodeFields at h
    rw [bind_ok_iff] at h
    obtain ⟨v, hv, h⟩ := h
    refine decodeFields_inv P fs _ _ d' (fun g hg => hf g (List.mem_cons_of_mem _ hg)) h ?_
    intro k w hk
    by_cases hkf : k = f.name
    · rw [if_pos hkf] at hk
      injection hk with hk
      subst hk
      rw [hkf]
      exact hf f List.mem_cons_self s v hv
    · rw [if_neg hkf] at hk
      exact hd k w hk

theorem readLoop_inv (P : String → Option Val → Prop)
    (hP : ∀ a fs, layoutOf a = .ok fs → ∀ f ∈ fs, ∀ s v, decodeField f (fieldText f s) = .ok v → P f.name v) :
    ∀ (k : Nat) (a : Int) (len : Option Int) (line : List Char) (r r' : Imma), readLoop k a len line r = .ok r' →
    (∀ k v, r.data k = some v → P k v) → ∀ k v, r'.data k = some v → P k v
  | 0, _, _, _, _, _, h, _ => by cases h
  | k + 1, a, len, line, r, r', h, hr => by
    unfold readLoop at h
    by_cases hl : line.length = 0
    · rw [if_pos hl] at h
      injection h with h
      subst h
      exact hr
    · rw [if_neg hl] at h
      simp only [bind_ok_iff] at h
      obtain ⟨fs, hfs, d, hd, h⟩ := h
      have hd' := decodeFields_inv P fs _ _ _ (hP a fs hfs) hd hr
      cases len with
      | none =>
        injection h with h
        subst h
        exact hd'
      | some n =>
        simp only at h
        split_ifs at h with h1 h2
        · injection h with h
          subst h
          exact hd'
        · rw [bind_ok_iff] at h
          obtain ⟨q, -, h⟩ := h
          exact readLoop_inv P hP k _ _ _ _ _ h hd'
        · injection h with h
          subst h
          exact hd'

/-- What holds for the value of every field of every attachment holds for the record. -/
theorem readstr_inv (P : String → Option Val → Prop)
    (hP : ∀ p ∈ layouts, ∀ f ∈ p.2, ∀ s v, decodeField f (fieldText f s) = .ok v → P f.name v)
    {line : List Char} {rec : Imma} (h : Imma.empty.readstr line = .ok rec) : ∀ k v, rec.data k = some v → P k v := by
  have hP' : ∀ a fs, layoutOf a = .ok fs → ∀ f ∈ fs, ∀ s v, decodeField f (fieldText f s) = .ok v → P f.name v := by
    intro a fs ha
    unfold layoutOf at ha
    cases hf : layouts.find? fun p => p.1 == a with
    | none => rw [hf] at ha; cases ha
    | some p =>
      rw [hf] at ha
      injection ha with ha
      subst ha
      exact hP p (List.mem_of_find?_eq_some hf)
  unfold Imma.readstr at h
  split_ifs at h with hl
  · injection h with h
    subst h
    intro k v hk
    cases hk
  · exact readLoop_inv P hP' _ _ _ _ _ _ h (fun k v hk => by cases hk)

/-- The value of a field of whole numbers. -/
theorem decodeField_number {f : Field} (he : f.enc = 1) {s : List Char} {v : Option Val} (h : decodeField f s = .ok v) :
    v = none ∨ ∃ n : Int, parseInt s = .ok n ∧ v = some (.num (n * f.scale.getD 1)) := by
  unfold decodeField at h
  split_ifs at h with hb
  · injection h with h
    exact Or.inl h.symm
  · right
    rw [bind_ok_iff] at h
    obtain ⟨w, hw, h⟩ := h
    rw [bind_ok_iff] at h
    obtain ⟨x, hx, h⟩ := h
    injection h with h
    subst h
    unfold rawValue at hw
    rw [if_neg (by omega), if_pos he] at hw
    cases hp : parseInt s with
    | error e => rw [hp] at hw; cases hw
    | ok n =>
      rw [hp] at hw
      injection hw with hw
      subst hw
      refine ⟨n, rfl, ?_⟩
      unfold inUnits at hx
      cases hs : f.scale with
      | none =>
        rw [hs] at hx
        injection hx with hx
        subst hx
        simp
      | some c =>
        rw [hs] at hx
        simp only at hx
        split_ifs at hx with hc
        · injection hx with hx
          subst hx
          simp [hc]
        · injection hx with hx
          subst hx
          simp [pyInt_intCast]

theorem digitsValue_lt : ∀ (s : List Char) (a : Nat), s.all Char.isDigit = true →
    s.foldl (fun a c => 10 * a + (c.toNat - 48)) a < (a + 1) * 10 ^ s.length
  | [], a, _ => by simp
  | c :: s, a, h => by
    rw [List.all_cons, Bool.and_eq_true] at h
    have i := digitsValue_lt s (10 * a + (c.toNat - 48)) h.2
    have hc : c.toNat - 48 ≤ 9 := by
      have := h.1
      simp only [Char.isDigit, Bool.and_eq_true, decide_eq_true_eq] at this
      have h2 := this.2
      rw [UInt32.le_iff_toNat_le] at h2
      have : c.val.toNat ≤ 57 := h2
      have : c.toNat = c.val.toNat := rfl
      omega
    rw [List.foldl_cons, List.length_cons, pow_succ]
    refine lt_of_lt_of_le i ?_
    calc (10 * a + (c.toNat - 48) + 1) * 10 ^ s.length ≤ (10 * (a + 1)) * 10 ^ s.length :=
          Nat.mul_le_mul_right _ (by omega)
      _ = (a + 1) * (10 ^ s.length * 10) := by ring

theorem parseDigits_lt {s : List Char} {n : Nat} (h : parseDigits s = .ok n) : n < 10 ^ s.length := by
  unfold parseDigits at h
  split_ifs at h with hc
  injection h with h
  subst h
  rw [Bool.and_eq_true] at hc
  have := digitsValue_lt s 0 hc.2
  simpa [digitsValue] using this

theorem parseDigits_pos {s : List Char} {n : Nat} (h : parseDigits s = .ok n) : 0 < s.length := by
  unfold parseDigits at h
  split_ifs at h with hc
  rw [Bool.and_eq_true] at hc
  cases s with
  | nil => simp at hc
  | cons c s => simp

theorem stripped_length (s : List Char) : (pyRstrip (s.dropWhile isBlank)).length ≤ s.length := by
  unfold pyRstrip
  rw [List.length_reverse]
  refine le_trans (List.length_dropWhile_le _ _) ?_
  rw [List.length_reverse]
  exact List.length_dropWhile_le _ _

/-- A number in `w` columns has at most `w` digits, and one less if it is negative. -/
theorem parseInt_bounds {s : List Char} {w : Nat} (hw : s.length ≤ w) {n : Int} (h : parseInt s = .ok n) :
    -(10 ^ (w - 1) : Int) < n ∧ n < 10 ^ w := by
  unfold parseInt at h
  have hl := le_trans (stripped_length s) hw
  generalize pyRstrip (s.dropWhile isBlank) = t at h hl
  have up : ∀ {a b : Nat}, a ≤ b → (10 : Int) ^ a ≤ 10 ^ b := fun hab => pow_le_pow_right₀ (by norm_num) hab
  have pos : ∀ a : Nat, (0 : Int) < 10 ^ a := fun a => by positivity
  cases t with
  | nil => cases h
  | cons c t =>
    rw [List.length_cons] at hl
    unfold parseSigned at h
    simp only at h
    split_ifs at h with h1 h2
    · rw [bind_ok_iff] at h
      obtain ⟨k, hk, h⟩ := h
      injection h with h
      subst h
      have k1 := parseDigits_lt hk
      have k2 : ((k : Nat) : Int) < 10 ^ t.length := by exact_mod_cast k1
      have := up (show t.length ≤ w - 1 by omega)
      have := pos w
      constructor <;> omega
    · rw [bind_ok_iff] at h
      obtain ⟨k, hk, h⟩ := h
      injection h with h
      subst h
      have k1 := parseDigits_lt hk
      have k2 : ((k : Nat) : Int) < 10 ^ t.length := by exact_mod_cast k1
      have := up (show t.length ≤ w by omega)
      have := pos (w - 1)
      constructor <;> omega
    · rw [bind_ok_iff] at h
      obtain ⟨k, hk, h⟩ := h
      injection h with h
      subst h
      have k1 := parseDigits_lt hk
      have k2 : ((k : Nat) : Int) < 10 ^ (c :: t).length := by exact_mod_cast k1
      rw [List.length_cons] at k2
      have := up (show t.length + 1 ≤ w by omega)
      have := pos (w - 1)
      constructor <;> omega

/-- The numeric values are numbers. -/
theorem record_numeric {line : List Char} {rec : Imma} (h : Imma.empty.readstr line = .ok rec) {v : String}
    (hv : v ∈ VARLIST) (t : List Char) : rec.data v ≠ some (some (.str t)) := by
  have hl : ∀ p ∈ layouts, ∀ f ∈ p.2, f.name ∈ VARLIST → f.enc = 1 := by decide +kernel
  have := readstr_inv (fun k w => k ∈ VARLIST → ∀ t, w ≠ some (.str t)) (by
    intro p hp f hf s w hd hn t
    rcases decodeField_number (hl p hp f hf hn) hd with rfl | ⟨n, -, rfl⟩ <;> simp) h
  intro hc
  exact this v _ hc hv t rfl

/-- Only the core has a day; it has two columns. -/
theorem record_day {line : List Char} {rec : Imma} (h : Imma.empty.readstr line = .ok rec) {q : Rat}
    (hq : numericOf (rec.data "DY") = some q) : ∃ n : Int, q = n ∧ -10 < n ∧ n < 100 := by
  have hl : ∀ p ∈ layouts, ∀ f ∈ p.2, f.name = "DY" → f.enc = 1 ∧ f.width = some 2 ∧ f.scale = some 1 := by
    decide +kernel
  have := readstr_inv (fun k w => k = "DY" → ∀ q, w = some (.num q) → ∃ n : Int, q = n ∧ -10 < n ∧ n < 100) (by
    intro p hp f hf s w hd hn q hq
    obtain ⟨e1, e2, e3⟩ := hl p hp f hf hn
    rcases decodeField_number e1 hd with rfl | ⟨n, hn, rfl⟩
    · cases hq
    · simp only [e3, Option.getD_some, mul_one, Option.some.injEq, Val.num.injEq] at hq
      have := parseInt_bounds (w := 2) (by
        unfold fieldText
        rw [e2]
        simp) hn
      exact ⟨n, hq.symm, by simpa using this⟩) h
  unfold numericOf at hq
  split at hq
  · rename_i x hx
    injection hq with hq
    subst hq
    exact this "DY" _ hx rfl _ rfl
  · cases hq

/-- The values of fields with different names, each from its own columns. -/
theorem decodeFields_columns : ∀ (fs : List Field) (s : List Char) (a : Nat) (d d' : String → Option (Option Val)),
    (∀ f ∈ fs, f.width.isSome = true) → (fs.map (·.name)).Nodup → decodeFields fs (s.drop a) d = .ok d' →
    ∀ p ∈ starts fs a, ∃ v, decodeField p.1 ((s.drop p.2).take (p.1.width.getD 0)) = .ok v ∧ d' p.1.name = some v
  | [], s, a, d, d', _, _, _, p, hp => by cases hp
  | f :: fs, s, a, d, d', hw, hn, h, p, hp => by
    obtain ⟨w, hw'⟩ := Option.isSome_iff_exists.mp (hw f List.mem_cons_self)
    have ht : fieldText f (s.drop a) = (s.drop a).take (f.width.getD 0) := by simp [fieldText, hw']
    have ha : afterField f (s.drop a) = s.drop (a + f.width.getD 0) := by simp [afterField, hw', List.drop_drop]
    rw [List.map_cons, List.nodup_cons] at hn
    unfold decodeFields at h
    rw [bind_ok_iff] at h
    obtain ⟨v, hv, h⟩ := h
    rw [ha] at h
    unfold starts at hp
    rcases List.mem_cons.mp hp with rfl | hp
    · refine ⟨v, by rw [← ht]; exact hv, ?_⟩
      rw [(decodeFields_keys fs _ _ d' h).2.2 f.name (fun g hg he => hn.1 (List.mem_map.mpr ⟨g, hg, he⟩)), if_pos rfl]
    · exact decodeFields_columns fs s _ _ d' (fun g hg => hw g (List.mem_cons_of_mem _ hg)) hn.2 h p hp

/-- The names of the core are in no other attachment. -/
theorem core_names : ∀ f ∈ fields00, ∀ p ∈ layouts, p.1 ≠ 0 → ∀ g ∈ p.2, g.name ≠ f.name := by decide +kernel

theorem core_unnamed {f : Field} (hf : f ∈ fields00) {b : Int} (hb : b ≠ 0) : ¬ Spec.Named b f.name := by
  rintro ⟨fs, h1, g, hg, e⟩
  unfold layoutOf at h1
  cases hl : layouts.find? fun p => p.1 == b with
  | none => rw [hl] at h1; cases h1
  | some p =>
    rw [hl] at h1
    injection h1 with h1
    subst h1
    have := List.find?_some hl
    simp only [beq_iff_eq] at this
    exact core_names f hf p (List.mem_of_find?_eq_some hl) (by rw [this]; exact hb) g hg e

theorem starts_mem : ∀ {fs : List Field} {a : Nat} {p : Field × Nat}, p ∈ starts fs a → p.1 ∈ fs
  | [], _, _, h => by cases h
  | f :: fs, a, p, h => by
    unfold starts at h
    rcases List.mem_cons.mp h with rfl | h
    · exact List.mem_cons_self
    · exact List.mem_cons_of_mem _ (starts_mem h)

/-- A field of the core holds what stands in its columns, unless there is a second core. -/
theorem record_core {line : List Char} {rec : Imma} (h : Imma.empty.readstr line = .ok rec)
    (hl : ∃ c ∈ line, c ≠ '\n') (ha : rec.attachments.count 0 = 1) {p : Field × Nat} (hp : p ∈ starts fields00 0) :
    ∃ v, decodeField p.1 (columns line p.2 (p.1.width.getD 0)) = .ok v ∧ rec.data p.1.name = some v := by
  have hne : line ≠ [] := by rintro rfl; simp at hl
  have hsn : ¬ (stripNewlines line).length = 0 := by
    intro h'
    obtain ⟨c, hc, hcn⟩ := hl
    exact hcn ((stripNewlines_nil_iff line).mp (List.eq_nil_of_length_eq_zero h') c hc)
  have hlay : layoutOf 0 = .ok fields00 := rfl
  have hsl : (stripNewlines line).length ≤ line.length := by
    unfold stripNewlines
    rw [List.length_reverse]
    refine le_trans (List.length_dropWhile_le _ _) ?_
    rw [List.length_reverse]
  unfold Imma.readstr at h
  rw [if_neg hne] at h
  unfold readLoop at h
  rw [if_neg hsn, hlay, except_bind_ok, padLine_core] at h
  simp only at h
  rw [bind_ok_iff] at h
  obtain ⟨d, hd, h⟩ := h
  have hd' : decodeFields fields00 ((padRight 108 (stripNewlines line)).drop 0) Imma.empty.data = .ok d := by
    rw [List.drop_zero]; exact hd
  obtain ⟨v, hv, hdv⟩ := decodeFields_columns fields00 _ 0 _ d (by decide +kernel) (by decide +kernel) hd' p hp
  refine ⟨v, hv, ?_⟩
  rw [← hdv]
  rw [if_neg (by norm_num)] at h
  split_ifs at h with hr
  · rw [bind_ok_iff] at h
    obtain ⟨q, hq, h⟩ := h
    have hle : (sliceFrom (padRight 108 (stripNewlines line)) 108).length ≤ (stripNewlines line).length := by
      rw [← padLine_core]
      exact padLine_slice 108 _
    have hpos : 0 < line.length := List.length_pos_iff.mpr hne
    have hq2 : q.2.2.length < line.length ∨ (0 < line.length ∧ (q.2.1 = none ∨ q.2.1 = some 0)) := by
      rcases readHeader_cases (sliceFrom (padRight 108 (stripNewlines line)) 108) with ⟨a, x, e, -, hx⟩ | ⟨e, he, -⟩
      · rw [e] at hq
        injection hq with hq
        subst hq
        rcases hx with ⟨x1, -⟩ | ⟨x1, -⟩ | ⟨n, x1, x2⟩
        · exact Or.inr ⟨hpos, Or.inl x1⟩
        · exact Or.inr ⟨hpos, Or.inr x1⟩
        · left
          simp only
          rw [x2, List.length_drop]
          omega
      · rw [he] at hq; cases hq
    rcases readLoop_cases line.length q.1 q.2.1 q.2.2 ⟨Imma.empty.attachments ++ [0], d⟩ hq2 with
      ⟨r', l, e, sp⟩ | ⟨e, he, -⟩
    · rw [e] at h
      injection h with h
      subst h
      refine sp.other p.1.name ?_
      intro b hb
      apply core_unnamed (starts_mem hp)
      rintro rfl
      rw [sp.att] at ha
      have : 0 < l.count 0 := List.count_pos_iff.mpr hb
      simp [Imma.empty, List.count_cons] at ha
      omega
    · rw [he] at h; cases h
  · injection h with h
    subst h
    rfl

/-- **C104.**  The numbers of a record are those in the columns of its line, in their units; blank columns give no
number; the identifier is the nine characters after column 34, unless they are blank.  (A line that gives a second core
among its attachments is left out.) -/
theorem C104_columns {excl : List (List Char)} {y m : Int} {line : List Char} {rec : Imma} (h : Used excl y m line rec)
    (ha : rec.attachments.count 0 = 1) :
    (∀ q ∈ coreColumns, ((∀ c ∈ columns line q.2.1 q.2.2.1, isBlank c = true) ∧ numericOf (rec.data q.1) = none) ∨
      ∃ n : Int, parseInt (columns line q.2.1 q.2.2.1) = .ok n ∧ numericOf (rec.data q.1) = some (n * q.2.2.2)) ∧
    (((∀ c ∈ columns line 34 9, isBlank c = true) ∧ textOf (rec.data "ID") = none) ∨
      textOf (rec.data "ID") = some (String.ofList (columns line 34 9))) := by
  have hl : ∃ c ∈ line, c ≠ '\n' := by
    by_contra hc
    have := C78_blank_line Imma.empty line (fun c hc' => by
      by_contra hn
      exact hc ⟨c, hc', hn⟩)
    obtain ⟨h1, h2, -⟩ := h
    rw [this] at h1
    injection h1 with h1
    subst h1
    cases h2
  have hblank : ∀ s : List Char, pyIsspace s = true → ∀ c ∈ s, isBlank c = true := by
    intro s hs
    unfold pyIsspace at hs
    rw [Bool.and_eq_true] at hs
    exact fun c hc => List.all_eq_true.mp hs.2 c hc
  have hempty : ∀ s : List Char, s = [] → ∀ c ∈ s, isBlank c = true := by rintro s rfl c hc; cases hc
  constructor
  · intro q hq
    have hcore : ∀ q ∈ coreColumns, ∃ p ∈ starts fields00 0, p.1.name = q.1 ∧ p.2 = q.2.1 ∧ p.1.width = some q.2.2.1 ∧
        p.1.enc = 1 ∧ p.1.scale = some q.2.2.2 := by decide +kernel
    obtain ⟨p, hp, e1, e2, e3, e4, e5⟩ := hcore q hq
    obtain ⟨v, hv, hdv⟩ := record_core h.1 hl ha hp
    rw [e1] at hdv
    rw [e2, e3, Option.getD_some] at hv
    rw [hdv]
    by_cases hb : pyIsspace (columns line q.2.1 q.2.2.1) = true
    · left
      refine ⟨hblank _ hb, ?_⟩
      unfold decodeField at hv
      rw [if_pos hb] at hv
      injection hv with hv
      subst hv
      rfl
    · right
      rcases decodeField_number e4 hv with rfl | ⟨n, hn, rfl⟩
      · exfalso
        unfold decodeField at hv
        rw [if_neg hb, bind_ok_iff] at hv
        obtain ⟨a, -, hv⟩ := hv
        rw [bind_ok_iff] at hv
        obtain ⟨b, -, hv⟩ := hv
        cases hv
      · exact ⟨n, hn, by rw [e5]; rfl⟩
  · have hid : ∃ p ∈ starts fields00 0, p.1.name = "ID" ∧ p.2 = 34 ∧ p.1.width = some 9 ∧
        p.1.enc = 3 ∧ p.1.scale = none := by decide +kernel
    obtain ⟨p, hp, e1, e2, e3, e4, e5⟩ := hid
    obtain ⟨v, hv, hdv⟩ := record_core h.1 hl ha hp
    rw [e1] at hdv
    rw [e2, e3, Option.getD_some] at hv
    rw [hdv]
    unfold decodeField at hv
    split_ifs at hv with hb
    · left
      injection hv with hv
      subst hv
      exact ⟨hblank _ hb, rfl⟩
    · right
      unfold rawValue inUnits at hv
      rw [e4, e5] at hv
      rw [if_neg (by norm_num), if_neg (by norm_num)] at hv
      injection hv with hv
      subst hv
      rfl

end MarineQC
