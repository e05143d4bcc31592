import Verif.Imma.Layouts
import Mathlib.Data.List.TakeWhile

/-!
# C62 and C78: whole records
-/

namespace MarineQC

namespace Spec

/-- The parameter belongs to the attachment. -/
def Named (a : Int) (k : String) : Prop := ∃ fs, layoutOf a = .ok fs ∧ ∃ f ∈ fs, f.name = k

/-- Every parameter of the attachment has a value that its field can hold, or none. -/
def FitsAttachment (d : String → Option (Option Val)) (a : Int) : Prop := ∃ fs, layoutOf a = .ok fs ∧ Fits fs d

/-- Some parameter of the attachment has a value. -/
def Filled (d : String → Option (Option Val)) (a : Int) : Prop := ∃ k, Named a k ∧ ∃ x, d k = some (some x)

end Spec

/-! ## Stripping -/

theorem dropWhile_blank (s t : List Char) (h : ∀ c ∈ s, isBlank c = true) :
    (s ++ t).dropWhile isBlank = t.dropWhile isBlank := by
  induction s with
  | nil => simp
  | cons a s ih =>
    rw [List.cons_append, List.dropWhile_cons_of_pos (h a List.mem_cons_self)]
    exact ih fun c hc => h c (List.mem_cons_of_mem _ hc)

/-- Stripping stops at the last character that is not blank. -/
theorem rstrip_after (x y : List Char) (c : Char) (hc : isBlank c = false) :
    pyRstrip (x ++ [c] ++ y) = x ++ [c] ++ pyRstrip y := by
  unfold pyRstrip
  rw [List.reverse_append, List.reverse_append]
  by_cases h : ∀ d ∈ y, isBlank d = true
  · rw [dropWhile_blank _ _ (by simpa using h)]
    have e : y.reverse.dropWhile isBlank = [] := by
      have := dropWhile_blank y.reverse [] (by simpa using h)
      simpa using this
    rw [e]
    simp [hc]
  · have key : ∀ (z w : List Char), (∃ d ∈ z, isBlank d = false) → (z ++ w).dropWhile isBlank = z.dropWhile isBlank ++ w := by
      intro z w hz
      induction z with
      | nil => obtain ⟨d, hd, _⟩ := hz; simp at hd
      | cons a z ih =>
        cases ha : isBlank a with
        | true =>
          rw [List.cons_append, List.dropWhile_cons_of_pos ha, List.dropWhile_cons_of_pos ha]
          apply ih
          obtain ⟨d, hd, hb⟩ := hz
          rcases List.mem_cons.mp hd with rfl | hd
          · rw [ha] at hb; simp at hb
          · exact ⟨d, hd, hb⟩
        | false =>
          rw [List.cons_append, List.dropWhile_cons_of_neg (by simp [ha]), List.dropWhile_cons_of_neg (by simp [ha])]
          simp
    rw [key]
    · simp
    · by_contra hcon
      apply h
      intro d hd
      cases hb : isBlank d with
      | true => rfl
      | false => exact absurd ⟨d, by simpa using hd, hb⟩ hcon

/-- Padding restores what stripping removed, if that was blanks only. -/
theorem padRight_rstrip (t : List Char) (h : ∀ c ∈ t, isBlank c = true → c = ' ') : padRight t.length (pyRstrip t) = t := by
  have hsplit : t.reverse.takeWhile isBlank ++ t.reverse.dropWhile isBlank = t.reverse := List.takeWhile_append_dropWhile
  have ht : t = (t.reverse.dropWhile isBlank).reverse ++ (t.reverse.takeWhile isBlank).reverse := by
    have := congrArg List.reverse hsplit
    rw [List.reverse_append, List.reverse_reverse] at this
    exact this.symm
  have hl : (pyRstrip t).length + (t.reverse.takeWhile isBlank).length = t.length := by
    have := congrArg List.length hsplit
    rw [List.length_append, List.length_reverse] at this
    unfold pyRstrip
    rw [List.length_reverse]; omega
  have hrep : (t.reverse.takeWhile isBlank).reverse = List.replicate (t.length - (pyRstrip t).length) ' ' := by
    rw [List.eq_replicate_iff]
    constructor
    · rw [List.length_reverse]; omega
    · intro c hc
      rw [List.mem_reverse] at hc
      have hb := List.mem_takeWhile_imp hc
      have hm : c ∈ t := by
        have : c ∈ t.reverse := List.takeWhile_prefix isBlank |>.subset hc
        simpa using this
      exact h c hm hb
  unfold padRight
  rw [← hrep]
  exact ht.symm

theorem rstrip_nil_iff (t : List Char) : pyRstrip t = [] ↔ ∀ c ∈ t, isBlank c = true := by
  unfold pyRstrip
  rw [List.reverse_eq_nil_iff, List.dropWhile_eq_nil_iff]
  simp

theorem rstrip_length_le (t : List Char) : (pyRstrip t).length ≤ t.length := by
  unfold pyRstrip
  rw [List.length_reverse]
  have := (List.dropWhile_sublist (l := t.reverse) isBlank).length_le
  simpa using this

/-! ## Headers -/

/-- Number and length of a regular attachment. -/
def headerText (a : Int) (n : Nat) : List Char := padLeft 2 (intText a) ++ padLeft 2 (intText ((n : Int) + 4))

theorem padLeft_getLast (w n : Nat) : ∃ s c, padLeft w (natText n) = s ++ [c] ∧ isBlank c = false := by
  have hne := natText_ne_nil n
  refine ⟨List.replicate (w - (natText n).length) ' ' ++ (natText n).dropLast, (natText n).getLast hne, ?_, ?_⟩
  · unfold padLeft
    rw [List.append_assoc, List.dropLast_concat_getLast]
  · exact isDigit_not_blank _ (natText_digits n _ (List.getLast_mem hne))

theorem headerText_last (a : Int) (n : Nat) : ∃ s c, headerText a n = s ++ [c] ∧ isBlank c = false := by
  have e : (n : Int) + 4 = ((n + 4 : Nat) : Int) := by push_cast; rfl
  obtain ⟨s, c, h, hb⟩ := padLeft_getLast 2 (n + 4)
  refine ⟨padLeft 2 (intText a) ++ s, c, ?_, hb⟩
  unfold headerText
  rw [e, intText_nat, h, List.append_assoc]

theorem nat_two (a : Int) (h0 : 0 ≤ a) (h : a < 100) : (padLeft 2 (intText a)).length = 2 := by
  obtain ⟨m, rfl⟩ := Int.eq_ofNat_of_zero_le h0
  apply padLeft_length
  rw [intText_nat]
  exact natText_length_le m 2 (by omega) (by omega)

theorem parse_two_not_blank (n : Int) (w : Nat) : pyIsspace (padLeft w (intText n)) = false := by
  have hne : intText n ≠ [] := by
    unfold intText
    split
    · simp
    · exact natText_ne_nil _
  obtain ⟨d, hd⟩ := List.exists_mem_of_ne_nil _ hne
  exact isspace_false _ d (by unfold padLeft; exact List.mem_append_right _ hd) (intText_not_blank _ d hd)

/-- Reading a header that was written. -/
theorem readHeader_written (a : Int) (n : Nat) (fs : List Field) (rest : List Char) (h0 : 0 ≤ a) (h1 : a < 100) (h8 : a ≠ 8)
    (hn : n + 4 < 100) (hfs : layoutOf a = .ok fs) :
    readHeader (headerText a n ++ rest) = .ok (a, some (n : Int), rest) := by
  have la := nat_two a h0 h1
  have ln := nat_two ((n : Int) + 4) (by omega) (by omega)
  have t1 : (headerText a n ++ rest).take 2 = padLeft 2 (intText a) := by
    unfold headerText
    rw [List.append_assoc, List.take_left' la]
  have t2 : ((headerText a n ++ rest).drop 2).take 2 = padLeft 2 (intText ((n : Int) + 4)) := by
    unfold headerText
    rw [List.append_assoc, List.drop_left' la, List.take_left' ln]
  have t3 : (headerText a n ++ rest).drop 4 = rest := by
    apply List.drop_left'
    unfold headerText; rw [List.length_append, la, ln]
  unfold readHeader
  rw [t1, parseInt_padLeft]
  simp only [except_bind_ok]
  rw [if_neg h8, t2]
  unfold readLength
  rw [parse_two_not_blank, parseInt_padLeft]
  simp only [Bool.false_eq_true, if_false, except_bind_ok]
  rw [if_pos (by omega)]
  simp only [except_pure, except_bind_ok, hfs, t3]
  congr 2
  congr 1
  congr 1
  omega

/-! ## Reading what was written -/

/-- A regular attachment with its layout and the text written for it. -/
structure Piece where
  a : Int
  fs : List Field
  t : List Char

/-- What the pieces of a record satisfy. -/
structure Piece.Good (d : String → Option (Option Val)) (p : Piece) : Prop where
  layout : layoutOf p.a = .ok p.fs
  len : p.t.length = Spec.width p.fs
  pos : 0 < Spec.width p.fs
  blanks : ∀ c ∈ p.t, isBlank c = true → c = ' '
  empty : (∀ c ∈ p.t, isBlank c = true) ↔ ¬ Spec.HasValue p.fs d
  dec : ∀ (rest : List Char) (e : String → Option (Option Val)), decodeFields p.fs (p.t ++ rest) e =
    .ok fun k => if k ∈ p.fs.map Field.name then d k else e k

/-- The further condition on pieces other than the core. -/
def Piece.Regular (p : Piece) : Prop := 0 < p.a ∧ p.a < 99 ∧ p.a ≠ 8 ∧ Spec.width p.fs + 4 < 100

/-- The line from the text of the current piece on. -/
def lineFrom (t : List Char) : List Piece → List Char
  | [] => pyRstrip t
  | p :: l => t ++ (headerText p.a (Spec.width p.fs) ++ lineFrom p.t l)

theorem rstrip_line (t : List Char) (l : List Piece) :
    pyRstrip (t ++ (l.map fun p => headerText p.a (Spec.width p.fs) ++ p.t).flatten) = lineFrom t l := by
  induction l generalizing t with
  | nil => simp [lineFrom]
  | cons p l ih =>
    obtain ⟨s, c, hs, hc⟩ := headerText_last p.a (Spec.width p.fs)
    rw [lineFrom, ← ih p.t, List.map_cons, List.flatten_cons, hs]
    have := rstrip_after (t ++ s) (p.t ++ (l.map fun p => headerText p.a (Spec.width p.fs) ++ p.t).flatten) c hc
    simp only [List.append_assoc] at this ⊢
    exact this

/-- The pieces that are read back: a last one without values is not. -/
def keptPieces (p : Piece) (l : List Piece) : List Piece :=
  if pyRstrip ((p :: l).getLast (by simp)).t = [] then (p :: l).dropLast else p :: l

theorem keptPieces_cons (p q : Piece) (l : List Piece) : keptPieces p (q :: l) = p :: keptPieces q l := by
  unfold keptPieces
  rw [List.getLast_cons (by simp)]
  split <;> simp

/-- The data after reading the pieces. -/
def readData (d e : String → Option (Option Val)) (l : List Piece) : String → Option (Option Val) := fun k =>
  if k ∈ (l.map fun p => p.fs.map Field.name).flatten then d k else e k

theorem readData_cons (d e : String → Option (Option Val)) (p : Piece) (l : List Piece) :
    readData d (fun k => if k ∈ p.fs.map Field.name then d k else e k) l = readData d e (p :: l) := by
  funext k
  unfold readData
  rw [List.map_cons, List.flatten_cons]
  by_cases h1 : k ∈ (l.map fun p => p.fs.map Field.name).flatten
  · rw [if_pos h1, if_pos (List.mem_append_right _ h1)]
  · rw [if_neg h1]
    show (if _ then _ else _) = _
    by_cases h2 : k ∈ p.fs.map Field.name
    · rw [if_pos h2, if_pos (List.mem_append_left _ h2)]
    · rw [if_neg h2, if_neg]
      intro h
      rcases List.mem_append.mp h with h | h
      · exact h2 h
      · exact h1 h

theorem readData_nil (d e : String → Option (Option Val)) : readData d e [] = e := by
  funext k
  simp [readData]

theorem readLoop_line (d : String → Option (Option Val)) : ∀ (l : List Piece) (p : Piece) (k : Nat) (r : Imma),
    p.Good d → (∀ q ∈ l, q.Good d ∧ q.Regular) → l.length < k →
    readLoop k p.a (some (Spec.width p.fs : Int)) (lineFrom p.t l) r =
      .ok ⟨r.attachments ++ (keptPieces p l).map Piece.a, readData d r.data (keptPieces p l)⟩
  | [], p, 0, r, _, _, hk => by simp at hk
  | [], p, k + 1, r, hp, _, _ => by
    by_cases he : pyRstrip p.t = []
    · simp [readLoop, lineFrom, he, keptPieces, readData_nil]
    · have hpad : padLine (some (Spec.width p.fs : Int)) (pyRstrip p.t) = p.t := by
        have h1 := padRight_rstrip p.t hp.blanks
        unfold padLine
        dsimp only
        split
        · rw [Int.toNat_natCast, ← hp.len]; exact h1
        · rename_i h
          have hle := rstrip_length_le p.t
          have hl : (pyRstrip p.t).length = p.t.length := by
            have := hp.pos
            have := hp.len
            omega
          unfold padRight at h1
          rw [hl] at h1
          simpa using h1
      have hlen : (pyRstrip p.t).length ≠ 0 := by
        intro h; exact he (List.length_eq_zero_iff.mp h)
      have hdec := hp.dec [] r.data
      rw [List.append_nil] at hdec
      have hne : (Spec.width p.fs : Int) ≠ 0 := by have := hp.pos; omega
      have hsl : sliceFrom p.t (Spec.width p.fs : Int) = [] := by
        unfold sliceFrom
        rw [if_neg (by omega), Int.toNat_natCast, ← hp.len]
        simp
      simp only [readLoop, lineFrom, if_neg hlen, hpad, hp.layout, hdec, except_bind_ok, if_neg hne, hsl, List.length_nil,
        except_pure]
      rw [if_neg (by decide)]
      unfold keptPieces
      rw [if_neg (by simpa using he)]
      rw [← readData_cons, readData_nil]
      simp
  | q :: l, p, 0, r, _, _, hk => by simp at hk
  | q :: l, p, k + 1, r, hp, hl, hk => by
    obtain ⟨hq, hq1, hq2, hq3, hq4⟩ := hl q List.mem_cons_self
    have hpad : padLine (some (Spec.width p.fs : Int)) (lineFrom p.t (q :: l)) = lineFrom p.t (q :: l) := by
      unfold padLine
      dsimp only
      rw [if_neg]
      rintro ⟨_, h⟩
      rw [lineFrom, List.length_append, hp.len] at h
      omega
    have hlen : (lineFrom p.t (q :: l)).length ≠ 0 := by
      rw [lineFrom, List.length_append, hp.len]
      have := hp.pos
      omega
    have hdec := hp.dec (headerText q.a (Spec.width q.fs) ++ lineFrom q.t l) r.data
    have hne : (Spec.width p.fs : Int) ≠ 0 := by have := hp.pos; omega
    have hsl : sliceFrom (lineFrom p.t (q :: l)) (Spec.width p.fs : Int) =
        headerText q.a (Spec.width q.fs) ++ lineFrom q.t l := by
      unfold sliceFrom
      rw [if_neg (by omega), Int.toNat_natCast, ← hp.len, lineFrom, List.drop_left]
    have hrest : (headerText q.a (Spec.width q.fs) ++ lineFrom q.t l).length > 0 := by
      obtain ⟨s, c, hs, _⟩ := headerText_last q.a (Spec.width q.fs)
      rw [hs]; simp
    have hh := readHeader_written q.a (Spec.width q.fs) q.fs (lineFrom q.t l) (by omega) (by omega) hq3 hq4 hq.layout
    have ih := readLoop_line d l q k ⟨r.attachments ++ [p.a], fun k => if k ∈ p.fs.map Field.name then d k else r.data k⟩
      hq (fun x hx => hl x (List.mem_cons_of_mem _ hx)) (by simpa using hk)
    simp only [readLoop, if_neg hlen, hpad, hp.layout, except_bind_ok, hsl, if_neg hne, if_pos hrest, hh]
    have hdec' : decodeFields p.fs (lineFrom p.t (q :: l)) r.data =
        .ok fun k => if k ∈ p.fs.map Field.name then d k else r.data k := hdec
    simp only [hdec', except_bind_ok, ih]
    rw [keptPieces_cons, readData_cons]
    simp

/-! ## Writing -/

theorem regular_layout (a : Int) (ha : a ∈ Spec.regular) (fs : List Field) (h : layoutOf a = .ok fs) :
    0 < a ∧ a < 99 ∧ a ≠ 8 ∧ 0 < Spec.width fs ∧ Spec.width fs + 4 < 100 := by
  have key : ∀ a ∈ Spec.regular, 0 < a ∧ a < 99 ∧ a ≠ 8 ∧ (match layoutOf a with
      | .ok fs => decide (0 < Spec.width fs) && decide (Spec.width fs + 4 < 100)
      | .error _ => true) = true := by decide +kernel
  obtain ⟨h1, h2, h3, h4⟩ := key a ha
  rw [h] at h4
  simp only [Bool.and_eq_true, decide_eq_true_eq] at h4
  exact ⟨h1, h2, h3, h4.1, h4.2⟩

theorem core_width : Spec.width fields00 = 108 := by decide +kernel

theorem piece_of (d : String → Option (Option Val)) (a : Int) (h : Spec.FitsAttachment d a)
    (hpos : ∀ fs, layoutOf a = .ok fs → 0 < Spec.width fs) :
    ∃ p : Piece, p.a = a ∧ p.Good d ∧ encodeFields d p.fs = .ok p.t := by
  obtain ⟨fs, hfs, hfit⟩ := h
  obtain ⟨t, h1, h2, h3, h4, h5⟩ := fields_round d fs hfit
  exact ⟨⟨a, fs, t⟩, rfl, ⟨hfs, h2, hpos fs hfs, h3, h4, h5⟩, h1⟩

theorem pieces_of (d : String → Option (Option Val)) : ∀ (l : List Int), (∀ a ∈ l, a ∈ Spec.regular) →
    (∀ a ∈ l, Spec.FitsAttachment d a) → ∃ ps : List Piece, ps.map Piece.a = l ∧ (∀ p ∈ ps, p.Good d ∧ p.Regular) ∧
      l.mapM (encodeAttachment d) = .ok (ps.map fun p => headerText p.a (Spec.width p.fs) ++ p.t)
  | [], _, _ => ⟨[], rfl, by simp, rfl⟩
  | a :: l, hr, hf => by
    obtain ⟨ps, h1, h2, h3⟩ := pieces_of d l (fun x hx => hr x (List.mem_cons_of_mem _ hx))
      fun x hx => hf x (List.mem_cons_of_mem _ hx)
    have ha := hr a List.mem_cons_self
    obtain ⟨p, rfl, hp, he⟩ := piece_of d a (hf a List.mem_cons_self) fun fs h => (regular_layout a ha fs h).2.2.2.1
    obtain ⟨r1, r2, r3, _, r5⟩ := regular_layout p.a ha p.fs hp.layout
    refine ⟨p :: ps, by simp [h1], ?_, ?_⟩
    · intro q hq
      rcases List.mem_cons.mp hq with rfl | hq
      · exact ⟨hp, r1, r2, r3, r5⟩
      · exact h2 q hq
    · have : encodeAttachment d p.a = .ok (headerText p.a (Spec.width p.fs) ++ p.t) := by
        simp only [encodeAttachment, hp.layout, he, except_bind_ok, except_pure, addHeader]
        rw [if_neg (by omega), if_pos (by omega), hp.len]
        rfl
      rw [List.mapM_cons, this, h3]
      rfl

theorem lineFrom_length (t : List Char) (l : List Piece) : l.length ≤ (lineFrom t l).length := by
  induction l generalizing t with
  | nil => simp
  | cons p l ih =>
    obtain ⟨s, c, hs, _⟩ := headerText_last p.a (Spec.width p.fs)
    have := ih p.t
    rw [lineFrom, hs, List.length_cons]
    simp only [List.length_append, List.length_singleton]
    omega

theorem stripNewlines_line (s : List Char) : stripNewlines (pyRstrip s ++ ['\n']) = pyRstrip s := by
  unfold stripNewlines
  rw [List.reverse_append]
  have : (['\n'].reverse ++ (pyRstrip s).reverse).dropWhile (· == '\n') = (pyRstrip s).reverse := by
    rw [List.reverse_singleton, List.singleton_append, List.dropWhile_cons_of_pos (by decide)]
    unfold pyRstrip
    rw [List.reverse_reverse]
    cases h : s.reverse.dropWhile isBlank with
    | nil => simp
    | cons c t =>
      rw [List.dropWhile_cons_of_neg]
      have hb : isBlank c = false := by
        have := List.head_dropWhile_not (p := isBlank) (l := s.reverse) (by rw [h]; simp)
        simpa [h] using this
      intro hc
      have : c = '\n' := by simpa using hc
      subst this
      revert hb; decide
  rw [this, List.reverse_reverse]

theorem filled_iff (d : String → Option (Option Val)) (p : Piece) (hp : p.Good d) :
    pyRstrip p.t = [] ↔ ¬ Spec.Filled d p.a := by
  rw [rstrip_nil_iff, hp.empty]
  constructor
  · rintro h ⟨k, ⟨fs, hfs, f, hf, rfl⟩, x, hx⟩
    rw [hp.layout] at hfs
    simp only [Except.ok.injEq] at hfs
    subst hfs
    exact h ⟨f, hf, x, hx⟩
  · rintro h ⟨f, hf, x, hx⟩
    exact h ⟨f.name, ⟨p.fs, hp.layout, f, hf, rfl⟩, x, hx⟩

/-- Writing and reading back. -/
theorem write_read (r : Imma) (l : List Int) (h : r.attachments = 0 :: l) (hl : ∀ a ∈ l, a ∈ Spec.regular)
    (hf : ∀ a ∈ 0 :: l, Spec.FitsAttachment r.data a) :
    ∃ line p ps, r.write = .ok line ∧ p.a = 0 ∧ ps.map Piece.a = l ∧ p.Good r.data ∧ (∀ q ∈ ps, q.Good r.data) ∧
      Imma.empty.readstr line = .ok ⟨(keptPieces p ps).map Piece.a, readData r.data (fun _ => none) (keptPieces p ps)⟩ := by
  have hcore : layoutOf 0 = .ok fields00 := rfl
  obtain ⟨p, hpa, hp, he⟩ := piece_of r.data 0 (hf 0 List.mem_cons_self) fun fs hfs => by
    rw [hcore] at hfs
    simp only [Except.ok.injEq] at hfs
    rw [← hfs, core_width]; omega
  obtain ⟨ps, h1, h2, h3⟩ := pieces_of r.data l hl fun a ha => hf a (List.mem_cons_of_mem _ ha)
  have hpfs : p.fs = fields00 := by
    have := hp.layout
    rw [hpa, hcore] at this
    simpa using this.symm
  have hwr : r.write = .ok (lineFrom p.t ps ++ ['\n']) := by
    have : encodeAttachment r.data 0 = .ok p.t := by
      simp only [encodeAttachment, hcore, ← hpfs, he, except_bind_ok, except_pure, addHeader, if_true]
    unfold Imma.write
    rw [h, List.mapM_cons, this, h3]
    simp only [except_bind_ok, except_pure, List.flatten_cons]
    rw [rstrip_line]
  refine ⟨_, p, ps, hwr, hpa, h1, hp, fun q hq => (h2 q hq).1, ?_⟩
  unfold Imma.readstr
  rw [if_neg (by simp), ← rstrip_line, stripNewlines_line, rstrip_line]
  have := readLoop_line r.data ps p ((lineFrom p.t ps ++ ['\n']).length + 1) Imma.empty hp h2 (by
    have := lineFrom_length p.t ps
    rw [List.length_append]; omega)
  rw [hpa, hpfs, core_width] at this
  simpa [Imma.empty] using this

theorem readData_named (d : String → Option (Option Val)) (l : List Piece) (hl : ∀ p ∈ l, p.Good d) (k : String) :
    ((∃ a ∈ l.map Piece.a, Spec.Named a k) → readData d (fun _ => none) l k = d k) ∧
    ((∀ a ∈ l.map Piece.a, ¬ Spec.Named a k) → readData d (fun _ => none) l k = none) := by
  have key : k ∈ (l.map fun p => p.fs.map Field.name).flatten ↔ ∃ a ∈ l.map Piece.a, Spec.Named a k := by
    rw [List.mem_flatten]
    constructor
    · rintro ⟨m, hm, hk⟩
      obtain ⟨p, hp, rfl⟩ := List.mem_map.mp hm
      obtain ⟨f, hf, rfl⟩ := List.mem_map.mp hk
      exact ⟨p.a, List.mem_map_of_mem hp, p.fs, (hl p hp).layout, f, hf, rfl⟩
    · rintro ⟨a, ha, fs, hfs, f, hf, rfl⟩
      obtain ⟨p, hp, rfl⟩ := List.mem_map.mp ha
      rw [(hl p hp).layout] at hfs
      simp only [Except.ok.injEq] at hfs
      subst hfs
      exact ⟨_, List.mem_map_of_mem hp, List.mem_map_of_mem hf⟩
  unfold readData
  constructor
  · intro h; rw [if_pos (key.mpr h)]
  · intro h; rw [if_neg]
    intro hk
    obtain ⟨a, ha, hn⟩ := key.mp hk
    exact h a ha hn

theorem keptPieces_map (p : Piece) (ps : List Piece) :
    (pyRstrip ((p :: ps).getLast (by simp)).t = [] → (keptPieces p ps).map Piece.a = ((p :: ps).map Piece.a).dropLast) ∧
    (pyRstrip ((p :: ps).getLast (by simp)).t ≠ [] → (keptPieces p ps).map Piece.a = (p :: ps).map Piece.a) := by
  unfold keptPieces
  constructor
  · intro h; rw [if_pos h, List.map_dropLast]
  · intro h; rw [if_neg h]

theorem keptPieces_subset (p : Piece) (ps : List Piece) : ∀ q ∈ keptPieces p ps, q ∈ p :: ps := by
  intro q hq
  unfold keptPieces at hq
  split at hq
  · exact List.mem_of_mem_dropLast hq
  · exact hq

theorem last_filled (d : String → Option (Option Val)) (p : Piece) (ps : List Piece) (l : List Int) (hpa : p.a = 0)
    (hl : ps.map Piece.a = l) (hp : p.Good d) (hps : ∀ q ∈ ps, q.Good d) :
    pyRstrip ((p :: ps).getLast (by simp)).t = [] ↔ ¬ Spec.Filled d ((0 :: l).getLast (by simp)) := by
  have hg : ((p :: ps).getLast (by simp)).Good d := by
    rcases List.mem_cons.mp (List.getLast_mem (by simp : p :: ps ≠ [])) with h | h
    · rw [h]; exact hp
    · exact hps _ h
  have : (0 :: l).getLast (by simp) = ((p :: ps).getLast (by simp)).a := by
    have e : (0 :: l) = (p :: ps).map Piece.a := by rw [List.map_cons, hl, hpa]
    simp only [e, List.getLast_map]
  rw [this]
  exact filled_iff d _ hg

/-- **C62, part.** Take a record that consists of the core and any list of attachments among 1-7, 9, 95, 96 and 98, whose
values their fields can hold, and whose last attachment has some value.  Reading the line that `write` produces gives
back the same attachments, every parameter of them has the same value, and there are no other parameters.  Missing:
negative numbers (C61), attachments 8, 97 and 99, and records whose last attachment has no value. -/
theorem C62_record_partial (r : Imma) (l : List Int) (h : r.attachments = 0 :: l) (hl : ∀ a ∈ l, a ∈ Spec.regular)
    (hf : ∀ a ∈ 0 :: l, Spec.FitsAttachment r.data a) (hlast : Spec.Filled r.data ((0 :: l).getLast (by simp))) :
    ∃ line r', r.write = .ok line ∧ Imma.empty.readstr line = .ok r' ∧ r'.attachments = r.attachments ∧
      ∀ k, ((∃ a ∈ r.attachments, Spec.Named a k) → r'.data k = r.data k) ∧
        ((∀ a ∈ r.attachments, ¬ Spec.Named a k) → r'.data k = none) := by
  obtain ⟨line, p, ps, hw, hpa, hps, hg, hgs, hr⟩ := write_read r l h hl hf
  have hall : ∀ q ∈ p :: ps, q.Good r.data := by
    intro q hq
    rcases List.mem_cons.mp hq with rfl | hq
    · exact hg
    · exact hgs q hq
  have hne : pyRstrip ((p :: ps).getLast (by simp)).t ≠ [] := by
    intro hc
    exact (last_filled r.data p ps l hpa hps hg hgs).mp hc hlast
  have hm := (keptPieces_map p ps).2 hne
  have he : (keptPieces p ps).map Piece.a = r.attachments := by rw [hm, List.map_cons, hps, hpa, h]
  refine ⟨line, _, hw, hr, he, fun k => ?_⟩
  rw [← he]
  exact readData_named r.data _ (fun q hq => hall q (keptPieces_subset p ps q hq)) k

/-- **C62, violated.** If the last attachment has no value, stripping the trailing blanks loses it: the record read back
has all the attachments except the last, and the parameters of the last that no other attachment has are absent. -/
theorem C62_trailing_violation (r : Imma) (l : List Int) (h : r.attachments = 0 :: l) (hl : ∀ a ∈ l, a ∈ Spec.regular)
    (hf : ∀ a ∈ 0 :: l, Spec.FitsAttachment r.data a) (hlast : ¬ Spec.Filled r.data ((0 :: l).getLast (by simp))) :
    ∃ line r', r.write = .ok line ∧ Imma.empty.readstr line = .ok r' ∧ r'.attachments = r.attachments.dropLast ∧
      ∀ k, ((∃ a ∈ r.attachments.dropLast, Spec.Named a k) → r'.data k = r.data k) ∧
        ((∀ a ∈ r.attachments.dropLast, ¬ Spec.Named a k) → r'.data k = none) := by
  obtain ⟨line, p, ps, hw, hpa, hps, hg, hgs, hr⟩ := write_read r l h hl hf
  have hall : ∀ q ∈ p :: ps, q.Good r.data := by
    intro q hq
    rcases List.mem_cons.mp hq with rfl | hq
    · exact hg
    · exact hgs q hq
  have hm := (keptPieces_map p ps).1 ((last_filled r.data p ps l hpa hps hg hgs).mpr hlast)
  have he : (keptPieces p ps).map Piece.a = r.attachments.dropLast := by rw [hm, List.map_cons, hps, hpa, h]
  refine ⟨line, _, hw, hr, he, fun k => ?_⟩
  rw [← he]
  exact readData_named r.data _ (fun q hq => hall q (keptPieces_subset p ps q hq)) k

end MarineQC
