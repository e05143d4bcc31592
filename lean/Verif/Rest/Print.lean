import Verif.Rest.Spec
import Verif.Imma.Layouts
import Verif.Report.BaseQc
import Mathlib.Tactic.Linarith
import Mathlib.Tactic.NormNum

/-!
# C137: the fixed-width lines can be read by column
-/

namespace MarineQC

theorem roundAway_near (x : Rat) : |(roundAway x : Rat) - x| ≤ 1 / 2 := by
  unfold roundAway
  split
  · have h1 := Int.floor_le (x + 1 / 2)
    have h2 := Int.lt_floor_add_one (x + 1 / 2)
    rw [abs_le]
    constructor <;> linarith
  · have h1 := Int.floor_le (-x + 1 / 2)
    have h2 := Int.lt_floor_add_one (-x + 1 / 2)
    push_cast
    rw [abs_le]
    constructor <;> linarith

theorem roundAway_int (n : Int) : roundAway (n : Rat) = n := by
  have h := roundAway_near (n : Rat)
  have h2 : |((roundAway (n : Rat) - n : Int) : Rat)| ≤ 1 / 2 := by push_cast; exact h
  have h3 : |roundAway (n : Rat) - n| < 1 := by
    have : ((|roundAway (n : Rat) - n| : Int) : Rat) < 1 := by
      rw [Int.cast_abs]; exact lt_of_le_of_lt h2 (by norm_num)
    exact_mod_cast this
  have := Int.abs_lt_one_iff.mp h3
  omega

theorem intText_length (n : Int) (h : |n| ≤ 9999999) : (intText n).length ≤ 8 := by
  rw [abs_le] at h
  unfold intText
  have := natText_length_le n.natAbs 7 (by omega) (by omega)
  split
  · rw [List.length_cons]; omega
  · omega

theorem numberCell_length (n : Int) (h : |n| ≤ 9999999) : (numberCell n).length = 8 := by
  have := intText_length n h
  unfold numberCell padLeft
  rw [List.length_append, List.length_replicate]
  omega

theorem pvar_small (x : Option Rat) (m : Int) (s : Rat) (hm : |m| ≤ 9999999) (h : Spec.Room (.number x s m)) :
    |pvar x m s| ≤ 9999999 := by
  cases x with
  | none => exact hm
  | some q =>
    have h1 := h q rfl
    have h2 := roundAway_near (q * s)
    have h3 : ((|roundAway (q * s)| : Int) : Rat) < 10000000 := by
      rw [Int.cast_abs]
      have := abs_sub_abs_le_abs_sub (roundAway (q * s) : Rat) (q * s)
      linarith
    have h4 : |roundAway (q * s)| < 10000000 := by exact_mod_cast h3
    show |roundAway (q * s)| ≤ 9999999
    omega

/-- A piece of the right width that shows what it should. -/
def CellOk (m : Spec.Meaning) (w : Nat) (t : List Char) : Prop := Spec.Room m → Spec.Shows m t ∧ t.length = w

theorem cell_number (x : Option Rat) (m : Int) (s : Rat) (hm : |m| ≤ 9999999) :
    CellOk (.number x s m) 8 (numberCell (pvar x m s)) := by
  intro h
  refine ⟨⟨pvar x m s, parseInt_padLeft _ _, ?_, ?_⟩, numberCell_length _ (pvar_small x m s hm h)⟩
  · rintro rfl; rfl
  · rintro q rfl; exact roundAway_near _

theorem getvar_int (r : Report) (v : String) (hv : v ∈ VARLIST) (hi : v ∈ intVars) :
    r.getvar v = (r.getint v).map fun (n : Int) => (n : Rat) := by
  unfold Report.getvar Report.getint
  rw [if_neg (by simp [hv]), if_pos hv]
  cases r.data v with
  | none => rfl
  | some q => simp [hi]

theorem cell_int (x : Option Rat) (n m : Int) (hx : x = some (n : Rat)) (hm : |m| ≤ 9999999) :
    CellOk (.number x 1 m) 8 (numberCell n) := by
  have h := cell_number x m 1 hm
  have : pvar x m 1 = n := by
    subst hx
    show roundAway (n * 1) = n
    rw [mul_one, roundAway_int]
  rwa [this] at h

theorem parse_digit (f : Int) (h0 : 0 ≤ f) (h9 : f ≤ 9) : ∃ c, intText f = [c] ∧ parseInt [c] = .ok f := by
  obtain ⟨n, rfl⟩ := Int.eq_ofNat_of_zero_le h0
  have hn : n ≤ 9 := by omega
  have hl := natText_length_le n 1 (by omega) (by omega)
  rw [intText_nat]
  have hne := natText_ne_nil n
  match ht : natText n, hl, hne with
  | [c], _, _ =>
    refine ⟨c, rfl, ?_⟩
    have := parseInt_padLeft (n : Int) 1
    rw [intText_nat, ht] at this
    exact this
  | [], _, hne => exact absurd rfl hne
  | _ :: _ :: _, hl, _ => simp at hl

theorem cell_flags (l : List Int) (e : Char) (w : Nat) (hw : w = l.length + 1) :
    CellOk (.flags l e) w (flagsCell l [e]) := by
  intro h
  subst hw
  unfold flagsCell
  have key : (l.flatMap intText).length = l.length ∧ ∀ (i : Nat) (f : Int), l[i]? = some f →
      ∃ c, (l.flatMap intText)[i]? = some c ∧ parseInt [c] = .ok f := by
    induction l with
    | nil => exact ⟨rfl, fun i f h => by simp at h⟩
    | cons a l ih =>
      obtain ⟨c, hc, hp⟩ := parse_digit a (h a (by simp)).1 (h a (by simp)).2
      obtain ⟨h1, h2⟩ := ih fun f hf => h f (by simp [hf])
      rw [List.flatMap_cons, hc]
      refine ⟨by simp [h1], ?_⟩
      intro i f hf
      cases i with
      | zero =>
        simp at hf
        subst hf
        exact ⟨c, rfl, hp⟩
      | succ i => simpa using h2 i f (by simpa using hf)
  refine ⟨⟨by simp [key.1], by simp, ?_⟩, by simp [key.1]⟩
  intro i f hf
  obtain ⟨c, hc, hp⟩ := key.2 i f hf
  refine ⟨c, ?_, hp⟩
  rw [List.getElem?_append_left]
  · exact hc
  · exact (List.getElem?_eq_some_iff.mp hc).1

/-- Every piece in order. -/
def CellsOk : List Spec.Meaning → List Nat → List (List Char) → Prop
  | [], [], [] => True
  | m :: ms, w :: ws, t :: ts => CellOk m w t ∧ CellsOk ms ws ts
  | _, _, _ => False

theorem cut_cells : ∀ (ms : List Spec.Meaning) (ws : List Nat) (ts : List (List Char)), CellsOk ms ws ts →
    (∀ m ∈ ms, Spec.Room m) → List.Forall₂ Spec.Shows ms (Spec.cut ws ts.flatten) ∧ ts.flatten.length = ws.sum
  | [], [], [], _, _ => ⟨List.Forall₂.nil, rfl⟩
  | m :: ms, w :: ws, t :: ts, h, hr => by
    obtain ⟨h1, h2⟩ := h
    obtain ⟨g1, g2⟩ := h1 (hr m (by simp))
    obtain ⟨i1, i2⟩ := cut_cells ms ws ts h2 fun m hm => hr m (by simp [hm])
    subst g2
    refine ⟨?_, by simp [i2]⟩
    rw [List.flatten_cons, Spec.cut, List.take_left, List.drop_left]
    exact List.Forall₂.cons g1 i1
  | [], _ :: _, _, h, _ => h.elim
  | [], [], _ :: _, h, _ => h.elim
  | _ :: _, [], _, h, _ => h.elim
  | _ :: _, _ :: _, [], h, _ => h.elim

theorem needed_ok {α : Type} {e : Err} {x : Option α} {a : α} : needed e x = .ok a ↔ x = some a := by
  cases x <;> simp [needed]

theorem cell_id (r : Report) : CellOk (.name 9 10 ((r.id.map String.toList).getD [])) 10 r.idCell := by
  intro _
  unfold Report.idCell nameCell padRight Spec.Shows
  cases r.id with
  | none => decide
  | some s =>
    simp only [Option.map_some, Option.getD_some]
    have h : (s.toList.take 9).length ≤ 9 := by simp
    generalize s.toList.take 9 = t at h
    refine ⟨?_, by simp; omega⟩
    rw [List.append_assoc, show 10 - t.length = (9 - t.length) + 1 by omega, List.replicate_succ']

theorem cell_uid (r : Report) : CellOk (.name 8 8 ((r.uid.map String.toList).getD "None".toList)) 8 r.uidCell := by
  intro _
  unfold Report.uidCell nameCell padRight Spec.Shows
  generalize ((r.uid.map String.toList).getD "None".toList) = s
  have h : (s.take 8).length ≤ 8 := by simp
  refine ⟨rfl, ?_⟩
  rw [List.length_append, List.length_replicate]
  omega

theorem cell_dsvs (r : Report) : CellOk (.number (match r.getvar "DS", r.getvar "VS" with
      | some d, some v => some (d * 100 + v)
      | _, _ => none) 1 9999) 8 (numberCell r.dsvs) := by
  have h1 := getvar_int r "DS" (by decide) (by decide)
  have h2 := getvar_int r "VS" (by decide) (by decide)
  rw [h1, h2]
  unfold Report.dsvs
  cases r.getint "DS" with
  | none => exact cell_number none 9999 1 (by decide)
  | some d =>
    cases r.getint "VS" with
    | none => exact cell_number none 9999 1 (by decide)
    | some v => exact cell_int _ _ _ (by simp) (by decide)

theorem m32 : |(-32768 : Int)| ≤ 9999999 := by decide

theorem cell_pt (r : Report) : CellOk (Spec.quantity r "PT" 1) 8 (numberCell (r.printvar "PT")) := by
  unfold Report.printvar Spec.quantity
  rw [if_pos (by decide)]
  exact cell_number _ _ _ m32

theorem cell_var (r : Report) (v : String) (s : Rat) :
    CellOk (Spec.quantity r v s) 8 (numberCell (pvar (r.getvar v) (-32768) s)) := cell_number _ _ _ m32

theorem cell_anom (r : Report) (v : String) :
    CellOk (Spec.anomalyOf r v) 8 (numberCell (pvar (r.getanom v) (-32768) 100)) := cell_number _ _ _ m32

theorem cell_place (x : Option Rat) (q : Rat) (h : x = some q) :
    CellOk (.number x 100 (-32768)) 8 (numberCell (roundAway (q * 100))) := by
  subst h; exact cell_number (some q) (-32768) 100 m32

theorem cell_needed (r : Report) (v : String) (n : Int) (h : r.getint v = some n) (hv : v ∈ VARLIST) (hi : v ∈ intVars) :
    CellOk (Spec.quantity r v 1) 8 (numberCell n) :=
  cell_int _ _ _ (by rw [getvar_int r v hv hi, h]; rfl) m32

theorem printReport_ok {r : Report} {line : List Char} (h : r.printReport = .ok line) :
    ∃ ts, line = ts.flatten ∧ CellsOk (Spec.shortLine r) Spec.shortWidths ts := by
  simp only [Report.printReport, bind_ok_iff, needed_ok, except_pure, Except.ok.injEq] at h
  obtain ⟨lon, h1, lat, h2, yr, h3, mo, h4, dck, h5, rfl⟩ := h
  refine ⟨_, rfl, cell_id r, cell_uid r, cell_place _ _ h2, cell_place _ _ h1,
    cell_needed r "YR" _ h3 (by decide) (by decide), cell_needed r "MO" _ h4 (by decide) (by decide), cell_var _ _ _, cell_var _ _ _,
    cell_var _ _ _, cell_anom _ _, cell_var _ _ _, cell_anom _ _, cell_dsvs r,
    cell_needed r "DCK" _ h5 (by decide) (by decide), cell_pt r, cell_flags [] ' ' 1 rfl, cell_flags _ _ 9 rfl, cell_flags _ _ 9 rfl,
    cell_flags _ _ 9 rfl, cell_flags _ _ 9 rfl, cell_flags _ _ 9 rfl, trivial⟩

theorem printLongform_ok {r : Report} {line : List Char} (h : r.printLongform = .ok line) :
    ∃ ts, line = ts.flatten ∧ CellsOk (Spec.longLine r) Spec.longWidths ts := by
  simp only [Report.printLongform, bind_ok_iff, needed_ok, except_pure, Except.ok.injEq] at h
  obtain ⟨lon, h1, lat, h2, yr, h3, mo, h4, dck, h5, rfl⟩ := h
  refine ⟨_, rfl, cell_id r, cell_uid r, cell_place _ _ h2, cell_place _ _ h1,
    cell_needed r "YR" _ h3 (by decide) (by decide), cell_needed r "MO" _ h4 (by decide) (by decide), cell_var _ _ _, cell_var _ _ _,
    cell_var _ _ _, cell_anom _ _, cell_var _ _ _, cell_anom _ _, cell_var _ _ _, cell_var _ _ _, cell_anom _ _, cell_var _ _ _, cell_anom _ _,
    cell_var _ _ _, cell_anom _ _, cell_var _ _ _, cell_anom _ _, cell_var _ _ _, cell_anom _ _, cell_var _ _ _, cell_anom _ _, cell_dsvs r,
    cell_needed r "DCK" _ h5 (by decide) (by decide), cell_pt r, cell_flags [] ' ' 1 rfl, cell_flags _ _ 9 rfl, cell_flags _ _ 9 rfl,
    cell_flags _ _ 9 rfl, cell_flags _ _ 10 rfl, cell_flags _ _ 9 rfl, trivial⟩

/-- **C137.** The short line of any report whose numbers and flags fit has 168 characters, and each piece of it, cut out at
fixed columns, shows the value it should: numbers to the nearest unit, -32768 for what is missing, flags in their order. -/
theorem C137_short_line (r : Report) (line : List Char) (h : r.printReport = .ok line)
    (room : ∀ m ∈ Spec.shortLine r, Spec.Room m) :
    line.length = 168 ∧ List.Forall₂ Spec.Shows (Spec.shortLine r) (Spec.cut Spec.shortWidths line) := by
  obtain ⟨ts, rfl, ht⟩ := printReport_ok h
  obtain ⟨h1, h2⟩ := cut_cells _ _ _ ht room
  exact ⟨by rw [h2]; rfl, h1⟩

/-- **C137.** The same for the long line, of 273 characters. -/
theorem C137_long_line (r : Report) (line : List Char) (h : r.printLongform = .ok line)
    (room : ∀ m ∈ Spec.longLine r, Spec.Room m) :
    line.length = 273 ∧ List.Forall₂ Spec.Shows (Spec.longLine r) (Spec.cut Spec.longWidths line) := by
  obtain ⟨ts, rfl, ht⟩ := printLongform_ok h
  obtain ⟨h1, h2⟩ := cut_cells _ _ _ ht room
  exact ⟨by rw [h2]; rfl, h1⟩

/-- **C137.** A report is printed exactly when it has a place, a year, a month and a deck; both forms agree on that. -/
theorem C137_printable (r : Report) :
    ((∃ line, r.printReport = .ok line) ↔
      r.lat.isSome ∧ r.lon.isSome ∧ (r.getint "YR").isSome ∧ (r.getint "MO").isSome ∧ (r.getint "DCK").isSome) ∧
    ((∃ line, r.printLongform = .ok line) ↔ ∃ line, r.printReport = .ok line) := by
  constructor
  · constructor
    · rintro ⟨line, h⟩
      simp only [Report.printReport, bind_ok_iff, needed_ok, except_pure, Except.ok.injEq] at h
      obtain ⟨lon, h1, lat, h2, yr, h3, mo, h4, dck, h5, _⟩ := h
      simp [h1, h2, h3, h4, h5]
    · rintro ⟨h1, h2, h3, h4, h5⟩
      obtain ⟨_, h1⟩ := Option.isSome_iff_exists.mp h1
      obtain ⟨_, h2⟩ := Option.isSome_iff_exists.mp h2
      obtain ⟨_, h3⟩ := Option.isSome_iff_exists.mp h3
      obtain ⟨_, h4⟩ := Option.isSome_iff_exists.mp h4
      obtain ⟨_, h5⟩ := Option.isSome_iff_exists.mp h5
      simp only [Report.printReport, bind_ok_iff, needed_ok, except_pure, Except.ok.injEq]
      exact ⟨_, _, h2, _, h1, _, h3, _, h4, _, h5, rfl⟩
  · constructor
    · rintro ⟨line, h⟩
      simp only [Report.printLongform, bind_ok_iff, needed_ok, except_pure, Except.ok.injEq] at h
      obtain ⟨lon, h1, lat, h2, yr, h3, mo, h4, dck, h5, _⟩ := h
      simp only [Report.printReport, bind_ok_iff, needed_ok, except_pure, Except.ok.injEq]
      exact ⟨_, _, h1, _, h2, _, h3, _, h4, _, h5, rfl⟩
    · rintro ⟨line, h⟩
      simp only [Report.printReport, bind_ok_iff, needed_ok, except_pure, Except.ok.injEq] at h
      obtain ⟨lon, h1, lat, h2, yr, h3, mo, h4, dck, h5, _⟩ := h
      simp only [Report.printLongform, bind_ok_iff, needed_ok, except_pure, Except.ok.injEq]
      exact ⟨_, _, h1, _, h2, _, h3, _, h4, _, h5, rfl⟩

end MarineQC
