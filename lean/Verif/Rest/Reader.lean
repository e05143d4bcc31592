import Verif.Rest.Predict

/-!
# C139: records of fixed columns without attachments

The writer below is a specification: the code has no writer for this form.
-/

namespace MarineQC

namespace Spec

/-- A number that may be missing, at the right of its columns. -/
def column (w : Nat) (x : Option Int) : List Char :=
  match x with
  | none => List.replicate w ' '
  | some n => padLeft w (intText n)

/-- It has room there. -/
def FitsIn (w : Nat) (x : Option Int) : Prop := ∀ n, x = some n → (intText n).length ≤ w

/-- What is on a line: numbers in the units of the form (hundredths of hours and degrees, tenths of degrees Celsius). -/
structure SimpleLine where
  yr : Option Int
  mo : Option Int
  dy : Option Int
  hr : Option Int
  lat : Option Int
  lon : Option Int
  ds : Option Int
  vs : Option Int
  id : List Char
  at' : Option Int
  sst : Option Int
  dpt : Option Int
  dck : Option Int
  sid : Option Int
  pt : Option Int
  uid : List Char

/-- Everything has room. -/
structure SimpleLine.Fits (s : SimpleLine) : Prop where
  yr : FitsIn 4 s.yr
  mo : FitsIn 2 s.mo
  dy : FitsIn 2 s.dy
  hr : FitsIn 4 s.hr
  lat : FitsIn 5 s.lat
  lon : FitsIn 6 s.lon
  ds : FitsIn 1 s.ds
  vs : FitsIn 1 s.vs
  id : s.id.length = 9
  at' : FitsIn 4 s.at'
  sst : FitsIn 4 s.sst
  dpt : FitsIn 4 s.dpt
  dck : FitsIn 3 s.dck
  sid : FitsIn 3 s.sid
  pt : FitsIn 2 s.pt
  uid : s.uid.length = 6
  /-- the line does not end in the middle of the UID -/
  last : s.uid.getLast? ≠ some '\n'

/-- The line. -/
def SimpleLine.text (s : SimpleLine) : List Char :=
  column 4 s.yr ++ (column 2 s.mo ++ (column 2 s.dy ++ (column 4 s.hr ++ (column 5 s.lat ++ (column 6 s.lon ++
    (column 1 s.ds ++ (column 1 s.vs ++ (s.id ++ (column 4 s.at' ++ (column 4 s.sst ++ (column 4 s.dpt ++
    (column 3 s.dck ++ (column 3 s.sid ++ (column 2 s.pt ++ s.uid))))))))))))))

end Spec

open Spec

theorem column_length {w : Nat} {x : Option Int} (h : FitsIn w x) : (column w x).length = w := by
  cases x with
  | none => simp [column]
  | some n => exact padLeft_length w _ (h n rfl)

theorem parseInt_blanks (w : Nat) : parseInt (List.replicate w ' ') = .error .value := by
  unfold parseInt
  have : (List.replicate w ' ').dropWhile isBlank = [] := by
    simp [isBlank]
  rw [this]
  rfl

theorem trint_column (w : Nat) (x : Option Int) : trint (column w x) = x := by
  cases x with
  | none => unfold trint column; rw [parseInt_blanks]; rfl
  | some n => unfold trint column; rw [parseInt_padLeft]; rfl

theorem slice_skip {a b : List Char} {w i j : Nat} (h : a.length = w) (hi : w ≤ i) :
    sliceOf (a ++ b) i j = sliceOf b (i - w) (j - w) := by
  subst h
  unfold sliceOf
  rw [List.drop_append, List.drop_eq_nil_of_le hi, List.nil_append]
  congr 1
  omega

theorem slice_head {a b : List Char} {w i j : Nat} (h : a.length = w) (hi : i = 0) (hj : j = w) : sliceOf (a ++ b) i j = a := by
  subst h hi hj
  unfold sliceOf
  rw [List.drop_zero, Nat.sub_zero, List.take_left]

theorem slice_all {a : List Char} {w i j : Nat} (h : a.length = w) (hi : i = 0) (hj : j = w) : sliceOf a i j = a := by
  subst h hi hj
  unfold sliceOf
  rw [List.drop_zero, Nat.sub_zero, List.take_length]

theorem stripNewlines_after (a b : List Char) (n : Nat) (hb : b ≠ []) (h : b.getLast? ≠ some '\n') :
    stripNewlines (a ++ b ++ List.replicate n '\n') = a ++ b := by
  unfold stripNewlines
  rw [List.reverse_append, List.reverse_replicate]
  have h1 : ∀ (n : Nat) (l : List Char), (List.replicate n '\n' ++ l).dropWhile (· == '\n') = l.dropWhile (· == '\n') := by
    intro n l
    induction n with
    | zero => rfl
    | succ n ih => rw [List.replicate_succ, List.cons_append, List.dropWhile_cons_of_pos (by rfl), ih]
  rw [h1]
  have h2 : (a ++ b).reverse.dropWhile (· == '\n') = (a ++ b).reverse := by
    obtain ⟨c, l, hc⟩ : ∃ c l, b.reverse = c :: l := by
      cases hr : b.reverse with
      | nil => exact absurd (by simpa using hr) hb
      | cons c l => exact ⟨c, l, rfl⟩
    have hlast : b.getLast? = some c := by rw [← List.head?_reverse, hc]; rfl
    rw [List.reverse_append, hc, List.cons_append, List.dropWhile_cons_of_neg]
    intro hcn
    rw [beq_iff_eq] at hcn
    exact h (by rw [hlast, hcn])
  rw [h2, List.reverse_reverse]

/-- **C139.** A line written with every number at the right of its columns (blank where there is none) is read back exactly,
with or without line ends after it: `float` is any function that reads such numbers and refuses blanks. -/
theorem C139_round_trip (num : List Char → Option Rat) (hnum : ∀ w x, num (column w x) = x.map fun (n : Int) => (n : Rat))
    (s : SimpleLine) (hs : s.Fits) (n : Nat) :
    simpleRead num (s.text ++ List.replicate n '\n') =
      { yr := s.yr, mo := s.mo, dy := s.dy, hr := s.hr.map (fun (n : Int) => (n : Rat) / 100),
        lat := s.lat.map (fun (n : Int) => (n : Rat) / 100), lon := s.lon.map (fun (n : Int) => (n : Rat) / 100),
        ds := s.ds, vs := s.vs, id := s.id, at' := s.at'.map (fun (n : Int) => (n : Rat) / 10),
        sst := s.sst.map (fun (n : Int) => (n : Rat) / 10), dpt := s.dpt.map (fun (n : Int) => (n : Rat) / 10),
        dck := s.dck, sid := s.sid, pt := s.pt, uid := s.uid } := by
  have hstrip : stripNewlines (s.text ++ List.replicate n '\n') = s.text := by
    have hu : s.uid ≠ [] := by
      intro h
      have := hs.uid
      rw [h] at this
      simp at this
    have e : s.text = (s.text.take (s.text.length - s.uid.length)) ++ s.uid := by
      have : ∃ a, s.text = a ++ s.uid := by
        unfold SimpleLine.text
        simp only [← List.append_assoc]
        exact ⟨_, rfl⟩
      obtain ⟨a, ha⟩ := this
      rw [ha]
      congr 1
      simp
    rw [e]
    exact stripNewlines_after _ _ n hu hs.last
  have hf : ∀ (w : Nat) (x : Option Int) (q : Rat),
      trfloat num (column w x) q = x.map fun (n : Int) => (n : Rat) * q := by
    intro w x q
    unfold trfloat
    rw [hnum]
    cases x <;> rfl
  have l1 := column_length hs.yr
  have l2 := column_length hs.mo
  have l3 := column_length hs.dy
  have l4 := column_length hs.hr
  have l5 := column_length hs.lat
  have l6 := column_length hs.lon
  have l7 := column_length hs.ds
  have l8 := column_length hs.vs
  have l9 := hs.id
  have l10 := column_length hs.at'
  have l11 := column_length hs.sst
  have l12 := column_length hs.dpt
  have l13 := column_length hs.dck
  have l14 := column_length hs.sid
  have l15 := column_length hs.pt
  have l16 := hs.uid
  unfold simpleRead
  simp only [hstrip]
  have s1 : sliceOf s.text 0 4 = column 4 s.yr := by
    rw [SimpleLine.text, slice_head l1 (by omega) (by omega)]
  have s2 : sliceOf s.text 4 6 = column 2 s.mo := by
    rw [SimpleLine.text, slice_skip l1 (by omega), slice_head l2 (by omega) (by omega)]
  have s3 : sliceOf s.text 6 8 = column 2 s.dy := by
    rw [SimpleLine.text, slice_skip l1 (by omega), slice_skip l2 (by omega), slice_head l3 (by omega) (by omega)]
  have s4 : sliceOf s.text 8 12 = column 4 s.hr := by
    rw [SimpleLine.text, slice_skip l1 (by omega), slice_skip l2 (by omega), slice_skip l3 (by omega),
      slice_head l4 (by omega) (by omega)]
  have s5 : sliceOf s.text 12 17 = column 5 s.lat := by
    rw [SimpleLine.text, slice_skip l1 (by omega), slice_skip l2 (by omega), slice_skip l3 (by omega),
      slice_skip l4 (by omega), slice_head l5 (by omega) (by omega)]
  have s6 : sliceOf s.text 17 23 = column 6 s.lon := by
    rw [SimpleLine.text, slice_skip l1 (by omega), slice_skip l2 (by omega), slice_skip l3 (by omega),
      slice_skip l4 (by omega), slice_skip l5 (by omega), slice_head l6 (by omega) (by omega)]
  have s7 : sliceOf s.text 23 24 = column 1 s.ds := by
    rw [SimpleLine.text, slice_skip l1 (by omega), slice_skip l2 (by omega), slice_skip l3 (by omega),
      slice_skip l4 (by omega), slice_skip l5 (by omega), slice_skip l6 (by omega),
      slice_head l7 (by omega) (by omega)]
  have s8 : sliceOf s.text 24 25 = column 1 s.vs := by
    rw [SimpleLine.text, slice_skip l1 (by omega), slice_skip l2 (by omega), slice_skip l3 (by omega),
      slice_skip l4 (by omega), slice_skip l5 (by omega), slice_skip l6 (by omega), slice_skip l7 (by omega),
      slice_head l8 (by omega) (by omega)]
  have s9 : sliceOf s.text 25 34 = s.id := by
    rw [SimpleLine.text, slice_skip l1 (by omega), slice_skip l2 (by omega), slice_skip l3 (by omega),
      slice_skip l4 (by omega), slice_skip l5 (by omega), slice_skip l6 (by omega), slice_skip l7 (by omega),
      slice_skip l8 (by omega), slice_head l9 (by omega) (by omega)]
  have s10 : sliceOf s.text 34 38 = column 4 s.at' := by
    rw [SimpleLine.text, slice_skip l1 (by omega), slice_skip l2 (by omega), slice_skip l3 (by omega),
      slice_skip l4 (by omega), slice_skip l5 (by omega), slice_skip l6 (by omega), slice_skip l7 (by omega),
      slice_skip l8 (by omega), slice_skip l9 (by omega), slice_head l10 (by omega) (by omega)]
  have s11 : sliceOf s.text 38 42 = column 4 s.sst := by
    rw [SimpleLine.text, slice_skip l1 (by omega), slice_skip l2 (by omega), slice_skip l3 (by omega),
      slice_skip l4 (by omega), slice_skip l5 (by omega), slice_skip l6 (by omega), slice_skip l7 (by omega),
      slice_skip l8 (by omega), slice_skip l9 (by omega), slice_skip l10 (by omega),
      slice_head l11 (by omega) (by omega)]
  have s12 : sliceOf s.text 42 46 = column 4 s.dpt := by
    rw [SimpleLine.text, slice_skip l1 (by omega), slice_skip l2 (by omega), slice_skip l3 (by omega),
      slice_skip l4 (by omega), slice_skip l5 (by omega), slice_skip l6 (by omega), slice_skip l7 (by omega),
      slice_skip l8 (by omega), slice_skip l9 (by omega), slice_skip l10 (by omega), slice_skip l11 (by omega),
      slice_head l12 (by omega) (by omega)]
  have s13 : sliceOf s.text 46 49 = column 3 s.dck := by
    rw [SimpleLine.text, slice_skip l1 (by omega), slice_skip l2 (by omega), slice_skip l3 (by omega),
      slice_skip l4 (by omega), slice_skip l5 (by omega), slice_skip l6 (by omega), slice_skip l7 (by omega),
      slice_skip l8 (by omega), slice_skip l9 (by omega), slice_skip l10 (by omega), slice_skip l11 (by omega),
      slice_skip l12 (by omega), slice_head l13 (by omega) (by omega)]
  have s14 : sliceOf s.text 49 52 = column 3 s.sid := by
    rw [SimpleLine.text, slice_skip l1 (by omega), slice_skip l2 (by omega), slice_skip l3 (by omega),
      slice_skip l4 (by omega), slice_skip l5 (by omega), slice_skip l6 (by omega), slice_skip l7 (by omega),
      slice_skip l8 (by omega), slice_skip l9 (by omega), slice_skip l10 (by omega), slice_skip l11 (by omega),
      slice_skip l12 (by omega), slice_skip l13 (by omega), slice_head l14 (by omega) (by omega)]
  have s15 : sliceOf s.text 52 54 = column 2 s.pt := by
    rw [SimpleLine.text, slice_skip l1 (by omega), slice_skip l2 (by omega), slice_skip l3 (by omega),
      slice_skip l4 (by omega), slice_skip l5 (by omega), slice_skip l6 (by omega), slice_skip l7 (by omega),
      slice_skip l8 (by omega), slice_skip l9 (by omega), slice_skip l10 (by omega), slice_skip l11 (by omega),
      slice_skip l12 (by omega), slice_skip l13 (by omega), slice_skip l14 (by omega),
      slice_head l15 (by omega) (by omega)]
  have s16 : sliceOf s.text 54 60 = s.uid := by
    rw [SimpleLine.text, slice_skip l1 (by omega), slice_skip l2 (by omega), slice_skip l3 (by omega),
      slice_skip l4 (by omega), slice_skip l5 (by omega), slice_skip l6 (by omega), slice_skip l7 (by omega),
      slice_skip l8 (by omega), slice_skip l9 (by omega), slice_skip l10 (by omega), slice_skip l11 (by omega),
      slice_skip l12 (by omega), slice_skip l13 (by omega), slice_skip l14 (by omega), slice_skip l15 (by omega),
      slice_all l16 (by omega) (by omega)]
  rw [s1, s2, s3, s4, s5, s6, s7, s8, s9, s10, s11, s12, s13, s14, s15, s16]
  simp only [trint_column, hf, mul_one_div]

/-- **C139.** A field depends on its own columns only: whatever else is on two lines, if they have the same characters where a
field is, that field is the same. -/
theorem C139_local (num : List Char → Option Rat) (l l' : List Char) :
    let a := stripNewlines l
    let a' := stripNewlines l'
    let same := fun i j => ∀ k, i ≤ k → k < j → a[k]? = a'[k]?
    let r := simpleRead num l
    let r' := simpleRead num l'
    (same 0 4 → r.yr = r'.yr) ∧ (same 4 6 → r.mo = r'.mo) ∧ (same 6 8 → r.dy = r'.dy) ∧ (same 8 12 → r.hr = r'.hr) ∧
    (same 12 17 → r.lat = r'.lat) ∧ (same 17 23 → r.lon = r'.lon) ∧ (same 23 24 → r.ds = r'.ds) ∧
    (same 24 25 → r.vs = r'.vs) ∧ (same 25 34 → r.id = r'.id) ∧ (same 34 38 → r.at' = r'.at') ∧
    (same 38 42 → r.sst = r'.sst) ∧ (same 42 46 → r.dpt = r'.dpt) ∧ (same 46 49 → r.dck = r'.dck) ∧
    (same 49 52 → r.sid = r'.sid) ∧ (same 52 54 → r.pt = r'.pt) ∧ (same 54 60 → r.uid = r'.uid) := by
  intro a a' same r r'
  have key : ∀ i j, same i j → sliceOf a i j = sliceOf a' i j := by
    intro i j h
    unfold sliceOf
    apply List.ext_getElem?
    intro k
    rw [List.getElem?_take, List.getElem?_take]
    split
    · rw [List.getElem?_drop, List.getElem?_drop]
      exact h _ (by omega) (by omega)
    · rfl
  refine ⟨?_, ?_, ?_, ?_, ?_, ?_, ?_, ?_, ?_, ?_, ?_, ?_, ?_, ?_, ?_, ?_⟩
  all_goals
    intro h
    have e := key _ _ h
    simp only [r, r', simpleRead]
    first | exact congrArg trint e | exact e | exact congrArg (fun x => trfloat num x _) e

/-- A line with a missing speed. -/
def simpleSample : SimpleLine :=
  { yr := some 1998, mo := some 4, dy := some 28, hr := some 1800, lat := some (-2350), lon := some 17033, ds := some 3, vs := none,
    id := "SHIPABCDE".toList, at' := some 213, sst := some (-5), dpt := none, dck := some 926, sid := some 96, pt := some 5,
    uid := "A00001".toList }

example : simpleSample.Fits := by
  constructor
  all_goals first | (intro n hn; cases hn <;> decide +kernel) | decide

example : String.ofList simpleSample.text = "1998 4281800-2350 170333 SHIPABCDE 213  -5    926 96 5A00001" := by decide +kernel

/-- A `float` that meets the hypothesis: Python's `int`. -/
example : ∀ w x, (fun s => (trint s).map fun (n : Int) => (n : Rat)) (column w x) = x.map fun (n : Int) => (n : Rat) := by
  intro w x
  simp only [trint_column]

end MarineQC
