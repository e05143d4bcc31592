import Verif.Drifter.Props
import Verif.Tracking.Model
import Verif.Report.BaseQc

/-! # What the tracking program accepts as input (C145)

For any files, not only for those that the main program writes. -/

namespace MarineQC

open Spec

/-! ## Specification -/

/-- A row of a file of flags goes with a report: it has the UID of the report, but for blanks at the ends, and the report has the flags
of the row. -/
structure Spec.RowOf (block : String) (row : RowDict) (r : Report) : Prop where
  uid : ∀ s, rowGet row "UID".toList = some (some s) → ∃ u, r.uid = some u ∧ pyStrip s = pyStrip u.toList
  flags : ∀ k s, k ≠ "UID".toList → rowGet row k = some (some s) → ∃ n, parseInt s = .ok n ∧ r.getQc block (String.ofList k) = n
  full : ∀ k, rowGet row k ≠ some none

/-- Two reports that differ in flags at most. -/
def Spec.FlagsAlone (r r' : Report) : Prop := r' = { r with qc := r'.qc }

/-- The three files of a drifter and a month fit together: all are there, with the same number of lines, which is not 0; the variables
can be read; the rows of flags are no more than the reports, and each goes with the report in the same place.  `reps` are the reports
with these flags. -/
structure Spec.FilesFit (num : List Char → Option Rat) (order : List (List Char) → List (List Char)) (v p s : List Char)
    (reps : List Report) : Prop where
  lines : (fileLines v).length ≠ 0 ∧ (fileLines p).length = (fileLines v).length ∧ (fileLines s).length = (fileLines v).length
  reports : ∃ l, csvVariables num order v = .ok l ∧ List.Forall₂ FlagsAlone l reps
  pos : ∃ rows, dictRows (readHeaders (fileLines p)) (fileLines p) = .ok rows ∧
    ∀ (k : Nat) (row : RowDict × Bool), rows[k]? = some row → ∃ r, reps[k]? = some r ∧ RowOf "POS" row.1 r
  sst : ∃ rows, dictRows (readHeaders (fileLines s)) (fileLines s) = .ok rows ∧
    ∀ (k : Nat) (row : RowDict × Bool), rows[k]? = some row → ∃ r, reps[k]? = some r ∧ RowOf "SST" row.1 r

/-! ## Rows of flags -/

theorem flagsAlone_refl (r : Report) : FlagsAlone r r := rfl

theorem flagsAlone_trans {a b c : Report} (h : FlagsAlone a b) (h' : FlagsAlone b c) : FlagsAlone a c := by
  unfold FlagsAlone at *
  rw [h', h]

theorem forall2_sameFlags (l : List Report) : List.Forall₂ FlagsAlone l l := by
  induction l with
  | nil => exact .nil
  | cons r l ih => exact .cons rfl ih

theorem setQc_keeps {r r' : Report} {t f : String} {v : Int} (h : r.setQc t f v = .ok r') :
    FlagsAlone r r' ∧ r'.qc (t ++ f) = some v ∧ ∀ k, k ≠ t ++ f → r'.qc k = r.qc k := by
  unfold Report.setQc pyAssert at h
  split_ifs at h
  · cases h
    refine ⟨rfl, by simp, fun k hk => by simp [hk]⟩
  all_goals simp [bind, Except.bind] at h

theorem addFlag_keeps {block : String} {row : RowDict} {r r' : Report} {k : List Char} (h : addFlag block row r k = .ok r') :
    FlagsAlone r r' ∧ (∃ s, rowGet row k = some (some s) ∧
      (k = "UID".toList → r' = r ∧ ∃ u, r.uid = some u ∧ pyStrip s = pyStrip u.toList) ∧
      (k ≠ "UID".toList → ∃ n, parseInt s = .ok n ∧ r'.qc (block ++ String.ofList k) = some n)) ∧
      ∀ j, (k = "UID".toList ∨ j ≠ block ++ String.ofList k) → r'.qc j = r.qc j := by
  unfold addFlag at h
  cases hg : rowGet row k with
  | none => simp [hg] at h
  | some o =>
    cases o with
    | none => simp [hg] at h
    | some s =>
      simp only [hg] at h
      by_cases hk : k = "UID".toList
      · rw [if_pos hk] at h
        cases hu : r.uid with
        | none => simp [hu] at h
        | some u =>
          simp only [hu] at h
          split_ifs at h with hs
          cases h
          refine ⟨rfl, ⟨s, rfl, fun _ => ⟨rfl, u, rfl, not_not.mp hs⟩, fun h => absurd hk h⟩, fun _ _ => rfl⟩
      · rw [if_neg hk] at h
        obtain ⟨n, hn, h⟩ := bind_ok_iff.mp h
        obtain ⟨a, b, c⟩ := setQc_keeps h
        refine ⟨a, ⟨s, rfl, fun h => absurd h hk, fun _ => ⟨n, hn, b⟩⟩, fun j hj => c j (hj.resolve_left hk)⟩

theorem append_cancel {b : String} {j k : List Char} (h : b ++ String.ofList j = b ++ String.ofList k) : j = k := by
  have := congrArg String.toList h
  simpa using this

theorem fold_flags {block : String} {row : RowDict} : ∀ (ks : List (List Char)) {r r' : Report},
    ks.foldlM (addFlag block row) r = .ok r' → FlagsAlone r r' ∧
      (∀ k ∈ ks, ∃ s, rowGet row k = some (some s) ∧ (k = "UID".toList → ∃ u, r.uid = some u ∧ pyStrip s = pyStrip u.toList) ∧
        (k ≠ "UID".toList → ∃ n, parseInt s = .ok n ∧ r'.qc (block ++ String.ofList k) = some n)) ∧
      ∀ j, (∀ k ∈ ks, j ≠ block ++ String.ofList k) → r'.qc j = r.qc j
  | [], r, r', h => by
    cases h
    exact ⟨rfl, by simp, fun _ _ => rfl⟩
  | k :: ks, r, r', h => by
    rw [List.foldlM_cons] at h
    obtain ⟨q, hq, h⟩ := bind_ok_iff.mp h
    obtain ⟨a, ⟨s, hs, hu, hf⟩, c⟩ := addFlag_keeps hq
    obtain ⟨a', b', c'⟩ := fold_flags ks h
    have huid : q.uid = r.uid := by rw [a]
    refine ⟨flagsAlone_trans a a', ?_, ?_⟩
    · intro j hj
      rcases List.mem_cons.mp hj with rfl | hj'
      · refine ⟨s, hs, fun h => (hu h).2, fun hne => ?_⟩
        by_cases hm : j ∈ ks
        · obtain ⟨s', hs', -, hf'⟩ := b' j hm
          rw [hs] at hs'
          cases hs'
          exact hf' hne
        · obtain ⟨n, hn, e⟩ := hf hne
          refine ⟨n, hn, ?_⟩
          rw [c' _ fun k hk e' => hm (by rw [append_cancel e']; exact hk), e]
      · obtain ⟨s', hs', hu', hf'⟩ := b' j hj'
        exact ⟨s', hs', fun h => huid ▸ hu' h, hf'⟩
    · intro j hj
      rw [c' j fun k hk => hj k (List.mem_cons_of_mem _ hk), c j (.inr (hj k (by simp)))]

theorem rowGet_key {row : RowDict} {k : List Char} {x : Option (List Char)} (h : rowGet row k = some x) : k ∈ row.map Prod.fst := by
  unfold rowGet at h
  rw [Option.map_eq_some_iff] at h
  obtain ⟨q, hq, -⟩ := h
  have h1 := List.mem_of_find?_eq_some hq
  have h2 := List.find?_some hq
  rw [List.mem_map]
  exact ⟨q, h1, by simpa using h2⟩

theorem addFlagRow_keeps {order : List (List Char) → List (List Char)} (hord : ∀ l, (order l).Perm l) {block : String}
    {row : RowDict × Bool} {r r' : Report} (h : addFlagRow order block row r = .ok r') :
    FlagsAlone r r' ∧ RowOf block row.1 r' ∧ ∀ j, (∀ k, j ≠ block ++ String.ofList k) → r'.qc j = r.qc j := by
  unfold addFlagRow at h
  obtain ⟨q, hq, h⟩ := bind_ok_iff.mp h
  split_ifs at h
  cases h
  obtain ⟨a, b, c⟩ := fold_flags _ hq
  have hk : ∀ k x, rowGet row.1 k = some x → k ∈ order (row.1.map Prod.fst) := fun k x hx =>
    (hord _).mem_iff.mpr (rowGet_key hx)
  refine ⟨a, ⟨?_, ?_, ?_⟩, fun j hj => c j fun k _ => hj k⟩
  · intro s hs
    obtain ⟨s', hs', hu, -⟩ := b _ (hk _ _ hs)
    rw [hs] at hs'
    cases hs'
    rw [a]
    exact hu rfl
  · intro k s hne hs
    obtain ⟨s', hs', -, hf⟩ := b _ (hk _ _ hs)
    rw [hs] at hs'
    cases hs'
    obtain ⟨n, hn, e⟩ := hf hne
    exact ⟨n, hn, by simp only [Report.getQc, e]⟩
  · intro k hs
    obtain ⟨s', hs', -⟩ := b _ (hk _ _ hs)
    rw [hs] at hs'
    cases hs'

theorem addFlags_keeps {order : List (List Char) → List (List Char)} (hord : ∀ l, (order l).Perm l) {block : String} :
    ∀ (rows : List (RowDict × Bool)) {reps reps' : List Report}, addFlags order block rows reps = .ok reps' →
      List.Forall₂ (fun r r' => FlagsAlone r r' ∧ ∀ j, (∀ k, j ≠ block ++ String.ofList k) → r'.qc j = r.qc j) reps reps' ∧
      ∀ (k : Nat) row, rows[k]? = some row → ∃ r, reps'[k]? = some r ∧ RowOf block row.1 r
  | [], reps, reps', h => by
    cases h
    refine ⟨?_, by simp⟩
    induction reps with
    | nil => exact .nil
    | cons r l ih => exact .cons ⟨rfl, fun _ _ => rfl⟩ ih
  | row :: rows, [], reps', h => by simp [addFlags] at h
  | row :: rows, r :: reps, reps', h => by
    unfold addFlags at h
    obtain ⟨r', hr, h⟩ := bind_ok_iff.mp h
    obtain ⟨l, hl, h⟩ := bind_ok_iff.mp h
    cases h
    obtain ⟨a, b, c⟩ := addFlagRow_keeps hord hr
    obtain ⟨d, e⟩ := addFlags_keeps hord rows hl
    refine ⟨.cons ⟨a, c⟩ d, fun k x hx => ?_⟩
    cases k with
    | zero =>
      simp only [List.getElem?_cons_zero, Option.some.injEq] at hx ⊢
      exact ⟨r', rfl, hx ▸ b⟩
    | succ k => exact e k x (by simpa using hx)

theorem csvFlags_keeps {order : List (List Char) → List (List Char)} (hord : ∀ l, (order l).Perm l) {block : String} {s : List Char}
    {reps reps' : List Report} (h : csvFlags order block s reps = .ok reps') :
    List.Forall₂ (fun r r' => FlagsAlone r r' ∧ ∀ j, (∀ k, j ≠ block ++ String.ofList k) → r'.qc j = r.qc j) reps reps' ∧
      ∃ rows, dictRows (readHeaders (fileLines s)) (fileLines s) = .ok rows ∧
        ∀ (k : Nat) row, rows[k]? = some row → ∃ r, reps'[k]? = some r ∧ RowOf block row.1 r := by
  unfold csvFlags at h
  obtain ⟨rows, hr, h⟩ := bind_ok_iff.mp h
  obtain ⟨a, b⟩ := addFlags_keeps hord rows h
  exact ⟨a, rows, hr, b⟩

theorem forall2_flags_trans {R S : Report → Report → Prop} (hR : ∀ a b, R a b → FlagsAlone a b) (hS : ∀ a b, S a b → FlagsAlone a b) :
    ∀ {l m n : List Report}, List.Forall₂ R l m → List.Forall₂ S m n → List.Forall₂ FlagsAlone l n
  | [], _, _, .nil, .nil => .nil
  | _ :: _, _, _, .cons h t, .cons h' t' => .cons (flagsAlone_trans (hR _ _ h) (hS _ _ h')) (forall2_flags_trans hR hS t t')

theorem blocks_apart (k j : List Char) : "POS" ++ String.ofList k ≠ "SST" ++ String.ofList j := by
  intro h
  have := congrArg String.toList h
  simp at this

/-- What was said of a row of position flags stays true when the flags of temperatures are added. -/
theorem rowOf_sst {row : RowDict} {r r' : Report} (h : RowOf "POS" row r) (hs : FlagsAlone r r')
    (hj : ∀ j, (∀ k, j ≠ "SST" ++ String.ofList k) → r'.qc j = r.qc j) : RowOf "POS" row r' := by
  refine ⟨fun s h' => ?_, fun k s hk h' => ?_, h.full⟩
  · rw [hs]
    exact h.uid s h'
  · obtain ⟨n, hn, e⟩ := h.flags k s hk h'
    refine ⟨n, hn, ?_⟩
    unfold Report.getQc at e ⊢
    rw [hj _ fun j => blocks_apart k j]
    exact e

theorem forall2_place {R : Report → Report → Prop} : ∀ {l m : List Report}, List.Forall₂ R l m → ∀ {k : Nat} {r : Report},
    l[k]? = some r → ∃ r', m[k]? = some r' ∧ R r r'
  | _, _, .nil, k, r, h => by simp at h
  | _, _, .cons a t, 0, r, h => by
    simp only [List.getElem?_cons_zero, Option.some.injEq] at h ⊢
    exact ⟨_, rfl, h ▸ a⟩
  | _, _, .cons a t, k + 1, r, h => by
    simpa using forall2_place t (by simpa using h)

/-! ## The property -/

/-- **C145.**  Whatever is in the files of a drifter and a month: if the tracking program accepts the month, there are no files, and then
it has no reports, or the three files fit together, and the reports are those of the file of variables with the flags of the rows that
belong to them. -/
theorem C145_accepted (num : List Char → Option Rat) (order : List (List Char) → List (List Char)) (hord : ∀ l, (order l).Perm l)
    (fs : FileSys) (out runid target : List Char) (year month : Int) (reps : List Report)
    (h : readMonth num order fs out runid target year month = .ok reps) :
    ((∀ pre ∈ ["Variables_", "POS_qc_", "SST_qc_"], fs.file (inputPath out runid target year month pre) = none) ∧ reps = []) ∨
    ∃ v p s, fs.file (inputPath out runid target year month "Variables_") = some v ∧
      fs.file (inputPath out runid target year month "POS_qc_") = some p ∧
      fs.file (inputPath out runid target year month "SST_qc_") = some s ∧ FilesFit num order v p s reps := by
  unfold readMonth at h
  split at h
  · rename_i hv hp hs
    cases h
    refine .inl ⟨fun pre hpre => ?_, rfl⟩
    simp only [List.mem_cons, List.not_mem_nil, or_false] at hpre
    rcases hpre with rfl | rfl | rfl <;> assumption
  · rename_i v p s hv hp hs
    split_ifs at h with hc
    obtain ⟨l, hl, h⟩ := bind_ok_iff.mp h
    obtain ⟨l', hl', h⟩ := bind_ok_iff.mp h
    obtain ⟨a, b⟩ := csvFlags_keeps hord hl'
    obtain ⟨c, d⟩ := csvFlags_keeps hord h
    push Not at hc
    refine .inr ⟨v, p, s, hv, hp, hs, hc, ⟨l, hl, forall2_flags_trans (fun _ _ h => h.1) (fun _ _ h => h.1) a c⟩, ?_, d⟩
    obtain ⟨rows, hr, e⟩ := b
    refine ⟨rows, hr, fun k row hk => ?_⟩
    obtain ⟨r, h1, h2⟩ := e k row hk
    obtain ⟨r', h3, h4⟩ := forall2_place c h1
    exact ⟨r', h3, rowOf_sst h2 h4.1 h4.2⟩
  · cases h

theorem mapM_of_mem {α β : Type} {f : α → Except Err β} : ∀ {l : List α} {r : List β}, l.mapM f = .ok r → ∀ a ∈ l, ∃ b, f a = .ok b
  | [], _, _, a, ha => by simp at ha
  | x :: l, r, h, a, ha => by
    rw [List.mapM_cons] at h
    obtain ⟨b, hb, h⟩ := bind_ok_iff.mp h
    obtain ⟨t, ht, -⟩ := bind_ok_iff.mp h
    rcases List.mem_cons.mp ha with rfl | ha
    · exact ⟨b, hb⟩
    · exact mapM_of_mem ht a ha

/-- **C145.**  If one of the files of one of the months asked for is there, but the three do not fit together, the tracking program stops
with an error and writes nothing. -/
theorem C145_refused (fmt : Rat → List Char) (num : List Char → Option Rat) (order : List (List Char) → List (List Char))
    (hord : ∀ l, (order l).Perm l) (G : Geo) (elev : Int → Int → Rat → Rat → Rat → Rat → ℝ) (P : DriftParams)
    (out trackOut runid arg runmonthid : List Char) (months : List (Int × Int)) (year month : Int) (edge : List String) (fs : FileSys)
    (m : Int × Int) (hm : m ∈ months)
    (there : ∃ pre ∈ ["Variables_", "POS_qc_", "SST_qc_"], fs.file (inputPath out runid (targetId arg) m.1 m.2 pre) ≠ none)
    (unfit : ∀ v p s reps, fs.file (inputPath out runid (targetId arg) m.1 m.2 "Variables_") = some v →
      fs.file (inputPath out runid (targetId arg) m.1 m.2 "POS_qc_") = some p →
      fs.file (inputPath out runid (targetId arg) m.1 m.2 "SST_qc_") = some s → ¬ FilesFit num order v p s reps) :
    ∃ e, trackingMain fmt num order G elev P out trackOut runid arg runmonthid months year month edge fs = (fs, some e) := by
  have hr : ∃ e, readChunk num order fs out runid arg months = .error e := by
    cases h : readChunk num order fs out runid arg months with
    | error e => exact ⟨e, rfl⟩
    | ok l =>
      exfalso
      unfold readChunk at h
      obtain ⟨l, hl, -⟩ := bind_ok_iff.mp h
      obtain ⟨reps, hreps⟩ := mapM_of_mem hl m hm
      rcases C145_accepted num order hord fs out runid (targetId arg) m.1 m.2 reps hreps with ⟨h, -⟩ | ⟨v, p, s, h1, h2, h3, h4⟩
      · obtain ⟨pre, hp, hn⟩ := there
        exact hn (h pre hp)
      · exact unfit v p s reps h1 h2 h3 h4
  obtain ⟨e, he⟩ := hr
  refine ⟨e, ?_⟩
  unfold trackingMain
  rw [he]
  rfl

/-- **C145.**  In particular a file that has been emptied, as by a run of the main program that has just opened it again, is not passed
over. -/
theorem C145_emptied (fmt : Rat → List Char) (num : List Char → Option Rat) (order : List (List Char) → List (List Char))
    (hord : ∀ l, (order l).Perm l) (G : Geo) (elev : Int → Int → Rat → Rat → Rat → Rat → ℝ) (P : DriftParams)
    (out trackOut runid arg runmonthid : List Char) (months : List (Int × Int)) (year month : Int) (edge : List String) (fs : FileSys)
    (m : Int × Int) (hm : m ∈ months) (pre : String) (hp : pre ∈ ["Variables_", "POS_qc_", "SST_qc_"]) :
    ∃ e, trackingMain fmt num order G elev P out trackOut runid arg runmonthid months year month edge
        { fs with file := fun x => if x = inputPath out runid (targetId arg) m.1 m.2 pre then some [] else fs.file x } =
      ({ fs with file := fun x => if x = inputPath out runid (targetId arg) m.1 m.2 pre then some [] else fs.file x }, some e) := by
  refine C145_refused fmt num order hord G elev P out trackOut runid arg runmonthid months year month edge _ m hm
    ⟨pre, hp, by simp⟩ fun v p s reps h1 h2 h3 h4 => ?_
  have e : fileLines [] = [] := by decide
  obtain ⟨a, b, c⟩ := h4.lines
  simp only [List.mem_cons, List.not_mem_nil, or_false] at hp
  rcases hp with rfl | rfl | rfl
  · simp only [if_true, Option.some.injEq] at h1
    subst h1
    exact a (by rw [e]; rfl)
  · simp only [if_true, Option.some.injEq] at h2
    subst h2
    rw [e] at b
    exact a b.symm
  · simp only [if_true, Option.some.injEq] at h3
    subst h3
    rw [e] at c
    exact a c.symm

/-- Three small files. -/
def matchVariables : List Char := ("UID,ID,YR,MO,DY,HR,LAT,LON,A,B,AT,ANOM,SST,ANOM,OSTIA,ICE,BGVAR\n" ++
  "U1,D1,2003,4,5,6,10,20,1,1,15,0,16,0,16,0,1\nU2,D1,2003,4,6,6,11,20,1,1,15,0,16,0,\\N,\\N,\\N\n").toList
def matchPos : List Char := "UID,pos,date\nU1 ,0,0\nU2,1,0\n".toList
def matchSst : List Char := "UID,bud\nU1,1\nU2,0\n".toList
/-- The rows the other way round. -/
def matchSwapped : List Char := "UID,bud\nU2,0\nU1,1\n".toList
def matchNumber (s : List Char) : Option Rat := (parseInt s).toOption.map fun n => (n : Rat)
def matchFs (sst : List Char) : FileSys :=
  ⟨fun x => if x = inputPath ['o'] ['r'] (targetId ['D', '1']) 2003 4 "Variables_" then some matchVariables
    else if x = inputPath ['o'] ['r'] (targetId ['D', '1']) 2003 4 "POS_qc_" then some matchPos
    else if x = inputPath ['o'] ['r'] (targetId ['D', '1']) 2003 4 "SST_qc_" then some sst else none, fun _ => true⟩

/-- The month is accepted: two reports, the flags as in the rows. -/
example : ((readMonth matchNumber id (matchFs matchSst) ['o'] ['r'] (targetId ['D', '1']) 2003 4).toOption.map fun l =>
    l.map fun r => (r.uid, r.getQc "POS" "pos", r.getQc "SST" "bud")) = some [(some "U1", 0, 1), (some "U2", 1, 0)] := by
  decide +kernel

/-- Where a file of flags ends with an empty line in place of a row, the month is accepted and the last report has no flags. -/
theorem C145_blank_line : ((readMonth matchNumber id (matchFs "UID,bud\nU1,1\n\n".toList) ['o'] ['r'] (targetId ['D', '1']) 2003
    4).toOption.map fun l => l.map fun r => (r.uid, r.getQc "SST" "bud")) = some [(some "U1", 1), (some "U2", 9)] := by
  decide +kernel

/-- With the rows the other way round it is refused. -/
example : (readMonth matchNumber id (matchFs matchSwapped) ['o'] ['r'] (targetId ['D', '1']) 2003 4).toOption.isNone = true := by
  decide +kernel

end MarineQC
