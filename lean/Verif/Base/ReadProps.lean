import Verif.Base.ReadStep
import Verif.Base.ReadInv

/-!
# Reading the reports of a month (C104, C105)
-/

namespace MarineQC

open Spec

variable {F : Type} [LinearOrder F] [Zero F]

/-! ## Lines and records -/

theorem recordIn_iff {excl : List (List Char)} {ym : Int × Int} {line : List Char} {rec : Imma} :
    recordIn excl ym line = some rec ↔ Used excl ym.1 ym.2 line rec := by
  unfold recordIn Used
  cases h : Imma.empty.readstr line with
  | error e => simp
  | ok r =>
    simp only [Except.ok.injEq]
    constructor
    · intro h'
      split_ifs at h' with hc
      injection h' with h'
      subst h'
      exact ⟨rfl, hc⟩
    · rintro ⟨rfl, hc⟩
      rw [if_pos hc]

theorem wanted_false {excl : List (List Char)} {y m : Int} {line : List Char}
    (h : wanted excl y m (readState line) = .ok false) : recordIn excl (y, m) line = none := by
  cases hr : recordIn excl (y, m) line with
  | none => rfl
  | some rec =>
    have := (C104_used excl y m line).mpr ⟨rec, recordIn_iff.mp hr⟩
    rw [this] at h
    cases h

theorem wanted_true {excl : List (List Char)} {y m : Int} {line : List Char}
    (h : wanted excl y m (readState line) = .ok true) : recordIn excl (y, m) line = some (readState line).1 := by
  obtain ⟨rec, hr⟩ := (C104_used excl y m line).mp h
  rw [recordIn_iff.mpr hr, (readState_ok.mp hr.1)]

/-- The loop over the lines of a file is a loop over the records that are used. -/
theorem readLines_ok {E : ReadEnv F} {year month : Int} {bg : Option Arr3} {y m : Int} :
    ∀ {lines : List (List Char)} {s s' : ReadState}, lines.foldlM (readLine E year month bg y m) s = .ok s' →
      (recordsIn E.excl (y, m) lines).foldlM (useRecord E year month bg y m) s = .ok s'
  | [], s, s', h => h
  | line :: lines, s, s', h => by
    rw [List.foldlM_cons, bind_ok_iff] at h
    obtain ⟨s1, h1, h⟩ := h
    have ih := readLines_ok h
    unfold readLine at h1
    rw [bind_ok_iff] at h1
    obtain ⟨b, hb, h1⟩ := h1
    unfold recordsIn at ih ⊢
    cases b with
    | true =>
      rw [List.filterMap_cons_some (wanted_true hb), List.foldlM_cons, bind_ok_iff]
      exact ⟨s1, h1, ih⟩
    | false =>
      rw [List.filterMap_cons_none (wanted_false hb)]
      injection h1 with h1
      subst h1
      exact ih

theorem readLines_eq {E : ReadEnv F} {year month : Int} {bg : Option Arr3} {y m : Int} :
    ∀ {lines : List (List Char)} {s : ReadState}, (∀ line ∈ lines, HasIdentifier line) →
      lines.foldlM (readLine E year month bg y m) s =
      (recordsIn E.excl (y, m) lines).foldlM (useRecord E year month bg y m) s
  | [], s, _ => rfl
  | line :: lines, s, h => by
    have hl := h line List.mem_cons_self
    have hr : ∀ line ∈ lines, HasIdentifier line := fun l hm => h l (List.mem_cons_of_mem _ hm)
    rw [List.foldlM_cons]
    unfold readLine
    unfold recordsIn
    cases hw : wanted E.excl y m (readState line) with
    | error e => exact absurd hl ((wanted_error E.excl y m line).mp ⟨e, hw⟩)
    | ok b =>
      rw [except_bind_ok]
      cases b with
      | true =>
        rw [List.filterMap_cons_some (wanted_true hw), List.foldlM_cons]
        simp only [if_true]
        congr 1
        funext s1
        exact readLines_eq hr
      | false =>
        rw [List.filterMap_cons_none (wanted_false hw)]
        exact readLines_eq hr

theorem readMonthFile_ok {E : ReadEnv F} {year month : Int} {s s' : ReadState} {ym : Int × Int}
    (h : readMonthFile E year month s ym = .ok s') : ∃ bg, seasonField E ym.2 = .ok bg ∧
      (recordsIn E.excl ym (linesOfFile E ym)).foldlM (useRecord E year month bg ym.1 ym.2) s = .ok s' := by
  unfold readMonthFile at h
  simp only [bind_ok_iff] at h
  obtain ⟨bg, hbg, name, hname, file, hfile, h⟩ := h
  refine ⟨bg, hbg, ?_⟩
  unfold linesOfFile
  rw [hname]
  cases name with
  | none => cases hfile
  | some p =>
    unfold openFile at hfile
    injection hfile with hfile
    simp only
    rw [hfile]
    cases file with
    | none =>
      injection h with h
      subst h
      rfl
    | some lines => exact readLines_ok h

/-! ## The records one after the other -/

/-- Reading the records one after the other. -/
inductive Reading (E : ReadEnv F) (year month : Int) :
    List ((Int × Int) × Imma) → ReadState → List Report → ReadState → Prop
  | nil (s : ReadState) : Reading E year month [] s [] s
  | cons {p : (Int × Int) × Imma} {l : List ((Int × Int) × Imma)} {s s1 s2 : ReadState} {r : Report} {rs : List Report}
      {bg : Option Arr3} (hbg : seasonField E p.1.2 = .ok bg) (deck : s1.deck = s.deck.append r)
      (made : ReadAs E.hum E.elev E.params s.lib year month p.1 p.2 r)
      (back : BackgroundStep E bg p.1 p.2 s.lastday s1.lastday s.lib s1.lib r)
      (rest : Reading E year month l s1 rs s2) : Reading E year month (p :: l) s (r :: rs) s2

theorem Reading.append {E : ReadEnv F} {year month : Int} {l l' : List ((Int × Int) × Imma)} {s s1 s2 : ReadState}
    {rs rs' : List Report} (h : Reading E year month l s rs s1) (h' : Reading E year month l' s1 rs' s2) :
    Reading E year month (l ++ l') s (rs ++ rs') s2 := by
  induction h with
  | nil s => exact h'
  | cons hbg deck made back rest ih => exact .cons hbg deck made back (ih h')

theorem recordsIn_month {excl : List (List Char)} {ym : Int × Int} {lines : List (List Char)} {rec : Imma}
    (h : rec ∈ recordsIn excl ym lines) : ∃ line ∈ lines, Used excl ym.1 ym.2 line rec := by
  unfold recordsIn at h
  rw [List.mem_filterMap] at h
  obtain ⟨line, hl, h⟩ := h
  exact ⟨line, hl, recordIn_iff.mp h⟩

theorem reading_month {E : ReadEnv F} {year month : Int} {bg : Option Arr3} {ym : Int × Int}
    (hbg : seasonField E ym.2 = .ok bg) : ∀ {recs : List Imma} {s s' : ReadState},
    (∀ rec ∈ recs, rec.data "YR" = some (some (.num ym.1)) ∧ rec.data "MO" = some (some (.num ym.2))) →
    recs.foldlM (useRecord E year month bg ym.1 ym.2) s = .ok s' →
    ∃ rs, Reading E year month (recs.map fun rec => (ym, rec)) s rs s'
  | [], s, s', _, h => by
    injection h with h
    subst h
    exact ⟨[], .nil s⟩
  | rec :: recs, s, s', hr, h => by
    rw [List.foldlM_cons, bind_ok_iff] at h
    obtain ⟨s1, h1, h⟩ := h
    obtain ⟨rs, i⟩ := reading_month hbg (fun x hx => hr x (List.mem_cons_of_mem _ hx)) h
    obtain ⟨hy, hm⟩ := hr rec List.mem_cons_self
    obtain ⟨r, d, m, b⟩ := useRecord_ok hy hm h1
    exact ⟨r :: rs, .cons hbg d m b i⟩

theorem reading_months {E : ReadEnv F} {year month : Int} : ∀ {months : List (Int × Int)} {s s' : ReadState},
    months.foldlM (readMonthFile E year month) s = .ok s' →
    ∃ rs, Reading E year month (recordsFor E months) s rs s'
  | [], s, s', h => by
    injection h with h
    subst h
    exact ⟨[], .nil s⟩
  | ym :: months, s, s', h => by
    rw [List.foldlM_cons, bind_ok_iff] at h
    obtain ⟨s1, h1, h⟩ := h
    obtain ⟨bg, hbg, h1⟩ := readMonthFile_ok h1
    obtain ⟨rs, i⟩ := reading_month hbg (fun rec hrec => by
      obtain ⟨line, -, u⟩ := recordsIn_month hrec
      exact ⟨u.2.1, u.2.2.1⟩) h1
    obtain ⟨rs', i'⟩ := reading_months h
    exact ⟨rs ++ rs', by
      unfold recordsFor
      rw [List.flatMap_cons]
      exact i.append i'⟩

theorem normals_congr {lib lib' : ClimLib Arr3} (h : ∀ v s, v ≠ "OSTIA" → lib'.getField v s = lib.getField v s)
    {r : Report} (hn : Normals lib' r) : Normals lib r := by
  have ne : ∀ v, v ∈ ["SST", "AT", "SLP2", "SHU", "CRH", "CWB", "DPD", "DPT", "AT2", "SLP"] → v ≠ "OSTIA" := by
    rintro v hv rfl
    revert hv
    decide
  refine ⟨?_, ?_, ?_, hn.others⟩
  · intro v hv
    obtain ⟨f, x, h1, h2⟩ := hn.mds v hv
    refine ⟨f, x, ?_, h2⟩
    rw [← h v _ (ne v (by simp only [List.mem_cons, List.not_mem_nil, or_false] at hv ⊢; tauto))]
    exact h1
  · intro v hv
    obtain ⟨f, x, h1, h2⟩ := hn.mean v hv
    refine ⟨f, x, ?_, h2⟩
    rw [← h v _ (ne v (by simp only [List.mem_cons, List.not_mem_nil, or_false] at hv ⊢; tauto))]
    exact h1
  · intro v hv
    obtain ⟨f, g, x, s, h1, h2, h3⟩ := hn.spread v hv
    have hne := ne v (by simp only [List.mem_cons, List.not_mem_nil, or_false] at hv ⊢; tauto)
    refine ⟨f, g, x, s, ?_, ?_, h3⟩
    · rw [← h v _ hne]; exact h1
    · rw [← h v _ hne]; exact h2

theorem readAs_congr {H : HumFns} {elev : Elev F} {p : BaseParams} {lib lib' : ClimLib Arr3}
    (h : ∀ v s, v ≠ "OSTIA" → lib'.getField v s = lib.getField v s) {year month : Int} {ym : Int × Int} {rec : Imma}
    {r : Report} (hr : ReadAs H elev p lib' year month ym rec r) : ReadAs H elev p lib year month ym rec r := by
  obtain ⟨raw, checked, hp, rest⟩ := hr
  exact ⟨raw, checked, { hp with normals := normals_congr h hp.normals }, rest⟩

theorem reading_reports {E : ReadEnv F} {year month : Int} {l : List ((Int × Int) × Imma)} {s s' : ReadState}
    {rs : List Report} (h : Reading E year month l s rs s') : s'.deck = s.deck.ofReports rs ∧
      (∀ v t, v ≠ "OSTIA" → s'.lib.getField v t = s.lib.getField v t) ∧
      List.Forall₂ (fun p r => ReadAs E.hum E.elev E.params s.lib year month p.1 p.2 r) l rs := by
  induction h with
  | nil s => exact ⟨rfl, fun _ _ _ => rfl, .nil⟩
  | cons hbg deck made back rest ih =>
    obtain ⟨i1, i2, i3⟩ := ih
    refine ⟨?_, ?_, .cons made ?_⟩
    · rw [i1, deck]
      rfl
    · intro v t hv
      rw [i2 v t hv, back.others v t hv]
    · refine i3.imp ?_
      intro p r hr
      exact readAs_congr back.others hr

/-- **C104.**  Reading for a month takes the files of the month before, of the month and of the month after.  The deck
holds one report for each record that is used, in the order of the months and of the lines, and each report holds the
identifiers and numbers of its record, its own flags, and a flag that tells whether it is of the month in hand. -/
theorem C104_reports (E : ReadEnv F) (lib : ClimLib Arr3) (year month : Int) (hm : 1 ≤ month ∧ month ≤ 12)
    (s : ReadState) (h : readReports E lib year month = .ok s) :
    ∃ before, succMonth before = (year, month) ∧ (1 ≤ before.2 ∧ before.2 ≤ 12) ∧
      s.deck = Deck.empty.ofReports s.deck.reps ∧
      List.Forall₂ (fun p r => ReadAs E.hum E.elev E.params lib year month p.1 p.2 r)
        (recordsFor E [before, (year, month), succMonth (year, month)]) s.deck.reps := by
  obtain ⟨p, q, hp, hp', rfl, hr⟩ := C08_three_months year month hm 3 (le_refl 3)
  unfold readReports at h
  rw [hr, except_bind_ok] at h
  simp only at h
  obtain ⟨rs, hrs⟩ := reading_months h
  obtain ⟨h1, -, h2⟩ := reading_reports hrs
  have h3 : s.deck.reps = rs := by
    rw [h1, ofReports_reps]
    rfl
  refine ⟨p, hp, hp', ?_, ?_⟩
  · rw [h3]; exact h1
  · rw [h3]; exact h2

/-- **C104**, spelt out: identifiers and numbers of a report, and the flag for the month. -/
theorem C104_contents {H : HumFns} {elev : Elev F} {p : BaseParams} {lib : ClimLib Arr3}
    {year month : Int} {ym : Int × Int} {rec : Imma} {r : Report} (h : ReadAs H elev p lib year month ym rec r) :
    r.id = textOf (rec.data "ID") ∧ r.uid = textOf (rec.data "UID") ∧
    (∀ v ∈ VARLIST, v ∉ ["HR", "AT2", "SHU", "VAP", "CRH", "CWB", "DPD"] → r.data v = numericOf (rec.data v)) ∧
    (r.data "HR" = numericOf (rec.data "HR") ∨ (numericOf (rec.data "HR") = none ∧ r.data "HR" = some 0 ∧
      (numericOf (rec.data "DCK")).map pyInt = some 701 ∧
      ∀ y, (numericOf (rec.data "YR")).map pyInt = some y → y < 1860)) ∧
    r.data "AT2" = numericOf (rec.data "AT") ∧
    (r.getQc "POS" "month_match" = 1 ↔ ym = (year, month)) ∧
    (r.getQc "POS" "month_match" = 0 ↔ ym ≠ (year, month)) ∧
    (∀ k ∉ baseKeys, k ≠ "POSmonth_match" → r.qc k = none) := by
  obtain ⟨raw, checked, hp, hq, rfl⟩ := h
  obtain ⟨q1, q2, q3, q4, q5⟩ := baseQc_only hq
  refine ⟨by rw [← hp.id]; exact q1, by rw [← hp.uid]; exact q2, ?_, ?_, ?_, ?_, ?_, ?_⟩
  · intro v hv hn
    simp only [List.mem_cons, List.not_mem_nil, or_false, not_or] at hn
    rw [← hp.data v hv (by simp [hn])]
    exact q3 v hn.1
  · obtain ⟨t, ht, ⟨q, rfl⟩, -⟩ := C34_base_flags_partial elev p raw checked hq
    obtain ⟨a1, a2, -⟩ := C34_missing_hour raw t ht
    have hh : raw.data "HR" = numericOf (rec.data "HR") := hp.data "HR" (by decide) (by decide)
    by_cases hc : raw.getint "DCK" = some 701 ∧ (∀ y, raw.getint "YR" = some y → y < 1860) ∧ raw.getvar "HR" = none
    · right
      obtain ⟨b1, -⟩ := a2 hc
      obtain ⟨c1, c2, c3⟩ := hc
      have gi : ∀ v ∈ VARLIST, v ∉ ["AT2", "SHU", "VAP", "CRH", "CWB", "DPD"] →
          raw.getint v = (numericOf (rec.data v)).map pyInt := by
        intro v h1 h2
        rw [← hp.data v h1 h2]
        unfold Report.getint
        cases raw.data v <;> rfl
      have gh : ∀ x : Report, x.getvar "HR" = x.data "HR" := by
        intro x
        unfold Report.getvar
        rw [if_neg (by simp [VARLIST]), if_pos (by decide)]
        cases x.data "HR" with
        | none => rfl
        | some q => simp [intVars]
      rw [gh] at b1 c3
      rw [gi "DCK" (by decide) (by decide)] at c1
      rw [gi "YR" (by decide) (by decide)] at c2
      exact ⟨by rw [← hh]; exact c3, b1, c1, c2⟩
    · left
      rw [← hh, ← a1 hc]
  · rw [← hp.at2]
    exact q3 "AT2" (by decide)
  · unfold Report.getQc
    simp only [String.reduceAppend, if_true]
    by_cases he : ym = (year, month) <;> simp [he]
  · unfold Report.getQc
    simp only [String.reduceAppend, if_true]
    by_cases he : ym = (year, month) <;> simp [he]
  · intro k hk hne
    simp only
    rw [if_neg hne]
    have hb : ∀ k, k ∉ baseKeys → checked.qc k = raw.qc k := by
      obtain ⟨t, ht, -, rest⟩ := C34_base_flags_partial elev p raw checked hq
      repeat (first | exact rest | replace rest := rest.2)
    rw [hb k hk]
    exact hp.flags k

/-! ## The background -/

theorem backgroundOf_before {E : ReadEnv F} {y m d : Int} {b : Arr3 × Arr3} (h : backgroundOf E y m d = .ok b) :
    FieldsBefore E y m d b := by
  unfold backgroundOf at h
  constructor
  · rintro ⟨h1, h2, h3, h4⟩
    obtain ⟨y', m', d', e, e1, e2⟩ := C01_yesterday_predecessor y m d h1 h2 h3 h4
    rw [e] at h
    exact ⟨y', m', d', e1, e2, h⟩
  · intro hc t i j
    have : yesterday y m d = none := (C01_yesterday_none y m d).mpr (by
      by_contra hn
      rw [not_or, not_not] at hn
      exact hc ⟨hn.1.1, hn.1.2.1, hn.1.2.2, hn.2⟩)
    rw [this] at h
    simp only [bind_ok_iff] at h
    obtain ⟨f, hf, h⟩ := h
    injection h with h
    subst h
    unfold fromNoFile climInit at hf
    rw [show ((decide ((1 : Nat) = 1) || decide ((1 : Nat) = 73)) || decide ((1 : Nat) = 365)) = true from rfl] at hf
    injection hf with hf
    subst hf
    exact ⟨rfl, rfl⟩

/-- What a report gets as background: the values of the day before its own date, at its place, and nothing if it is not
dated. -/
def RightBackground (E : ReadEnv F) (p : (Int × Int) × Imma) (r : Report) : Prop :=
  (Dated E.tracking p → ∃ d season bg b, dayOf p.2 = some d ∧ seasonOf p.1.2 = some season ∧
    E.bgVar (some season) = .ok bg ∧ FieldsBefore E p.1.1 p.1.2 d b ∧ BackgroundFrom b bg r) ∧
  (¬ Dated E.tracking p → NoBackground r)

/-- Two neighbours among the dated records: the program takes the second for one of the same date when its day of the
month is the same. -/
def SameMonthIfSameDay (p q : (Int × Int) × Imma) : Prop := dayOf p.2 = dayOf q.2 → p.1 = q.1

theorem getField_inj {lib : ClimLib Arr3} {v s : String} {f g : Arr3} (h : lib.getField v s = .ok f)
    (h' : lib.getField v s = .ok g) : f = g := by
  rw [h] at h'
  injection h'

/-- The state of the background before a record: nothing yet, or the fields for the last dated record. -/
def BackgroundState (E : ReadEnv F) (last : Option ((Int × Int) × Imma)) (s : ReadState) : Prop :=
  match last with
  | none => s.lastday = -99
  | some p => ∃ d b, dayOf p.2 = some d ∧ s.lastday = d ∧ FieldsBefore E p.1.1 p.1.2 d b ∧
      s.lib.getField "OSTIA" "background" = .ok b.1 ∧ s.lib.getField "OSTIA" "ice" = .ok b.2

theorem reading_background {E : ReadEnv F} {year month : Int} {l : List ((Int × Int) × Imma)} {s s' : ReadState}
    {rs : List Report} (h : Reading E year month l s rs s') :
    ∀ (last : Option ((Int × Int) × Imma)), BackgroundState E last s →
    (∀ p ∈ l, 1 ≤ p.1.2 ∧ p.1.2 ≤ 12) → (∀ p ∈ l, dayOf p.2 ≠ some (-99)) →
    List.IsChain SameMonthIfSameDay (last.toList ++ l.filter (fun p => decide (Dated E.tracking p))) →
    List.Forall₂ (RightBackground E) l rs := by
  induction h with
  | nil s => intros; exact .nil
  | @cons p l s s1 s2 r rs bg hbg deck made back rest ih =>
    intro last hs hm hd hc
    have hm' : ∀ q ∈ l, 1 ≤ q.1.2 ∧ q.1.2 ≤ 12 := fun q hq => hm q (List.mem_cons_of_mem _ hq)
    have hd' : ∀ q ∈ l, dayOf q.2 ≠ some (-99) := fun q hq => hd q (List.mem_cons_of_mem _ hq)
    by_cases hp : Dated E.tracking p
    · rw [List.filter_cons, if_pos (decide_eq_true hp)] at hc
      obtain ⟨t1, t2, t3⟩ := hp
      obtain ⟨d, hday⟩ := Option.isSome_iff_exists.mp t3
      unfold seasonField at hbg
      rw [if_pos t1] at hbg
      rw [bind_ok_iff] at hbg
      obtain ⟨sn, hsn, hbg⟩ := hbg
      rw [bind_ok_iff] at hbg
      obtain ⟨f, hf, hbg⟩ := hbg
      injection hbg with hbg
      subst hbg
      have hsn' : sn = seasonOf p.1.2 := by
        have := C09_season_partial p.1.2 (by have := hm p List.mem_cons_self; omega)
        rw [this] at hsn
        injection hsn with hsn
        exact hsn.symm
      obtain ⟨season, hseason⟩ : ∃ season, seasonOf p.1.2 = some season := by
        obtain ⟨g1, g2⟩ := hm p List.mem_cons_self
        have : p.1.2 = 1 ∨ p.1.2 = 2 ∨ p.1.2 = 3 ∨ p.1.2 = 4 ∨ p.1.2 = 5 ∨ p.1.2 = 6 ∨ p.1.2 = 7 ∨ p.1.2 = 8 ∨
          p.1.2 = 9 ∨ p.1.2 = 10 ∨ p.1.2 = 11 ∨ p.1.2 = 12 := by omega
        rcases this with e | e | e | e | e | e | e | e | e | e | e | e <;> rw [e] <;> exact ⟨_, rfl⟩
      obtain ⟨b1, ⟨b, b2, b3, b4⟩, b5, b6⟩ := back.dated f d rfl t2 hday
      have hb : FieldsBefore E p.1.1 p.1.2 d b := by
        by_cases hl : d = s.lastday
        · have e := b5 hl
          cases last with
          | none =>
            exfalso
            rw [show s.lastday = -99 from hs] at hl
            exact hd p List.mem_cons_self (by rw [hday, hl])
          | some q =>
            obtain ⟨d', b', q1, q2, q3, q4, q5⟩ := hs
            rw [Option.toList_some, List.singleton_append, List.isChain_cons_cons] at hc
            have hq := hc.1 (by rw [q1, hday, hl, q2])
            rw [e] at b2 b3
            have : b = b' := Prod.ext (getField_inj b2 q4) (getField_inj b3 q5)
            rw [this, ← hq, hl, q2]
            exact q3
        · obtain ⟨b', c1, c2, c3⟩ := b6 hl
          have : b = b' := Prod.ext (getField_inj b2 c2) (getField_inj b3 c3)
          rw [this]
          exact backgroundOf_before c1
      refine .cons ⟨fun _ => ?_, fun hn => absurd ⟨t1, t2, t3⟩ hn⟩ ?_
      · exact ⟨d, season, f, b, hday, hseason, by rw [← hseason, ← hsn']; exact hf, hb, b4⟩
      · refine ih (some p) ⟨d, b, hday, b1, hb, b2, b3⟩ hm' hd' ?_
        rw [Option.toList_some, List.singleton_append]
        cases last with
        | none => exact hc
        | some q =>
          rw [Option.toList_some, List.singleton_append, List.isChain_cons_cons] at hc
          exact hc.2
    · rw [List.filter_cons, if_neg (by simpa using hp)] at hc
      have hu : bg = none ∨ p.1.1 < 1985 ∨ dayOf p.2 = none := by
        by_contra hn
        rw [not_or, not_or] at hn
        obtain ⟨n1, n2, n3⟩ := hn
        refine hp ⟨?_, by omega, Option.isSome_iff_ne_none.mpr n3⟩
        unfold seasonField at hbg
        by_contra ht
        rw [if_neg ht] at hbg
        injection hbg with hbg
        exact n1 hbg.symm
      obtain ⟨u1, u2, u3⟩ := back.undated hu
      refine .cons ⟨fun h' => absurd h' hp, fun _ => u3⟩ (ih last ?_ hm' hd' hc)
      cases last with
      | none => exact u1.trans hs
      | some q =>
        obtain ⟨d', b', q1, q2, q3, q4, q5⟩ := hs
        exact ⟨d', b', q1, by rw [u1, q2], q3, by rw [u2]; exact q4, by rw [u2]; exact q5⟩

theorem recordsFor_mem {E : ReadEnv F} {months : List (Int × Int)} {p : (Int × Int) × Imma}
    (h : p ∈ recordsFor E months) : p.1 ∈ months ∧ ∃ line ∈ linesOfFile E p.1, Used E.excl p.1.1 p.1.2 line p.2 := by
  unfold recordsFor at h
  rw [List.mem_flatMap] at h
  obtain ⟨ym, hym, h⟩ := h
  rw [List.mem_map] at h
  obtain ⟨rec, hrec, rfl⟩ := h
  exact ⟨hym, recordsIn_month hrec⟩

theorem readReports_reading (E : ReadEnv F) (lib : ClimLib Arr3) (year month : Int) (hm : 1 ≤ month ∧ month ≤ 12)
    (s : ReadState) (h : readReports E lib year month = .ok s) :
    ∃ before rs, succMonth before = (year, month) ∧ (1 ≤ before.2 ∧ before.2 ≤ 12) ∧
      Reading E year month (recordsFor E [before, (year, month), succMonth (year, month)]) ⟨-99, lib, Deck.empty⟩ rs s ∧
      s.deck = Deck.empty.ofReports rs ∧ s.deck.reps = rs := by
  obtain ⟨p, q, hp, hp', rfl, hr⟩ := C08_three_months year month hm 3 (le_refl 3)
  unfold readReports at h
  rw [hr, except_bind_ok] at h
  simp only at h
  obtain ⟨rs, hrs⟩ := reading_months h
  obtain ⟨h1, -, h2⟩ := reading_reports hrs
  exact ⟨p, rs, hp, hp', hrs, h1, by rw [h1, ofReports_reps]; rfl⟩

/-- **C105.**  Each report that is dated (tracking is on, the year is 1985 or later, and there is a day) gets the
sea-surface temperature, ice and background variance of the day before its own date, at its own place; if there is no
such day it gets none; reports that are not dated get none.  *Missing:* the program keeps the fields while the day of the
month stays the same, so this needs that dated records next to each other with the same day of the month are of the same
month (`C105_stale_violation`). -/
theorem C105_background_partial (E : ReadEnv F) (lib : ClimLib Arr3) (year month : Int) (hm : 1 ≤ month ∧ month ≤ 12)
    (s : ReadState) (h : readReports E lib year month = .ok s) :
    ∃ before, succMonth before = (year, month) ∧ (1 ≤ before.2 ∧ before.2 ≤ 12) ∧
      (List.IsChain SameMonthIfSameDay ((recordsFor E [before, (year, month), succMonth (year, month)]).filter
        (fun p => decide (Dated E.tracking p))) →
      List.Forall₂ (RightBackground E) (recordsFor E [before, (year, month), succMonth (year, month)]) s.deck.reps) := by
  obtain ⟨before, rs, hb, hb', hr, -, e⟩ := readReports_reading E lib year month hm s h
  refine ⟨before, hb, hb', fun hc => ?_⟩
  rw [e]
  refine reading_background hr none rfl ?_ ?_ hc
  · intro p hp
    obtain ⟨h1, -⟩ := recordsFor_mem hp
    simp only [List.mem_cons, List.not_mem_nil, or_false] at h1
    rcases h1 with e | e | e <;> rw [e]
    · exact hb'
    · exact hm
    · unfold succMonth
      simp only
      by_cases h12 : month = 12
      · rw [if_pos h12]; simp only; omega
      · rw [if_neg h12]; simp only; omega
  · intro p hp hd
    obtain ⟨-, line, -, u⟩ := recordsFor_mem hp
    unfold dayOf at hd
    cases hq : numericOf (p.2.data "DY") with
    | none => rw [hq] at hd; cases hd
    | some q =>
      rw [hq] at hd
      obtain ⟨n, rfl, h1, h2⟩ := record_day u.1 hq
      simp only [Option.map_some, pyInt_intCast, Option.some.injEq] at hd
      omega

end MarineQC
