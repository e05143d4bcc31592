import Verif.Base.ReadCompletion

/-!
# What reading needs; where it goes wrong (C105, C106)
-/

namespace MarineQC

open Spec

variable {F : Type} [LinearOrder F] [Zero F]

theorem foldlM_each {α σ : Type} {f : σ → α → Except Err σ} : ∀ {l : List α} {s s' : σ}, l.foldlM f s = .ok s' →
    ∀ x ∈ l, ∃ t t', f t x = .ok t'
  | [], _, _, _, x, hx => by cases hx
  | a :: l, s, s', h, x, hx => by
    rw [List.foldlM_cons, bind_ok_iff] at h
    obtain ⟨s1, h1, h⟩ := h
    rcases List.mem_cons.mp hx with rfl | hx
    · exact ⟨s, s1, h1⟩
    · exact foldlM_each h x hx

theorem reportOf_hour {rec : Imma} {r : Report} (h : reportOf rec = .ok r) {y m d : Int}
    (hy : rec.data "YR" = some (some (.num y))) (hm : rec.data "MO" = some (some (.num m))) (hd : dayOf rec = some d)
    (hdate : IsDate y m d) {hr : Rat} (hh : numericOf (rec.data "HR") = some hr) : 0 ≤ hr ∧ hr < 24 := by
  unfold reportOf at h
  have hn : ((VARLIST.map fun v => (v, numericOf (rec.data v))).map Prod.fst).Nodup := by
    rw [List.map_map, show (Prod.fst ∘ fun v => (v, numericOf (rec.data v))) = id from rfl, List.map_id]
    exact varlist_nodup
  rw [init_eq _ _ _ hn, bind_ok_iff] at h
  obtain ⟨t, ht, -⟩ := h
  have hdata : ∀ v ∈ VARLIST, (rawReport (textOf (rec.data "ID")) (textOf (rec.data "UID"))
      (VARLIST.map fun v => (v, numericOf (rec.data v)))).data v = numericOf (rec.data v) := by
    intro v hv
    exact recordValue_map _ v hv
  have e1 := getint_number (hdata "YR" (by decide))
  have e2 := getint_number (hdata "MO" (by decide))
  have e3 := getint_number (hdata "DY" (by decide))
  rw [hy, show numericOf (some (some (Val.num (y : Rat)))) = some (y : Rat) from rfl, Option.map_some, pyInt_intCast] at e1
  rw [hm, show numericOf (some (some (Val.num (m : Rat)))) = some (m : Rat) from rfl, Option.map_some, pyInt_intCast] at e2
  have e3' : (numericOf (rec.data "DY")).map pyInt = some d := hd
  rw [e3'] at e3
  unfold Report.computeDt at ht
  rw [e1, e2, e3, getvar_of_mem (by decide) (by decide), hdata "HR" (by decide), hh] at ht
  obtain ⟨d1, d2, d3, d4⟩ := hdate
  simp only at ht
  rw [if_pos (by omega), pyIndex_monthLengths y m d1 d2, except_bind_ok, if_pos d4, bind_ok_iff] at ht
  obtain ⟨x, hx, -⟩ := ht
  unfold mkDatetime at hx
  split_ifs at hx with hc
  obtain ⟨-, c1, c2, -⟩ := hc
  constructor
  · have : (0 : Rat) ≤ ((⌊hr⌋ : Int) : Rat) := by exact_mod_cast c1
    exact le_trans this (Int.floor_le hr)
  · have h1 : ((⌊hr⌋ : Int) : Rat) ≤ 23 := by exact_mod_cast c2
    have := Int.lt_floor_add_one hr
    linarith

/-- **C106.**  What reading needs.  If it completes, then for each of the three months a file was found; in each line of
these files the identifier could be found; and each record that was used with a day of its month had a position and, if
an hour, one between 0 and 24. -/
theorem C106_needed (E : ReadEnv F) (lib : ClimLib Arr3) (year month : Int) (hm : 1 ≤ month ∧ month ≤ 12)
    (s : ReadState) (h : readReports E lib year month = .ok s) :
    ∃ before, succMonth before = (year, month) ∧ (1 ≤ before.2 ∧ before.2 ≤ 12) ∧
      ∀ ym ∈ [before, (year, month), succMonth (year, month)],
        (∃ name, icoadsFilenameFromStub E.fs E.dirs E.files (some ym.1) (some ym.2) = .ok (some name)) ∧
        (∀ line ∈ linesOfFile E ym, HasIdentifier line) ∧
        ∀ line ∈ linesOfFile E ym, ∀ rec, Used E.excl ym.1 ym.2 line rec → ∀ d, dayOf rec = some d →
          IsDate ym.1 ym.2 d →
            (∃ la lo, numericOf (rec.data "LAT") = some la ∧ numericOf (rec.data "LON") = some lo) ∧
            ∀ hr, numericOf (rec.data "HR") = some hr → 0 ≤ hr ∧ hr < 24 := by
  obtain ⟨p, q, hp, hp', rfl, hr⟩ := C08_three_months year month hm 3 (le_refl 3)
  unfold readReports at h
  rw [hr, except_bind_ok] at h
  simp only at h
  refine ⟨p, hp, hp', ?_⟩
  intro ym hym
  obtain ⟨t, t', ht⟩ := foldlM_each h ym hym
  have ht' := ht
  unfold readMonthFile at ht
  simp only [bind_ok_iff] at ht
  obtain ⟨bg, hbg, name, hname, file, hfile, ht⟩ := ht
  cases name with
  | none => cases hfile
  | some name =>
    refine ⟨⟨name, hname⟩, ?_, ?_⟩
    · intro line hline
      unfold linesOfFile at hline
      rw [hname] at hline
      simp only at hline
      unfold openFile at hfile
      injection hfile with hfile
      rw [hfile] at hline
      cases file with
      | none => cases hline
      | some lines =>
        rw [Option.getD_some] at hline
        obtain ⟨u, u', hu⟩ := foldlM_each ht line hline
        by_contra hc
        obtain ⟨e, he⟩ := (wanted_error E.excl ym.1 ym.2 line).mpr hc
        unfold readLine at hu
        rw [he] at hu
        cases hu
    · intro line hline rec hused d hd hdate
      obtain ⟨bg', hbg', hf⟩ := readMonthFile_ok ht'
      obtain ⟨u, u', hu⟩ := foldlM_each hf rec (by
        unfold recordsIn
        exact List.mem_filterMap.mpr ⟨line, hline, recordIn_iff.mpr hused⟩)
      obtain ⟨r, -, ⟨raw, checked, hprep, -⟩, -⟩ := useRecord_ok hused.2.1 hused.2.2.1 hu
      constructor
      · obtain ⟨f, x, -, hv, -⟩ := hprep.normals.mds "SST" (by simp)
        have em := getint_number (hprep.data "MO" (by decide) (by decide))
        have ed := getint_number (hprep.data "DY" (by decide) (by decide))
        rw [hused.2.2.1, show numericOf (some (some (Val.num (ym.2 : Rat)))) = some (ym.2 : Rat) from rfl,
          Option.map_some, pyInt_intCast] at em
        have hd' : (numericOf (rec.data "DY")).map pyInt = some d := hd
        rw [hd'] at ed
        have hdate' : IsDate 2004 ym.2 d := by
          obtain ⟨d1, d2, d3, d4⟩ := hdate
          refine ⟨d1, d2, d3, le_trans d4 ?_⟩
          unfold monthLength
          have : LeapYear 2004 := by decide
          simp only [this, if_true]
          split_ifs <;> omega
        rcases hv with ⟨hn, -⟩ | ⟨m', d', la, lo, -, -, -, hla, hlo, -⟩
        · exact absurd ⟨ym.2, d, em, ed, hdate'⟩ hn
        · have e1 : raw.data "LAT" = some la := by
            rw [← getvar_of_mem (r := raw) (v := "LAT") (by decide) (by decide)]
            exact hla
          have e2 : ∃ l, raw.data "LON" = some l := by
            rw [← getvar_of_mem (r := raw) (v := "LON") (by decide) (by decide)]
            unfold Report.lon at hlo
            cases hl : raw.getvar "LON" with
            | none => rw [hl] at hlo; cases hlo
            | some l => exact ⟨l, rfl⟩
          obtain ⟨l, e2⟩ := e2
          rw [hprep.data "LAT" (by decide) (by decide)] at e1
          rw [hprep.data "LON" (by decide) (by decide)] at e2
          exact ⟨la, l, e1, e2⟩
      · intro hr' hh
        unfold useRecord at hu
        rw [bind_ok_iff] at hu
        obtain ⟨r0, h0, -⟩ := hu
        exact reportOf_hour h0 hused.2.1 hused.2.2.1 hd hdate hh

/-! ## Examples and violations -/

theorem nextDay_fifth {y m d : Int} (h : nextDay (y, m, d) = (1990, 2, 5)) : (y, m, d) = (1990, 2, 4) := by
  unfold nextDay at h
  simp only at h
  split_ifs at h
  all_goals
    injection h with h1 h
    injection h with h2 h3
    simp only [Prod.mk.injEq]
    omega

theorem flat_ostia {nt ny nx : Nat} {q la lo : Rat} {x : Option Rat} (h : (flatField nt ny nx q).getValueOstia la lo = .ok x) :
    x = some q := by
  unfold Arr3.getValueOstia Arr3.get at h
  simp only [bind_ok_iff] at h
  obtain ⟨t, -, i, -, j, -, h⟩ := h
  injection h with h
  exact h.symm

/-- **C105, violated.**  When the last dated record of one month and the first of the next have the same day of the month,
the second keeps the fields of the first: in the sample, report `C` of 5 February 1990 gets the sea-surface temperature
of 4 January. -/
theorem C105_stale_violation : ∃ s, readReports (sampleEnv threeFiles) sampleLib 1990 2 = .ok s ∧
    ¬ List.Forall₂ (RightBackground (sampleEnv threeFiles))
      (recordsFor (sampleEnv threeFiles) [(1990, 1), (1990, 2), (1990, 3)]) s.deck.reps := by
  have h1 := threeFiles_read
  cases hs : readReports (sampleEnv threeFiles) sampleLib 1990 2 with
  | error e => rw [hs] at h1; cases h1
  | ok s =>
    refine ⟨s, rfl, ?_⟩
    rw [hs] at h1
    have h1' : s.deck.reps.map seenOf = _ := Option.some.inj h1
    have h2 := threeFiles_records
    intro hall
    generalize recordsFor (sampleEnv threeFiles) [(1990, 1), (1990, 2), (1990, 3)] = l at h2 hall
    generalize s.deck.reps = rs at h1' hall
    cases hall with
    | nil => cases h1'
    | @cons p1 r1 l1 rs1 a1 hall =>
    cases hall with
    | nil => simp at h2
    | @cons p2 r2 l2 rs2 a2 hall =>
    cases hall with
    | nil => simp at h2
    | @cons p3 r3 l3 rs3 a3 hall =>
      simp only [List.map_cons, List.cons.injEq, Prod.mk.injEq] at h1' h2
      obtain ⟨-, -, ⟨hp3, hd3⟩, -⟩ := h2
      obtain ⟨-, -, hr3, -⟩ := h1'
      have ho : r3.ext "OSTIA" = some (some (-3383 / 20)) := congrArg Seen.back hr3
      obtain ⟨d, season, bg, b, e1, -, -, hb, hfrom⟩ := a3.1 ⟨rfl, by rw [hp3]; norm_num, by rw [hd3]; rfl⟩
      rw [hd3] at e1
      injection e1 with e1
      subst e1
      rw [hp3] at hb
      obtain ⟨y', m', d', -, hn, hbg⟩ := hb.1 ⟨by norm_num, by norm_num, by decide, by decide⟩
      have := nextDay_fifth hn
      simp only [Prod.mk.injEq] at this
      obtain ⟨rfl, rfl, rfl⟩ := this
      injection hbg with hbg
      subst hbg
      obtain ⟨la, lo, x, i, v, -, -, hx, -, -, hox, -⟩ := hfrom
      rw [ho, flat_ostia hx] at hox
      norm_num at hox

/-- Three files in which records next to each other with the same day are of one month. -/
def fineFiles : List (String × List (List Char)) :=
  [("/d/f1990-01", [sampleLine "199001 4" "A        ", sampleLine "199001 5" "B        "]),
   ("/d/f1990-02", [sampleLine "199002 6" "C        ", sampleLine "199002 6" "D        ",
     sampleLine "199002 6" "SHIP     ", sampleLine "199001 6" "F        "]),
   ("/d/f1990-03", [sampleLine "199003 7" "E        "])]

theorem flat_mds (q : Rat) : MdsShape (flatField 73 180 360 q) := ⟨Or.inr (Or.inl rfl), rfl, rfl⟩

theorem flat_grid (q : Rat) : GridShape (flatField 73 180 360 q) := ⟨Or.inr (Or.inl rfl), by norm_num [flatField], rfl⟩

theorem sampleLib_ready : LibReady sampleLib := by
  refine ⟨?_, ?_, ?_, ?_⟩
  · intro v hv
    simp only [List.mem_cons, List.not_mem_nil, or_false] at hv
    rcases hv with rfl | rfl <;> exact ⟨_, rfl, flat_mds _⟩
  · intro v hv
    simp only [List.mem_cons, List.not_mem_nil, or_false] at hv
    rcases hv with rfl | rfl | rfl | rfl | rfl | rfl | rfl | rfl <;> exact ⟨_, rfl, flat_grid _⟩
  · intro v hv
    simp only [List.mem_cons, List.not_mem_nil, or_false] at hv
    rcases hv with rfl | rfl | rfl <;> exact ⟨_, rfl, flat_grid _⟩
  · intro f hf t i j q hq
    have : f = flatField 73 180 360 5 := by
      have hf' : sampleLib.getField "SLP" "stdev" = .ok (flatField 73 180 360 5) := rfl
      exact getField_inj hf hf'
    subst this
    injection hq with hq
    subst hq
    norm_num

theorem sampleEnv_ready (files : List (String × List (List Char))) : BackgroundReady (sampleEnv files) := by
  refine ⟨fun _ _ => ⟨_, rfl, Or.inl rfl, rfl, rfl⟩, fun _ t => ⟨_, rfl, ?_, ?_⟩⟩ <;>
    exact ⟨by norm_num [flatField], rfl, rfl⟩

theorem sampleParams_good : GoodParams sampleParams := by
  constructor <;> unfold sampleParams <;> first | exact ⟨1, by norm_num, by norm_num⟩ | norm_num

theorem fineFiles_placed : (recordsFor (sampleEnv fineFiles) [(1990, 1), (1990, 2), (1990, 3)]).map
    (fun p => (numericOf (p.2.data "LAT"), numericOf (p.2.data "LON"), numericOf (p.2.data "HR"))) =
    List.replicate 5 (some 45, some 320, some 12) := by decide +kernel

instance (s : List Char) : Decidable (BlankOrNumber s) :=
  match h : parseInt s with
  | .ok n => .isTrue (Or.inr ⟨n, h⟩)
  | .error _ => decidable_of_iff (∀ c ∈ s, isBlank c = true) (by
      unfold BlankOrNumber
      simp [h])

instance (line : List Char) : Decidable (HasIdentifier line) := by unfold HasIdentifier; infer_instance

/-- Non-vacuity of C106: the sample meets the conditions, so its reading completes. -/
example : ∃ s, readReports (sampleEnv fineFiles) sampleLib 1990 2 = .ok s := by
  have hnames : ∀ ym ∈ [((1990 : Int), (1 : Int)), (1990, 2), (1990, 3)], ∃ name, icoadsFilenameFromStub
      (sampleEnv fineFiles).fs (sampleEnv fineFiles).dirs (sampleEnv fineFiles).files (some ym.1) (some ym.2) =
      .ok (some name) := by
    intro ym hym
    simp only [List.mem_cons, List.not_mem_nil, or_false] at hym
    rcases hym with rfl | rfl | rfl
    · exact ⟨"/d/f1990-01".toList, by decide +kernel⟩
    · exact ⟨"/d/f1990-02".toList, by decide +kernel⟩
    · exact ⟨"/d/f1990-03".toList, by decide +kernel⟩
  refine C106_completes_partial (sampleEnv fineFiles) (sampleEnv_ready _) sampleParams_good sampleLib sampleLib_ready
    1990 2 (by norm_num) (by norm_num) (1990, 1) rfl (by norm_num) hnames (by decide +kernel) ?_
  intro ym hym line hline rec hused
  have hmem : (ym, rec) ∈ recordsFor (sampleEnv fineFiles) [(1990, 1), (1990, 2), (1990, 3)] := by
    unfold recordsFor
    rw [List.mem_flatMap]
    refine ⟨ym, hym, List.mem_map.mpr ⟨rec, ?_, rfl⟩⟩
    unfold recordsIn
    exact List.mem_filterMap.mpr ⟨line, hline, recordIn_iff.mpr hused⟩
  have := List.mem_map_of_mem (f := fun p : (Int × Int) × Imma =>
    (numericOf (p.2.data "LAT"), numericOf (p.2.data "LON"), numericOf (p.2.data "HR"))) hmem
  rw [fineFiles_placed] at this
  have := List.eq_of_mem_replicate this
  simp only [Prod.mk.injEq] at this
  obtain ⟨h1, h2, h3⟩ := this
  refine ⟨⟨45, 320, h1, h2, by norm_num, by norm_num, by norm_num, by norm_num⟩, ?_⟩
  intro h hh
  rw [h3] at hh
  injection hh with hh
  subst hh
  norm_num

/-- Non-vacuity of C104 and C105: the records used, with identifiers, days, flags for the month and background values of
the day before; the excluded identifier and the record of another month are left out; the condition of C105 holds. -/
example : observed (readReports (sampleEnv fineFiles) sampleLib 1990 2) =
    some [⟨some "A        ", some 4, some 0, some (some (103 - 27315 / 100))⟩,
      ⟨some "B        ", some 5, some 0, some (some (104 - 27315 / 100))⟩,
      ⟨some "C        ", some 6, some 1, some (some (205 - 27315 / 100))⟩,
      ⟨some "D        ", some 6, some 1, some (some (205 - 27315 / 100))⟩,
      ⟨some "E        ", some 7, some 0, some (some (306 - 27315 / 100))⟩] := by decide +kernel

instance (p q : (Int × Int) × Imma) : Decidable (SameMonthIfSameDay p q) := by unfold SameMonthIfSameDay; infer_instance

example : List.IsChain SameMonthIfSameDay ((recordsFor (sampleEnv fineFiles) [(1990, 1), (1990, 2), (1990, 3)]).filter
    (fun p => decide (Dated (sampleEnv fineFiles).tracking p))) := by decide +kernel

/-- The exception of a run. -/
def failure (r : Except Err ReadState) : Option Err :=
  match r with
  | .ok _ => none
  | .error e => some e

/-- **C106, violated.**  One line without a readable identifier, a month without a file (which the program means to
skip), a record without a position or one with hour 24 stops the reading of the whole month. -/
theorem C106_violation :
    failure (readReports (sampleEnv (("/d/f1990-02", ["\n".toList]) :: fineFiles)) sampleLib 1990 2) = some .key ∧
    failure (readReports (sampleEnv (("/d/f1990-02", [sampleLine "1990 2x6" "A        "]) :: fineFiles)) sampleLib 1990 2) =
      some .key ∧
    failure (readReports (sampleEnv (fineFiles.take 2)) sampleLib 1990 2) = some .type ∧
    failure (readReports (sampleEnv (("/d/f1990-02", ["199002 61200".toList]) :: fineFiles)) sampleLib 1990 2) =
      some .type ∧
    failure (readReports (sampleEnv (("/d/f1990-02", ["199002 62400 4500 32000".toList]) :: fineFiles)) sampleLib 1990 2) =
      some .value ∧
    failure (readReports (sampleEnv (("/d/f1990-02", ["199002 61200-9999 32000".toList]) :: fineFiles)) sampleLib 1990 2) =
      some .index := by
  refine ⟨?_, ?_, ?_, ?_, ?_, ?_⟩ <;> decide +kernel

end MarineQC
