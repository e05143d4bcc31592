import Verif.Base.RunFiles

/-! # What a run over months leaves behind (C109) -/

namespace MarineQC

open Spec

variable {F : Type} [LinearOrder F] [Zero F]

/-! ## The records of a month -/

theorem forall2_filter_both {α β : Type} {R : α → β → Prop} {f : α → Bool} {g : β → Bool} : ∀ {l : List α} {k : List β},
    List.Forall₂ R l k → (∀ a ∈ l, ∀ b, R a b → f a = g b) → List.Forall₂ R (l.filter f) (k.filter g)
  | _, _, .nil, _ => .nil
  | _, _, .cons (a := a) (b := b) e h, hfg => by
    have ih := forall2_filter_both h fun a' ha' => hfg a' (by simp [ha'])
    have hab := hfg a (by simp) b e
    rw [List.filter_cons, List.filter_cons, hab]
    split
    · exact .cons e ih
    · exact ih

theorem succMonth_ne (m : Int × Int) : succMonth m ≠ m := by
  obtain ⟨y, k⟩ := m
  unfold succMonth
  simp only
  split_ifs with h
  · intro e
    have := congrArg Prod.fst e
    simp only at this
    omega
  · intro e
    have := congrArg Prod.snd e
    simp only at this
    omega

theorem recordsFor_filter (E : ReadEnv F) (m : Int × Int) (months : List (Int × Int)) :
    (recordsFor E months).filter (fun p => decide (p.1 = m)) = recordsFor E (months.filter fun k => decide (k = m)) := by
  induction months with
  | nil => rfl
  | cons k months ih =>
    have hc : ∀ l, recordsFor E (k :: l) = (recordsIn E.excl k (linesOfFile E k)).map (fun rec => (k, rec)) ++ recordsFor E l :=
      fun _ => rfl
    rw [hc, List.filter_append, ih, List.filter_cons]
    by_cases h : k = m
    · subst h
      rw [if_pos (by simp), hc]
      congr 1
      rw [List.filter_eq_self]
      intro p hp
      obtain ⟨rec, -, rfl⟩ := List.mem_map.mp hp
      simp
    · rw [if_neg (by simpa using h)]
      convert List.nil_append _
      rw [List.filter_eq_nil_iff]
      intro p hp
      obtain ⟨rec, -, rfl⟩ := List.mem_map.mp hp
      simpa using h

theorem recordsFor_month {E : ReadEnv F} {months : List (Int × Int)} {p : (Int × Int) × Imma} (h : p ∈ recordsFor E months) :
    numericOf (p.2.data "YR") = some (p.1.1 : Rat) ∧ numericOf (p.2.data "MO") = some (p.1.2 : Rat) := by
  unfold recordsFor at h
  obtain ⟨ym, -, h⟩ := List.mem_flatMap.mp h
  obtain ⟨rec, hr, rfl⟩ := List.mem_map.mp h
  unfold recordsIn at hr
  obtain ⟨line, -, hr⟩ := List.mem_filterMap.mp hr
  unfold recordIn at hr
  split at hr
  · split_ifs at hr with hc
    rw [Option.some.injEq] at hr
    subst hr
    simp only
    rw [hc.1, hc.2.1]
    exact ⟨rfl, rfl⟩
  · cases hr

/-- **C109, the rows.**  The reports that the output of a month lists are the records of that month's file, each once and in
the order of the file, read and checked as the base checks do; the checks of ships and the buddy checks set their own flags
and change nothing else. -/
theorem C109_rows (E : RunEnv F) (lib lib' : ClimLib Arr3) (m : Int × Int) (hm : 1 ≤ m.2 ∧ m.2 ≤ 12) (d : Deck)
    (h : checkedMonth E lib m = .ok (d, lib')) :
    List.Forall₂ (fun p r => ∃ r0, ReadAs E.read.hum E.read.elev E.read.params lib m.1 m.2 p.1 p.2 r0 ∧ AfterChecks r0 r)
      (recordsFor E.read [m]) (ofMonth m.1 m.2 d.reps) := by
  obtain ⟨before, reps, h1, h2, h3, h4, -⟩ := checkedMonth_parts hm h
  have hall := forall2_chain (T := fun p r => ∃ r0, ReadAs E.read.hum E.read.elev E.read.params lib m.1 m.2 p.1 p.2 r0 ∧ AfterChecks r0 r)
    (fun a b c hab hbc => ⟨b, hab, hbc⟩) h3 h4
  have hf : recordsFor E.read [m] = (recordsFor E.read [before, m, succMonth m]).filter fun p => decide (p.1 = m) := by
    rw [recordsFor_filter]
    congr 1
    have e1 : before ≠ m := by rw [← h1]; exact (succMonth_ne before).symm
    have e2 : succMonth m ≠ m := succMonth_ne m
    simp [e1, e2]
  rw [hf]
  unfold ofMonth
  refine forall2_filter_both hall ?_
  rintro p hp r ⟨r0, c1, c2⟩
  obtain ⟨y1, y2⟩ := recordsFor_month hp
  obtain ⟨-, -, c3, -⟩ := C104_contents c1
  have g1 : r.getint "YR" = some p.1.1 := by
    unfold Report.getint
    rw [c2.data, c3 "YR" (by decide) (by decide), y1]
    simp
  have g2 : r.getint "MO" = some p.1.2 := by
    unfold Report.getint
    rw [c2.data, c3 "MO" (by decide) (by decide), y2]
    simp
  rw [g1, g2]
  simp only [Option.some.injEq]
  rw [decide_eq_decide]
  exact Prod.ext_iff

/-- The unique identifiers of the records used for a month, as they are printed. -/
theorem month_uids (E : RunEnv F) (lib lib' : ClimLib Arr3) (m : Int × Int) (hm : 1 ≤ m.2 ∧ m.2 ≤ 12) (d : Deck)
    (h : checkedMonth E lib m = .ok (d, lib')) :
    (ofMonth m.1 m.2 d.reps).map (fun r => (r.uid.getD "").toList) =
      (recordsFor E.read [m]).map fun p => ((textOf (p.2.data "UID")).getD "").toList := by
  have := C109_rows E lib lib' m hm d h
  clear h
  generalize recordsFor E.read [m] = a at this
  generalize ofMonth m.1 m.2 d.reps = b at this
  induction this with
  | nil => rfl
  | cons e _ ih =>
    obtain ⟨r0, e1, e2⟩ := e
    rw [List.map_cons, List.map_cons, ih, e2.uid, (C104_contents e1).2.1]

/-- **C109, the records.**  The files of a month list the unique identifiers of exactly the records that the month's file
holds for it, each once and in the order of the file. -/
theorem C109_records (E : RunEnv F) (lib lib' : ClimLib Arr3) (m : Int × Int) (hm : 1 ≤ m.2 ∧ m.2 ≤ 12) (d : Deck)
    (h : checkedMonth E lib m = .ok (d, lib')) (dir : List Char) (fs : FileSys)
    (hd : DeckFiles E.fmt E.runid dir m.1 m.2 d.reps fs) (pre : String) (hp : pre ∈ "Variables_" :: deckFlags.map fun b => b.1 ++ "_qc_") :
    ∃ t, HoldsTable fs (deckPath E.runid dir m.1 m.2 false pre.toList) t ∧
      t.map List.head? = some "UID".toList ::
        (recordsFor E.read [m]).map fun p => some ((textOf (p.2.data "UID")).getD "").toList := by
  have key : (recordsFor E.read [m]).map (fun p => some ((textOf (p.2.data "UID")).getD "").toList) =
      (ofMonth m.1 m.2 d.reps).map fun r => some (r.uid.getD "").toList := by
    have := congrArg (List.map some) (month_uids E lib lib' m hm d h)
    rw [List.map_map, List.map_map] at this
    exact this.symm
  rw [key]
  rcases List.mem_cons.mp hp with rfl | hp
  · refine ⟨_, hd.1, ?_⟩
    unfold variableTable table
    rw [List.map_cons, List.map_map]
    rfl
  · obtain ⟨b, hb, rfl⟩ := List.mem_map.mp hp
    refine ⟨_, by rw [String.toList_append]; exact hd.2 b hb, ?_⟩
    unfold flagTable table
    rw [List.map_cons, List.map_map]
    rfl

/-! ## The run -/

theorem drifterFiles_of {fmt : Rat → List Char} (hf : ∀ x, Plain (fmt x)) {G : Geo} {runid dir : List Char} {year month : Int}
    {i : String} {reps v : List Report} {fs : FileSys} (hw : ∀ r ∈ ofMonth year month reps, Writable r)
    (e1 : (driftOf (some i) reps).foldlM (addReport G) [] = .ok v) (h : VoyageText fmt runid dir year month i v fs) :
    DrifterFiles fmt runid dir year month i (driftOf (some i) reps) fs := by
  obtain ⟨e2, e3⟩ := h
  have ov := ofMonth_only (year := year) (month := month) (build_only G _ _ e1)
  have hw : ∀ r ∈ ofMonth year month v, Writable r := by
    intro s hs'
    obtain ⟨n, hn⟩ := List.mem_iff_getElem?.mp hs'
    obtain ⟨q, q1, q2⟩ := forall2_get ov.flip n s hn
    have hqm := List.mem_of_getElem? q1
    unfold ofMonth driftOf at hqm
    obtain ⟨m1, m2⟩ := List.mem_filter.mp hqm
    exact writable_onlyFlags q2 (hw q (List.mem_filter.mpr ⟨(List.mem_filter.mp m1).1, m2⟩))
  have hvv : ∀ v ∈ voyageVars, ∀ c ∈ heading v, c ≠ ',' ∧ c ≠ '"' ∧ c ≠ '\n' := by decide
  have hb : ∀ b ∈ voyageFlags, ∀ v ∈ b.2, ∀ c ∈ v.toList, c ≠ ',' ∧ c ≠ '"' ∧ c ≠ '\n' := by decide
  refine ⟨⟨_, e2, ?_⟩, fun b hbm => ⟨_, e3 b hbm, ?_⟩⟩
  · rw [← variableTable_only ov]
    exact csv_variable_table fmt hf _ hvv _ hw
  · rw [← flagTable_only ov]
    exact csv_flag_table _ _ (hb b hbm) _ hw

theorem monthText_left {E : RunEnv F} (hf : ∀ x, Plain (E.fmt x)) {m : Int × Int} {reps : List Report} {fs : FileSys}
    (hw : ∀ r ∈ ofMonth m.1 m.2 reps, Writable r) (h : MonthText E m reps fs) :
    MonthLeft E.fmt E.runid (monthDir E.out m.1 m.2) m.1 m.2 E.read.tracking reps fs := by
  obtain ⟨h1, h2⟩ := h
  refine ⟨h1, fun ht => ?_⟩
  obtain ⟨ids, a1, a2, a3, a4⟩ := h2 ht
  refine ⟨ids, a1, a2, a3, fun i hi => ?_⟩
  obtain ⟨v, b1, b2⟩ := a4 i hi
  exact drifterFiles_of hf hw b1 b2

/-- **C109, part.**  A run over different months, each of which can be read and checked, completes.  Afterwards every month
has its files — those of its deck, and with tracking the list of its drifters and the files of each — no month's files having
been touched by another month, and no other file has changed.  *Missing:* the conditions of C107 on drifters. -/
theorem C109_run_partial (E : RunEnv F) (hf : ∀ x, Plain (E.fmt x)) (hdf : E.dflags.Perm deckFlags)
    (hvf : E.vflags.Perm voyageFlags) (ho : ∀ l, (E.order l).Perm l) (lib : ClimLib Arr3) (deck : Int × Int → Deck)
    (months : List (Int × Int)) (fs : FileSys) (hn : months.Nodup) (hb : ∀ m ∈ months, 1 ≤ m.2 ∧ m.2 ≤ 12)
    (hc : ∀ m ∈ months, ∃ lib', checkedMonth E lib m = .ok (deck m, lib'))
    (hr : ∀ m ∈ months, OutputReady E.runid E.out m.1 m.2 (deck m).reps fs)
    (ht : ∀ m ∈ months, E.read.tracking = true → DriftersReady (deck m).reps) :
    ∃ fs', runMonths E months lib fs = (fs', none) ∧
      (∀ m ∈ months, MonthLeft E.fmt E.runid (monthDir E.out m.1 m.2) m.1 m.2 E.read.tracking (deck m).reps fs') ∧
      ∀ p, (∀ m ∈ months, ¬ MonthFile E.runid (monthDir E.out m.1 m.2) m.1 m.2 E.read.tracking (deck m).reps p) →
        fs'.file p = fs.file p := by
  obtain ⟨fs', h1, h2, h3, -⟩ := run_text E hf hdf hvf ho lib deck months fs hn hb hc hr ht
  exact ⟨fs', h1, fun m hm => monthText_left hf (hr m hm).writable (h2 m hm), h3⟩

/-- **C109, a run that stops.**  When the reports of a month cannot be read or checked, the run stops with that exception.
The months before it have their files, and neither this month nor any later one has written anything. -/
theorem C109_stops_partial (E : RunEnv F) (hf : ∀ x, Plain (E.fmt x)) (hdf : E.dflags.Perm deckFlags)
    (hvf : E.vflags.Perm voyageFlags) (ho : ∀ l, (E.order l).Perm l) (lib : ClimLib Arr3) (deck : Int × Int → Deck)
    (months later : List (Int × Int)) (bad : Int × Int) (err : Err) (fs : FileSys) (hn : months.Nodup)
    (hb : ∀ m ∈ months, 1 ≤ m.2 ∧ m.2 ≤ 12)
    (hc : ∀ m ∈ months, ∃ lib', checkedMonth E lib m = .ok (deck m, lib')) (he : checkedMonth E lib bad = .error err)
    (hr : ∀ m ∈ months, OutputReady E.runid E.out m.1 m.2 (deck m).reps fs)
    (ht : ∀ m ∈ months, E.read.tracking = true → DriftersReady (deck m).reps) :
    ∃ fs', runMonths E (months ++ bad :: later) lib fs = (fs', some err) ∧
      (∀ m ∈ months, MonthLeft E.fmt E.runid (monthDir E.out m.1 m.2) m.1 m.2 E.read.tracking (deck m).reps fs') ∧
      ∀ p, (∀ m ∈ months, ¬ MonthFile E.runid (monthDir E.out m.1 m.2) m.1 m.2 E.read.tracking (deck m).reps p) →
        fs'.file p = fs.file p := by
  obtain ⟨fs', h1, h2, h3, -⟩ := run_text E hf hdf hvf ho lib deck months fs hn hb hc hr ht
  refine ⟨fs', ?_, fun m hm => monthText_left hf (hr m hm).writable (h2 m hm), h3⟩
  rw [C108_months, h1]
  show runMonths E (bad :: later) lib fs' = _
  rw [runMonths, he]

end MarineQC
