import Verif.Base.RunChecks

/-! # A run over an archive in good order (C111) -/

namespace MarineQC.Spec

/-- The month before. -/
def predMonth (m : Int × Int) : Int × Int := if m.2 = 1 then (m.1 - 1, 12) else (m.1, m.2 - 1)

/-- The months whose files are read for a month. -/
def around (m : Int × Int) : List (Int × Int) := [predMonth m, m, succMonth m]

/-- The record of a drifting buoy: platform type 7. -/
def FromDrifter (rec : Imma) : Prop := (numericOf (rec.data "PT")).map pyInt = some 7

instance (rec : Imma) : Decidable (FromDrifter rec) := by unfold FromDrifter; infer_instance

/-- The files read for a month are in good order: a file is found for each of the three months; in every line the identifier
can be found; every record that is used has a position on the earth and no impossible hour; the records of one identifier are
in the order of their times; the records of the month have a UID, and no quotation mark in their identifier. -/
structure ArchiveReady {F : Type} [LinearOrder F] [Zero F] (E : ReadEnv F) (m : Int × Int) : Prop where
  year : 2 ≤ m.1 ∧ m.1 ≤ 9998
  month : 1 ≤ m.2 ∧ m.2 ≤ 12
  found : ∀ ym ∈ around m, ∃ name, icoadsFilenameFromStub E.fs E.dirs E.files (some ym.1) (some ym.2) = .ok (some name)
  idents : ∀ ym ∈ around m, ∀ line ∈ linesOfFile E ym, HasIdentifier line
  placed : ∀ ym ∈ around m, ∀ rec ∈ recordsIn E.excl ym (linesOfFile E ym), Placed rec
  ordered : ∀ ym ∈ around m, InOrder (recordsIn E.excl ym (linesOfFile E ym))
  nonempty : recordsFor E (around m) ≠ []
  uids : ∀ rec ∈ recordsIn E.excl m (linesOfFile E m), ∃ u, textOf (rec.data "UID") = some u ∧ Plain u.toList
  quotes : ∀ rec ∈ recordsIn E.excl m (linesOfFile E m), ∀ i, textOf (rec.data "ID") = some i → '"' ∉ i.toList

/-- The drifters of a month are in good order: a report with an hour has a day; no identifier has a slash, and different
identifiers make different file names. -/
structure DriftersArchived {F : Type} [LinearOrder F] [Zero F] (E : ReadEnv F) (m : Int × Int) : Prop where
  days : ∀ rec ∈ recordsIn E.excl m (linesOfFile E m), FromDrifter rec → hourGiven rec ≠ none →
    ∃ d, dayOf rec = some d ∧ 1 ≤ d ∧ d ≤ 31
  slash : ∀ rec ∈ recordsIn E.excl m (linesOfFile E m), FromDrifter rec → ∀ i, textOf (rec.data "ID") = some i → '/' ∉ i.toList
  names : ∀ rec ∈ recordsIn E.excl m (linesOfFile E m), ∀ rec' ∈ recordsIn E.excl m (linesOfFile E m), FromDrifter rec →
    FromDrifter rec' → ∀ i j, textOf (rec.data "ID") = some i → textOf (rec'.data "ID") = some j →
    safeFilename i.toList = safeFilename j.toList → i = j

/-- The directory of the output is there, and nothing in it is in the way of the files of the month. -/
structure OutputPlace (runid out : List Char) (year month : Int) (fs : FileSys) : Prop where
  noSlash : '/' ∉ runid
  base : IsBase out
  there : fs.dir out = true
  yearName : fs.file (out ++ '/' :: intText year) = none
  dirName : fs.file (monthDir out year month) = none
  deck : ∀ pre, fs.dir (deckPath runid (monthDir out year month) year month false pre) = false
  voyage : ∀ pre i, fs.dir (voyagePath runid (monthDir out year month) year month pre i) = false
  list : fs.dir (idFilePath (monthDir out year month)) = false

/-- What a run uses is sensible: fields that can be read, parameters that the checks accept, numbers written without marks of
punctuation, and dictionaries that hold what the program puts in them. -/
structure RunReady {F : Type} [LinearOrder F] [Zero F] (E : RunEnv F) (lib : ClimLib Arr3) : Prop where
  background : BackgroundReady E.read
  params : GoodParams E.read.params
  geo : IsDistance E.geo
  ships : SoundShipParams E.ships
  buddies : ∀ f g, Readable f → Readable g → SoundBuddies E.read.params { E.buddy with dpt := f, slp := g }
  library : LibReady lib
  deviations : ∀ v ∈ ["DPT", "SLP"], ∃ f, lib.getField v "stdev" = .ok f ∧ MdsShape f
  numbers : ∀ x, Plain (E.fmt x)
  dflags : E.dflags.Perm deckFlags
  vflags : E.vflags.Perm voyageFlags
  order : ∀ l, (E.order l).Perm l

end MarineQC.Spec

namespace MarineQC

open Spec

variable {F : Type} [LinearOrder F] [Zero F]

theorem succMonth_predMonth {m : Int × Int} (hm : 1 ≤ m.2 ∧ m.2 ≤ 12) : succMonth (predMonth m) = m := by
  obtain ⟨y, k⟩ := m
  unfold predMonth succMonth
  simp only at *
  by_cases h : k = 1
  · subst h
    simp
  · rw [if_neg h]
    simp only
    rw [if_neg (by omega)]
    ext <;> simp

theorem predMonth_month {m : Int × Int} (hm : 1 ≤ m.2 ∧ m.2 ≤ 12) : 1 ≤ (predMonth m).2 ∧ (predMonth m).2 ≤ 12 := by
  obtain ⟨y, k⟩ := m
  unfold predMonth
  simp only at *
  split_ifs
  · simp
  · simp only
    omega

theorem used_recordsIn {E : ReadEnv F} {ym : Int × Int} {line : List Char} {rec : Imma} (hl : line ∈ linesOfFile E ym)
    (h : Used E.excl ym.1 ym.2 line rec) : rec ∈ recordsIn E.excl ym (linesOfFile E ym) := by
  refine List.mem_filterMap.mpr ⟨line, hl, ?_⟩
  exact recordIn_iff.mpr h

theorem archive_checked (E : RunEnv F) (lib : ClimLib Arr3) (hE : RunReady E lib) (m : Int × Int) (ha : ArchiveReady E.read m) :
    ∃ d lib', checkedMonth E lib m = .ok (d, lib') :=
  C110_completes_partial E hE.background hE.params hE.geo hE.ships hE.buddies lib hE.library hE.deviations m ha.year ha.month
    (predMonth m) (succMonth_predMonth ha.month) (predMonth_month ha.month) ha.found ha.idents
    (fun ym hym _ hline _ hu => ha.placed ym hym _ (used_recordsIn hline hu)) ha.ordered

/-- What a checked report keeps of its record. -/
theorem after_readAs {H : HumFns} {elev : Elev F} {p : BaseParams} {lib : ClimLib Arr3} {m ym : Int × Int} {rec : Imma}
    {r0 r : Report} (hrec : numericOf (rec.data "YR") = some (ym.1 : Rat) ∧ numericOf (rec.data "MO") = some (ym.2 : Rat))
    (h : ReadAs H elev p lib m.1 m.2 ym rec r0) (ha : AfterChecks r0 r) :
    (r.getQc "POS" "month_match" = 1 → ym = m) ∧ (r.getQc "POS" "isdrifter" = 1 → FromDrifter rec) ∧
    (Placed rec → 1 ≤ ym.2 ∧ ym.2 ≤ 12 → (hourGiven rec ≠ none → ∃ d, dayOf rec = some d ∧ 1 ≤ d ∧ d ≤ 31) → Traceable r) := by
  obtain ⟨c1, c2, c3, c4, c5, c6, c7, c8⟩ := C104_contents h
  refine ⟨?_, ?_, ?_⟩
  · intro hm
    have : r0.getQc "POS" "month_match" = 1 := by
      unfold Report.getQc at hm ⊢
      rw [ha.flags _ (by decide)] at hm
      exact hm
    exact c6.mp this
  · intro hd
    have hd : r0.getQc "POS" "isdrifter" = 1 := by
      unfold Report.getQc at hd ⊢
      rw [ha.flags _ (by decide)] at hd
      exact hd
    obtain ⟨q0, q1, hb, hdat, -, hk⟩ := readAs_baseChecked h
    obtain ⟨s, -, ⟨q, hq⟩, -, hf, -⟩ := C34_base_flags_partial elev p q0 q1 hb
    by_contra hc
    have hn : s.getint "PT" ≠ some 7 := by
      intro e
      apply hc
      have : s.data = r0.data := by rw [hdat, hq]
      unfold Report.getint at e
      rw [this, c3 "PT" (by decide) (by decide)] at e
      unfold FromDrifter
      cases hx : numericOf (rec.data "PT") with
      | none => rw [hx] at e; cases e
      | some x => rw [hx] at e; exact e
    have := hf.2 hn
    unfold Report.getQc at hd
    rw [show "POS" ++ "isdrifter" = "POSisdrifter" by decide, hk _ (by decide), this] at hd
    exact absurd hd (by decide)
  · rintro ⟨⟨la, lo, p1, p2, -⟩, p3⟩ hmon hday
    have plain : ∀ v x, v ∈ VARLIST → v ∉ intVars → v ∉ ["HR", "AT2", "SHU", "VAP", "CRH", "CWB", "DPD"] →
        numericOf (rec.data v) = some x → r.getvar v = some x := by
      intro v x v1 v2 v3 hx
      unfold Report.getvar
      simp only [v1, v2, true_or, not_true_eq_false, if_true, if_false, ha.data, c3 v v1 v3, hx]
    refine ⟨?_, ?_, ?_⟩
    · show r.getvar "LAT" ≠ none
      rw [plain "LAT" la (by decide) (by decide) (by decide) p1]
      simp
    · unfold Report.lon
      rw [plain "LON" lo (by decide) (by decide) (by decide) p2]
      simp only
      split_ifs <;> simp
    · intro h' hh
      have hh : r.data "HR" = some h' := by
        unfold Report.getvar at hh
        simp only [show "HR" ∈ VARLIST by decide, show "HR" ∉ intVars by decide, true_or, not_true_eq_false, if_true, if_false] at hh
        cases hd : r.data "HR" with
        | none => rw [hd] at hh; exact hh
        | some q => rw [hd] at hh; exact hh
      rw [ha.data] at hh
      have hg : hourGiven rec = some h' ∧ 0 ≤ h' ∧ h' < 24 := by
        unfold hourGiven
        rcases c4 with c4 | ⟨e1, e2, e3, e4⟩
        · rw [← c4, hh]
          exact ⟨rfl, p3 h' (by rw [← c4, hh])⟩
        · rw [e1]
          simp only
          rw [if_pos ⟨e3, fun y hy => e4 y hy⟩, ← e2, hh]
          rw [e2, Option.some.injEq] at hh
          subst hh
          exact ⟨rfl, by norm_num⟩
      obtain ⟨d, d1, d2, d3⟩ := hday (by rw [hg.1]; simp)
      refine ⟨hg.2.1, hg.2.2, ym.1, ym.2, d, ?_, ?_, ?_, hmon.1, hmon.2, d2, d3⟩
      · unfold Report.getint
        rw [ha.data, c3 "YR" (by decide) (by decide), hrec.1]
        simp
      · unfold Report.getint
        rw [ha.data, c3 "MO" (by decide) (by decide), hrec.2]
        simp
      · unfold dayOf at d1
        unfold Report.getint
        rw [ha.data, c3 "DY" (by decide) (by decide)]
        cases hx : numericOf (rec.data "DY") with
        | none => rw [hx] at d1; cases d1
        | some x => rw [hx] at d1; exact d1

theorem recordsFor_source {E : ReadEnv F} {months : List (Int × Int)} {p : (Int × Int) × Imma} (h : p ∈ recordsFor E months) :
    p.1 ∈ months ∧ p.2 ∈ recordsIn E.excl p.1 (linesOfFile E p.1) := by
  unfold recordsFor at h
  obtain ⟨ym, h1, h⟩ := List.mem_flatMap.mp h
  obtain ⟨rec, hr, rfl⟩ := List.mem_map.mp h
  exact ⟨h1, hr⟩

/-- The reports of a month from files in good order can be written. -/
theorem archive_writable (E : RunEnv F) (lib lib' : ClimLib Arr3) (m : Int × Int) (ha : ArchiveReady E.read m) (d : Deck)
    (h : checkedMonth E lib m = .ok (d, lib')) (r : Report) (hr : r ∈ ofMonth m.1 m.2 d.reps) : Writable r := by
  obtain ⟨n, hn⟩ := List.mem_iff_getElem?.mp hr
  obtain ⟨p, hp, r0, c1, c2⟩ := forall2_get (C109_rows E lib lib' m ha.month d h).flip n r hn
  obtain ⟨e1, e2⟩ := recordsFor_source (List.mem_of_getElem? hp)
  rw [List.mem_singleton] at e1
  rw [e1] at e2
  obtain ⟨k1, k2, -⟩ := C104_contents c1
  constructor
  · rw [c2.uid, k2]
    exact ha.uids _ e2
  · rw [c2.id, k1]
    exact ha.quotes _ e2

/-- The reports of a month, with their records. -/
theorem checkedMonth_records (E : RunEnv F) (lib lib' : ClimLib Arr3) (m : Int × Int) (hm : 1 ≤ m.2 ∧ m.2 ≤ 12) (d : Deck)
    (h : checkedMonth E lib m = .ok (d, lib')) :
    List.Forall₂ (fun p r => ∃ r0, ReadAs E.read.hum E.read.elev E.read.params lib m.1 m.2 p.1 p.2 r0 ∧ AfterChecks r0 r)
      (recordsFor E.read (around m)) d.reps := by
  obtain ⟨before, reps, h1, h2, h3, h4, -⟩ := checkedMonth_parts hm h
  have hb : before = predMonth m := by
    have e := succMonth_predMonth hm
    have e2 := predMonth_month hm
    have : succMonth before = succMonth (predMonth m) := by rw [e, h1]
    generalize predMonth m = k at *
    obtain ⟨x, y⟩ := before
    obtain ⟨x', y'⟩ := k
    unfold succMonth at this
    simp only at this e2 h2
    split_ifs at this <;> simp only [Prod.mk.injEq] at this ⊢ <;> omega
  subst hb
  exact forall2_chain (fun a b c hab hbc => ⟨b, hab, hbc⟩) h3 h4

theorem archive_drifters (E : RunEnv F) (lib lib' : ClimLib Arr3) (m : Int × Int) (ha : ArchiveReady E.read m)
    (hd : DriftersArchived E.read m) (d : Deck) (h : checkedMonth E lib m = .ok (d, lib')) : DriftersReady d.reps := by
  have back : ∀ r ∈ d.reps, DriftsNow r → ∃ rec ∈ recordsIn E.read.excl m (linesOfFile E.read m), FromDrifter rec ∧
      r.id = textOf (rec.data "ID") ∧
      ((hourGiven rec ≠ none → ∃ d, dayOf rec = some d ∧ 1 ≤ d ∧ d ≤ 31) → Traceable r) := by
    intro r hr hn
    obtain ⟨n, hn'⟩ := List.mem_iff_getElem?.mp hr
    obtain ⟨p, hp, r0, c1, c2⟩ := forall2_get (checkedMonth_records E lib lib' m ha.month d h).flip n r hn'
    have hmem := List.mem_of_getElem? hp
    obtain ⟨e1, e2⟩ := recordsFor_source hmem
    obtain ⟨f1, f2, f3⟩ := after_readAs (recordsFor_month hmem) c1 c2
    have hpm := f1 hn.1
    have hpl := ha.placed _ e1 _ e2
    rw [hpm] at e2
    refine ⟨p.2, e2, f2 hn.2, ?_, f3 hpl (by rw [hpm]; exact ha.month)⟩
    rw [c2.id, (C104_contents c1).1]
  constructor
  · intro r hr hn
    obtain ⟨rec, h1, h2, h3, h4⟩ := back r hr hn
    exact h4 (hd.days rec h1 h2)
  · intro r hr hn i hi
    obtain ⟨rec, h1, h2, h3, h4⟩ := back r hr hn
    exact hd.slash rec h1 h2 i (by rw [← h3, hi])
  · intro r hr s hs hn hn' i j hi hj
    obtain ⟨rec, h1, h2, h3, h4⟩ := back r hr hn
    obtain ⟨rec', h1', h2', h3', h4'⟩ := back s hs hn'
    exact hd.names rec h1 rec' h1' h2 h2' i j (by rw [← h3, hi]) (by rw [← h3', hj])

theorem archive_output (E : RunEnv F) (lib lib' : ClimLib Arr3) (m : Int × Int) (ha : ArchiveReady E.read m) (d : Deck)
    (h : checkedMonth E lib m = .ok (d, lib')) (fs : FileSys) (ho : OutputPlace E.runid E.out m.1 m.2 fs) :
    OutputReady E.runid E.out m.1 m.2 d.reps fs where
  noSlash := ho.noSlash
  base := ho.base
  there := ho.there
  yearPos := by have := ha.year; omega
  monthPos := by have := ha.month; omega
  yearName := ho.yearName
  dirName := ho.dirName
  deck := ho.deck
  voyage := ho.voyage
  list := ho.list
  nonempty := by
    intro e
    have := checkedMonth_records E lib lib' m ha.month d h
    rw [e] at this
    cases hx : recordsFor E.read (around m) with
    | nil => exact ha.nonempty hx
    | cons a l => rw [hx] at this; cases this
  writable := archive_writable E lib lib' m ha d h

/-- **C111, part.**  A run over different months of an archive in good order completes, whatever the reports say: every month
is read and checked, and afterwards every month has its files (C109 and C110 say what is in them) and no other file has
changed.  *Missing:* C101, C106 and C107 show by example that conditions on the archive are needed. -/
theorem C111_run_partial (E : RunEnv F) (lib : ClimLib Arr3) (hE : RunReady E lib) (months : List (Int × Int)) (fs : FileSys)
    (hn : months.Nodup) (ha : ∀ m ∈ months, ArchiveReady E.read m)
    (hd : ∀ m ∈ months, E.read.tracking = true → DriftersArchived E.read m)
    (ho : ∀ m ∈ months, OutputPlace E.runid E.out m.1 m.2 fs) :
    ∃ (fs' : FileSys) (deck : Int × Int → Deck), runMonths E months lib fs = (fs', none) ∧
      (∀ m ∈ months, (∃ lib', checkedMonth E lib m = .ok (deck m, lib')) ∧
        MonthLeft E.fmt E.runid (monthDir E.out m.1 m.2) m.1 m.2 E.read.tracking (deck m).reps fs') ∧
      ∀ p, (∀ m ∈ months, ¬ MonthFile E.runid (monthDir E.out m.1 m.2) m.1 m.2 E.read.tracking (deck m).reps p) →
        fs'.file p = fs.file p := by
  have hex : ∀ m : Int × Int, ∃ d, m ∈ months → ∃ lib', checkedMonth E lib m = .ok (d, lib') := by
    intro m
    by_cases hm : m ∈ months
    · obtain ⟨d, lib', h⟩ := archive_checked E lib hE m (ha m hm)
      exact ⟨d, fun _ => ⟨lib', h⟩⟩
    · exact ⟨⟨[], [], []⟩, fun h => absurd h hm⟩
  choose deck hdeck using hex
  obtain ⟨fs', r1, r2, r3⟩ := C109_run_partial E hE.numbers hE.dflags hE.vflags hE.order lib deck months fs hn
    (fun m hm => (ha m hm).month) hdeck
    (fun m hm => by
      obtain ⟨lib', h⟩ := hdeck m hm
      exact archive_output E lib lib' m (ha m hm) _ h fs (ho m hm))
    (fun m hm ht => by
      obtain ⟨lib', h⟩ := hdeck m hm
      exact archive_drifters E lib lib' m (ha m hm) (hd m hm ht) _ h)
  exact ⟨fs', deck, r1, fun m hm => ⟨hdeck m hm, r2 m hm⟩, r3⟩

end MarineQC
