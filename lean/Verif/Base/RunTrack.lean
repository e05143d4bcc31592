import Verif.Base.RunFlags
import Verif.Base.RunArchive
import Verif.Base.RunHandover

/-! # From the archive to the tracks of the drifters (C118) -/

namespace MarineQC

open Spec

variable {F : Type} [LinearOrder F] [Zero F]

namespace Spec

/-- The fields of the background hold what the tracking program accepts, as written: temperatures between -5 and 45 degrees,
concentrations of ice between 0 and 1, variances between 0 and 10; and where there is a temperature there is a variance. -/
structure SoundBackground (rnd : Rat → Rat) (E : ReadEnv F) : Prop where
  temperature : ∀ day b, E.background day = .ok b → ∀ la lo x, b.1.getValueOstia la lo = .ok (some x) →
    -5 ≤ rnd (x - 27315 / 100) ∧ rnd (x - 27315 / 100) ≤ 45
  ice : ∀ day b, E.background day = .ok b → ∀ la lo x, b.2.getValueOstia la lo = .ok (some x) → 0 ≤ rnd x ∧ rnd x ≤ 1
  variance : ∀ season bg, E.bgVar season = .ok bg → ∀ la lo mo dy x, bg.getValueMds la lo (some mo) (some dy) = .ok (some x) →
    0 ≤ rnd x ∧ rnd x ≤ 10
  both : ∀ day b season bg, E.background day = .ok b → E.bgVar season = .ok bg → ∀ la lo x mo dy v,
    b.1.getValueOstia la lo = .ok (some x) → IsDate 2004 mo dy → bg.getValueMds la lo (some mo) (some dy) = .ok v → v ≠ none

/-- The records of a drifter in the file of a month have a UID that can be written, an existing date and an hour; the numbers
are still in range as written. -/
structure DrifterRecords (rnd : Rat → Rat) (E : ReadEnv F) (ident : String) (m : Int × Int) : Prop where
  uid : ∀ rec ∈ recordsIn E.excl m (linesOfFile E m), FromDrifter rec → textOf (rec.data "ID") = some ident →
    ∃ u, textOf (rec.data "UID") = some u ∧ Plain u.toList ∧ Tidy u.toList ∧ u.toList ≠ missing
  day : ∀ rec ∈ recordsIn E.excl m (linesOfFile E m), FromDrifter rec → textOf (rec.data "ID") = some ident →
    ∃ d, dayOf rec = some d ∧ IsDate m.1 m.2 d
  hour : ∀ rec ∈ recordsIn E.excl m (linesOfFile E m), FromDrifter rec → textOf (rec.data "ID") = some ident →
    ∃ h, hourGiven rec = some h ∧ 0 ≤ rnd h ∧ rnd h < 24
  lat : ∀ rec ∈ recordsIn E.excl m (linesOfFile E m), FromDrifter rec → textOf (rec.data "ID") = some ident →
    ∀ la, numericOf (rec.data "LAT") = some la → -90 ≤ rnd la ∧ rnd la ≤ 90
  minutes : ∀ rec ∈ recordsIn E.excl m (linesOfFile E m), ∀ rec' ∈ recordsIn E.excl m (linesOfFile E m), FromDrifter rec →
    FromDrifter rec' → textOf (rec.data "ID") = some ident → textOf (rec'.data "ID") = some ident → dayOf rec = dayOf rec' →
    ∀ h h', hourGiven rec = some h → hourGiven rec' = some h' → ⌊rnd h * 60⌋ = ⌊rnd h' * 60⌋ → rnd h = rnd h'

/-- The records of a drifter in the file of a month. -/
def drifterRecords (E : ReadEnv F) (ident : String) (m : Int × Int) : List Imma :=
  (recordsIn E.excl m (linesOfFile E m)).filter fun rec => decide (FromDrifter rec ∧ textOf (rec.data "ID") = some ident)

/-- The records of a drifter that a run over `months` leaves for the tracking of a chunk of months. -/
def trackedRecords (E : ReadEnv F) (months chunk : List (Int × Int)) (ident : String) : List Imma :=
  chunk.flatMap fun m => if m ∈ months then drifterRecords E ident m else []

/-- The report that the tracking program has for a record: the same identity and date, and the numbers as written. -/
structure TrackedAs (rnd : Rat → Rat) (rec : Imma) (r : Report) : Prop where
  id : r.id = textOf (rec.data "ID")
  uid : r.uid = textOf (rec.data "UID")
  date : ∀ v ∈ ["YR", "MO", "DY"], r.getint v = (numericOf (rec.data v)).map pyInt
  hour : r.getvar "HR" = (hourGiven rec).map rnd
  vars : ∀ v ∈ ["LAT", "LON", "AT", "SST", "DPT", "SLP"], r.getvar v = (numericOf (rec.data v)).map rnd
  platform : r.getint "PT" = some 7

end Spec

/-- Whatever background a report has, it is from fields that were found for some day, or from fields without values. -/
def SomeBackground (E : ReadEnv F) (r : Report) : Prop :=
  NoBackground r ∨ ∃ b bg season, ((∃ day, E.background day = .ok b) ∨ ∀ t i j, b.1.val t i j = none ∧ b.2.val t i j = none) ∧
    E.bgVar season = .ok bg ∧ BackgroundFrom b bg r

theorem reading_some {E : ReadEnv F} {year month : Int} {l : List ((Int × Int) × Imma)} {s s' : ReadState} {rs : List Report}
    (h : Reading E year month l s rs s') : (∀ p ∈ l, dayOf p.2 ≠ some (-99)) →
    (s.lastday = -99 ∨ ∃ b y m d, FieldsBefore E y m d b ∧ s.lib.getField "OSTIA" "background" = .ok b.1 ∧
      s.lib.getField "OSTIA" "ice" = .ok b.2) → ∀ r ∈ rs, SomeBackground E r := by
  induction h with
  | nil s => intros; contradiction
  | @cons p l s s1 s2 r rs bg hbg deck made back rest ih =>
    intro hd hs
    have hd' : ∀ q ∈ l, dayOf q.2 ≠ some (-99) := fun q hq => hd q (List.mem_cons_of_mem _ hq)
    by_cases hu : bg = none ∨ p.1.1 < 1985 ∨ dayOf p.2 = none
    · obtain ⟨u1, u2, u3⟩ := back.undated hu
      intro x hx
      rcases List.mem_cons.mp hx with rfl | hx
      · exact Or.inl u3
      · exact ih hd' (by rw [u1, u2]; exact hs) x hx
    · rw [not_or, not_or] at hu
      obtain ⟨n1, n2, n3⟩ := hu
      obtain ⟨f, rfl⟩ := Option.ne_none_iff_exists'.mp n1
      obtain ⟨d, hday⟩ := Option.ne_none_iff_exists'.mp n3
      obtain ⟨b1, ⟨b, b2, b3, b4⟩, b5, b6⟩ := back.dated f d rfl (by omega) hday
      have hb : ∃ y m d, FieldsBefore E y m d b := by
        by_cases hl : d = s.lastday
        · have e := b5 hl
          rcases hs with hs | ⟨b', y, m, d', c1, c2, c3⟩
          · exact absurd (by rw [hday, hl, hs]) (hd p List.mem_cons_self)
          · rw [e] at b2 b3
            have : b = b' := Prod.ext (getField_inj b2 c2) (getField_inj b3 c3)
            exact ⟨y, m, d', this ▸ c1⟩
        · obtain ⟨b', c1, c2, c3⟩ := b6 hl
          have : b = b' := Prod.ext (getField_inj b2 c2) (getField_inj b3 c3)
          exact ⟨_, _, _, this ▸ backgroundOf_before c1⟩
      obtain ⟨y, m, d', hb⟩ := hb
      intro x hx
      rcases List.mem_cons.mp hx with rfl | hx
      · right
        have hsea : ∃ season, E.bgVar season = .ok f := by
          unfold seasonField at hbg
          split at hbg
          · simp only [bind_ok_iff] at hbg
            obtain ⟨sn, -, g, hg, h'⟩ := hbg
            injection h' with h'
            injection h' with h'
            exact ⟨sn, h' ▸ hg⟩
          · injection hbg with hbg; cases hbg
        obtain ⟨season, hsea⟩ := hsea
        refine ⟨b, f, season, ?_, hsea, b4⟩
        by_cases hv : 1 ≤ y ∧ y ≤ 9999 ∧ IsDate y m d' ∧ (y, m, d') ≠ (1, 1, 1)
        · obtain ⟨y', m', d'', -, -, e⟩ := hb.1 hv
          exact Or.inl ⟨_, e⟩
        · exact Or.inr (hb.2 hv)
      · exact ih hd' (Or.inr ⟨b, y, m, d', hb, b2, b3⟩) x hx

theorem read_some (E : ReadEnv F) (lib : ClimLib Arr3) (year month : Int) (hm : 1 ≤ month ∧ month ≤ 12)
    (s : ReadState) (h : readReports E lib year month = .ok s) : ∀ r ∈ s.deck.reps, SomeBackground E r := by
  obtain ⟨before, rs, hb, hb', hr, -, e⟩ := readReports_reading E lib year month hm s h
  rw [e]
  refine reading_some hr ?_ (Or.inl rfl)
  intro p hp hd
  obtain ⟨-, line, -, u⟩ := recordsFor_mem hp
  unfold dayOf at hd
  cases hq : numericOf (p.2.data "DY") with
  | none => rw [hq] at hd; cases hd
  | some q =>
    rw [hq] at hd
    obtain ⟨n, rfl, h1, h2⟩ := record_day u.1 hq
    simp only [Option.map_some, pyInt_intCast, Option.some.injEq] at hd
    omega

theorem emptyField_none {f : Arr3} (h : ∀ t i j, f.val t i j = none) (la lo x : Rat) : f.getValueOstia la lo ≠ .ok (some x) := by
  unfold Arr3.getValueOstia Arr3.get
  simp only [h]
  intro hc
  simp only [bind_ok_iff] at hc
  obtain ⟨_, -, _, -, _, -, hc⟩ := hc
  cases hc

theorem isDate_leap {y m d : Int} (h : IsDate y m d) : IsDate 2004 m d := by
  obtain ⟨h1, h2, h3, h4⟩ := h
  refine ⟨h1, h2, h3, h4.trans ?_⟩
  have : m = 1 ∨ m = 2 ∨ m = 3 ∨ m = 4 ∨ m = 5 ∨ m = 6 ∨ m = 7 ∨ m = 8 ∨ m = 9 ∨ m = 10 ∨ m = 11 ∨ m = 12 := by omega
  unfold monthLength
  rcases this with e | e | e | e | e | e | e | e | e | e | e | e <;> subst e <;> (try simp) <;> (try split) <;> decide

/-- The reports of a month with their records, and where they have their background from. -/
theorem checkedMonth_sources (E : RunEnv F) (lib lib' : ClimLib Arr3) (m : Int × Int) (hm : 1 ≤ m.2 ∧ m.2 ≤ 12) (d : Deck)
    (h : checkedMonth E lib m = .ok (d, lib')) :
    List.Forall₂ (fun p r => ∃ r0, ReadAs E.read.hum E.read.elev E.read.params lib m.1 m.2 p.1 p.2 r0 ∧ AfterChecks r0 r ∧
      SomeBackground E.read r0) (recordsFor E.read (around m)) d.reps := by
  obtain ⟨before, reps, h1, h2, h3, h4, -, s, h5, rfl⟩ := checkedMonth_parts hm h
  have hb : before = predMonth m := by
    have e := succMonth_predMonth hm
    have e2 := predMonth_month hm
    have : succMonth before = succMonth (predMonth m) := by rw [e, h1]
    generalize predMonth m = k at *
    obtain ⟨x, y⟩ := before
    obtain ⟨x', y'⟩ := k
    unfold succMonth at this
    simp only at this e2 h2
    split_ifs at this <;> simp only [Prod.mk.injEq] at this ⊢ <;> omega
  subst hb
  have hs := read_some E.read lib m.1 m.2 hm s h5
  rw [List.forall₂_iff_get] at h3 h4 ⊢
  refine ⟨h3.1.trans h4.1, ?_⟩
  intro i i1 i2
  have i3 : i < s.deck.reps.length := by have := h3.1; omega
  exact ⟨_, h3.2 i i1 i3, h4.2 i i3 i2, hs _ (List.get_mem _ _)⟩

/-- A checked report has the numbers of its record. -/
theorem after_numbers {H : HumFns} {elev : Elev F} {p : BaseParams} {lib : ClimLib Arr3} {m ym : Int × Int} {rec : Imma}
    {r0 r : Report} (h : ReadAs H elev p lib m.1 m.2 ym rec r0) (ha : AfterChecks r0 r) :
    (∀ v ∈ VARLIST, v ∉ intVars → v ∉ ["HR", "AT2", "SHU", "VAP", "CRH", "CWB", "DPD"] → r.getvar v = numericOf (rec.data v)) ∧
    (∀ v ∈ VARLIST, v ∉ ["HR", "AT2", "SHU", "VAP", "CRH", "CWB", "DPD"] → r.getint v = (numericOf (rec.data v)).map pyInt) ∧
    r.getvar "HR" = hourGiven rec := by
  obtain ⟨c1, c2, c3, c4, c5, c6, c7, c8⟩ := C104_contents h
  refine ⟨?_, ?_, ?_⟩
  · intro v v1 v2 v3
    unfold Report.getvar
    simp only [v1, v2, true_or, not_true_eq_false, if_true, if_false, ha.data, c3 v v1 v3]
    cases numericOf (rec.data v) <;> rfl
  · intro v v1 v3
    unfold Report.getint
    rw [ha.data, c3 v v1 v3]
    cases numericOf (rec.data v) <;> rfl
  · have hh : r.getvar "HR" = r.data "HR" := by
      unfold Report.getvar
      simp only [show "HR" ∈ VARLIST by decide, show "HR" ∉ intVars by decide, true_or, not_true_eq_false, if_true, if_false]
      cases r.data "HR" <;> rfl
    rw [hh, ha.data]
    unfold hourGiven
    rcases c4 with c4 | ⟨e1, e2, e3, e4⟩
    · rw [c4]
      cases hx : numericOf (rec.data "HR") with
      | some x => rfl
      | none =>
        simp only
        rw [if_neg]
        rintro ⟨g1, g2⟩
        have hf := c4.trans hx
        obtain ⟨raw, checked, hp, hq, rfl⟩ := h
        obtain ⟨t, ht, ⟨q, rfl⟩, -⟩ := C34_base_flags_partial elev p raw checked hq
        obtain ⟨a1, a2, -⟩ := C34_missing_hour raw t ht
        have gi : ∀ v ∈ VARLIST, v ∉ ["AT2", "SHU", "VAP", "CRH", "CWB", "DPD"] →
            raw.getint v = (numericOf (rec.data v)).map pyInt := by
          intro v h1 h2
          rw [← hp.data v h1 h2]
          unfold Report.getint
          cases raw.data v <;> rfl
        have gh : ∀ x : Report, x.getvar "HR" = x.data "HR" := by
          intro x
          unfold Report.getvar
          simp only [show "HR" ∈ VARLIST by decide, show "HR" ∉ intVars by decide, true_or, not_true_eq_false, if_true, if_false]
          cases x.data "HR" <;> rfl
        have := (a2 ⟨by rw [gi _ (by decide) (by decide)]; exact g1, by
          intro y hy
          rw [gi _ (by decide) (by decide)] at hy
          exact g2 y hy, by rw [gh, hp.data _ (by decide) (by decide)]; exact hx⟩).1
        rw [gh] at this
        simp only at hf
        rw [this] at hf
        cases hf
    · rw [e1, e2]
      simp only
      rw [if_pos ⟨e3, fun y hy => e4 y hy⟩]

theorem baseChecked_after {elev : Elev F} {p : BaseParams} {r0 r : Report} (h : BaseChecked elev p r0) (ha : AfterChecks r0 r) :
    BaseChecked elev p r := by
  obtain ⟨a, b, h1, h2, h3, h4⟩ := h
  refine ⟨a, b, h1, by rw [ha.data, h2], by rw [ha.clim, h3], ?_⟩
  intro k hk
  rw [ha.flags k, h4 k hk]
  revert k
  decide

theorem after_ext {r0 r : Report} (ha : AfterChecks r0 r) {v : String} (hv : v ∉ VARLIST) (hk : v ∉ linkNames ++ altNames) :
    r.getvar v = (r0.ext v).getD none := by
  unfold Report.getvar
  rw [ha.ext v hk]
  simp only [hv, false_or, if_false]
  cases r0.ext v <;> simp

/-- A report of a drifter after the checks of a month can be stored and tracked. -/
theorem record_handed (E : RunEnv F) (hG : IsDistance E.geo) (hP : GoodShipParams E.ships) (lib lib' : ClimLib Arr3) (m : Int × Int)
    (ha : ArchiveReady E.read m) (d : Deck) (h : checkedMonth E lib m = .ok (d, lib')) (rnd : Rat → Rat) (ident : String)
    (hi : '"' ∉ ident.toList ∧ Tidy ident.toList ∧ ident.toList ≠ missing) (hb : SoundBackground rnd E.read)
    (hr : DrifterRecords rnd E.read ident m) (r : Report) (hmem : r ∈ d.reps) (hid : r.id = some ident) (hd : DriftsNow r) :
    ∃ rec ∈ recordsIn E.read.excl m (linesOfFile E.read m), FromDrifter rec ∧ textOf (rec.data "ID") = some ident ∧
      r.getint "DY" = dayOf rec ∧ r.getint "YR" = some m.1 ∧ r.getint "MO" = some m.2 ∧ r.getvar "HR" = hourGiven rec ∧
      Storable rnd r ∧ Handed rnd r := by
  obtain ⟨n, hn⟩ := List.mem_iff_getElem?.mp hmem
  obtain ⟨p, hp, r0, c1, c2, c3⟩ := forall2_get (checkedMonth_sources E lib lib' m ha.month d h).flip n r hn
  have hpm := List.mem_of_getElem? hp
  obtain ⟨e1, e2⟩ := recordsFor_source hpm
  have hrec := recordsFor_month hpm
  obtain ⟨f1, f2, -⟩ := after_readAs hrec c1 c2
  have hpe := f1 hd.1
  have hdr := f2 hd.2
  have hpl := ha.placed _ e1 _ e2
  obtain ⟨n1, n2, n3⟩ := after_numbers c1 c2
  have k1 : textOf (p.2.data "ID") = some ident := by rw [← (C104_contents c1).1, ← c2.id, hid]
  rw [hpe] at e2 hrec
  obtain ⟨u, u1, u2⟩ := hr.uid _ e2 hdr k1
  obtain ⟨dy, y1, y2⟩ := hr.day _ e2 hdr k1
  obtain ⟨hh, h1, h2⟩ := hr.hour _ e2 hdr k1
  obtain ⟨⟨la, lo, p1, p2, -⟩, -⟩ := hpl
  have g1 : r.getint "YR" = some m.1 := by
    rw [n2 _ (by decide) (by decide), hrec.1, Option.map_some, pyInt_intCast]
  have g2 : r.getint "MO" = some m.2 := by
    rw [n2 _ (by decide) (by decide), hrec.2, Option.map_some, pyInt_intCast]
  have g3 : r.getint "DY" = dayOf p.2 := n2 _ (by decide) (by decide)
  have hmd : r0.getint "MO" = some m.2 ∧ r0.getint "DY" = some dy := by
    have e : ∀ v, r0.getint v = r.getint v := by
      intro v
      unfold Report.getint
      rw [c2.data]
    exact ⟨by rw [e, g2], by rw [e, g3, y1]⟩
  have hnum := C117_flags E hG hP lib lib' m ha.month d h r hmem
  refine ⟨p.2, e2, hdr, k1, g3, g1, g2, n3, ⟨⟨u, ?_, u2⟩, ⟨ident, hid, hi⟩, flagsIn_digit hnum, ?_⟩, ⟨?_, ?_, ?_⟩⟩
  · rw [c2.uid, (C104_contents c1).2.1, u1]
  · intro y mo dy' hr' q1 q2 q3 q4
    rw [g1, Option.some.injEq] at q1
    rw [g2, Option.some.injEq] at q2
    rw [n3, h1, Option.some.injEq] at q4
    subst q1 q2 q4
    have := ha.year
    have := ha.month
    exact ⟨by omega, by omega, by omega, by omega, h2⟩
  · have := hr.lat _ e2 hdr k1 la p1
    exact ⟨la, lo, m.1, m.2, dy, hh, (n1 _ (by decide) (by decide) (by decide)).trans p1, (n1 _ (by decide) (by decide) (by decide)).trans p2,
      g1, g2, by rw [g3, y1], by rw [n3, h1], y2, h2.1, h2.2, this.1, this.2⟩
  · intro hpos htemp
    rw [after_ext c2 (v := "OSTIA") (by decide) (by decide), after_ext c2 (v := "BGVAR") (by decide) (by decide)]
    rcases c3 with c3 | ⟨b, bg, season, s1, s2, la', lo', x, i, v, b1, b2, b3, b4, b5, b6, b7, b8⟩
    · left
      rw [c3 _ (by simp)]; rfl
    · rw [b6, b8]
      simp only [Option.getD_some]
      cases x with
      | none => left; rfl
      | some x =>
        right
        rcases s1 with ⟨day, s1⟩ | s1
        · obtain ⟨t1, t2⟩ := hb.temperature day b s1 la' lo' x b3
          obtain ⟨z, nz, z1, -⟩ := (baseChecked_good (baseChecked_after (readAs_baseChecked c1) c2)).2.1 "SST" (by simp) htemp.2.2.2.1 htemp.2.1
          have hv : ∃ w, v = some w ∧ 0 ≤ rnd w ∧ rnd w ≤ 10 := by
            rcases b5 with ⟨b5, -⟩ | ⟨mo, dy', la2, lo2, w1, w2, w3, w4, w5, w6⟩
            · exact absurd ⟨_, _, hmd.1, hmd.2, isDate_leap y2⟩ b5
            · rw [b1, Option.some.injEq] at w4
              rw [b2, Option.some.injEq] at w5
              subst w4 w5
              obtain ⟨w, hw⟩ := Option.ne_none_iff_exists'.mp (hb.both day b season bg s1 s2 la' lo' x mo dy' v b3 w3 w6)
              subst hw
              exact ⟨w, rfl, hb.variance season bg s2 _ _ _ _ _ w6⟩
          obtain ⟨w, rfl, w1, w2⟩ := hv
          exact ⟨z, _, w, z1, rfl, rfl, t1, t2, w1, w2⟩
        · exact absurd b3 (emptyField_none (fun t i j => (s1 t i j).1) la' lo' x)
  · intro x hx
    rw [after_ext c2 (v := "ICE") (by decide) (by decide)] at hx
    rcases c3 with c3 | ⟨b, bg, season, s1, s2, la', lo', x', i, v, b1, b2, b3, b4, b5, b6, b7, b8⟩
    · rw [c3 _ (by simp)] at hx; cases hx
    · rw [b7, Option.getD_some] at hx
      subst hx
      rcases s1 with ⟨day, s1⟩ | s1
      · exact hb.ice day b s1 la' lo' x b4
      · exact absurd b4 (emptyField_none (fun t i j => (s1 t i j).2) la' lo' x)

theorem handedOn_mem {deck : Int × Int → Deck} {months chunk : List (Int × Int)} {ident : String} {q : Report}
    (h : q ∈ handedOn deck months chunk ident) : ∃ m ∈ chunk, m ∈ months ∧ q ∈ (deck m).reps ∧ q.id = some ident ∧ DriftsNow q := by
  obtain ⟨m, hm, h⟩ := List.mem_flatMap.mp h
  split at h
  · rename_i hk
    obtain ⟨h, -⟩ := List.mem_filter.mp h
    obtain ⟨h1, h2⟩ := List.mem_filter.mp h
    exact ⟨m, hm, hk, h1, of_decide_eq_true h2⟩
  · cases h

/-- Which checked reports are of a drifter in the month in hand. -/
theorem after_drifts {H : HumFns} {elev : Elev F} {p : BaseParams} {lib : ClimLib Arr3} {m ym : Int × Int} {rec : Imma}
    {r0 r : Report} (h : ReadAs H elev p lib m.1 m.2 ym rec r0) (ha : AfterChecks r0 r) : DriftsNow r ↔ ym = m ∧ FromDrifter rec := by
  obtain ⟨c1, c2, c3, c4, c5, c6, c7, c8⟩ := C104_contents h
  have q1 : r.getQc "POS" "month_match" = r0.getQc "POS" "month_match" := by
    unfold Report.getQc
    rw [ha.flags _ (by decide)]
  have q2 : r.getQc "POS" "isdrifter" = 1 ↔ FromDrifter rec := by
    obtain ⟨a, b, hb, hdat, -, hk⟩ := readAs_baseChecked h
    obtain ⟨s, -, ⟨q, hq⟩, -, hf, -⟩ := C34_base_flags_partial elev p a b hb
    have hs : s.getint "PT" = (numericOf (rec.data "PT")).map pyInt := by
      have : s.data = r0.data := by rw [hdat, hq]
      unfold Report.getint
      rw [this, c3 "PT" (by decide) (by decide)]
      cases numericOf (rec.data "PT") <;> rfl
    have hv : r.getQc "POS" "isdrifter" = (b.qc "POSisdrifter").getD 9 := by
      unfold Report.getQc
      rw [ha.flags _ (by decide), show "POS" ++ "isdrifter" = "POSisdrifter" by decide, hk _ (by decide)]
      cases b.qc "POSisdrifter" <;> rfl
    rw [hv]
    unfold FromDrifter
    rw [← hs]
    by_cases hc : s.getint "PT" = some 7
    · rw [hf.1 hc]; simp [hc]
    · rw [hf.2 hc]; simp [hc]
  unfold DriftsNow
  rw [q1, q2, c6]

theorem drifter_rows (E : RunEnv F) (lib lib' : ClimLib Arr3) (m : Int × Int) (hm : 1 ≤ m.2 ∧ m.2 ≤ 12) (d : Deck)
    (h : checkedMonth E lib m = .ok (d, lib')) (ident : String) :
    List.Forall₂ (fun rec r => ∃ r0, ReadAs E.read.hum E.read.elev E.read.params lib m.1 m.2 m rec r0 ∧ AfterChecks r0 r)
      (drifterRecords E.read ident m) (ofMonth m.1 m.2 (driftOf (some ident) d.reps)) := by
  have h0 := C109_rows E lib lib' m hm d h
  have e1 : recordsFor E.read [m] = (recordsIn E.read.excl m (linesOfFile E.read m)).map fun rec => (m, rec) := by
    unfold recordsFor
    simp
  rw [e1, List.forall₂_map_left_iff] at h0
  have e2 : ofMonth m.1 m.2 (driftOf (some ident) d.reps) = driftOf (some ident) (ofMonth m.1 m.2 d.reps) := by
    unfold ofMonth driftOf
    rw [List.filter_filter, List.filter_filter]
    congr 1
    funext r
    exact Bool.and_comm _ _
  rw [e2]
  unfold drifterRecords driftOf
  refine forall2_filter_both h0 ?_
  rintro rec - r ⟨r0, c1, c2⟩
  rw [decide_eq_decide, after_drifts c1 c2, c2.id, (C104_contents c1).1]
  simp only [true_and]
  exact and_comm

theorem handedOn_records (E : RunEnv F) (lib : ClimLib Arr3) (deck : Int × Int → Deck) (months chunk : List (Int × Int))
    (hb : ∀ m ∈ months, 1 ≤ m.2 ∧ m.2 ≤ 12) (hc : ∀ m ∈ months, ∃ lib', checkedMonth E lib m = .ok (deck m, lib')) (ident : String) :
    List.Forall₂ (fun rec r => ∃ m r0, ReadAs E.read.hum E.read.elev E.read.params lib m.1 m.2 m rec r0 ∧ AfterChecks r0 r)
      (trackedRecords E.read months chunk ident) (handedOn deck months chunk ident) := by
  unfold trackedRecords handedOn
  induction chunk with
  | nil => exact .nil
  | cons m chunk ih =>
    rw [List.flatMap_cons, List.flatMap_cons]
    refine forall2_append ?_ ih
    by_cases hm : m ∈ months
    · rw [if_pos hm, if_pos hm]
      obtain ⟨lib', h⟩ := hc m hm
      exact (drifter_rows E lib lib' m (hb m hm) _ h ident).imp fun _ _ ⟨r0, a, b⟩ => ⟨m, r0, a, b⟩
    · rw [if_neg hm, if_neg hm]
      exact .nil

theorem tracked_back {H : HumFns} {elev : Elev F} {p : BaseParams} {lib : ClimLib Arr3} {m ym : Int × Int} {rec : Imma}
    {r0 q r : Report} {rnd : Rat → Rat} (h : ReadAs H elev p lib m.1 m.2 ym rec r0) (ha : AfterChecks r0 q) (hb : ReadBack rnd q r) :
    TrackedAs rnd rec r := by
  obtain ⟨n1, n2, n3⟩ := after_numbers h ha
  obtain ⟨c1, c2, -⟩ := C104_contents h
  refine ⟨by rw [hb.ident, ha.id, c1], by rw [hb.uid, ha.uid, c2], ?_, by rw [hb.vars _ (by decide), n3], ?_, hb.platform⟩
  · intro v hv
    rw [hb.date v hv, n2 v (by revert v; decide) (by revert v; decide)]
  · intro v hv
    rw [hb.vars v (by revert v; decide), n1 v (by revert v; decide) (by revert v; decide) (by revert v; decide)]

/-- **C118, part.**  From the archive to the tracks: over different months of an archive in good order and with a sound
background, for a drifter with records in the months of a chunk, at existing dates and with an hour, and not twice in the same
minute, the main program and then the tracking program complete.  The tracking program has exactly one report for each record
of the drifter in these months, in order, and each directory asked for holds the table of these reports in the order of time
with the flags of the drifter checks.  *Missing:* as for C111 and C116. -/
theorem C118_archive_to_tracks_partial (E : RunEnv F) (num : List Char → Option Rat) (rnd : Rat → Rat)
    (h : Numerals E.fmt num rnd) (hfe : ∀ x, NoBlankEnd (E.fmt x) ∧ E.fmt x ≠ [])
    (ord : List (List Char) → List (List Char)) (hord : ∀ l, (ord l).Perm l)
    (lib : ClimLib Arr3) (hE : RunReady E lib) (elev : Int → Int → Rat → Rat → Rat → Rat → ℝ) (P : DriftParams) (hP : TrackParamsOk P)
    (months chunk : List (Int × Int)) (fs : FileSys) (hn : months.Nodup) (htr : E.read.tracking = true)
    (ha : ∀ m ∈ months, ArchiveReady E.read m) (hd : ∀ m ∈ months, DriftersArchived E.read m)
    (ho : ∀ m ∈ months, OutputPlace E.runid E.out m.1 m.2 fs) (hbg : SoundBackground rnd E.read)
    (hch : ∀ m ∈ chunk, 0 ≤ m.1 ∧ 0 ≤ m.2) (hid : '/' ∉ E.runid)
    (arg : List Char) (ident : String) (harg : ident.toList = targetId arg) (hs : '/' ∉ ident.toList) (hst : '*' ∉ ident.toList)
    (hi : '"' ∉ ident.toList ∧ Tidy ident.toList ∧ ident.toList ≠ missing)
    (hrec : ∀ m ∈ months, DrifterRecords rnd E.read ident m)
    (hsafe : ∀ m ∈ months, ∀ rec ∈ recordsIn E.read.excl m (linesOfFile E.read m), FromDrifter rec →
      ∀ j, textOf (rec.data "ID") = some j → safeFilename j.toList = ident.toList → j = ident)
    (hnew : ∀ m ∈ chunk, (m ∈ months → drifterRecords E.read ident m = []) → ∀ pre ∈ openedFiles,
      fs.file (inputPath E.out E.runid (targetId arg) m.1 m.2 pre) = none)
    (hne : trackedRecords E.read months chunk ident ≠ [])
    (trackOut runmonthid : List Char) (hrm : '/' ∉ runmonthid) (hbase : IsBase trackOut) (year month : Int) (edge : List String)
    (htd : fs.dir trackOut = true)
    (hplace : ∀ a ∈ trackingDirs trackOut year month runmonthid, fs.file a = none ∧
      (∀ m ∈ months, ∀ x, a ≠ monthDir E.out m.1 m.2 ++ '/' :: x) ∧
      fs.dir (voyagePath E.runid a year month "Tracking_".toList (safeFilename ident.toList)) = false) :
    ∃ fs' fs'' R R' order v, runMonths E months lib fs = (fs', none) ∧
      trackingMain E.fmt num ord E.geo elev P E.out trackOut E.runid arg runmonthid chunk year month edge fs' = (fs'', none) ∧
      List.Forall₂ (TrackedAs rnd) (trackedRecords E.read months chunk ident) R ∧
      trackingChecks E.geo elev P R = .ok R' ∧ order.Perm (List.range R.length) ∧ InTime R' order ∧ VoyageOf E.geo R' order v ∧
      ∀ D, Wanted trackOut year month edge runmonthid D →
        HoldsTable fs'' (voyagePath E.runid D year month "Tracking_".toList (safeFilename ident.toList))
          (trackingTable E.fmt v) := by
  have hex : ∀ m : Int × Int, ∃ d, m ∈ months → ∃ lib', checkedMonth E lib m = .ok (d, lib') := by
    intro m
    by_cases hm : m ∈ months
    · obtain ⟨d, lib', h⟩ := archive_checked E lib hE m (ha m hm)
      exact ⟨d, fun _ => ⟨lib', h⟩⟩
    · exact ⟨⟨[], [], []⟩, fun h => absurd h hm⟩
  choose deck hdeck using hex
  have hb : ∀ m ∈ months, 1 ≤ m.2 ∧ m.2 ≤ 12 := fun m hm => (ha m hm).month
  have hrows := handedOn_records E lib deck months chunk hb hdeck ident
  have each : ∀ q ∈ handedOn deck months chunk ident, ∃ m ∈ months, ∃ rec ∈ recordsIn E.read.excl m (linesOfFile E.read m),
      FromDrifter rec ∧ textOf (rec.data "ID") = some ident ∧ q.getint "DY" = dayOf rec ∧ q.getint "YR" = some m.1 ∧
      q.getint "MO" = some m.2 ∧ q.getvar "HR" = hourGiven rec ∧ Storable rnd q ∧ Handed rnd q := by
    intro q hq
    obtain ⟨m, -, hm, h1, h2, h3⟩ := handedOn_mem hq
    obtain ⟨lib', hk⟩ := hdeck m hm
    exact ⟨m, hm, record_handed E hE.geo hE.ships.toGoodShipParams lib lib' m (ha m hm) _ hk rnd ident hi hbg (hrec m hm) q h1 h2 h3⟩
  obtain ⟨fs', fs'', R, R', order, v, t1, t2, t3, t4⟩ := C116_tracked_partial E num rnd h hfe ord hord hE.dflags hE.vflags hE.order lib hE.geo
    elev P hP deck months chunk fs hn hb hdeck
    (fun m hm => by
      obtain ⟨lib', hk⟩ := hdeck m hm
      exact archive_output E lib lib' m (ha m hm) _ hk fs (ho m hm))
    htr
    (fun m hm => by
      obtain ⟨lib', hk⟩ := hdeck m hm
      exact archive_drifters E lib lib' m (ha m hm) (hd m hm) _ hk)
    hch hid arg ident harg hs hst (fun q hq => by obtain ⟨m, -, rec, -, -, -, -, -, -, -, k, -⟩ := each q hq; exact k)
    (fun m hm r hr hdn j hj hsj => by
      obtain ⟨lib', hk⟩ := hdeck m hm
      obtain ⟨n, hn'⟩ := List.mem_iff_getElem?.mp hr
      obtain ⟨p, hp, r0, c1, c2⟩ := forall2_get (checkedMonth_records E lib lib' m (hb m hm) _ hk).flip n r hn'
      obtain ⟨e1, e2⟩ := recordsFor_source (List.mem_of_getElem? hp)
      obtain ⟨e3, e4⟩ := (after_drifts c1 c2).mp hdn
      rw [e3] at e2
      exact hsafe m hm _ e2 e4 j (by rw [← (C104_contents c1).1, ← c2.id, hj]) hsj)
    (fun m hm hno pre hpre => by
      refine hnew m hm (fun hk => ?_) pre hpre
      obtain ⟨lib', hk'⟩ := hdeck m hk
      have := drifter_rows E lib lib' m (hb m hk) _ hk' ident
      rw [hno hk] at this
      exact List.forall₂_nil_right_iff.mp this)
    (by
      intro e
      rw [e] at hrows
      exact hne (List.forall₂_nil_right_iff.mp hrows))
    (fun q hq => by obtain ⟨m, -, rec, -, -, -, -, -, -, -, -, k⟩ := each q hq; exact k)
    (by
      intro a ha' b hb' _ _ ha1 hb1 g1 g2 g3 g4
      obtain ⟨m, hm, rec, a1, a2, a3, a4, a5, a6, a7, -⟩ := each a ha'
      obtain ⟨m', hm', rec', b1, b2, b3, b4, b5, b6, b7, -⟩ := each b hb'
      have e1 := g3 "YR" (by simp)
      have e2 := g3 "MO" (by simp)
      have e3 := g3 "DY" (by simp)
      rw [a5, b5, Option.some.injEq] at e1
      rw [a6, b6, Option.some.injEq] at e2
      rw [a4, b4] at e3
      have : m' = m := Prod.ext e1.symm e2.symm
      subst this
      exact (hrec m' hm).minutes rec a1 rec' b1 a2 b2 a3 b3 e3 ha1 hb1 (by rw [← a7, g1]) (by rw [← b7, g2]) g4)
    trackOut runmonthid hrm hbase year month edge htd hplace
  exact ⟨fs', fs'', R, R', order, v, t1, t2, forall2_chain (R := fun rec r => ∃ (m : Int × Int) (r0 : Report),
      ReadAs E.read.hum E.read.elev E.read.params lib m.1 m.2 m rec r0 ∧ AfterChecks r0 r) (S := ReadBack rnd) (T := TrackedAs rnd)
      (fun _ _ _ ⟨_, _, x, y⟩ z => tracked_back x y z) hrows t3, t4⟩

end MarineQC
