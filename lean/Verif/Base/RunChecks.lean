import Verif.Base.RunEnd
import Verif.Base.ReadCompletion

/-! # The checks of a month (C110): what the flags mean, and completion -/

namespace MarineQC

open Spec

variable {F : Type} [LinearOrder F] [Zero F]

theorem passes_shipFilter (r : Report) : Passes shipFilter r ↔ PlacedWell r := by
  simp only [Passes, shipFilter, QcFilter.add, List.nil_append, List.cons_append, List.mem_cons, List.not_mem_nil, or_false,
    PlacedWell]
  constructor
  · intro h
    exact ⟨h _ _ _ (by simp), h _ _ _ (by simp), h _ _ _ (by simp), h _ _ _ (by simp)⟩
  · rintro ⟨h1, h2, h3, h4⟩ t f v hm
    simp only [Prod.mk.injEq] at hm
    rcases hm with ⟨rfl, rfl, rfl⟩ | ⟨rfl, rfl, rfl⟩ | ⟨rfl, rfl, rfl⟩ | ⟨rfl, rfl, rfl⟩ <;> assumption

theorem chosenPairs_ship (i : Option String) (a b : List Report) : chosenPairs shipFilter i a b = platformPairs i a b := by
  unfold chosenPairs platformPairs
  congr 1
  funext p
  rw [decide_eq_decide, passes_shipFilter]

theorem readAs_baseChecked {H : HumFns} {elev : Elev F} {p : BaseParams} {lib : ClimLib Arr3} {y m : Int} {ym : Int × Int}
    {rec : Imma} {r : Report} (h : ReadAs H elev p lib y m ym rec r) : BaseChecked elev p r := by
  obtain ⟨raw, checked, -, hq, rfl⟩ := h
  refine ⟨raw, checked, hq, rfl, rfl, fun k hk => ?_⟩
  simp only
  rw [if_neg]
  rintro rfl
  exact absurd hk (by decide)

/-- A report whose position and time passed the base checks has both. -/
theorem baseChecked_placed {elev : Elev F} {p : BaseParams} {r : Report} (h : BaseChecked elev p r) (hg : PlacedWell r) :
    r.lat ≠ none ∧ r.lon ≠ none ∧ ∃ y m d hr, r.getint "YR" = some y ∧ r.getint "MO" = some m ∧ r.getint "DY" = some d ∧
      r.getvar "HR" = some hr ∧ 0 ≤ hr ∧ hr < 24 ∧ IsDate y m d := by
  obtain ⟨r0, r1, hb, hd, hcl, hk⟩ := h
  obtain ⟨s, -, ⟨q, hq⟩, hf⟩ := C34_base_flags_partial elev p r0 r1 hb
  have hds : r.data = s.data := by rw [hd, hq]
  have hgv : ∀ v ∈ VARLIST, s.getvar v = r.getvar v := fun v hv => (getvar_alike hds hv).symm
  have hgi : ∀ v, s.getint v = r.getint v := fun v => (getint_alike hds v).symm
  obtain ⟨-, -, -, -, hpos, hdate, htime, -⟩ := hf
  have zero : ∀ {t f : String} {c : Except Err Int}, FlagIs r1 (t ++ f) c → t ++ f ∈ baseKeys → r.getQc t f = 0 → c = .ok 0 :=
    fun h1 h2 h3 => flagIs_zero h1 (hk _ h2) (flag_zero h3)
  obtain ⟨g1, g2, g3, -⟩ := hg
  have hp := zero (t := "POS") (f := "pos") hpos (by decide) g3
  have hdt := zero (t := "POS") (f := "date") hdate (by decide) g1
  have ht := zero (t := "POS") (f := "time") htime (by decide) g2
  rw [hgv _ (by decide), hgv _ (by decide)] at hp
  rw [hgi, hgi, hgi] at hdt
  rw [hgv _ (by decide), Except.ok.injEq, C22_time] at ht
  have ht : ∃ x, r.getvar "HR" = some x ∧ 0 ≤ x ∧ x < 24 := by
    by_contra hc
    rw [if_neg hc] at ht
    simp at ht
  obtain ⟨hr, e1, e2, e3⟩ := ht
  cases hla : r.getvar "LAT" with
  | none => rw [hla, (C22_position_missing _).1] at hp; simp at hp
  | some la =>
    cases hlo : r.getvar "LON" with
    | none => rw [hlo, (C22_position_missing _).2] at hp; simp at hp
    | some lo =>
      cases hy : r.getint "YR" with
      | none => rw [hy] at hdt; simp [dateCheck] at hdt
      | some y =>
        cases hm : r.getint "MO" with
        | none => rw [hy, hm] at hdt; simp [dateCheck] at hdt
        | some m =>
          rw [hy, hm] at hdt
          obtain ⟨-, d, hdd, hdate⟩ := C22_date_pass y m _ hdt
          refine ⟨?_, ?_, y, m, d, hr, rfl, rfl, hdd, e1, e2, e3, hdate⟩
          · show r.getvar "LAT" ≠ none
            rw [hla]; simp
          · unfold Report.lon
            rw [hlo]
            simp only
            split <;> simp

theorem isDate_bounds {y m d : Int} (h : IsDate y m d) : 1 ≤ m ∧ m ≤ 12 ∧ 1 ≤ d ∧ d ≤ 31 := by
  obtain ⟨e1, e2, e3, e4⟩ := h
  refine ⟨e1, e2, e3, e4.trans ?_⟩
  unfold monthLength
  split_ifs <;> norm_num

theorem baseChecked_report {elev : Elev F} {p : BaseParams} {r : Report} (h : BaseChecked elev p r) (hg : PlacedWell r) :
    r.Placed := by
  obtain ⟨h1, h2, y, m, d, hr, a1, a2, a3, a4, a5, a6, a7⟩ := baseChecked_placed h hg
  obtain ⟨b1, b2, b3, b4⟩ := isDate_bounds a7
  exact ⟨h1, h2, y, m, d, hr, a1, a2, a3, a4, a5, a6, b1, b2, b3, b4⟩

/-- C110 with the state after reading. -/
theorem checked_flags (E : RunEnv F) (hG : IsDistance E.geo) (hP : GoodShipParams E.ships) (lib lib' : ClimLib Arr3) (m : Int × Int)
    (hm : 1 ≤ m.2 ∧ m.2 ≤ 12) (d : Deck) (h : checkedMonth E lib m = .ok (d, lib')) :
    ∃ (s : ReadState) (before : Int × Int) (mid : List Report) (dpt slp : Arr3), readReports E.read lib m.1 m.2 = .ok s ∧
      succMonth before = m ∧ (1 ≤ before.2 ∧ before.2 ≤ 12) ∧
      List.Forall₂ (fun p r => ReadAs E.read.hum E.read.elev E.read.params lib m.1 m.2 p.1 p.2 r)
        (recordsFor E.read [before, m, succMonth m]) s.deck.reps ∧
      mid.length = s.deck.reps.length ∧
      (∀ (k : Nat) (r r' : Report), s.deck.reps[k]? = some r → mid[k]? = some r' → ¬ PlacedWell r → r' = r) ∧
      (∀ r ∈ s.deck.reps, ShipFlags E.geo E.rnd E.ships ((platformPairs r.id s.deck.reps mid).map (·.1)) ((platformPairs r.id s.deck.reps mid).map (·.2))) ∧
      lib.getField "DPT" "stdev" = .ok dpt ∧ lib.getField "SLP" "stdev" = .ok slp ∧
      List.Forall₂ (BuddyFlags E.span { E.buddy with
        dpt := fun la lo mo da => dpt.getValueMds la lo (some mo) (some da)
        slp := fun la lo mo da => slp.getValueMds la lo (some mo) (some da) } mid) mid d.reps := by
  unfold checkedMonth at h
  simp only [bind_ok_iff] at h
  obtain ⟨s, h1, d1, h2, d2, h3, h4⟩ := h
  simp only [except_pure, Except.ok.injEq, Prod.mk.injEq] at h4
  obtain ⟨rfl, rfl⟩ := h4
  obtain ⟨before, b1, b2, b3, b4⟩ := C104_reports E.read lib m.1 m.2 hm s h1
  have hsame := readReports_clim E.read lib m.1 m.2 s h1
  unfold buddyFromLib at h3
  simp only [bind_ok_iff] at h3
  obtain ⟨f, hf, g, hg, h3⟩ := h3
  obtain ⟨-, c2⟩ := C102_buddies _ _ _ _ h3
  rw [b3] at h2
  have hpl : ∀ r ∈ s.deck.reps, Passes shipFilter r → r.Placed := by
    intro r hr hp
    obtain ⟨n, hn⟩ := List.mem_iff_getElem?.mp hr
    obtain ⟨q, -, hq⟩ := forall2_get b4.flip n r hn
    exact baseChecked_report (readAs_baseChecked hq) ((passes_shipFilter r).mp hp)
  obtain ⟨a1, a2, a3⟩ := C100_ship_flags E.geo hG E.rnd E.ships hP s.deck.reps shipFilter hpl d1 h2
  refine ⟨s, before, d1.reps, f, g, h1, b1, b2, b4, a1, ?_, ?_, ?_, ?_, c2⟩
  · intro k r r' hr hr' hn
    exact a2 k r r' hr hr' (fun hp => hn ((passes_shipFilter r).mp hp))
  · intro r hr
    have := a3 r hr
    rw [chosenPairs_ship] at this
    exact this
  · rw [← hsame "DPT" "stdev" (by decide)]; exact hf
  · rw [← hsame "SLP" "stdev" (by decide)]; exact hg

/-- **C110, the flags.**  A report of a month whose date, hour, position or identifier failed is not touched by the checks of
ships; the others are checked with those of the same identifier, and their flags are those of the specification (C100).  After
that the buddy checks set their flags (C102), with the deviations of dew point and pressure from the library. -/
theorem C110_flags (E : RunEnv F) (hG : IsDistance E.geo) (hP : GoodShipParams E.ships) (lib lib' : ClimLib Arr3) (m : Int × Int)
    (hm : 1 ≤ m.2 ∧ m.2 ≤ 12) (d : Deck) (h : checkedMonth E lib m = .ok (d, lib')) :
    ∃ (before : Int × Int) (reps mid : List Report) (dpt slp : Arr3),
      succMonth before = m ∧ (1 ≤ before.2 ∧ before.2 ≤ 12) ∧
      List.Forall₂ (fun p r => ReadAs E.read.hum E.read.elev E.read.params lib m.1 m.2 p.1 p.2 r)
        (recordsFor E.read [before, m, succMonth m]) reps ∧
      mid.length = reps.length ∧
      (∀ (k : Nat) (r r' : Report), reps[k]? = some r → mid[k]? = some r' → ¬ PlacedWell r → r' = r) ∧
      (∀ r ∈ reps, ShipFlags E.geo E.rnd E.ships ((platformPairs r.id reps mid).map (·.1)) ((platformPairs r.id reps mid).map (·.2))) ∧
      lib.getField "DPT" "stdev" = .ok dpt ∧ lib.getField "SLP" "stdev" = .ok slp ∧
      List.Forall₂ (BuddyFlags E.span { E.buddy with
        dpt := fun la lo mo da => dpt.getValueMds la lo (some mo) (some da)
        slp := fun la lo mo da => slp.getValueMds la lo (some mo) (some da) } mid) mid d.reps := by
  obtain ⟨s, before, mid, f, g, -, h⟩ := checked_flags E hG hP lib lib' m hm d h
  exact ⟨before, s.deck.reps, mid, f, g, h⟩

/-! ## Completion -/

theorem forall2_pairwise {α β : Type} {R : α → β → Prop} {P : α → α → Prop} {Q : β → β → Prop} : ∀ {l : List α} {k : List β},
    List.Forall₂ R l k → l.Pairwise P → (∀ a ∈ l, ∀ a' ∈ l, ∀ b b', R a b → R a' b' → P a a' → Q b b') → k.Pairwise Q
  | _, _, .nil, _, _ => .nil
  | _, _, .cons (a := a) (b := b) (l₁ := l) (l₂ := k) e h, hp, hq => by
    obtain ⟨p1, p2⟩ := List.pairwise_cons.mp hp
    refine List.pairwise_cons.mpr ⟨?_, forall2_pairwise h p2 fun x hx y hy => hq x (by simp [hx]) y (by simp [hy])⟩
    intro b' hb'
    obtain ⟨n, hn⟩ := List.mem_iff_getElem?.mp hb'
    obtain ⟨a', ha', e'⟩ := forall2_get h.flip n b' hn
    have := List.mem_of_getElem? ha'
    exact hq a (by simp) a' (by simp [this]) b b' e e' (p1 a' this)

/-- The second month comes after the first. -/
def LaterMonth (a b : Int × Int) : Prop := a.1 < b.1 ∨ (a.1 = b.1 ∧ a.2 < b.2)

theorem laterMonth_succ {m : Int × Int} (hm : 1 ≤ m.2 ∧ m.2 ≤ 12) : LaterMonth m (succMonth m) := by
  obtain ⟨y, k⟩ := m
  unfold succMonth LaterMonth
  simp only
  split_ifs with h
  · left; simp
  · right; simp

theorem laterMonth_trans {a b c : Int × Int} (h1 : LaterMonth a b) (h2 : LaterMonth b c) : LaterMonth a c := by
  unfold LaterMonth at *
  omega

/-- Records of one month, or of an earlier and a later one. -/
def RecordsOrdered (p q : (Int × Int) × Imma) : Prop :=
  LaterMonth p.1 q.1 ∨ p.1 = q.1 ∧ (textOf (p.2.data "ID") = textOf (q.2.data "ID") →
    ∀ d ∈ dayOf p.2, ∀ h ∈ hourGiven p.2, ∀ d' ∈ dayOf q.2, ∀ h' ∈ hourGiven q.2, d < d' ∨ (d = d' ∧ h ≤ h'))

theorem recordsFor_ordered (E : ReadEnv F) : ∀ (months : List (Int × Int)), months.Pairwise LaterMonth →
    (∀ m ∈ months, InOrder (recordsIn E.excl m (linesOfFile E m))) → (recordsFor E months).Pairwise RecordsOrdered
  | [], _, _ => .nil
  | m :: months, hp, hm => by
    obtain ⟨p1, p2⟩ := List.pairwise_cons.mp hp
    show ((recordsIn E.excl m (linesOfFile E m)).map (fun rec => (m, rec)) ++ recordsFor E months).Pairwise _
    rw [List.pairwise_append]
    refine ⟨?_, recordsFor_ordered E months p2 fun k hk => hm k (by simp [hk]), ?_⟩
    · rw [List.pairwise_map]
      exact (hm m (by simp)).imp fun h => Or.inr ⟨rfl, h⟩
    · intro a ha b hb
      obtain ⟨rec, -, rfl⟩ := List.mem_map.mp ha
      unfold recordsFor at hb
      obtain ⟨k, hk, hb⟩ := List.mem_flatMap.mp hb
      obtain ⟨rec', -, rfl⟩ := List.mem_map.mp hb
      exact Or.inl (p1 k hk)

/-- The times of two reports are in the order of their records. -/
theorem readAs_order {H : HumFns} {elev : Elev F} {p : BaseParams} {lib : ClimLib Arr3} {y m : Int} {a b : (Int × Int) × Imma}
    {r s : Report} (ha : numericOf (a.2.data "YR") = some (a.1.1 : Rat) ∧ numericOf (a.2.data "MO") = some (a.1.2 : Rat))
    (hb : numericOf (b.2.data "YR") = some (b.1.1 : Rat) ∧ numericOf (b.2.data "MO") = some (b.1.2 : Rat))
    (hr : ReadAs H elev p lib y m a.1 a.2 r) (hs : ReadAs H elev p lib y m b.1 b.2 s) (hab : RecordsOrdered a b)
    (hid : r.id = s.id) (gr : PlacedWell r) (gs : PlacedWell s) : ∃ t, r.timeTo s = .ok (some t) ∧ 0 ≤ t := by
  obtain ⟨-, -, y1, m1, d1, h1, a1, a2, a3, a4, a5, a6, a7⟩ := baseChecked_placed (readAs_baseChecked hr) gr
  obtain ⟨-, -, y2, m2, d2, h2, b1, b2, b3, b4, b5, b6, b7⟩ := baseChecked_placed (readAs_baseChecked hs) gs
  have facts : ∀ {q : (Int × Int) × Imma} {x : Report}, ReadAs H elev p lib y m q.1 q.2 x →
      numericOf (q.2.data "YR") = some (q.1.1 : Rat) ∧ numericOf (q.2.data "MO") = some (q.1.2 : Rat) →
      x.getint "YR" = some q.1.1 ∧ x.getint "MO" = some q.1.2 ∧ x.getint "DY" = dayOf q.2 ∧
        ∀ h, x.getvar "HR" = some h → hourGiven q.2 = some h := by
    intro q x hx hq
    obtain ⟨-, -, c3, c4, -⟩ := C104_contents hx
    refine ⟨?_, ?_, ?_, ?_⟩
    · unfold Report.getint
      rw [c3 "YR" (by decide) (by decide), hq.1]
      simp
    · unfold Report.getint
      rw [c3 "MO" (by decide) (by decide), hq.2]
      simp
    · unfold Report.getint dayOf
      rw [c3 "DY" (by decide) (by decide)]
      cases numericOf (q.2.data "DY") <;> rfl
    · intro h hh
      have hh : x.data "HR" = some h := by
        unfold Report.getvar at hh
        simp only [show "HR" ∈ VARLIST by decide, show "HR" ∉ intVars by decide, true_or, not_true_eq_false, if_true, if_false] at hh
        cases hd : x.data "HR" with
        | none => rw [hd] at hh; exact hh
        | some q => rw [hd] at hh; exact hh
      unfold hourGiven
      rcases c4 with c4 | ⟨e1, e2, e3, e4⟩
      · rw [← c4, hh]
      · rw [e1]
        simp only
        rw [if_pos ⟨e3, fun y hy => e4 y hy⟩, ← e2, hh]
  obtain ⟨f1, f2, f3, f4⟩ := facts hr ha
  obtain ⟨g1, g2, g3, g4⟩ := facts hs hb
  rw [a1, Option.some.injEq] at f1
  rw [a2, Option.some.injEq] at f2
  rw [b1, Option.some.injEq] at g1
  rw [b2, Option.some.injEq] at g2
  obtain ⟨t, t1, t2, t3⟩ := C06_time_difference_sign y1 m1 d1 h1 y2 m2 d2 h2 a7 b7 a5 a6 b5 b6
  refine ⟨t, ?_, ?_⟩
  · unfold Report.timeTo
    rw [a1, a2, a3, a4, b1, b2, b3, b4]
    exact t1
  · have hle : Before (y1, m1, d1) (y2, m2, d2) ∨ ((y1, m1, d1) = (y2, m2, d2) ∧ h1 < h2) ∨
        ((y1, m1, d1) = (y2, m2, d2) ∧ h1 = h2) := by
      rcases hab with hab | ⟨e, hab⟩
      · left
        unfold LaterMonth at hab
        unfold Before
        simp only
        rcases hab with hab | hab
        · left; omega
        · right; refine ⟨by omega, Or.inl (by omega)⟩
      · have hids : textOf (a.2.data "ID") = textOf (b.2.data "ID") := by
          rw [← (C104_contents hr).1, ← (C104_contents hs).1, hid]
        have e1 : y1 = y2 := by rw [f1, g1, e]
        have e2 : m1 = m2 := by rw [f2, g2, e]
        rcases hab hids d1 (by rw [← f3, a3]; rfl) h1 (by rw [f4 _ a4]; rfl) d2 (by rw [← g3, b3]; rfl) h2 (by rw [g4 _ b4]; rfl)
          with hlt | ⟨hd, hh⟩
        · left
          unfold Before
          simp only
          right
          exact ⟨e1, Or.inr ⟨e2, hlt⟩⟩
        · rcases lt_or_eq_of_le hh with hh | hh
          · exact Or.inr (Or.inl ⟨by rw [e1, e2, hd], hh⟩)
          · exact Or.inr (Or.inr ⟨by rw [e1, e2, hd], hh⟩)
    rcases hle with h | h | h
    · exact (t2.mpr (Or.inl h)).le
    · exact (t2.mpr (Or.inr h)).le
    · exact (t3.mpr h).ge

theorem stdev_readable {f : Arr3} (hf : MdsShape f) : Readable f.stdev := by
  intro lat lon m d h1 h2 h3 h4 h5
  have hd : IsDate 2004 m d := by
    obtain ⟨e1, e2, e3, e4⟩ := h5
    refine ⟨e1, e2, e3, e4.trans ?_⟩
    unfold monthLength
    have h3' : ¬ LeapYear 2003 := by decide
    have h4' : LeapYear 2004 := by decide
    rw [if_neg h3', if_pos h4']
    split_ifs <;> norm_num
  obtain ⟨n, i, j, -, -, -, -, -, e⟩ := C18_get_value_mds f hf.1 hf.2.1 hf.2.2 lat lon h1.le h2.le h3.le h4.le m d hd
  exact ⟨_, e⟩

theorem readAs_course {H : HumFns} {elev : Elev F} {p : BaseParams} {lib : ClimLib Arr3} {y m : Int} {ym : Int × Int}
    {rec : Imma} {r : Report} (h : ReadAs H elev p lib y m ym rec r) : r.getvar "dsi" ∈ dsConvert := by
  obtain ⟨raw, checked, hp, hq, rfl⟩ := h
  obtain ⟨x, hx, e⟩ := hp.course
  obtain ⟨-, -, -, -, q5⟩ := baseQc_only hq
  have e' : checked.ext "dsi" = some x := by rw [q5]; exact e
  unfold Report.getvar
  simp only [show "dsi" ∉ VARLIST by decide, e', if_false]
  simpa using hx

/-- **C110, part.**  The reports of a month are read and checked to the end if: a file is found for each of the three months;
the climatology and the background can be read, the deviations of dew point and pressure on the grid of one degree; the
parameters are sensible; in every line the identifier can be found; every record that is used has a position on the earth and
no impossible hour; and in each file the records of one identifier are in the order of their times.  *Missing:* C101 and C106
show by example that the conditions on files and lines are needed. -/
theorem C110_completes_partial (E : RunEnv F) (hE : BackgroundReady E.read) (hp : GoodParams E.read.params) (hG : IsDistance E.geo)
    (hP : SoundShipParams E.ships)
    (hB : ∀ f g, Readable f → Readable g → SoundBuddies E.read.params { E.buddy with dpt := f, slp := g })
    (lib : ClimLib Arr3) (hl : LibReady lib)
    (hdev : ∀ v ∈ ["DPT", "SLP"], ∃ f, lib.getField v "stdev" = .ok f ∧ MdsShape f)
    (m : Int × Int) (hy : 2 ≤ m.1 ∧ m.1 ≤ 9998) (hm : 1 ≤ m.2 ∧ m.2 ≤ 12)
    (before : Int × Int) (hb : succMonth before = m) (hb' : 1 ≤ before.2 ∧ before.2 ≤ 12)
    (hf : ∀ ym ∈ [before, m, succMonth m],
      ∃ name, icoadsFilenameFromStub E.read.fs E.read.dirs E.read.files (some ym.1) (some ym.2) = .ok (some name))
    (hid : ∀ ym ∈ [before, m, succMonth m], ∀ line ∈ linesOfFile E.read ym, HasIdentifier line)
    (hr : ∀ ym ∈ [before, m, succMonth m], ∀ line ∈ linesOfFile E.read ym, ∀ rec,
      Used E.read.excl ym.1 ym.2 line rec → Placed rec)
    (ho : ∀ ym ∈ [before, m, succMonth m], InOrder (recordsIn E.read.excl ym (linesOfFile E.read ym))) :
    ∃ d lib', checkedMonth E lib m = .ok (d, lib') := by
  obtain ⟨s, h1⟩ := C106_completes_partial E.read hE hp lib hl m.1 m.2 hy hm before hb hb' hf hid hr
  obtain ⟨before', b1, b2, b3, b4⟩ := C104_reports E.read lib m.1 m.2 hm s h1
  have hbb : before' = before := by
    have : succMonth before' = succMonth before := by rw [b1, hb]
    obtain ⟨x, y⟩ := before'
    obtain ⟨x', y'⟩ := before
    unfold succMonth at this
    simp only at this hb' b2
    split_ifs at this <;> simp only [Prod.mk.injEq] at this ⊢ <;> omega
  subst hbb
  have hsame := readReports_clim E.read lib m.1 m.2 s h1
  have back : ∀ r ∈ s.deck.reps, ∃ p : (Int × Int) × Imma, ReadAs E.read.hum E.read.elev E.read.params lib m.1 m.2 p.1 p.2 r := by
    intro r hr
    obtain ⟨n, hn⟩ := List.mem_iff_getElem?.mp hr
    obtain ⟨q, -, hq⟩ := forall2_get b4.flip n r hn
    exact ⟨q, hq⟩
  have hlater : [before', m, succMonth m].Pairwise LaterMonth := by
    have l1 : LaterMonth before' m := by rw [← hb]; exact laterMonth_succ hb'
    have l2 := laterMonth_succ hm
    simp [l1, l2, laterMonth_trans l1 l2]
  have hpw : s.deck.reps.Pairwise fun a b => a.id = b.id → PlacedWell a → PlacedWell b → ∃ t, a.timeTo b = .ok (some t) ∧ 0 ≤ t :=
    forall2_pairwise b4 (recordsFor_ordered E.read _ hlater ho) fun a ha a' ha' b b' e e' hab =>
      readAs_order (recordsFor_month ha) (recordsFor_month ha') e e' hab
  obtain ⟨d1, h2⟩ := C101_completes_partial E.geo hG E.rnd E.ships hP s.deck.reps shipFilter (by
      intro r hr hpass
      obtain ⟨q, hq⟩ := back r hr
      exact ⟨baseChecked_report (readAs_baseChecked hq) ((passes_shipFilter r).mp hpass), readAs_course hq⟩) (by
      intro i
      unfold InTimeOrder
      rw [List.pairwise_filter]
      refine hpw.imp ?_
      intro a b hab ha hb
      simp only [decide_eq_true_eq] at ha hb
      exact hab (ha.1.trans hb.1.symm) ((passes_shipFilter a).mp ha.2) ((passes_shipFilter b).mp hb.2))
  obtain ⟨f, f1, f2⟩ := hdev "DPT" (by simp)
  obtain ⟨g, g1, g2⟩ := hdev "SLP" (by simp)
  have hchange := shipPass_change h2
  obtain ⟨d2, h3⟩ := C103_completes E.read.elev E.read.params E.span { E.buddy with dpt := f.stdev, slp := g.stdev }
    (hB _ _ (stdev_readable f2) (stdev_readable g2)) d1 (by
      intro r hr
      obtain ⟨n, hn⟩ := List.mem_iff_getElem?.mp hr
      obtain ⟨q, hq, hqr⟩ := forall2_get hchange.flip n r hn
      obtain ⟨p, hp⟩ := back q (List.mem_of_getElem? hq)
      obtain ⟨r0, r1, k1, k2, k3, k4⟩ := readAs_baseChecked hp
      refine ⟨r0, r1, k1, hqr.data.trans k2, hqr.clim.trans k3, fun k hk => ?_⟩
      rw [hqr.flags k, k4 k hk]
      revert hk
      have : ∀ k ∈ baseKeys, k ∉ stored shipFlagNames := by decide
      exact this k)
  refine ⟨d2, s.lib, ?_⟩
  unfold checkedMonth
  rw [h1, except_bind_ok, b3, h2, except_bind_ok]
  unfold buddyFromLib
  rw [hsame "DPT" "stdev" (by decide), f1, except_bind_ok, hsame "SLP" "stdev" (by decide), g1, except_bind_ok, h3]
  rfl

end MarineQC
