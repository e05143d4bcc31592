import Verif.Alone.Decks

/-!
# What other platforms can change (C135)
-/

namespace MarineQC

open Spec

variable {F : Type} [LinearOrder F] [Zero F]

theorem same_of_veil {r s : Report} (h : veil r = veil s) : (∀ k, k ∉ backNames → s.ext k = r.ext k) ∧ s = { r with ext := s.ext } := by
  constructor
  · intro k hk
    have := congrFun (congrArg Report.ext h) k
    simpa [veil, hk] using this.symm
  · cases r
    cases s
    simp only [veil, Report.mk.injEq] at h ⊢
    tauto

theorem buddies_id {span : Int → Nat → Int} {B : BuddyInputs} {l : List Report} {r r' : Report} (h : BuddyFlags span B l r r') :
    r'.id = r.id := by rw [h.same]

/-- The reports of a month between the ship checks and the buddy checks. -/
structure Between (E : RunEnv F) (lib : ClimLib Arr3) (before m : Int × Int) (d : Deck) (d1 : List Report) : Prop where
  buddies : ∃ f g, lib.getField "DPT" "stdev" = .ok f ∧ lib.getField "SLP" "stdev" = .ok g ∧
    List.Forall₂ (BuddyFlags E.span { E.buddy with dpt := f.stdev, slp := g.stdev } d1) d1 d.reps
  platform : ∀ i, ∃ (reps : List Report) (d2 : Deck),
    List.Forall₂ (PlainOf E.read m.1 m.2 lib) (recordsOf i (recordsFor E.read [before, m, succMonth m])) reps ∧
    shipPass E.geo (shipChecks E.geo E.rnd E.ships) ((Deck.empty.ofReports reps).addFilter shipFilter) = .ok d2 ∧
    d2.reps = reportsOf i d1

theorem checked_between (E : RunEnv F) {lib lib' : ClimLib Arr3} {m : Int × Int}
    {before : Int × Int} (hb : succMonth before = m) (hb' : 1 ≤ before.2 ∧ before.2 ≤ 12) {d : Deck}
    (h : checkedMonth E lib m = .ok (d, lib')) : ∃ d1, Between E lib before m d d1 := by
  unfold checkedMonth at h
  simp only [bind_ok_iff] at h
  obtain ⟨s, h1, d1, h2, d2, h3, h4⟩ := h
  simp only [except_pure, Except.ok.injEq, Prod.mk.injEq] at h4
  obtain ⟨rfl, rfl⟩ := h4
  obtain ⟨b3, b4⟩ := read_plain (before := before) hb hb' h1
  have hc := readReports_clim _ _ _ _ _ h1
  rw [buddyFromLib_same E hc] at h3
  unfold buddyFromLib at h3
  simp only [bind_ok_iff] at h3
  obtain ⟨f, hf, g, hg, h3⟩ := h3
  obtain ⟨-, c2⟩ := C102_buddies _ _ _ _ h3
  rw [b3] at h2
  obtain ⟨-, -, -, a4⟩ := (C99_platform_alone E.geo E.rnd E.ships s.deck.reps shipFilter).1 d1 h2
  refine ⟨d1.reps, ⟨f, g, hf, hg, c2⟩, fun i => ?_⟩
  obtain ⟨d'', k1, k2⟩ := a4 i
  refine ⟨reportsOf i s.deck.reps, d'', ?_, k1, k2⟩
  refine forall2_filter ?_ b4
  intro p r hr
  have : r.id = textOf (p.2.data "ID") := by rw [← veil_id r]; exact plain_id hr
  rw [this]

theorem platform_between {E : RunEnv F} {fs : FileSys} {lines : List Char → Option (List (List Char))} {lib lib' : ClimLib Arr3}
    (hlib : ∀ v s, v ≠ "OSTIA" → lib'.getField v s = lib.getField v s) {before m : Int × Int} {d d' : Deck} {d1 d1' : List Report}
    (h : Between E lib before m d d1)
    (h' : Between { E with read := { E.read with fs := fs, lines := lines } } lib' before m d' d1') {i : Option String}
    (hi : recordsOf i (recordsFor { E.read with fs := fs, lines := lines } [before, m, succMonth m]) =
      recordsOf i (recordsFor E.read [before, m, succMonth m])) :
    (reportsOf i d1).map veil = (reportsOf i d1').map veil := by
  obtain ⟨reps, d2, a1, a2, a3⟩ := h.platform i
  obtain ⟨reps', d2', b1, b2, b3⟩ := h'.platform i
  simp only at b1
  rw [hi] at b1
  rw [← a3, ← b3]
  have e : reps.map veil = reps'.map veil := by
    refine forall2_map_eq ?_ a1 b1
    intro p r r' hr hr'
    unfold PlainOf at hr hr'
    rw [plain_same (E := E.read) (E' := { E.read with fs := fs, lines := lines }) rfl rfl rfl hlib, hr, Except.ok.injEq] at hr'
    exact hr'
  have key : ∀ (l : List Report) (d2 : Deck), shipPass E.geo (shipChecks E.geo E.rnd E.ships)
      ((Deck.empty.ofReports l).addFilter shipFilter) = .ok d2 →
      shipPass E.geo (shipChecks E.geo E.rnd E.ships) ((Deck.empty.ofReports (l.map veil)).addFilter shipFilter) = .ok d2.veiled := by
    intro l d2 hl
    have := shipPass_veil (shipChecks_blind E.geo E.rnd E.ships) ((Deck.empty.ofReports l).addFilter shipFilter) (G := E.geo)
    rw [hl] at this
    rw [← exMap_ok, ← this, show (Deck.empty.ofReports (l.map veil)) = (Deck.empty.ofReports l).veiled from ofReports_veil l Deck.empty]
    rfl
  have k1 := key reps d2 a2
  have k2 := key reps' d2' b2
  rw [e, k2, Except.ok.injEq] at k1
  exact (congrArg Deck.reps k1).symm

theorem between_of (E : RunEnv F) {lib : ClimLib Arr3} {before m : Int × Int} {d : Deck} {d1 : List Report}
    (h : Between E lib before m d d1) (i : Option String) :
    ∃ B, List.Forall₂ (BuddyFlags E.span B d1) (reportsOf i d1) (reportsOf i d.reps) := by
  obtain ⟨f, g, -, -, h⟩ := h.buddies
  exact ⟨_, forall2_filter (fun a b hab => by rw [buddies_id hab]) h⟩

/-- **C135, part.**  The archive is replaced by another one with the same records of a platform for the month, the month before and
the month after; if the checks of the month complete for both, the reports of the platform come out the same, in the same
order, but for the flags of the buddy checks and the background values.  *Missing:* the background values
(`C135_background_violation`). -/
theorem C135_other_platforms_partial (E : RunEnv F) (fs : FileSys) (lines : List Char → Option (List (List Char)))
    (lib lib' libA libB : ClimLib Arr3)
    (hlib : ∀ v s, v ≠ "OSTIA" → lib'.getField v s = lib.getField v s) (before m : Int × Int) (hb : succMonth before = m)
    (hb' : 1 ≤ before.2 ∧ before.2 ≤ 12) (i : Option String)
    (hi : recordsOf i (recordsFor { E.read with fs := fs, lines := lines } [before, m, succMonth m]) =
      recordsOf i (recordsFor E.read [before, m, succMonth m]))
    (d d' : Deck) (h : checkedMonth E lib m = .ok (d, libA))
    (h' : checkedMonth { E with read := { E.read with fs := fs, lines := lines } } lib' m = .ok (d', libB)) :
    List.Forall₂ SameButBuddies (reportsOf i d.reps) (reportsOf i d'.reps) := by
  obtain ⟨d1, k1⟩ := checked_between E hb hb' h
  obtain ⟨d1', k1'⟩ := checked_between { E with read := { E.read with fs := fs, lines := lines } } hb hb' h'
  have e2 := platform_between hlib k1 k1' hi
  obtain ⟨B, a3⟩ := between_of _ k1 i
  obtain ⟨B', b3⟩ := between_of _ k1' i
  refine forall2_trans3 a3 (forall2_of_map (R := fun r s => veil r = veil s) (fun _ _ h => h) e2) b3 ?_
  intro x y z w h1 h2 h3
  obtain ⟨v1, v2⟩ := same_of_veil h2
  have e1 := h1.same
  have e3 := h3.same
  refine ⟨?_, ?_, ?_, ?_, ?_, ?_, ?_⟩
  · rw [e3, e1, v2]
  · rw [e3, e1, v2]
  · rw [e3, e1, v2]
  · rw [e3, e1, v2]
  · rw [e3, e1, v2]
  · intro k hk
    rw [e3, e1]
    exact v1 k hk
  · intro k hk
    rw [h3.others k hk, h1.others k hk, v2]

theorem getQc_unbuddied {r s : Report} (h : SameButBuddies r s) {g f : String} (hk : g ++ f ∉ stored buddyFlagNames) :
    s.getQc g f = r.getQc g f := by
  unfold Report.getQc
  rw [h.flags _ hk]

/-- **C135, the drifters' tables.**  Under the same conditions the tables of flags written for a drifter are the same row for
row, for any selection of flags without those of the buddy checks; the table of positions is one of them. -/
theorem C135_drifter_tables_partial (E : RunEnv F) (fs : FileSys) (lines : List Char → Option (List (List Char)))
    (lib lib' libA libB : ClimLib Arr3)
    (hlib : ∀ v s, v ≠ "OSTIA" → lib'.getField v s = lib.getField v s) (before m : Int × Int) (hb : succMonth before = m)
    (hb' : 1 ≤ before.2 ∧ before.2 ≤ 12) (i : Option String)
    (hi : recordsOf i (recordsFor { E.read with fs := fs, lines := lines } [before, m, succMonth m]) =
      recordsOf i (recordsFor E.read [before, m, succMonth m]))
    (d d' : Deck) (h : checkedMonth E lib m = .ok (d, libA))
    (h' : checkedMonth { E with read := { E.read with fs := fs, lines := lines } } lib' m = .ok (d', libB))
    (block : String) (flags : List String) (hf : ∀ f ∈ flags, block ++ f ∉ stored buddyFlagNames) :
    flagTable block flags (ofMonth m.1 m.2 (driftOf i d'.reps)) = flagTable block flags (ofMonth m.1 m.2 (driftOf i d.reps)) := by
  have key := C135_other_platforms_partial E fs lines lib lib' libA libB hlib before m hb hb' i hi d d' h h'
  have hdrift : ∀ l : List Report, driftOf i l = (reportsOf i l).filter fun r => decide (DriftsNow r) := by
    intro l
    unfold driftOf reportsOf
    rw [List.filter_filter]
    refine List.filter_congr fun r _ => ?_
    rw [← Bool.decide_and]
    exact decide_eq_decide.mpr and_comm
  have k2 : List.Forall₂ SameButBuddies (ofMonth m.1 m.2 (driftOf i d.reps)) (ofMonth m.1 m.2 (driftOf i d'.reps)) := by
    rw [hdrift, hdrift]
    unfold ofMonth
    refine forall2_filter ?_ (forall2_filter ?_ key)
    · intro a b hab
      unfold Report.getint
      rw [hab.data]
    · intro a b hab
      refine decide_eq_decide.mpr ?_
      unfold DriftsNow
      rw [getQc_unbuddied hab (by decide), getQc_unbuddied hab (by decide)]
  unfold flagTable table
  congr 1
  generalize ofMonth m.1 m.2 (driftOf i d.reps) = l at k2
  generalize ofMonth m.1 m.2 (driftOf i d'.reps) = l' at k2
  induction k2 with
  | nil => rfl
  | cons e _ ih =>
    rw [List.map_cons, List.map_cons, ih, e.uid]
    congr 2
    refine List.map_congr_left fun f hfm => ?_
    rw [getQc_unbuddied e (hf f hfm)]

/-- Non-vacuity: the flags of position that are written for a drifter have none of the buddy checks among them. -/
example : ∀ b ∈ voyageFlags, b.1 = "POS" → ∀ f ∈ b.2, b.1 ++ f ∉ stored buddyFlagNames := by decide

end MarineQC
