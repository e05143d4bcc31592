import Verif.Near.Unique
import Verif.Alone.Props

/-!
# Which other platforms can change a platform's flags (C136)
-/

namespace MarineQC

open Spec

variable {F : Type} [LinearOrder F] [Zero F]

theorem obsOf_veil {r s : Report} (h : veil r = veil s) {v : String} (hv : v ∉ backNames) : obsOf v s = obsOf v r := by
  unfold obsOf
  rw [← veil_lat s, ← veil_lon s, ← veil_getint s, ← veil_getint s, ← h, veil_lat, veil_lon, veil_getint, veil_getint]
  have : s.getanom v = r.getanom v := by
    have key : ∀ r : Report, (veil r).getanom v = r.getanom v := by
      intro r
      unfold Report.getanom
      rw [veil_getvar r hv]
      rfl
    rw [← key s, ← h, key]
  rw [this]

theorem getQc_veil {r s : Report} (h : veil r = veil s) (t f : String) : s.getQc t f = r.getQc t f := by
  rw [← veil_getQc s, ← veil_getQc r, h]

/-- Being a buddy depends on flags alone. -/
def FlagBased (E : Report → Prop) : Prop := ∀ r s : Report, (∀ t f, s.getQc t f = r.getQc t f) → (E s ↔ E r)

theorem sstBuddy_flags : FlagBased SstBuddy := fun r s h => by unfold SstBuddy WellPlaced; simp only [h]

theorem atBuddy_flags : FlagBased AtBuddy := fun r s h => by unfold AtBuddy WellPlaced; simp only [h]

theorem dptBuddy_flags : FlagBased DptBuddy := fun r s h => by unfold DptBuddy WellPlaced; simp only [h]

theorem slpBuddy_flags : FlagBased SlpBuddy := fun r s h => by unfold SlpBuddy WellPlaced; simp only [h]

theorem sameBuddy_veil {r s : Report} (h : veil r = veil s) {v : String} (hv : v ∉ backNames) {E : Report → Prop} (hE : FlagBased E) :
    SameBuddy v E r s :=
  ⟨obsOf_veil h hv, hE r s (getQc_veil h)⟩

theorem forall2_same_map {α β γ : Type} {R : α → β → Prop} {f : α → γ} {g : β → γ} {l : List α} {l' : List β}
    (h : List.Forall₂ R l l') (hf : ∀ a b, R a b → f a = g b) : l.map f = l'.map g := by
  induction h with
  | nil => rfl
  | cons e _ ih => rw [List.map_cons, List.map_cons, hf _ _ e, ih]

theorem forall2_and_mem {α β : Type} {R : α → β → Prop} {l : List α} {l' : List β} (h : List.Forall₂ R l l') :
    List.Forall₂ (fun a b => a ∈ l ∧ R a b) l l' := by
  induction h with
  | nil => exact .nil
  | cons e _ ih => exact .cons ⟨List.mem_cons_self, e⟩ (ih.imp fun a b hab => ⟨List.mem_cons_of_mem _ hab.1, hab.2⟩)

open Classical in
/-- Lists with the same elements of every label, each in order, are permutations of one another. -/
theorem perm_of_labels {α β : Type} [DecidableEq α] {l l' : List (α × β)}
    (h : ∀ a, l.filter (fun p => decide (p.1 = a)) = l'.filter (fun p => decide (p.1 = a))) : l.Perm l' := by
  rw [List.perm_iff_count]
  intro x
  have key : ∀ l : List (α × β), l.count x = (l.filter fun p => decide (p.1 = x.1)).count x := by
    intro l
    rw [List.count_filter]
    simp
  rw [key l, key l', h]

open Classical in
theorem cell_perm {l l' : List Report} {v : String} (hv : v ∉ backNames) {E : Report → Prop} (hE : FlagBased E) {c : Cell}
    (h : ∀ j, (∃ r, (r ∈ l ∨ r ∈ l') ∧ r.id = j ∧ FallsIn c (obsOf v r)) → (reportsOf j l).map veil = (reportsOf j l').map veil) :
    (anomaliesIn c (buddyObs l v E)).Perm (anomaliesIn c (buddyObs l' v E)) := by
  have form : ∀ l : List Report, anomaliesIn c (buddyObs l v E) =
      (((l.filter fun r => decide (E r ∧ FallsIn c (obsOf v r))).map fun r => (r.id, r.getanom v)).map (·.2)).filterMap id := by
    intro l
    unfold anomaliesIn buddyObs
    rw [List.filter_map, List.filter_filter, List.map_map, List.filterMap_map, List.filterMap_map]
    congr 1
    refine List.filter_congr fun r _ => ?_
    simp only [Function.comp, Bool.decide_and, Bool.and_comm]
  rw [form, form]
  refine List.Perm.filterMap _ (List.Perm.map _ (perm_of_labels ?_))
  intro j
  have form2 : ∀ l : List Report, ((l.filter fun r => decide (E r ∧ FallsIn c (obsOf v r))).map fun r => (r.id, r.getanom v)).filter
      (fun p => decide (p.1 = j)) =
      ((reportsOf j l).filter fun r => decide (E r ∧ FallsIn c (obsOf v r))).map fun r => (r.id, r.getanom v) := by
    intro l
    unfold reportsOf
    rw [List.filter_map, List.filter_filter, List.filter_filter]
    congr 1
    refine List.filter_congr fun r _ => ?_
    simp only [Function.comp]
    rw [Bool.and_comm]
  rw [form2, form2]
  by_cases hj : ∃ r, (r ∈ l ∨ r ∈ l') ∧ r.id = j ∧ FallsIn c (obsOf v r)
  · have := forall2_of_map (R := fun r s => veil r = veil s) (fun _ _ h => h) (h j hj)
    refine forall2_same_map (forall2_filter ?_ this) ?_
    · intro a b hab
      rw [obsOf_veil hab hv]
      exact decide_eq_decide.mpr (by rw [hE a b (getQc_veil hab)])
    · intro a b hab
      rw [show b.getanom v = a.getanom v from congrArg Obs.anom (obsOf_veil hab hv), ← veil_id b, ← hab, veil_id]
  · have none : ∀ k, (∀ r ∈ k, r ∈ l ∨ r ∈ l') → (reportsOf j k).filter (fun r => decide (E r ∧ FallsIn c (obsOf v r))) = [] := by
      intro k hk
      rw [List.filter_eq_nil_iff]
      intro r hr
      unfold reportsOf at hr
      rw [List.mem_filter, decide_eq_true_eq] at hr
      simp only [decide_eq_true_eq, not_and]
      exact fun _ hf => hj ⟨r, hk r hr.1, hr.2, hf⟩
    rw [none l (fun _ h => Or.inl h), none l' (fun _ h => Or.inr h)]

theorem liesIn_obs {c : Cell} {r : Report} (v : String) : LiesIn c r ↔ FallsIn c (obsOf v r) := Iff.rfl

/-- **C136.**  The archive is replaced by another one.  Platform `i` has the same records in both, and so has every
platform with a report, in either archive, near a report of `i`.  If the checks of the month complete for both, the reports of
`i` come out the same, in the same order, with all their flags, those of the buddy checks included, and but for the background
values (for which see `C135_background_violation`). -/
theorem C136_neighbours (E : RunEnv F) (fs : FileSys) (lines : List Char → Option (List (List Char)))
    (lib lib' libA libB : ClimLib Arr3)
    (hlib : ∀ v s, v ≠ "OSTIA" → lib'.getField v s = lib.getField v s) (before m : Int × Int) (hb : succMonth before = m)
    (hb' : 1 ≤ before.2 ∧ before.2 ≤ 12) (i : Option String)
    (d d' : Deck) (h : checkedMonth E lib m = .ok (d, libA))
    (h' : checkedMonth { E with read := { E.read with fs := fs, lines := lines } } lib' m = .ok (d', libB))
    (hi : recordsOf i (recordsFor { E.read with fs := fs, lines := lines } [before, m, succMonth m]) =
      recordsOf i (recordsFor E.read [before, m, succMonth m]))
    (hn : ∀ j, (∃ r s, r ∈ reportsOf i d.reps ∧ (s ∈ d.reps ∨ s ∈ d'.reps) ∧ s.id = j ∧ Near E.span (buddyRadii E.buddy) r s) →
      recordsOf j (recordsFor { E.read with fs := fs, lines := lines } [before, m, succMonth m]) =
        recordsOf j (recordsFor E.read [before, m, succMonth m])) :
    List.Forall₂ SameButBackground (reportsOf i d.reps) (reportsOf i d'.reps) := by
  obtain ⟨d1, k1⟩ := checked_between E hb hb' h
  obtain ⟨d1', k1'⟩ := checked_between { E with read := { E.read with fs := fs, lines := lines } } hb hb' h'
  have e2 := platform_between hlib k1 k1' hi
  obtain ⟨f, g, hf, hg, c1⟩ := k1.buddies
  obtain ⟨f', g', hf', hg', c1'⟩ := k1'.buddies
  rw [hlib _ _ (by decide), hf, Except.ok.injEq] at hf'
  rw [hlib _ _ (by decide), hg, Except.ok.injEq] at hg'
  subst hf' hg'
  have place : ∀ {B : BuddyInputs} {l : List Report} {r r' : Report}, BuddyFlags E.span B l r r' →
      r'.id = r.id ∧ ∀ c, LiesIn c r' ↔ LiesIn c r := by
    intro B l r r' hr
    refine ⟨buddies_id hr, fun c => ?_⟩
    rw [hr.same]
    rfl
  have after : ∀ {B : BuddyInputs} {l a b : List Report}, List.Forall₂ (BuddyFlags E.span B l) a b →
      ∀ r ∈ a, ∃ r' ∈ b, r'.id = r.id ∧ ∀ c, LiesIn c r' ↔ LiesIn c r := by
    intro B l a b hab r hr
    obtain ⟨n, hr⟩ := List.mem_iff_getElem?.mp hr
    obtain ⟨r', h1, h2⟩ := forall2_get hab n r hr
    exact ⟨r', List.mem_of_getElem? h1, place h2⟩
  have a3 : List.Forall₂ (BuddyFlags E.span { E.buddy with dpt := f.stdev, slp := g.stdev } d1) (reportsOf i d1) (reportsOf i d.reps) :=
    forall2_filter (fun a b hab => by rw [buddies_id hab]) c1
  have b3 : List.Forall₂ (BuddyFlags E.span { E.buddy with dpt := f.stdev, slp := g.stdev } d1') (reportsOf i d1')
      (reportsOf i d'.reps) := forall2_filter (fun a b hab => by rw [buddies_id hab]) c1'
  have perm : ∀ {v : String} (_ : v ∉ backNames) {E' : Report → Prop}, FlagBased E' → ∀ r ∈ reportsOf i d1, ∀ c c', FallsIn c (obsOf v r) →
      Reaches E.span (buddyRadii E.buddy) c c' →
      (anomaliesIn c' (buddyObs d1 v E')).Perm (anomaliesIn c' (buddyObs d1' v E')) := by
    intro v hv E' hE' r hr c c' hc hcc
    refine cell_perm hv hE' ?_
    rintro j ⟨s, hs, hsj, hsc⟩
    refine platform_between hlib k1 k1' (hn j ?_)
    obtain ⟨r', q1, -, q2⟩ := after a3 r hr
    rcases hs with hs | hs
    · obtain ⟨s', p1, p2, p3⟩ := after c1 s hs
      exact ⟨r', s', q1, Or.inl p1, p2.trans hsj, c, c', (q2 c).mpr hc, (p3 c').mpr hsc, hcc⟩
    · obtain ⟨s', p1, p2, p3⟩ := after c1' s hs
      exact ⟨r', s', q1, Or.inr p1, p2.trans hsj, c, c', (q2 c).mpr hc, (p3 c').mpr hsc, hcc⟩
  have a4 : List.Forall₂ (fun r r' => r ∈ reportsOf i d1 ∧ BuddyFlags E.span { E.buddy with dpt := f.stdev, slp := g.stdev } d1 r r')
      (reportsOf i d1) (reportsOf i d.reps) := forall2_and_mem a3
  refine forall2_trans3 a4 (forall2_of_map (R := fun r s => veil r = veil s) (fun _ _ h => h) e2) b3 ?_
  rintro x y z w ⟨hx, h1⟩ h2 h3
  obtain ⟨v1, v2⟩ := same_of_veil h2
  have e1 := h1.same
  have e3 := h3.same
  have hm : ∀ P ∈ E.buddy.mds.limits, P ∈ buddyRadii E.buddy := fun P hP => by unfold buddyRadii; simp [hP]
  have hp : ∀ P ∈ E.buddy.slpMds.limits, P ∈ buddyRadii E.buddy := fun P hP => by unfold buddyRadii; simp [hP]
  have h4 := bayesFlag_unique (by unfold buddyRadii; simp) (sameBuddy_veil h2 (by decide) sstBuddy_flags)
    (fun c c' => perm (by decide) sstBuddy_flags y hx c c') h1.sstBayes h3.sstBayes
  have h5 := bayesFlag_unique (by unfold buddyRadii; simp) (sameBuddy_veil h2 (by decide) atBuddy_flags)
    (fun c c' => perm (by decide) atBuddy_flags y hx c c') h1.atBayes h3.atBayes
  have h6 := mds_unique hm (sameBuddy_veil h2 (by decide) sstBuddy_flags)
    (fun c c' => perm (by decide) sstBuddy_flags y hx c c') h1.sst h3.sst
  have h7 := mds_unique hm (sameBuddy_veil h2 (by decide) atBuddy_flags)
    (fun c c' => perm (by decide) atBuddy_flags y hx c c') h1.at' h3.at'
  have h8 := mds_unique hm (sameBuddy_veil h2 (by decide) dptBuddy_flags)
    (fun c c' => perm (by decide) dptBuddy_flags y hx c c') h1.dpt h3.dpt
  have h9 := mds_unique hp (sameBuddy_veil h2 (by decide) slpBuddy_flags)
    (fun c c' => perm (by decide) slpBuddy_flags y hx c c') h1.slp h3.slp
  refine ⟨?_, ?_, ?_, ?_, ?_, ?_, ?_⟩
  · rw [e3, e1, v2]
  · rw [e3, e1, v2]
  · rw [e3, e1, v2]
  · rw [e3, e1, v2]
  · rw [e3, e1, v2]
  · intro k hk
    rw [e3, e1]
    exact v1 k hk
  · intro t f
    by_cases hk : t ++ f ∈ stored buddyFlagNames
    · have : ∀ a b : String, t ++ f = a ++ b → w.getQc a b = x.getQc a b → w.getQc t f = x.getQc t f := by
        intro a b e h
        unfold Report.getQc at h ⊢
        rw [e]
        exact h
      simp only [stored, buddyFlagNames, List.map_cons, List.map_nil, List.mem_cons, List.not_mem_nil, or_false] at hk
      rcases hk with e | e | e | e | e | e
      · exact this _ _ e h4.symm
      · exact this _ _ e h6.symm
      · exact this _ _ e h5.symm
      · exact this _ _ e h7.symm
      · exact this _ _ e h8.symm
      · exact this _ _ e h9.symm
    · unfold Report.getQc
      rw [h3.others _ hk, h1.others _ hk, v2]

end MarineQC
