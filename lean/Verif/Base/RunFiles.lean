import Verif.Base.RunProps
import Verif.Base.RunSpec
import Verif.Base.Props
import Verif.Base.BuddyProps
import Verif.Base.OutProps

/-! # The files of a run over months (C109) -/

namespace MarineQC

open Spec

variable {F : Type} [LinearOrder F] [Zero F]

/-! ## Paths of different months -/

theorem zeroPad_no_slash (m : Int) : '/' ∉ zeroPad 2 m := by
  intro h
  rcases zeroPad_chars 2 m '/' h with h | h
  · exact absurd h (by decide)
  · exact absurd h (by decide)

theorem inMonth_not_year (out x : List Char) (y m y' : Int) (hy' : 0 ≤ y') :
    monthDir out y m ++ '/' :: x ≠ out ++ '/' :: intText y' := by
  intro h
  unfold monthDir at h
  rw [List.append_assoc] at h
  have h := List.append_cancel_left h
  simp only [List.cons_append, List.cons.injEq, true_and] at h
  exact intText_no_sep y' hy' '/' (by decide) (h ▸ by simp)

theorem inMonth_not_month (out x : List Char) (y m y' m' : Int) (hy : 0 ≤ y) (hy' : 0 ≤ y') :
    monthDir out y m ++ '/' :: x ≠ monthDir out y' m' := by
  intro h
  unfold monthDir at h
  rw [List.append_assoc] at h
  have h := List.append_cancel_left h
  simp only [List.cons_append, List.cons.injEq, true_and, List.append_assoc] at h
  obtain ⟨-, h⟩ := split_slash _ _ _ _ (intText_no_sep y hy '/' (by decide)) (intText_no_sep y' hy' '/' (by decide)) h
  exact zeroPad_no_slash m' (h ▸ by simp)

theorem inMonth_inj (out x x' : List Char) (y m y' m' : Int) (hy : 0 ≤ y) (hy' : 0 ≤ y')
    (h : monthDir out y m ++ '/' :: x = monthDir out y' m' ++ '/' :: x') : (y, m) = (y', m') := by
  unfold monthDir at h
  rw [List.append_assoc, List.append_assoc] at h
  have h := List.append_cancel_left h
  simp only [List.cons_append, List.cons.injEq, true_and, List.append_assoc] at h
  obtain ⟨h1, h⟩ := split_slash _ _ _ _ (intText_no_sep y hy '/' (by decide)) (intText_no_sep y' hy' '/' (by decide)) h
  obtain ⟨h2, -⟩ := split_slash _ _ _ _ (zeroPad_no_slash m) (zeroPad_no_slash m') h
  rw [intText_inj _ _ h1, zeroPad_inj 2 _ _ h2]

theorem monthFile_in {runid dir : List Char} {year month : Int} {tracking : Bool} {reps : List Report} {p : List Char}
    (h : MonthFile runid dir year month tracking reps p) : ∃ x, p = dir ++ '/' :: x := by
  cases h with
  | vars => exact deckPath_in ..
  | flags => exact deckPath_in ..
  | drifterVars => exact voyagePath_in ..
  | drifterFlags => exact voyagePath_in ..
  | list => exact idFile_in ..

/-- The output of one month leaves the ground prepared for another. -/
theorem ready_after {runid out : List Char} {y m y' m' : Int} {tracking : Bool} {reps reps' : List Report} {fs fs' : FileSys}
    (h : OutputReady runid out y m reps fs) (h' : OutputReady runid out y' m' reps' fs)
    (hf : ∀ p, ¬ MonthFile runid (monthDir out y m) y m tracking reps p → fs'.file p = fs.file p)
    (hd : ∀ q, fs'.dir q = true ↔ q = out ++ '/' :: intText y ∨ q = monthDir out y m ∨ fs.dir q = true) :
    OutputReady runid out y' m' reps' fs' := by
  have free : ∀ x, fs.dir (monthDir out y' m' ++ '/' :: x) = false → fs'.dir (monthDir out y' m' ++ '/' :: x) = false := by
    intro x hx
    rw [Bool.eq_false_iff, ne_eq, hd]
    rintro (e | e | e)
    · exact inMonth_not_year _ _ _ _ _ h.yearPos e
    · exact inMonth_not_month _ _ _ _ _ _ h'.yearPos h.yearPos e
    · rw [hx] at e; cases e
  refine { h' with there := (hd _).mpr (Or.inr (Or.inr h'.there)), yearName := ?_, dirName := ?_, deck := ?_, voyage := ?_, list := ?_ }
  · rw [hf, h'.yearName]
    intro hm
    obtain ⟨x, hx⟩ := monthFile_in hm
    exact inMonth_not_year _ _ _ _ _ h'.yearPos hx.symm
  · rw [hf, h'.dirName]
    intro hm
    obtain ⟨x, hx⟩ := monthFile_in hm
    exact inMonth_not_month _ _ _ _ _ _ h.yearPos h'.yearPos hx.symm
  · intro pre; exact free _ (h'.deck pre)
  · intro pre i; exact free _ (h'.voyage pre i)
  · exact free "ID_file.txt".toList h'.list

/-! ## The run -/

/-- What the output of a month leaves behind, with the text of the drifters' files. -/
def MonthText (E : RunEnv F) (m : Int × Int) (reps : List Report) (fs : FileSys) : Prop :=
  DeckFiles E.fmt E.runid (monthDir E.out m.1 m.2) m.1 m.2 reps fs ∧
  (E.read.tracking = true → ∃ ids : List String,
    ids.Nodup ∧ (∀ i, i ∈ ids ↔ ∃ r ∈ reps, r.id = some i ∧ DriftsNow r) ∧
    fs.file (idFilePath (monthDir E.out m.1 m.2)) = some (ids.flatMap fun i : String => idFileLine i.toList) ∧
    ∀ i ∈ ids, ∃ v, (driftOf (some i) reps).foldlM (addReport E.geo) [] = .ok v ∧
      VoyageText E.fmt E.runid (monthDir E.out m.1 m.2) m.1 m.2 i v fs)

theorem MonthText.keep {E : RunEnv F} {m : Int × Int} {reps : List Report} {fs fs' : FileSys} (h : MonthText E m reps fs)
    (hf : ∀ x, fs'.file (monthDir E.out m.1 m.2 ++ '/' :: x) = fs.file (monthDir E.out m.1 m.2 ++ '/' :: x)) :
    MonthText E m reps fs' := by
  have hd : ∀ pre, fs'.file (deckPath E.runid (monthDir E.out m.1 m.2) m.1 m.2 false pre) =
      fs.file (deckPath E.runid (monthDir E.out m.1 m.2) m.1 m.2 false pre) := fun pre => hf _
  have hv : ∀ pre i, fs'.file (voyagePath E.runid (monthDir E.out m.1 m.2) m.1 m.2 pre i) =
      fs.file (voyagePath E.runid (monthDir E.out m.1 m.2) m.1 m.2 pre i) := fun pre i => hf _
  have hl : fs'.file (idFilePath (monthDir E.out m.1 m.2)) = fs.file (idFilePath (monthDir E.out m.1 m.2)) :=
    hf "ID_file.txt".toList
  obtain ⟨⟨⟨s, a1, a2⟩, a3⟩, a4⟩ := h
  refine ⟨⟨⟨s, by rw [hd]; exact a1, a2⟩, fun b hb => ?_⟩, fun ht => ?_⟩
  · obtain ⟨t, b1, b2⟩ := a3 b hb
    exact ⟨t, by rw [hd]; exact b1, b2⟩
  · obtain ⟨ids, c1, c2, c3, c4⟩ := a4 ht
    refine ⟨ids, c1, c2, by rw [hl]; exact c3, fun i hi => ?_⟩
    obtain ⟨v, d1, d2, d3⟩ := c4 i hi
    exact ⟨v, d1, by rw [hv]; exact d2, fun b hb => by rw [hv]; exact d3 b hb⟩

/-! ## From the records of the files to the reports of a month -/

theorem shipChange_refl (r : Report) : ShipChange r r := ⟨rfl, rfl, rfl, rfl, rfl, fun _ _ => rfl, fun _ _ => rfl⟩

theorem shipPass_change {G : Geo} {rnd : Rat → Rat} {P : ShipParams} {l : List Report} {q : QcFilter} {d : Deck}
    (h : shipPass G (shipChecks G rnd P) ((Deck.empty.ofReports l).addFilter q) = .ok d) : List.Forall₂ ShipChange l d.reps := by
  obtain ⟨h1, h2, h3⟩ := shipPass_pairs (shipChecks_keepsIds G rnd P) h
  have hlen : l.length = d.reps.length := by simpa using (congrArg List.length h1).symm
  rw [List.forall₂_iff_zip]
  refine ⟨hlen, fun {r r'} hm => ?_⟩
  by_cases hp : Passes q r
  · have hmem : (r, r') ∈ chosenPairs q r.id l d.reps := by
      unfold chosenPairs
      rw [List.mem_filter]
      exact ⟨hm, decide_eq_true ⟨rfl, hp⟩⟩
    obtain ⟨v, c1, c2⟩ := h3 r.id (List.mem_map_of_mem (List.of_mem_zip hm).1)
    obtain ⟨n, hn⟩ := List.mem_iff_getElem?.mp hmem
    have e1 : ((chosenPairs q r.id l d.reps).map (·.1))[n]? = some r := by rw [List.getElem?_map, hn]; rfl
    have e2 : ((chosenPairs q r.id l d.reps).map (·.2))[n]? = some r' := by rw [List.getElem?_map, hn]; rfl
    obtain ⟨s, hs, k⟩ := forall2_get (build_only G _ v c1) n r e1
    obtain ⟨m1, m2, m3, m4, m5, m6, m7⟩ := (shipChecks_step c2).2 n s r' hs e2
    refine ⟨m1.trans k.id, m2.trans k.uid, m3.trans k.data, m4.trans k.clim, m5.trans k.dt, ?_, ?_⟩
    · intro x hx
      rw [List.mem_append, not_or] at hx
      rw [m6 x hx.2, k.ext x hx.1]
    · intro x hx
      rw [m7 x hx, k.flags x (by simp)]
  · rw [show r' = r from h2 (r, r') hm hp]
    exact shipChange_refl r

theorem forall2_chain {α β γ : Type} {R : α → β → Prop} {S : β → γ → Prop} {T : α → γ → Prop} (hT : ∀ a b c, R a b → S b c → T a c)
    {a : List α} {b : List β} {c : List γ} (h1 : List.Forall₂ R a b) (h2 : List.Forall₂ S b c) : List.Forall₂ T a c := by
  induction h1 generalizing c with
  | nil => cases h2; exact .nil
  | cons e _ ih => cases h2 with | cons e' h => exact .cons (hT _ _ _ e e') (ih h)

theorem map_id_of {a b : List Report} (h : List.Forall₂ (fun r r' : Report => r'.id = r.id) a b) :
    b.map Report.id = a.map Report.id := by
  induction h with
  | nil => rfl
  | cons e _ ih => rw [List.map_cons, List.map_cons, e, ih]

theorem checkedMonth_parts {E : RunEnv F} {lib lib' : ClimLib Arr3} {m : Int × Int} (hm : 1 ≤ m.2 ∧ m.2 ≤ 12) {d : Deck}
    (h : checkedMonth E lib m = .ok (d, lib')) :
    ∃ before reps, succMonth before = m ∧ (1 ≤ before.2 ∧ before.2 ≤ 12) ∧
      List.Forall₂ (fun p r => ReadAs E.read.hum E.read.elev E.read.params lib m.1 m.2 p.1 p.2 r)
        (recordsFor E.read [before, m, succMonth m]) reps ∧
      List.Forall₂ AfterChecks reps d.reps ∧ d.Indexed ∧ ∃ s, readReports E.read lib m.1 m.2 = .ok s ∧ s.deck.reps = reps := by
  unfold checkedMonth at h
  simp only [bind_ok_iff] at h
  obtain ⟨s, h1, d1, h2, d2, h3, h4⟩ := h
  simp only [except_pure, Except.ok.injEq, Prod.mk.injEq] at h4
  obtain ⟨rfl, rfl⟩ := h4
  obtain ⟨before, b1, b2, b3, b4⟩ := C104_reports E.read lib m.1 m.2 hm s h1
  unfold buddyFromLib at h3
  simp only [bind_ok_iff] at h3
  obtain ⟨f, -, g, -, h3⟩ := h3
  obtain ⟨c1, c2⟩ := C102_buddies _ _ _ _ h3
  have hs := h2
  rw [b3] at hs
  have c3 := shipPass_change hs
  refine ⟨before, s.deck.reps, b1, b2, b4, ?_, ?_, s, h1, rfl⟩
  · refine forall2_chain ?_ c3 c2
    intro a b c hab hbc
    have e := hbc.same
    refine ⟨by rw [e]; exact hab.id, by rw [e]; exact hab.uid, by rw [e]; exact hab.data, by rw [e]; exact hab.clim,
      by rw [e]; exact hab.dt, by rw [e]; exact hab.ext, ?_⟩
    intro k hk
    have : k ∉ stored buddyFlagNames ∧ k ∉ stored shipFlagNames := by
      unfold stored at hk ⊢
      rw [List.map_append, List.mem_append, not_or] at hk
      exact ⟨hk.2, hk.1⟩
    rw [hbc.others k this.1, hab.flags k this.2]
  · obtain ⟨-, d3, -, -⟩ := (C99_platform_alone E.geo E.rnd E.ships s.deck.reps shipFilter).1 d1 hs
    refine indexed_of_ids (ofReports_indexed s.deck.reps shipFilter) (c1.trans d3) ?_
    have e1 : d1.reps.map Report.id = s.deck.reps.map Report.id := map_id_of (c3.imp fun _ _ e => e.id)
    have e2 : d2.reps.map Report.id = d1.reps.map Report.id := map_id_of (c2.imp fun _ _ e => by rw [e.same])
    rw [e2, e1]
    show _ = (Deck.empty.ofReports s.deck.reps).reps.map Report.id
    rw [ofReports_reps]; rfl

theorem run_text (E : RunEnv F) (hf : ∀ x, Plain (E.fmt x)) (hdf : E.dflags.Perm deckFlags) (hvf : E.vflags.Perm voyageFlags)
    (ho : ∀ l, (E.order l).Perm l) (lib : ClimLib Arr3) (deck : Int × Int → Deck) : ∀ (months : List (Int × Int)) (fs : FileSys)
    (_ : months.Nodup) (_ : ∀ m ∈ months, 1 ≤ m.2 ∧ m.2 ≤ 12) (_ : ∀ m ∈ months, ∃ lib', checkedMonth E lib m = .ok (deck m, lib'))
    (_ : ∀ m ∈ months, OutputReady E.runid E.out m.1 m.2 (deck m).reps fs)
    (_ : ∀ m ∈ months, E.read.tracking = true → DriftersReady (deck m).reps),
    ∃ fs', runMonths E months lib fs = (fs', none) ∧ (∀ m ∈ months, MonthText E m (deck m).reps fs') ∧
      (∀ p, (∀ m ∈ months, ¬ MonthFile E.runid (monthDir E.out m.1 m.2) m.1 m.2 E.read.tracking (deck m).reps p) →
        fs'.file p = fs.file p) ∧
      ∀ q, fs'.dir q = true ↔ (∃ m ∈ months, q = E.out ++ '/' :: intText m.1 ∨ q = monthDir E.out m.1 m.2) ∨ fs.dir q = true := by
  intro months
  induction months with
  | nil => intro fs _ _ _ _ _; exact ⟨fs, rfl, by simp, fun _ _ => rfl, by simp⟩
  | cons m months ih =>
    intro fs hn hb hc hr ht
    obtain ⟨lib', hm⟩ := hc m (by simp)
    obtain ⟨-, -, -, -, -, -, hix, -⟩ := checkedMonth_parts (hb m (by simp)) hm
    obtain ⟨hn1, hn2⟩ := List.nodup_cons.mp hn
    obtain ⟨fs1, ids, a1, a2, a3, a4, a5⟩ := output_text E.fmt hf E.dflags E.vflags hdf hvf E.geo E.runid E.out E.order ho
      E.read.tracking m.1 m.2 (deck m) hix fs (hr m (by simp)) (ht m (by simp))
    have h1 : runMonths E [m] lib fs = (fs1, none) := by
      rw [runMonths, hm]
      simp only [a1, thenDo]
      rfl
    obtain ⟨fs2, b1, b2, b3, b4⟩ := ih fs1 hn2 (fun k hk => hb k (by simp [hk])) (fun k hk => hc k (by simp [hk]))
      (fun k hk => ready_after (hr m (by simp)) (hr k (by simp [hk])) a4 a5) (fun k hk => ht k (by simp [hk]))
    refine ⟨fs2, ?_, ?_, ?_, ?_⟩
    · rw [show m :: months = [m] ++ months from rfl, C108_months, h1]
      exact b1
    · intro k hk
      rcases List.mem_cons.mp hk with rfl | hk
      · have : MonthText E k (deck k).reps fs1 := ⟨a2, fun h => ⟨ids, a3 h⟩⟩
        refine this.keep fun x => b3 _ ?_
        intro j hj hmf
        obtain ⟨x', hx⟩ := monthFile_in hmf
        have := inMonth_inj _ _ _ _ _ _ _ (hr k (by simp)).yearPos (hr j (by simp [hj])).yearPos hx
        exact hn1 (by rw [show k = j from this]; exact hj)
      · exact b2 k hk
    · intro p hp
      rw [b3 p fun k hk => hp k (by simp [hk]), a4 p (hp m (by simp))]
    · intro q
      rw [b4, a5]
      simp only [List.mem_cons, exists_eq_or_imp]
      constructor
      · rintro (h | h | h | h)
        · exact Or.inl (Or.inr h)
        · exact Or.inl (Or.inl (Or.inl h))
        · exact Or.inl (Or.inl (Or.inr h))
        · exact Or.inr h
      · rintro ((h | h) | h)
        · rcases h with h | h
          · exact Or.inr (Or.inl h)
          · exact Or.inr (Or.inr (Or.inl h))
        · exact Or.inl h
        · exact Or.inr (Or.inr (Or.inr h))

end MarineQC
