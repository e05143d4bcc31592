import Verif.Base.RunModel
import Verif.Base.ReadProps

/-! # Months of a run do not influence each other (C108) -/

namespace MarineQC

open Spec

variable {F : Type} [LinearOrder F] [Zero F]

/-- Two computations fail with the same exception, or succeed with related results. -/
def Sim {α β : Type} (R : α → β → Prop) (x : Except Err α) (y : Except Err β) : Prop :=
  (∃ e, x = .error e ∧ y = .error e) ∨ ∃ a b, x = .ok a ∧ y = .ok b ∧ R a b

theorem Sim.bind {α β γ δ : Type} {R : α → β → Prop} {S : γ → δ → Prop} {x : Except Err α} {y : Except Err β}
    {f : α → Except Err γ} {g : β → Except Err δ} (h : Sim R x y) (k : ∀ a b, R a b → Sim S (f a) (g b)) :
    Sim S (x >>= f) (y >>= g) := by
  rcases h with ⟨e, rfl, rfl⟩ | ⟨a, b, rfl, rfl, hr⟩
  · exact Or.inl ⟨e, rfl, rfl⟩
  · exact k a b hr

theorem Sim.same {α : Type} (x : Except Err α) : Sim Eq x x := by
  cases x with
  | error e => exact Or.inl ⟨e, rfl, rfl⟩
  | ok a => exact Or.inr ⟨a, a, rfl, rfl, rfl⟩

theorem Sim.pure {α β : Type} {R : α → β → Prop} {a : α} {b : β} (h : R a b) :
    Sim R (Pure.pure a : Except Err α) (Pure.pure b) := Or.inr ⟨a, b, rfl, rfl, h⟩

theorem Sim.foldlM {α σ τ : Type} {R : σ → τ → Prop} {f : σ → α → Except Err σ} {g : τ → α → Except Err τ} :
    ∀ (l : List α) (s : σ) (t : τ), R s t → (∀ a ∈ l, ∀ s t, R s t → Sim R (f s a) (g t a)) →
      Sim R (l.foldlM f s) (l.foldlM g t)
  | [], s, t, h, _ => .pure h
  | a :: l, s, t, h, k => by
    rw [List.foldlM_cons, List.foldlM_cons]
    exact (k a (by simp) s t h).bind fun s t h => Sim.foldlM l s t h fun a ha => k a (by simp [ha])

/-- Libraries with the same fields, apart from the background. -/
def SameClim (lib lib' : ClimLib Arr3) : Prop := ∀ v t, v ≠ "OSTIA" → lib'.getField v t = lib.getField v t

/-- States of the reading that are bound to go on in the same way: unless no day has been met, the backgrounds agree, too. -/
structure SameState (s s' : ReadState) : Prop where
  lastday : s'.lastday = s.lastday
  deck : s'.deck = s.deck
  clim : SameClim s.lib s'.lib
  background : s.lastday ≠ -99 → ∀ t ∈ ["background", "ice"], s'.lib.getField "OSTIA" t = s.lib.getField "OSTIA" t

theorem addMdsClims_same {lib lib' : ClimLib Arr3} (h : SameClim lib lib') : ∀ (vs : List String) (r : Report),
    "OSTIA" ∉ vs → addMdsClims lib' vs r = addMdsClims lib vs r
  | [], _, _ => rfl
  | v :: vs, r, hv => by
    rw [List.mem_cons, not_or] at hv
    unfold addMdsClims
    rw [h v "mean" (Ne.symm hv.1)]
    simp only [addMdsClims_same h vs _ hv.2]

theorem addClims_same {lib lib' : ClimLib Arr3} (h : SameClim lib lib') : ∀ (vs : List String) (r : Report),
    "OSTIA" ∉ vs → addClims lib' vs r = addClims lib vs r
  | [], _, _ => rfl
  | v :: vs, r, hv => by
    rw [List.mem_cons, not_or] at hv
    unfold addClims
    rw [h v "mean" (Ne.symm hv.1)]
    simp only [addClims_same h vs _ hv.2]

theorem addStdevClims_same {lib lib' : ClimLib Arr3} (h : SameClim lib lib') : ∀ (vs : List String) (r : Report),
    "OSTIA" ∉ vs → addStdevClims lib' vs r = addStdevClims lib vs r
  | [], _, _ => rfl
  | v :: vs, r, hv => by
    rw [List.mem_cons, not_or] at hv
    unfold addStdevClims
    rw [h v "mean" (Ne.symm hv.1), h v "stdev" (Ne.symm hv.1)]
    simp only [addStdevClims_same h vs _ hv.2]

theorem finishReport_same (E : ReadEnv F) (year month : Int) {lib lib' : ClimLib Arr3} (h : SameClim lib lib') (r : Report) :
    finishReport E year month lib' r = finishReport E year month lib r := by
  unfold finishReport
  simp only [addMdsClims_same h _ _ (show "OSTIA" ∉ ["SST", "AT"] by decide),
    addClims_same h _ _ (show "OSTIA" ∉ ["SLP2", "SHU", "CRH", "CWB", "DPD"] by decide),
    addStdevClims_same h _ _ (show "OSTIA" ∉ ["DPT", "AT2", "SLP"] by decide)]

theorem newDay_same (E : ReadEnv F) (y m d : Int) {s s' : ReadState} (h : SameState s s') (hd : d ≠ -99) :
    Sim (fun a b => a.1 = d ∧ b.1 = d ∧ SameClim a.2 b.2 ∧
        ∀ t ∈ ["background", "ice"], b.2.getField "OSTIA" t = a.2.getField "OSTIA" t)
      (newDay E y m d s.lastday s.lib) (newDay E y m d s'.lastday s'.lib) := by
  unfold newDay
  rw [h.lastday]
  by_cases hl : d = s.lastday
  · rw [if_neg (by simpa using hl), if_neg (by simpa using hl)]
    exact .pure ⟨hl.symm, hl.symm, h.clim, h.background (by rw [← hl]; exact hd)⟩
  · rw [if_pos (by simpa using hl), if_pos (by simpa using hl)]
    unfold loadBackground
    cases hb : backgroundOf E y m d with
    | error e => exact Or.inl ⟨e, rfl, rfl⟩
    | ok b =>
      refine Or.inr ⟨_, _, rfl, rfl, rfl, rfl, ?_, ?_⟩
      · intro v t hv
        simp only [getField_add]
        simp [hv]
        exact h.clim v t hv
      · intro t ht
        simp only [List.mem_cons, List.not_mem_nil, or_false] at ht
        rcases ht with rfl | rfl <;> simp [getField_add]

theorem backgroundValues_same {lib lib' : ClimLib Arr3}
    (h : ∀ t ∈ ["background", "ice"], lib'.getField "OSTIA" t = lib.getField "OSTIA" t) (bg : Arr3) (r : Report) :
    backgroundValues lib' bg r = backgroundValues lib bg r := by
  unfold backgroundValues
  rw [h "background" (by simp), h "ice" (by simp)]

theorem addBackground_same (E : ReadEnv F) (bg : Option Arr3) (y m : Int) {s s' : ReadState} (h : SameState s s')
    (r : Report) (hd : r.getint "DY" ≠ some (-99)) :
    Sim (fun a b => b.1 = a.1 ∧ SameState ⟨a.2.1, a.2.2, s.deck⟩ ⟨b.2.1, b.2.2, s'.deck⟩)
      (addBackground E bg y m s r) (addBackground E bg y m s' r) := by
  unfold addBackground
  cases hdy : r.getint "DY" with
  | none => exact .pure ⟨rfl, h.lastday, h.deck, h.clim, h.background⟩
  | some d =>
    cases bg with
    | none => exact .pure ⟨rfl, h.lastday, h.deck, h.clim, h.background⟩
    | some bg =>
      simp only
      by_cases hy : y ≥ 1985
      · rw [if_pos hy, if_pos hy]
        refine (newDay_same E y m d h (by rw [hdy] at hd; simpa using hd)).bind ?_
        rintro a b ⟨h1, h2, h3, h4⟩
        rw [backgroundValues_same h4]
        refine (Sim.same _).bind ?_
        rintro r _ rfl
        exact .pure ⟨rfl, by rw [h1, h2], h.deck, h3, fun _ => h4⟩
      · rw [if_neg hy, if_neg hy]
        exact .pure ⟨rfl, h.lastday, h.deck, h.clim, h.background⟩

theorem useRecord_same (E : ReadEnv F) (year month : Int) (bg : Option Arr3) (y m : Int) {s s' : ReadState}
    (h : SameState s s') (rec : Imma) (hd : dayOf rec ≠ some (-99)) :
    Sim SameState (useRecord E year month bg y m s rec) (useRecord E year month bg y m s' rec) := by
  unfold useRecord
  cases h0 : reportOf rec with
  | error e => exact Or.inl ⟨e, rfl, rfl⟩
  | ok r0 =>
    simp only [except_bind_ok]
    cases h1 : raising (r0.setvar "AT2" (r0.getvar "AT")) with
    | error e => exact Or.inl ⟨e, rfl, rfl⟩
    | ok r1 =>
      simp only [except_bind_ok]
      have hdy : r1.getint "DY" = dayOf rec := by
        rw [setAT2_ok h1]
        unfold Report.getint dayOf
        simp only [String.reduceEq, if_false]
        rw [(reportOf_ok h0).2.2.1 "DY" (by decide)]
        cases numericOf (rec.data "DY") <;> rfl
      refine (addBackground_same E bg y m h r1 (by rw [hdy]; exact hd)).bind ?_
      rintro a b ⟨e, hs⟩
      rw [e, finishReport_same E year month hs.clim]
      refine (Sim.same _).bind ?_
      rintro r _ rfl
      refine .pure ⟨hs.lastday, ?_, hs.clim, hs.background⟩
      show s'.deck.append r = s.deck.append r
      rw [h.deck]

theorem used_day {excl : List (List Char)} {y m : Int} {line : List Char} {rec : Imma} (h : Used excl y m line rec) :
    dayOf rec ≠ some (-99) := by
  intro hd
  unfold dayOf at hd
  cases hq : numericOf (rec.data "DY") with
  | none => rw [hq] at hd; cases hd
  | some q =>
    rw [hq] at hd
    obtain ⟨n, rfl, h1, h2⟩ := record_day h.1 hq
    simp only [Option.map_some, pyInt_intCast, Option.some.injEq] at hd
    omega

theorem readLine_same (E : ReadEnv F) (year month : Int) (bg : Option Arr3) (y m : Int) {s s' : ReadState}
    (h : SameState s s') (line : List Char) :
    Sim SameState (readLine E year month bg y m s line) (readLine E year month bg y m s' line) := by
  unfold readLine
  cases hw : wanted E.excl y m (readState line) with
  | error e => exact Or.inl ⟨e, rfl, rfl⟩
  | ok b =>
    simp only [except_bind_ok]
    cases b with
    | false => exact .pure h
    | true =>
      rw [if_pos rfl, if_pos rfl]
      exact useRecord_same E year month bg y m h _ (used_day (recordIn_iff.mp (wanted_true hw)))

theorem readMonthFile_same (E : ReadEnv F) (year month : Int) (ym : Int × Int) {s s' : ReadState} (h : SameState s s') :
    Sim SameState (readMonthFile E year month s ym) (readMonthFile E year month s' ym) := by
  unfold readMonthFile
  refine (Sim.same _).bind ?_
  rintro bg _ rfl
  refine (Sim.same _).bind ?_
  rintro name _ rfl
  refine (Sim.same _).bind ?_
  rintro file _ rfl
  cases file with
  | none => exact .pure h
  | some lines => exact Sim.foldlM lines s s' h fun line _ s t h => readLine_same E year month bg ym.1 ym.2 h line

theorem readReports_same (E : ReadEnv F) {lib lib' : ClimLib Arr3} (h : SameClim lib lib') (year month : Int) :
    Sim SameState (readReports E lib year month) (readReports E lib' year month) := by
  unfold readReports
  refine (Sim.same _).bind ?_
  rintro months _ rfl
  cases months with
  | none => exact Or.inl ⟨_, rfl, rfl⟩
  | some l =>
    exact Sim.foldlM l _ _ ⟨rfl, rfl, h, fun h => absurd rfl h⟩ fun ym _ s t h => readMonthFile_same E year month ym h

/-- Reading keeps the climatologies. -/
theorem readReports_clim (E : ReadEnv F) (lib : ClimLib Arr3) (year month : Int) (s : ReadState)
    (h : readReports E lib year month = .ok s) : SameClim lib s.lib := by
  unfold readReports at h
  rw [bind_ok_iff] at h
  obtain ⟨months, -, h⟩ := h
  cases months with
  | none => cases h
  | some l =>
    obtain ⟨rs, hrs⟩ := reading_months h
    exact (reading_reports hrs).2.1

theorem SameClim.trans {a b c : ClimLib Arr3} (h : SameClim a b) (k : SameClim b c) : SameClim a c :=
  fun v t hv => (k v t hv).trans (h v t hv)

theorem buddyFromLib_same (E : RunEnv F) {lib lib' : ClimLib Arr3} (h : SameClim lib lib') (d : Deck) :
    buddyFromLib E lib' d = buddyFromLib E lib d := by
  unfold buddyFromLib
  rw [h "DPT" "stdev" (by decide), h "SLP" "stdev" (by decide)]

theorem checkedMonth_same (E : RunEnv F) {lib lib' : ClimLib Arr3} (h : SameClim lib lib') (ym : Int × Int) :
    Sim (fun a b => b.1 = a.1 ∧ SameClim a.2 b.2) (checkedMonth E lib ym) (checkedMonth E lib' ym) := by
  unfold checkedMonth
  refine (readReports_same E.read h ym.1 ym.2).bind ?_
  intro s s' hs
  rw [hs.deck]
  refine (Sim.same _).bind ?_
  rintro d _ rfl
  rw [buddyFromLib_same E hs.clim]
  refine (Sim.same _).bind ?_
  rintro d _ rfl
  exact .pure ⟨rfl, hs.clim⟩

theorem checkedMonth_clim (E : RunEnv F) (lib : ClimLib Arr3) (ym : Int × Int) (d : Deck) (lib' : ClimLib Arr3)
    (h : checkedMonth E lib ym = .ok (d, lib')) : SameClim lib lib' := by
  unfold checkedMonth at h
  rw [bind_ok_iff] at h
  obtain ⟨s, h1, h⟩ := h
  rw [bind_ok_iff] at h
  obtain ⟨d1, -, h⟩ := h
  rw [bind_ok_iff] at h
  obtain ⟨d2, -, h⟩ := h
  injection h with h
  injection h with h2 h3
  subst h3
  exact readReports_clim E.read lib ym.1 ym.2 s h1

theorem runMonths_same (E : RunEnv F) : ∀ (l : List (Int × Int)) {lib lib' : ClimLib Arr3} (_ : SameClim lib lib') (fs : FileSys),
    runMonths E l lib' fs = runMonths E l lib fs
  | [], _, _, _, _ => rfl
  | ym :: l, lib, lib', h, fs => by
    unfold runMonths
    rcases checkedMonth_same E h ym with ⟨e, h1, h2⟩ | ⟨a, b, h1, h2, h3, h4⟩
    · rw [h1, h2]
    · rw [h1, h2]
      obtain ⟨d, la⟩ := a
      obtain ⟨d', lb⟩ := b
      simp only at h3 h4
      subst h3
      simp only
      congr 1
      funext fs
      exact runMonths_same E l h4 fs

theorem thenDo_assoc (s : FileSys × Option Err) (f g : FileSys → FileSys × Option Err) :
    thenDo (thenDo s f) g = thenDo s fun fs => thenDo (f fs) g := by
  unfold thenDo
  obtain ⟨fs, e⟩ := s
  cases e <;> rfl

/-- **C108.**  A run over months does to the files what separate runs over its parts do, one after the other, each
starting with the climatologies as they were read: no report, background or flag of a month depends on which months were
checked before in the same run. -/
theorem C108_months (E : RunEnv F) (lib : ClimLib Arr3) : ∀ (l l' : List (Int × Int)) (fs : FileSys),
    runMonths E (l ++ l') lib fs = thenDo (runMonths E l lib fs) (runMonths E l' lib)
  | [], l', fs => rfl
  | ym :: l, l', fs => by
    rw [List.cons_append, runMonths, runMonths]
    cases h : checkedMonth E lib ym with
    | error e => rfl
    | ok a =>
      obtain ⟨d, lib'⟩ := a
      have hs := checkedMonth_clim E lib ym d lib' h
      simp only
      rw [thenDo_assoc]
      congr 1
      funext fs
      rw [runMonths_same E _ hs, runMonths_same E _ hs]
      exact C108_months E lib l l' fs

/-- **C108**, for the reports of a month: they are the same whatever background the months before have left. -/
theorem C108_reports (E : RunEnv F) (lib lib' : ClimLib Arr3) (h : ∀ v t, v ≠ "OSTIA" → lib'.getField v t = lib.getField v t)
    (ym : Int × Int) (d : Deck) (l : ClimLib Arr3) (hd : checkedMonth E lib ym = .ok (d, l)) :
    ∃ l', checkedMonth E lib' ym = .ok (d, l') := by
  rcases checkedMonth_same E h ym with ⟨e, h1, -⟩ | ⟨a, b, h1, h2, h3, -⟩
  · rw [hd] at h1; cases h1
  · rw [hd] at h1
    injection h1 with h1
    subst h1
    exact ⟨b.2, by rw [h2]; congr 1; exact Prod.ext h3 rfl⟩

end MarineQC
