import Verif.Alone.Voyages
import Verif.Base.RunChecks

/-!
# Reading without regard to the background values
-/

namespace MarineQC

open Spec

variable {F : Type} [LinearOrder F] [Zero F]

/-! ## The library -/

theorem finish_same {E E' : ReadEnv F} (hh : E'.hum = E.hum) (he : E'.elev = E.elev) (hp : E'.params = E.params)
    {lib lib' : ClimLib Arr3} (h : SameClim lib lib') (year month : Int) :
    finishReport E' year month lib' = finishReport E year month lib := by
  funext r
  unfold finishReport
  rw [addMdsClims_same h _ _ (by decide), hh, he, hp]
  simp only [addClims_same h _ _ (show "OSTIA" ∉ ["SLP2", "SHU", "CRH", "CWB", "DPD"] by decide),
    addStdevClims_same h _ _ (show "OSTIA" ∉ ["DPT", "AT2", "SLP"] by decide)]

/-! ## One record -/

/-- The report of a record, without background values. -/
def plainReport (E : ReadEnv F) (year month : Int) (lib : ClimLib Arr3) (rec : Imma) : Except Err Report := do
  let r ← reportOf rec
  let r ← raising (r.setvar "AT2" (r.getvar "AT"))
  finishReport E year month lib r

theorem plain_same {E E' : ReadEnv F} (hh : E'.hum = E.hum) (he : E'.elev = E.elev) (hp : E'.params = E.params)
    {lib lib' : ClimLib Arr3} (h : SameClim lib lib') (year month : Int) (rec : Imma) :
    plainReport E' year month lib' rec = plainReport E year month lib rec := by
  unfold plainReport
  rw [finish_same hh he hp h]

theorem veil_of_ext {r s : Report} (h1 : s = { r with ext := s.ext }) (h2 : ∀ k ∉ backNames, s.ext k = r.ext k) : veil s = veil r := by
  rw [h1]
  unfold veil
  simp only [Report.mk.injEq, true_and, and_true]
  funext k
  by_cases hk : k ∈ backNames
  · simp [hk]
  · simp only [if_neg hk]
    exact h2 k hk

theorem veil_none {r : Report} (h : NoBackground r) : veil r = r := by
  unfold veil
  cases r with
  | mk id uid data qc clim ext dt =>
    simp only [Report.mk.injEq, true_and, and_true]
    funext k
    by_cases hk : k ∈ backNames
    · rw [if_pos hk]
      exact (h k hk).symm
    · rw [if_neg hk]

theorem use_plain {E : ReadEnv F} {year month : Int} {bg : Option Arr3} {y m : Int} {s s' : ReadState} {rec : Imma}
    (h : useRecord E year month bg y m s rec = .ok s') :
    ∃ r, s'.deck = s.deck.append r ∧ plainReport E year month s.lib rec = .ok (veil r) ∧ SameClim s.lib s'.lib := by
  unfold useRecord at h
  simp only [bind_ok_iff] at h
  obtain ⟨r0, h0, r1, h1, b, hb, r, hr, h⟩ := h
  injection h with h
  subst h
  obtain ⟨i1, i2, i3, i4, i5, i6, i7, i8⟩ := reportOf_ok h0
  have e1 := setAT2_ok h1
  have hdy1 : r1.getint "DY" = dayOf rec := by
    rw [e1]
    unfold Report.getint dayOf
    simp only [String.reduceEq, if_false]
    rw [i3 "DY" (by decide)]
    cases numericOf (rec.data "DY") <;> rfl
  have hno1 : NoBackground r1 := by
    intro k hk
    rw [e1]
    apply i8
    simp only [List.mem_cons, List.not_mem_nil, or_false] at hk
    rcases hk with rfl | rfl | rfl <;> decide
  obtain ⟨b1, b2, bs⟩ := addBackground_ok hdy1 hno1 hb
  refine ⟨r, rfl, ?_, bs.others⟩
  have ev : veil b.1 = r1 := by rw [veil_of_ext b1 b2, veil_none hno1]
  have hs : SameClim s.lib b.2.2 := bs.others
  unfold plainReport
  rw [h0, except_bind_ok, h1, except_bind_ok, ← finish_same (E := E) (E' := E) rfl rfl rfl hs, ← ev, finish_blind, hr]
  rfl

/-! ## All records -/

/-- The report is, but for its background values, the one that the record gives by itself. -/
def PlainOf (E : ReadEnv F) (year month : Int) (lib : ClimLib Arr3) (p : (Int × Int) × Imma) (r : Report) : Prop :=
  plainReport E year month lib p.2 = .ok (veil r)

theorem plain_month {E : ReadEnv F} {year month : Int} {bg : Option Arr3} {ym : Int × Int} (lib : ClimLib Arr3) :
    ∀ {recs : List Imma} {s s' : ReadState}, SameClim lib s.lib → recs.foldlM (useRecord E year month bg ym.1 ym.2) s = .ok s' →
    ∃ rs, s'.deck = s.deck.ofReports rs ∧ SameClim lib s'.lib ∧
      List.Forall₂ (PlainOf E year month lib) (recs.map fun rec => (ym, rec)) rs
  | [], s, s', hl, h => by
    injection h with h
    subst h
    exact ⟨[], rfl, hl, .nil⟩
  | rec :: recs, s, s', hl, h => by
    rw [List.foldlM_cons, bind_ok_iff] at h
    obtain ⟨s1, h1, h⟩ := h
    obtain ⟨r, d, p, l⟩ := use_plain h1
    obtain ⟨rs, i1, i2, i3⟩ := plain_month lib (fun v t hv => by rw [l v t hv, hl v t hv]) h
    refine ⟨r :: rs, by rw [i1, d]; rfl, i2, .cons ?_ i3⟩
    rw [plain_same rfl rfl rfl hl] at p
    exact p

theorem ofReports_append (d : Deck) (a b : List Report) : d.ofReports (a ++ b) = (d.ofReports a).ofReports b := by
  unfold Deck.ofReports
  exact List.foldl_append ..

theorem plain_months {E : ReadEnv F} {year month : Int} (lib : ClimLib Arr3) : ∀ {months : List (Int × Int)} {s s' : ReadState},
    SameClim lib s.lib → months.foldlM (readMonthFile E year month) s = .ok s' →
    ∃ rs, s'.deck = s.deck.ofReports rs ∧ SameClim lib s'.lib ∧ List.Forall₂ (PlainOf E year month lib) (recordsFor E months) rs
  | [], s, s', hl, h => by
    injection h with h
    subst h
    exact ⟨[], rfl, hl, .nil⟩
  | ym :: months, s, s', hl, h => by
    rw [List.foldlM_cons, bind_ok_iff] at h
    obtain ⟨s1, h1, h⟩ := h
    obtain ⟨bg, hbg, h1⟩ := readMonthFile_ok h1
    obtain ⟨rs, i1, i2, i3⟩ := plain_month lib hl h1
    obtain ⟨rs', j1, j2, j3⟩ := plain_months lib i2 h
    refine ⟨rs ++ rs', by rw [j1, i1, ofReports_append], j2, ?_⟩
    unfold recordsFor
    rw [List.flatMap_cons]
    exact List.rel_append i3 j3

theorem plain_id {E : ReadEnv F} {year month : Int} {lib : ClimLib Arr3} {rec : Imma} {r : Report}
    (h : plainReport E year month lib rec = .ok r) : r.id = textOf (rec.data "ID") := by
  unfold plainReport finishReport at h
  simp only [bind_ok_iff] at h
  obtain ⟨r0, h0, r1, h1, r2, h2, r3, h3, r4, h4, r5, h5, r6, h6, h7⟩ := h
  obtain ⟨c2, n2, o2⟩ := addMdsClims_ok (by decide) h2
  obtain ⟨c3, n3, o3⟩ := addClims_ok (by decide) h3
  obtain ⟨c4, n4, o4⟩ := addStdevClims_ok (by decide) h4
  obtain ⟨d5, e5, k5⟩ := humidity_only h5
  obtain ⟨q1, q2, q3, q4, q5⟩ := baseQc_only h6
  rw [setQc_eq h7]
  show r6.id = _
  rw [q1, e5, c4, c3, c2, setAT2_ok h1]
  exact (reportOf_ok h0).1

/-- The reports that are read, in the order of their records. -/
theorem read_plain {E : ReadEnv F} {lib : ClimLib Arr3} {year month : Int} {before : Int × Int}
    (hb : succMonth before = (year, month)) (hb' : 1 ≤ before.2 ∧ before.2 ≤ 12) {s : ReadState}
    (h : readReports E lib year month = .ok s) :
    s.deck = Deck.empty.ofReports s.deck.reps ∧
    List.Forall₂ (PlainOf E year month lib) (recordsFor E [before, (year, month), succMonth (year, month)]) s.deck.reps := by
  have hm : 1 ≤ month ∧ month ≤ 12 := by
    obtain ⟨y, m⟩ := before
    unfold succMonth at hb
    simp only at hb hb'
    split_ifs at hb <;> simp only [Prod.mk.injEq] at hb <;> omega
  obtain ⟨p, q, hp, hp', rfl, hr⟩ := C08_three_months year month hm 3 (le_refl 3)
  have e : p = before := by
    obtain ⟨y, m⟩ := before
    obtain ⟨y', m'⟩ := p
    rw [← hb] at hp
    unfold succMonth at hp
    simp only at hb' hp'
    simp only [Prod.mk.injEq] at hp ⊢
    split_ifs at hp <;> simp_all
  subst e
  unfold readReports at h
  rw [hr, except_bind_ok] at h
  simp only at h
  obtain ⟨rs, i1, i2, i3⟩ := plain_months lib (fun _ _ _ => rfl) h
  have h3 : s.deck.reps = rs := by
    rw [i1, ofReports_reps]
    rfl
  rw [h3]
  exact ⟨i1, i3⟩

end MarineQC
