import Verif.Voyage.Model
import Mathlib.Data.List.Induction

/-!
# C40: differences to the previous report
-/

namespace MarineQC

namespace Spec

/-- The report holds these differences. -/
def Holds (r : Report) (d : Diff) : Prop :=
  r.getext "speed" = .ok (some d.speed) ∧ r.getext "course" = .ok (some d.course)
    ∧ r.getext "distance" = .ok (some d.distance) ∧ r.getext "time_diff" = .ok (some d.tdiff)

/-- The report holds no differences. -/
def HoldsNone (r : Report) : Prop :=
  r.getext "speed" = .ok none ∧ r.getext "course" = .ok none
    ∧ r.getext "distance" = .ok none ∧ r.getext "time_diff" = .ok none

/-- Two reports agree in everything but the extended data. -/
def SameReport (a b : Report) : Prop :=
  a.id = b.id ∧ a.uid = b.uid ∧ a.data = b.data ∧ a.qc = b.qc ∧ a.clim = b.clim ∧ a.dt = b.dt

/-- Every report after the first holds its differences to the one before. -/
def Linked (G : Geo) (v : List Report) : Prop :=
  ∀ i p r, v[i]? = some p → v[i + 1]? = some r → ∃ d, r.sub G p = .ok d ∧ Holds r d

end Spec

open Spec

theorem getvar_data_eq {a b : Report} (h : a.data = b.data) {v : String} (hv : v ∈ VARLIST) :
    a.getvar v = b.getvar v := by
  simp [Report.getvar, hv, h]

theorem getint_data_eq {a b : Report} (h : a.data = b.data) (v : String) : a.getint v = b.getint v := by
  simp [Report.getint, h]

theorem sub_data_eq (G : Geo) {a a' b b' : Report} (ha : a.data = a'.data) (hb : b.data = b'.data) :
    a.sub G b = a'.sub G b' := by
  have hlat : "LAT" ∈ VARLIST := by decide
  have hlon : "LON" ∈ VARLIST := by decide
  have hhr : "HR" ∈ VARLIST := by decide
  unfold Report.sub Report.timeTo Report.lat Report.lon
  rw [getvar_data_eq ha hlat, getvar_data_eq ha hlon, getvar_data_eq ha hhr, getvar_data_eq hb hlat,
    getvar_data_eq hb hlon, getvar_data_eq hb hhr]
  simp only [getint_data_eq ha, getint_data_eq hb]

@[simp] theorem setDiff_data (r : Report) (d : Diff) : (r.setDiff d).data = r.data := rfl
@[simp] theorem clearDiff_data (r : Report) : r.clearDiff.data = r.data := rfl

theorem holds_setDiff (r : Report) (d : Diff) : Holds (r.setDiff d) d := by
  simp [Holds, Report.setDiff, Report.setext, Report.getext]

theorem holdsNone_clearDiff (r : Report) : HoldsNone r.clearDiff := by
  simp [HoldsNone, Report.clearDiff, Report.setext, Report.getext]

theorem addReport_some {G : Geo} {v v' : List Report} {r : Report} (h : addReport G v r = .ok v') :
    (v = [] ∧ v' = [r.clearDiff])
      ∨ ∃ p d, v.getLast? = some p ∧ r.sub G p = .ok d ∧ v' = v ++ [r.setDiff d] := by
  unfold addReport at h
  cases hl : v.getLast? with
  | none =>
    rw [hl] at h
    simp only [Except.ok.injEq] at h
    exact Or.inl ⟨by simpa using hl, h.symm⟩
  | some p =>
    rw [hl] at h
    cases hd : r.sub G p with
    | error e => simp [hd] at h
    | ok d =>
      simp only [hd, except_bind_ok, except_pure, Except.ok.injEq] at h
      exact Or.inr ⟨p, d, rfl, hd, h.symm⟩

theorem linked_append {G : Geo} {v : List Report} {p r : Report} {d : Diff} (hv : Linked G v)
    (hp : v.getLast? = some p) (hd : r.sub G p = .ok d) : Linked G (v ++ [r.setDiff d]) := by
  intro i a b ha hb
  rw [List.getElem?_append] at ha hb
  by_cases h1 : i + 1 < v.length
  · rw [if_pos (by omega)] at ha
    rw [if_pos h1] at hb
    exact hv i a b ha hb
  · rw [if_neg h1] at hb
    have h2 : i + 1 - v.length = 0 := by
      by_contra h
      rw [List.getElem?_eq_none (by simp; omega)] at hb
      simp at hb
    have h3 : i + 1 = v.length := by omega
    rw [h2] at hb
    simp only [List.getElem?_cons_zero, Option.some.injEq] at hb
    subst hb
    rw [if_pos (by omega)] at ha
    rw [List.getLast?_eq_getElem?] at hp
    have : v.length - 1 = i := by omega
    rw [this, ha] at hp
    simp only [Option.some.injEq] at hp
    subst hp
    refine ⟨d, ?_, holds_setDiff r d⟩
    rw [← hd]
    exact sub_data_eq G rfl rfl

/-- C40. However a voyage was built with `add_report`: its reports are the ones added, in order, up to the
extended data; the first holds no differences and every later one holds the speed, course, distance and time
difference computed from the one before it. -/
theorem C40_add_report (G : Geo) (l v : List Report) (h : l.foldlM (addReport G) [] = .ok v) :
    List.Forall₂ SameReport v l ∧ (∀ r, v.head? = some r → HoldsNone r) ∧ Linked G v := by
  induction l using List.reverseRecOn generalizing v with
  | nil =>
    simp only [List.foldlM_nil, except_pure, Except.ok.injEq] at h
    subst h
    exact ⟨List.Forall₂.nil, by simp, by intro i p r h; simp at h⟩
  | append_singleton l r ih =>
    rw [List.foldlM_append] at h
    cases h1 : l.foldlM (addReport G) [] with
    | error e => rw [h1] at h; simp at h
    | ok v0 =>
      rw [h1, except_bind_ok, List.foldlM_cons] at h
      cases h2 : addReport G v0 r with
      | error e => rw [h2] at h; simp at h
      | ok v1 =>
        rw [h2, except_bind_ok, List.foldlM_nil, except_pure, Except.ok.injEq] at h
        subst h
        obtain ⟨i1, i2, i3⟩ := ih v0 h1
        rcases addReport_some h2 with ⟨rfl, rfl⟩ | ⟨p, d, hp, hd, rfl⟩
        · have : l = [] := by simpa using i1
          subst this
          refine ⟨?_, ?_, ?_⟩
          · exact List.Forall₂.cons ⟨rfl, rfl, rfl, rfl, rfl, rfl⟩ List.Forall₂.nil
          · intro r' hr; simp only [List.head?_cons, Option.some.injEq] at hr; subst hr
            exact holdsNone_clearDiff r
          · intro i a b _ hb; simp at hb
        · refine ⟨?_, ?_, linked_append i3 hp hd⟩
          · exact List.rel_append i1
              (List.Forall₂.cons ⟨rfl, rfl, rfl, rfl, rfl, rfl⟩ List.Forall₂.nil)
          · intro r' hr
            have hne : v0 ≠ [] := by rintro rfl; simp at hp
            rw [List.head?_append_of_ne_nil _ hne] at hr
            exact i2 r' hr

theorem relink_spec {G : Geo} {p : Report} {l v : List Report} (h : relink G p l = .ok v) :
    List.Forall₂ SameReport v l ∧ Linked G (p :: v) := by
  induction l generalizing p v with
  | nil =>
    simp only [relink, Except.ok.injEq] at h
    subst h
    exact ⟨List.Forall₂.nil, by intro i a b _ hb; simp at hb⟩
  | cons r l ih =>
    unfold relink at h
    cases hd : r.sub G p with
    | error e => simp [hd] at h
    | ok d =>
      rw [hd, except_bind_ok] at h
      cases hr : relink G (r.setDiff d) l with
      | error e => simp [hr] at h
      | ok v' =>
        simp only [hr, except_bind_ok, except_pure, Except.ok.injEq] at h
        subst h
        obtain ⟨i1, i2⟩ := ih hr
        refine ⟨List.Forall₂.cons ⟨rfl, rfl, rfl, rfl, rfl, rfl⟩ i1, ?_⟩
        intro i a b ha hb
        cases i with
        | zero =>
          simp only [List.getElem?_cons_zero, Option.some.injEq, List.getElem?_cons_succ] at ha hb
          subst ha; subst hb
          exact ⟨d, by rw [← hd]; exact sub_data_eq G rfl rfl, holds_setDiff r d⟩
        | succ i => exact i2 i a b ha hb

theorem forall₂_same_refl (l : List Report) : List.Forall₂ SameReport l l :=
  List.forall₂_same.2 fun _ _ => ⟨rfl, rfl, rfl, rfl, rfl, rfl⟩

/-- C40. After `sort`, the reports are the sorted ones up to the extended data, and every report after the
first holds its differences to the one before it in the sorted order. -/
theorem C40_sort (G : Geo) (v v' : List Report) (h : sortVoyage G v = .ok v') :
    List.Forall₂ SameReport v' (sortReports v) ∧ Linked G v' := by
  unfold sortVoyage at h
  cases hs : sortReports v with
  | nil =>
    rw [hs] at h
    simp only [Except.ok.injEq] at h
    subst h
    exact ⟨List.Forall₂.nil, by intro i a b ha; simp at ha⟩
  | cons r rs =>
    rw [hs] at h
    cases hr : relink G r rs with
    | error e => simp [hr] at h
    | ok rest =>
      simp only [hr, except_bind_ok, except_pure, Except.ok.injEq] at h
      subst h
      obtain ⟨i1, i2⟩ := relink_spec hr
      exact ⟨List.Forall₂.cons ⟨rfl, rfl, rfl, rfl, rfl, rfl⟩ i1, i2⟩

/-- Everything needed to subtract reports: a position, a date and an hour on the clock. -/
def Report.Placed (r : Report) : Prop :=
  r.lat ≠ none ∧ r.lon ≠ none ∧ ∃ y m d h, r.getint "YR" = some y ∧ r.getint "MO" = some m
    ∧ r.getint "DY" = some d ∧ r.getvar "HR" = some h ∧ 0 ≤ h ∧ h < 24
    ∧ 1 ≤ m ∧ m ≤ 12 ∧ 1 ≤ d ∧ d ≤ 31

theorem timeTo_ok {a b : Report} (ha : a.Placed) (hb : b.Placed) : ∃ t, b.timeTo a = .ok (some t) := by
  obtain ⟨-, -, y1, m1, d1, h1, e1, e2, e3, e4, l1, u1, p1, p2, p3, p4⟩ := ha
  obtain ⟨-, -, y2, m2, d2, h2, f1, f2, f3, f4, l2, u2, q1, q2, q3, q4⟩ := hb
  unfold Report.timeTo
  rw [e1, e2, e3, e4, f1, f2, f3, f4]
  simp only [timeDifference, timeDifferenceStep, julDay, l1, u1, l2, u2, p1, p2, p3, p4, q1, q2, q3, q4,
    decide_true, Bool.and_self, pyAssert_true, except_bind_ok, except_pure]
  split
  · split
    · rename_i g1 g2
      exfalso
      unfold timeAfter at g1 g2
      simp only [Bool.or_eq_true, Bool.and_eq_true, decide_eq_true_eq] at g1 g2
      rcases g1 with ((g1 | g1) | g1) | g1 <;> rcases g2 with ((g2 | g2) | g2) | g2 <;>
        first | omega | exact absurd g1.2 (lt_asymm g2.2)
    · exact ⟨_, rfl⟩
  · exact ⟨_, rfl⟩

/-- Subtraction succeeds for placed reports. -/
theorem sub_ok (G : Geo) {a b : Report} (ha : a.Placed) (hb : b.Placed) : ∃ d, a.sub G b = .ok d := by
  obtain ⟨t, ht⟩ := timeTo_ok ha hb
  have h1 := ha.1
  have h2 := ha.2.1
  have h3 := hb.1
  have h4 := hb.2.1
  unfold Report.sub
  cases e1 : a.lat with
  | none => exact absurd e1 h1
  | some =>
  cases e2 : a.lon with
  | none => exact absurd e2 h2
  | some =>
  cases e3 : b.lat with
  | none => exact absurd e3 h3
  | some =>
  cases e4 : b.lon with
  | none => exact absurd e4 h4
  | some => simp [ht]


theorem placed_of_data {a b : Report} (h : a.data = b.data) (hb : b.Placed) : a.Placed := by
  unfold Report.Placed Report.lat Report.lon at *
  rw [getvar_data_eq h (by decide), getvar_data_eq h (by decide), getvar_data_eq h (by decide)]
  simpa only [getint_data_eq h] using hb

/-- C40. Adding placed reports to a voyage never raises. -/
theorem C40_add_report_completes (G : Geo) (l : List Report) (hl : ∀ r ∈ l, r.Placed) :
    ∃ v, l.foldlM (addReport G) [] = .ok v := by
  have key : ∀ (l v : List Report), (∀ r ∈ l, r.Placed) → (∀ r ∈ v, r.Placed) →
      ∃ v', l.foldlM (addReport G) v = .ok v' := by
    intro l
    induction l with
    | nil => intro v _ _; exact ⟨v, rfl⟩
    | cons r l ih =>
      intro v hl hv
      have hr := hl r (by simp)
      rw [List.foldlM_cons]
      have : ∃ v1, addReport G v r = .ok v1 ∧ ∀ r ∈ v1, r.Placed := by
        unfold addReport
        cases hg : v.getLast? with
        | none => exact ⟨_, rfl, by simpa using placed_of_data (clearDiff_data r) hr⟩
        | some p =>
          obtain ⟨d, hd⟩ := sub_ok G hr (hv p (List.mem_of_getLast? hg))
          simp only [hd, except_bind_ok, except_pure]
          refine ⟨_, rfl, ?_⟩
          intro x hx
          rw [List.mem_append, List.mem_singleton] at hx
          rcases hx with hx | rfl
          · exact hv x hx
          · exact placed_of_data (setDiff_data r d) hr
      obtain ⟨v1, h1, h2⟩ := this
      rw [h1, except_bind_ok]
      exact ih v1 (fun r hr => hl r (by simp [hr])) h2
  exact key l [] hl (by simp)

/-- C40. Sorting a voyage of placed reports never raises. -/
theorem C40_sort_completes (G : Geo) (v : List Report) (hv : ∀ r ∈ v, r.Placed) :
    ∃ v', sortVoyage G v = .ok v' := by
  have key : ∀ (l : List Report) (p : Report), p.Placed → (∀ r ∈ l, r.Placed) → ∃ l', relink G p l = .ok l' := by
    intro l
    induction l with
    | nil => intro p _ _; exact ⟨_, rfl⟩
    | cons r l ih =>
      intro p hp hl
      obtain ⟨d, hd⟩ := sub_ok G (hl r (by simp)) hp
      obtain ⟨l', hl'⟩ := ih (r.setDiff d) (placed_of_data (setDiff_data r d) (hl r (by simp)))
        (fun x hx => hl x (by simp [hx]))
      exact ⟨_, by rw [relink, hd, except_bind_ok, hl']; rfl⟩
  have hs : ∀ r ∈ sortReports v, r.Placed := by
    intro r hr
    exact hv r (by simpa [sortReports] using hr)
  unfold sortVoyage
  cases h : sortReports v with
  | nil => exact ⟨_, rfl⟩
  | cons r rs =>
    rw [h] at hs
    obtain ⟨l', hl'⟩ := key rs r (hs r (by simp)) (fun x hx => hs x (by simp [hx]))
    exact ⟨_, by simp only [hl', except_bind_ok]; rfl⟩

/-! ### Examples -/

/-- A report with the given variables, for examples. -/
def sampleRep (i : String) (vals : List (String × Rat)) : Report :=
  { Report.empty (some i) none with
    data := fun k => dictGet vals k
    dt := match dictGet vals "DY", dictGet vals "HR" with
      | some d, some h => some ⟨2000, 1, d.num, h.num, 0⟩
      | _, _ => none }

/-- A flat geometry, for examples. -/
def flatGeo : Geo where
  dist a b c d := |a - c| + |b - d|
  course _ _ _ _ := 90
  project a b _ d := (a, b + d)
  along a b c d f := (a + f * (c - a), b + f * (d - b))

/-- A report of 1 January 2000 at the given hour and position, for examples. -/
def sampleAt (h lat lon : Rat) : Report :=
  sampleRep "SHIP" [("YR", 2000), ("MO", 1), ("DY", 1), ("HR", h), ("LAT", lat), ("LON", lon)]

theorem sampleAt_placed (h lat lon : Rat) (h0 : 0 ≤ h) (h1 : h < 24) (hlon : lon ≤ 180) :
    (sampleAt h lat lon).Placed := by
  refine ⟨?_, ?_, 2000, 1, 1, h, ?_, ?_, ?_, ?_, h0, h1, by omega, by omega, by omega, by omega⟩
  · simp [Report.lat, Report.getvar, VARLIST, sampleAt, sampleRep, dictGet, intVars]
  · have : ¬ lon > 180 := not_lt.2 hlon
    simp [Report.lon, Report.getvar, VARLIST, sampleAt, sampleRep, dictGet, intVars, if_neg this]
  all_goals simp [Report.getint, Report.getvar, VARLIST, sampleAt, sampleRep, dictGet, intVars, pyInt]

/-- Non-vacuity: three reports at hours 0, 2 and 6 on the equator. -/
example : ([sampleAt 0 0 0, sampleAt 2 0 10, sampleAt 6 0 30].foldlM (addReport flatGeo) []).map
      (fun v => v.map fun r => (r.getext "speed", r.getext "distance", r.getext "time_diff"))
    = .ok [(.ok none, .ok none, .ok none), (.ok (some 5), .ok (some 10), .ok (some 2)),
        (.ok (some 5), .ok (some 20), .ok (some 4))] := by
  decide +kernel

theorem sortReports_swap {a b : Report} (h : b.lt a = true) : sortReports [a, b] = [b, a] := by
  simp [sortReports, List.mergeSort, List.MergeSort.Internal.splitInTwo, List.merge, h]

/-- `sort` does not touch the first report's differences, so when another report becomes the first it keeps
those to its former predecessor: a report with no predecessor holds a speed. -/
theorem C40_sort_first_stale :
    ((do
      let v ← [sampleAt 6 0 30, sampleAt 2 0 10].foldlM (addReport flatGeo) []
      let v' ← sortVoyage flatGeo v
      return v'.map fun r => (r.getvar "HR", r.getext "speed")) : Except Err _)
    = .ok [(some 2, .ok (some (-5))), (some 6, .ok (some 5))] := by
  have h1 : [sampleAt 6 0 30, sampleAt 2 0 10].foldlM (addReport flatGeo) []
      = .ok [(sampleAt 6 0 30).clearDiff, (sampleAt 2 0 10).setDiff ⟨-5, 20, 90, -4⟩] := by
    have : (sampleAt 2 0 10).sub flatGeo (sampleAt 6 0 30).clearDiff = .ok ⟨-5, 20, 90, -4⟩ := by
      decide +kernel
    simp [addReport, this]
  have h2 : Report.lt ((sampleAt 2 0 10).setDiff ⟨-5, 20, 90, -4⟩) (sampleAt 6 0 30).clearDiff = true := by
    decide +kernel
  rw [h1, except_bind_ok, sortVoyage, sortReports_swap h2]
  decide +kernel

end MarineQC
