import Verif.Report.Spec
import Verif.Calendar.Props
import Mathlib.Data.String.Basic
import Mathlib.Data.List.Sort

/-!
# C32: comparison and sorting of reports
-/

namespace MarineQC

open Spec

/-- A `datetime` as the constructor makes them. -/
def Dt.Valid (d : Dt) : Prop :=
  IsDate d.year d.month d.day ∧ 0 ≤ d.hour ∧ d.hour ≤ 23 ∧ 0 ≤ d.minute ∧ d.minute ≤ 59

theorem dtLt_iff (a b : Dt) : dtLt a b = true ↔
    a.year < b.year ∨ (a.year = b.year ∧ (a.month < b.month ∨ (a.month = b.month ∧
    (a.day < b.day ∨ (a.day = b.day ∧ (a.hour < b.hour ∨ (a.hour = b.hour ∧ a.minute < b.minute))))))) := by
  unfold dtLt; exact decide_eq_true_iff

theorem dtLt_irrefl (a : Dt) : dtLt a a = false := by
  rw [Bool.eq_false_iff]; intro h; rw [dtLt_iff] at h; omega

theorem dtLt_trans {a b c : Dt} (h1 : dtLt a b = true) (h2 : dtLt b c = true) : dtLt a c = true := by
  rw [dtLt_iff] at *; omega

theorem dtLt_trichotomy (a b : Dt) : dtLt a b = true ∨ a = b ∨ dtLt b a = true := by
  rw [dtLt_iff, dtLt_iff]
  by_cases h : a = b
  · exact Or.inr (Or.inl h)
  · have : ¬ (a.year = b.year ∧ a.month = b.month ∧ a.day = b.day ∧ a.hour = b.hour ∧ a.minute = b.minute) := by
      rintro ⟨h1, h2, h3, h4, h5⟩
      apply h
      cases a; cases b; simp_all
    omega

/-- C32: the order of timestamps is the order of the moments they name, counted in minutes with the day
numbers of `jul_day`. -/
theorem C32_time_order (a b : Dt) (ha : a.Valid) (hb : b.Valid) (na nb : Int)
    (hna : julDay a.year a.month a.day = .ok na) (hnb : julDay b.year b.month b.day = .ok nb) :
    dtLt a b = true ↔ minutes na a < minutes nb b := by
  have key : ∀ (a b : Dt), a.Valid → b.Valid → ∀ na nb : Int,
      julDay a.year a.month a.day = .ok na → julDay b.year b.month b.day = .ok nb →
      dtLt a b = true → minutes na a < minutes nb b := by
    intro a b ha hb na nb hna hnb h
    rw [dtLt_iff] at h
    obtain ⟨da, h1, h2, h3, h4⟩ := ha
    obtain ⟨db, h1', h2', h3', h4'⟩ := hb
    rw [julDay_ok da] at hna
    rw [julDay_ok db] at hnb
    injection hna with hna
    injection hnb with hnb
    unfold minutes
    by_cases hB : Before (a.year, a.month, a.day) (b.year, b.month, b.day)
    · have := julDayCore_lt (a := (a.year, a.month, a.day)) (b := (b.year, b.month, b.day)) da db hB
      simp only at this
      omega
    · unfold Before at hB
      simp only at hB
      have e1 : a.year = b.year := by omega
      have e2 : a.month = b.month := by omega
      have e3 : a.day = b.day := by omega
      rw [e1, e2, e3] at hna
      omega
  constructor
  · exact key a b ha hb na nb hna hnb
  · intro h
    rcases dtLt_trichotomy a b with h1 | h1 | h1
    · exact h1
    · subst h1
      rw [hna] at hnb
      injection hnb with hnb
      subst hnb
      omega
    · have := key b a hb ha nb na hnb hna h1
      omega

theorem idLt_irrefl (a : Option String) : idLt a a = false := by
  cases a with
  | none => rfl
  | some a => simp [idLt]

theorem idLt_trans {a b c : Option String} (h1 : idLt a b = true) (h2 : idLt b c = true) :
    idLt a c = true := by
  cases a with
  | none =>
    cases b with
    | none => simp [idLt] at h1
    | some b =>
      cases c with
      | none => simp [idLt] at h2
      | some c => rfl
  | some a =>
    cases b with
    | none => simp [idLt] at h1
    | some b =>
      cases c with
      | none => simp [idLt] at h2
      | some c =>
        simp only [idLt, decide_eq_true_eq] at *
        exact lt_trans h1 h2

theorem idLt_trichotomy (a b : Option String) : idLt a b = true ∨ a = b ∨ idLt b a = true := by
  cases a with
  | none =>
    cases b with
    | none => simp
    | some b => left; rfl
  | some a =>
    cases b with
    | none => right; right; rfl
    | some b =>
      simp only [idLt, decide_eq_true_eq, Option.some.injEq]
      exact lt_trichotomy a b

theorem gt_iff {a b : Report} {da db : Dt} (ha : a.dt = some da) (hb : b.dt = some db) :
    a.gt b = true ↔ idLt b.id a.id = true ∨ (a.id = b.id ∧ dtLt db da = true) := by
  unfold Report.gt
  rw [ha, hb]
  by_cases h : idLt b.id a.id = true
  · simp [h]
  · simp [h]

/-- C32: with different identifiers the greater report is the one with the greater identifier, whatever the
times. -/
theorem C32_gt_ids (a b : Report) (h : a.id ≠ b.id) : a.gt b = true ↔ idLt b.id a.id = true := by
  unfold Report.gt
  by_cases h1 : idLt b.id a.id = true
  · simp [h1]
  · simp only [h1, Bool.false_eq_true, if_false, iff_false]
    split <;> simp [h]

/-- C32: with equal identifiers the greater report is the later one. -/
theorem C32_gt_same_id (a b : Report) (da db : Dt) (ha : a.dt = some da) (hb : b.dt = some db)
    (h : a.id = b.id) (va : da.Valid) (vb : db.Valid) (na nb : Int)
    (hna : julDay da.year da.month da.day = .ok na) (hnb : julDay db.year db.month db.day = .ok nb) :
    a.gt b = true ↔ minutes nb db < minutes na da := by
  rw [gt_iff ha hb, h, idLt_irrefl, ← C32_time_order db da vb va nb na hnb hna]
  simp

/-- C32: for reports with timestamps exactly one of `a > b`, `a == b`, `b > a` holds. -/
theorem C32_trichotomy (a b : Report) (ha : a.dt ≠ none) (hb : b.dt ≠ none) :
    (a.gt b = true ∧ a.eq b = false ∧ b.gt a = false) ∨ (a.gt b = false ∧ a.eq b = true ∧ b.gt a = false) ∨
    (a.gt b = false ∧ a.eq b = false ∧ b.gt a = true) := by
  obtain ⟨da, ha⟩ := Option.ne_none_iff_exists'.1 ha
  obtain ⟨db, hb⟩ := Option.ne_none_iff_exists'.1 hb
  have e : a.eq b = true ↔ a.id = b.id ∧ da = db := by
    unfold Report.eq; rw [ha, hb]; simp
  simp only [Bool.eq_false_iff, ne_eq, gt_iff ha hb, gt_iff hb ha, e]
  have i1 : ∀ x, ¬ (idLt x x = true) := fun x => by simp [idLt_irrefl]
  have i2 : ∀ x, ¬ (dtLt x x = true) := fun x => by simp [dtLt_irrefl]
  have i3 : ∀ x y, idLt x y = true → ¬ (idLt y x = true) := fun x y h1 h2 => i1 x (idLt_trans h1 h2)
  have i4 : ∀ x y, dtLt x y = true → ¬ (dtLt y x = true) := fun x y h1 h2 => i2 x (dtLt_trans h1 h2)
  rcases idLt_trichotomy a.id b.id with h | h | h
  · have hne : a.id ≠ b.id := by intro h'; rw [h'] at h; exact i1 _ h
    have hne' : b.id ≠ a.id := fun h' => hne h'.symm
    simp [h, hne, hne', i3 _ _ h]
  · rw [h]
    rcases dtLt_trichotomy da db with k | k | k
    · have hne : da ≠ db := by rintro rfl; exact i2 _ k
      simp [i1, k, hne, i4 _ _ k]
    · subst k; simp [i1, i2]
    · have hne : da ≠ db := by rintro rfl; exact i2 _ k
      simp [i1, k, hne, i4 _ _ k]
  · have hne : a.id ≠ b.id := by intro h'; rw [h'] at h; exact i1 _ h
    have hne' : b.id ≠ a.id := fun h' => hne h'.symm
    simp [h, hne, hne', i3 _ _ h]

/-- C32: `>` is transitive on reports with timestamps. -/
theorem C32_transitive (a b c : Report) (ha : a.dt ≠ none) (hb : b.dt ≠ none) (hc : c.dt ≠ none)
    (h1 : a.gt b = true) (h2 : b.gt c = true) : a.gt c = true := by
  obtain ⟨da, ha⟩ := Option.ne_none_iff_exists'.1 ha
  obtain ⟨db, hb⟩ := Option.ne_none_iff_exists'.1 hb
  obtain ⟨dc, hc⟩ := Option.ne_none_iff_exists'.1 hc
  rw [gt_iff ha hb] at h1
  rw [gt_iff hb hc] at h2
  rw [gt_iff ha hc]
  rcases h1 with h1 | ⟨h1, h1'⟩
  · rcases h2 with h2 | ⟨h2, h2'⟩
    · exact Or.inl (idLt_trans h2 h1)
    · rw [h2] at h1; exact Or.inl h1
  · rcases h2 with h2 | ⟨h2, h2'⟩
    · rw [← h1] at h2; exact Or.inl h2
    · exact Or.inr ⟨h1.trans h2, dtLt_trans h2' h1'⟩

/-- C32: for reports with timestamps `>=` is "greater or equal", `<=` is "less or equal", `<` is the converse
of `>`, and none of them raises. -/
theorem C32_ge_le (a b : Report) (ha : a.dt ≠ none) (hb : b.dt ≠ none) :
    a.ge b = .ok (a.gt b || a.eq b) ∧ a.le b = .ok (b.gt a || a.eq b) ∧ a.lt b = b.gt a := by
  have htri := C32_trichotomy a b ha hb
  obtain ⟨da, ha⟩ := Option.ne_none_iff_exists'.1 ha
  obtain ⟨db, hb⟩ := Option.ne_none_iff_exists'.1 hb
  refine ⟨?_, ?_, rfl⟩
  · unfold Report.ge
    by_cases h : idLt b.id a.id = true
    · have : a.gt b = true := (gt_iff ha hb).2 (Or.inl h)
      simp [h, this]
    · rw [if_neg h]
      by_cases he : a.id = b.id
      · rw [if_pos he, ha, hb]
        simp only [dtGe]
        congr 1
        have g1 : a.gt b = dtLt db da := by
          rw [Bool.eq_iff_iff, gt_iff ha hb, he, idLt_irrefl]; simp
        have g2 : b.gt a = dtLt da db := by
          rw [Bool.eq_iff_iff, gt_iff hb ha, he, idLt_irrefl]; simp
        rw [g1, g2] at htri
        rw [g1]
        rcases htri with ⟨h1, h2, h3⟩ | ⟨h1, h2, h3⟩ | ⟨h1, h2, h3⟩ <;> rw [h1, h2, h3] <;> rfl
      · rw [if_neg he]
        have g1 : a.gt b = false := by
          rw [Bool.eq_false_iff, ne_eq, gt_iff ha hb]; simp [h, he]
        have g2 : a.eq b = false := by unfold Report.eq; simp [he]
        rw [g1, g2]; rfl
  · unfold Report.le
    by_cases h : idLt a.id b.id = true
    · have : b.gt a = true := (gt_iff hb ha).2 (Or.inl h)
      simp [h, this]
    · rw [if_neg h]
      by_cases he : a.id = b.id
      · rw [if_pos he, ha, hb]
        simp only [dtGe]
        congr 1
        have g1 : a.gt b = dtLt db da := by
          rw [Bool.eq_iff_iff, gt_iff ha hb, he, idLt_irrefl]; simp
        have g2 : b.gt a = dtLt da db := by
          rw [Bool.eq_iff_iff, gt_iff hb ha, he, idLt_irrefl]; simp
        rw [g1, g2] at htri
        rw [g2]
        rcases htri with ⟨h1, h2, h3⟩ | ⟨h1, h2, h3⟩ | ⟨h1, h2, h3⟩ <;> rw [h1, h2, h3] <;> rfl
      · rw [if_neg he]
        have g1 : b.gt a = false := by
          rw [Bool.eq_false_iff, ne_eq, gt_iff hb ha]
          have : ¬ b.id = a.id := fun h' => he h'.symm
          simp [h, this]
        have g2 : a.eq b = false := by unfold Report.eq; simp [he]
        rw [g1, g2]; rfl

/-- C32: `>=` and `<=` of two reports of one identifier raise TypeError when exactly one has a timestamp. -/
theorem C32_missing_raises (a b : Report) (h : a.id = b.id) (da : Dt) (ha : a.dt = some da)
    (hb : b.dt = none) : a.ge b = .error .type ∧ a.le b = .error .type := by
  unfold Report.ge Report.le
  rw [h, idLt_irrefl, ha, hb]
  simp [dtGe]

/-- A report with a timestamp. -/
abbrev Timed := { r : Report // r.dt ≠ none }

theorem sort_timed (l : List Timed) :
    sortReports (l.map Subtype.val) =
      (l.mergeSort (fun a b => !(b.val.lt a.val))).map Subtype.val := by
  unfold sortReports
  symm
  apply List.map_mergeSort
  intros
  rfl

theorem timed_total (a b : Timed) : ((!(b.val.lt a.val)) || !(a.val.lt b.val)) = true := by
  have := C32_trichotomy a.val b.val a.2 b.2
  unfold Report.lt
  rcases this with ⟨h1, -, h3⟩ | ⟨h1, -, h3⟩ | ⟨h1, -, h3⟩ <;> rw [h1, h3] <;> rfl

theorem timed_trans (a b c : Timed) (h1 : (!(b.val.lt a.val)) = true) (h2 : (!(c.val.lt b.val)) = true) :
    (!(c.val.lt a.val)) = true := by
  unfold Report.lt at *
  simp only [Bool.not_eq_true'] at *
  by_contra hc
  rw [Bool.not_eq_false] at hc
  -- `a > c`, `¬ a > b`, `¬ b > c`
  rcases C32_trichotomy a.val b.val a.2 b.2 with ⟨h, -, -⟩ | ⟨-, h, -⟩ | ⟨-, -, h⟩
  · rw [h] at h1; cases h1
  · have he : a.val.id = b.val.id ∧ a.val.dt = b.val.dt := by
      unfold Report.eq at h; exact of_decide_eq_true h
    have : b.val.gt c.val = a.val.gt c.val := by
      unfold Report.gt; rw [he.1, he.2]
    rw [this, hc] at h2; cases h2
  · have := C32_transitive b.val a.val c.val b.2 a.2 c.2 h hc
    rw [this] at h2; cases h2

/-- C32: sorting a list of reports with timestamps gives the same reports, each no greater than any later
one, and keeps the order of reports equal in identifier and time. -/
theorem C32_sort (l : List Report) (hl : ∀ r ∈ l, r.dt ≠ none) :
    (sortReports l).Perm l ∧ (sortReports l).Pairwise (fun a b => a.gt b = false) ∧
    ∀ a b, [a, b].Sublist l → a.gt b = false → [a, b].Sublist (sortReports l) := by
  obtain ⟨l', rfl⟩ : ∃ l' : List Timed, l'.map Subtype.val = l :=
    ⟨l.attach.map fun r => ⟨r.1, hl r.1 r.2⟩, by rw [List.map_map]; exact List.attach_map_subtype_val l⟩
  rw [sort_timed]
  refine ⟨(List.mergeSort_perm _ _).map _, ?_, ?_⟩
  · rw [List.pairwise_map]
    refine (List.pairwise_mergeSort timed_trans timed_total l').imp ?_
    intro a b h
    simpa [Report.lt] using h
  · intro a b hs hg
    obtain ⟨s, hs1, hs2⟩ := List.sublist_map_iff.1 hs
    match s, hs2 with
    | [x, y], hs2 =>
      simp only [List.map_cons, List.map_nil, List.cons.injEq, and_true] at hs2
      obtain ⟨rfl, rfl⟩ := hs2
      have := List.pair_sublist_mergeSort timed_trans timed_total
        (by unfold Report.lt; rw [hg]; rfl) hs1
      exact this.map Subtype.val

/-- C32: sorting the reports of one platform puts them in chronological order. -/
theorem C32_sort_chronological (l : List Report) (i : Option String)
    (hl : ∀ r ∈ l, r.id = i ∧ ∃ d, r.dt = some d ∧ d.Valid) :
    (sortReports l).Pairwise (fun a b => ∀ da db na nb, a.dt = some da → b.dt = some db →
      julDay da.year da.month da.day = .ok na → julDay db.year db.month db.day = .ok nb →
      minutes na da ≤ minutes nb db) := by
  have hd : ∀ r ∈ l, r.dt ≠ none := by
    intro r hr
    obtain ⟨-, d, h, -⟩ := hl r hr
    rw [h]; simp
  obtain ⟨hp, hs, -⟩ := C32_sort l hd
  refine hs.imp_of_mem ?_
  intro a b ha hb h da db na nb hda hdb hna hnb
  obtain ⟨hia, x, hx, vx⟩ := hl a (hp.mem_iff.1 ha)
  obtain ⟨hib, y, hy, vy⟩ := hl b (hp.mem_iff.1 hb)
  rw [hda] at hx; injection hx with hx; subst hx
  rw [hdb] at hy; injection hy with hy; subst hy
  by_contra hc
  push Not at hc
  have := (C32_gt_same_id a b da db hda hdb (hia.trans hib.symm) vx vy na nb hna hnb).2 hc
  rw [this] at h; cases h

/-- A report of ship A at an hour of 2 January 2003, or without time. -/
def reportAt (h : Option Int) : Report :=
  { Report.empty (some "A") none with dt := h.map fun h => ⟨2003, 1, 2, h, 0⟩ }

example : (reportAt (some 5)).gt (reportAt (some 3)) = true ∧ ((reportAt (some 5)).dt ≠ none) := by
  decide +kernel

/-- Without timestamps "not greater" is not transitive: 05h is not greater than no time, no time is not
greater than 03h, yet 05h is greater than 03h.  So the list 05h, no time, 03h, in which no report is greater
than the next, is not in chronological order. -/
theorem C32_missing_time_intransitive :
    (reportAt (some 5)).gt (reportAt none) = false ∧ (reportAt none).gt (reportAt (some 3)) = false ∧
    (reportAt (some 5)).gt (reportAt (some 3)) = true := by decide +kernel

end MarineQC
