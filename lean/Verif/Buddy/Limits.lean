import Verif.Buddy.Cells
import Verif.Voyage.Pairs

/-!
# C55: the limits of the buddy check
-/

namespace MarineQC

namespace Spec

/-- `c'` is the cell of the grid a number of columns, rows and pentads away from `c`, wrapping around. -/
def IsCellAt (c : Cell) (o : Int × Int × Int) (c' : Cell) : Prop :=
  c'.1 < 360 ∧ c'.2.1 < 180 ∧ c'.2.2 < 73 ∧ (360 : Int) ∣ c'.1 - (c.1 + o.1) ∧ (180 : Int) ∣ c'.2.1 - (c.2.1 + o.2.1)
    ∧ (73 : Int) ∣ c'.2.2 - (c.2.2 + o.2.2)

/-- A step of at most so many columns, rows and pentads in each direction that is not nothing at all. -/
def IsStep (fx ry rp : Int) (o : Int × Int × Int) : Prop :=
  |o.1| ≤ fx ∧ |o.2.1| ≤ ry ∧ |o.2.2| ≤ rp ∧ o ≠ (0, 0, 0)

/-- The cells with observations among those reached from `c` by such steps, listed once for each step. -/
def Neighbours (g : SuperOb) (fx ry rp : Int) (c : Cell) (l : List Cell) : Prop :=
  ∃ os : List (Int × Int × Int), os.Nodup ∧ List.Forall₂ (IsCellAt c) os l
    ∧ ∀ o, o ∈ os ↔ IsStep fx ry rp o ∧ ∃ c', IsCellAt c o c' ∧ g.nobs c' ≠ 0

/-- Tables of limits and multipliers are usable. -/
def Usable (limits : List Int) (values : List Rat) : Prop :=
  limits.length = values.length ∧ (∀ v ∈ values, 0 < v) ∧ limits.head? = some 0 ∧ limits.Pairwise (· < ·)

/-- The multiplier that belongs to the last limit exceeded. -/
def IsMultiplier (total : Int) (limits : List Int) (values : List Rat) (k : Rat) : Prop :=
  ∃ (i : Nat) (n : Int), limits[i]? = some n ∧ n < total ∧ values[i]? = some k
    ∧ ∀ (j : Nat) (n' : Int), i < j → limits[j]? = some n' → total ≤ n'

/-- The deviation at the centre of a cell on the first day of its pentad; 1 if there is none or it is negative. -/
def IsDeviation (field : StdevField) (c : Cell) (s : Rat) : Prop :=
  ∃ v, field (179 / 2 - c.2.1) (-359 / 2 + c.1) (Spec.dayOfYear (5 * c.2.2)).1 (Spec.dayOfYear (5 * c.2.2)).2 = .ok v
    ∧ ((∀ w, v = some w → w < 0) ∧ s = 1 ∨ v = some s ∧ 0 ≤ s)

/-- Level `j` of the search finds the neighbours `l`. -/
def Level (span : Int → Nat → Int) (g : SuperOb) (limits : List (List Int)) (c : Cell) (j : Nat) (l : List Cell) :
    Prop :=
  ∃ rx ry rp, limits[j]? = some [rx, ry, rp] ∧ Neighbours g (span rx c.2.1) ry rp c l

/-- The mean and deviation of a cell: those of the first level that finds any neighbours, otherwise 0 and 500. -/
def IsLimits (span : Int → Nat → Int) (g : SuperOb) (stdev : Rat) (P : BuddyParams) (c : Cell) (m s : Rat) : Prop :=
  (∃ (j : Nat) (l : List Cell) (t : List Int) (v : List Rat) (k : Rat), (∀ i < j, Level span g P.limits c i [])
    ∧ Level span g P.limits c j l ∧ l ≠ []
    ∧ m * l.length = (l.map g.grid).sum ∧ P.thresholds[j]? = some t ∧ P.multipliers[j]? = some v
    ∧ Usable t v ∧ IsMultiplier ((l.map g.nobs).sum : Nat) t v k ∧ s = k * stdev)
  ∨ ((∀ i < P.limits.length, Level span g P.limits c i []) ∧ m = 0 ∧ s = 500)

end Spec

open Spec

/-! ## Neighbours -/

theorem mem_spanRange {n x : Int} : x ∈ spanRange n ↔ |x| ≤ n := by
  unfold spanRange
  rw [List.mem_map, abs_le]
  constructor
  · rintro ⟨i, hi, rfl⟩
    rw [List.mem_range] at hi
    omega
  · intro h
    exact ⟨(x + n).toNat, List.mem_range.2 (by omega), by omega⟩

theorem spanRange_nodup (n : Int) : (spanRange n).Nodup := by
  unfold spanRange
  refine List.Nodup.map (fun a b h => ?_) List.nodup_range
  omega

theorem mem_spanOffsets {fx ry rp : Int} {o : Int × Int × Int} : o ∈ spanOffsets fx ry rp ↔ IsStep fx ry rp o := by
  obtain ⟨a, b, d⟩ := o
  unfold spanOffsets IsStep
  simp only [List.mem_flatMap, List.mem_filterMap, mem_spanRange, ne_eq, Prod.mk.injEq]
  constructor
  · rintro ⟨x, hx, y, hy, p, hp, h⟩
    split at h
    · simp at h
    · rename_i hn
      simp only [Option.some.injEq, Prod.mk.injEq] at h
      obtain ⟨rfl, rfl, rfl⟩ := h
      exact ⟨hx, hy, hp, hn⟩
  · rintro ⟨hx, hy, hp, hn⟩
    exact ⟨a, hx, b, hy, d, hp, by rw [if_neg hn]⟩

theorem spanOffsets_nodup (fx ry rp : Int) : (spanOffsets fx ry rp).Nodup := by
  unfold spanOffsets
  rw [List.nodup_flatMap]
  refine ⟨fun x _ => ?_, (spanRange_nodup fx).imp ?_⟩
  · rw [List.nodup_flatMap]
    refine ⟨fun y _ => ?_, (spanRange_nodup ry).imp ?_⟩
    · refine List.Nodup.filterMap ?_ (spanRange_nodup rp)
      intro p p' z h h'
      split at h <;> split at h' <;> simp at h h'
      rw [← h'] at h
      simpa using h
    · intro y y' hy z h h'
      rw [List.mem_filterMap] at h h'
      obtain ⟨p, -, h⟩ := h
      obtain ⟨p', -, h'⟩ := h'
      split at h <;> split at h' <;> simp at h h'
      rw [← h'] at h
      simp only [Prod.mk.injEq] at h
      exact hy h.2.1
  · intro x x' hx z h h'
    rw [List.mem_flatMap] at h h'
    obtain ⟨y, -, h⟩ := h
    obtain ⟨y', -, h'⟩ := h'
    rw [List.mem_filterMap] at h h'
    obtain ⟨p, -, h⟩ := h
    obtain ⟨p', -, h'⟩ := h'
    split at h <;> split at h' <;> simp at h h'
    rw [← h'] at h
    simp only [Prod.mk.injEq] at h
    exact hx h.1

theorem isCellAt_iff {c : Cell} {o : Int × Int × Int} {c' : Cell} : IsCellAt c o c' ↔ c' = wrapCell c o := by
  obtain ⟨x, y, p⟩ := c'
  unfold IsCellAt wrapCell
  simp only [Prod.mk.injEq]
  omega

theorem neighbours_spec (span : Int → Nat → Int) (g : SuperOb) (rx ry rp : Int) (c : Cell) :
    ∃ l, Neighbours g (span rx c.2.1) ry rp c l ∧ g.neighbours span [rx, ry, rp] c = .ok (l.map g.grid, l.map g.nobs) := by
  refine ⟨_, ⟨(spanOffsets (span rx c.2.1) ry rp).filter fun o => decide (g.nobs (wrapCell c o) ≠ 0),
    (spanOffsets_nodup _ _ _).filter _, ?_, ?_⟩, rfl⟩
  · rw [List.filter_map, List.forall₂_map_right_iff]
    exact List.forall₂_same.2 fun o _ => isCellAt_iff.2 rfl
  · intro o
    simp only [List.mem_filter, mem_spanOffsets, isCellAt_iff, decide_eq_true_eq, exists_eq_left]

/-- The neighbours are determined up to order. -/
theorem neighbours_perm {g : SuperOb} {fx ry rp : Int} {c : Cell} {l l' : List Cell} (h : Neighbours g fx ry rp c l)
    (h' : Neighbours g fx ry rp c l') : l.Perm l' := by
  obtain ⟨os, n, f, m⟩ := h
  obtain ⟨os', n', f', m'⟩ := h'
  have hp : os.Perm os' := (List.perm_ext_iff_of_nodup n n').2 fun o => (m o).trans (m' o).symm
  have key : ∀ {os : List (Int × Int × Int)} {l : List Cell}, List.Forall₂ (IsCellAt c) os l → l = os.map (wrapCell c) := by
    intro os l f
    induction f with
    | nil => rfl
    | cons h _ ih => rw [List.map_cons, ← ih, isCellAt_iff.1 h]
  rw [key f, key f']
  exact hp.map _

theorem neighbours_nobs {g : SuperOb} {fx ry rp : Int} {c : Cell} {l : List Cell} (h : Neighbours g fx ry rp c l) :
    ∀ c' ∈ l, g.nobs c' ≠ 0 := by
  obtain ⟨os, n, f, m⟩ := h
  intro c' hc'
  obtain ⟨i, hi, rfl⟩ := List.getElem_of_mem hc'
  have := List.forall₂_iff_get.1 f
  have hi' : i < os.length := by rw [this.1]; exact hi
  have h1 := this.2 i hi' hi
  obtain ⟨-, c', h2, h3⟩ := (m _).1 (List.getElem_mem hi')
  rw [isCellAt_iff] at h1 h2
  simp only [List.get_eq_getElem] at h1
  rw [h1, ← h2]
  exact h3

/-! ## Multipliers -/

theorem multiplierLoop_spec (total : Int) (l : List (Int × Rat)) (m : Rat) :
    (∃ (i : Nat) (n : Int), l[i]? = some (n, multiplierLoop total l m) ∧ n < total
      ∧ ∀ (j : Nat) (p : Int × Rat), i < j → l[j]? = some p → total ≤ p.1)
    ∨ ((∀ p ∈ l, total ≤ p.1) ∧ multiplierLoop total l m = m) := by
  induction l generalizing m with
  | nil => right; simp [multiplierLoop]
  | cons a l ih =>
    obtain ⟨n, v⟩ := a
    rw [multiplierLoop]
    rcases ih (if total > n then v else m) with ⟨i, n', h1, h2, h3⟩ | ⟨h1, h2⟩
    · left
      refine ⟨i + 1, n', by simpa using h1, h2, ?_⟩
      intro j p hj hp
      obtain ⟨j, rfl⟩ : ∃ k, j = k + 1 := ⟨j - 1, by omega⟩
      exact h3 j p (by omega) (by simpa using hp)
    · by_cases hn : total > n
      · left
        refine ⟨0, n, ?_, hn, ?_⟩
        · rw [h2, if_pos hn]; simp
        · intro j p hj hp
          obtain ⟨j, rfl⟩ : ∃ k, j = k + 1 := ⟨j - 1, by omega⟩
          exact h1 p (List.mem_of_getElem? (by simpa using hp))
      · right
        rw [h2, if_neg hn]
        refine ⟨?_, rfl⟩
        intro p hp
        rcases List.mem_cons.1 hp with rfl | hp
        · simpa using hn
        · exact h1 p hp

theorem getD_of_lt {l : List Int} {i : Nat} (h : i < l.length) : l.getD i 0 = l[i] := by
  simp [List.getD, List.getElem?_eq_getElem h]

theorem ascending_iff (l : List Int) :
    ((List.range (l.length - 1)).all fun i => decide (l.getD (i + 1) 0 > l.getD i 0)) = true ↔ l.Pairwise (· < ·) := by
  rw [← List.isChain_iff_pairwise, List.isChain_iff_getElem]
  simp only [List.all_eq_true, List.mem_range, decide_eq_true_eq]
  constructor
  · intro h i hi
    have := h i (by omega)
    rw [getD_of_lt (i := i + 1) (by omega), getD_of_lt (i := i) (by omega)] at this
    exact this
  · intro h i hi
    rw [getD_of_lt (i := i + 1) (by omega), getD_of_lt (i := i) (by omega)]
    exact h i (by omega)

theorem zip_getElem?_some {α β : Type} {l : List α} {l' : List β} {i : Nat} {a : α} {b : β} :
    (l.zip l')[i]? = some (a, b) ↔ l[i]? = some a ∧ l'[i]? = some b := by
  rw [List.getElem?_zip_eq_some]

/-- C55. The multiplier: usable tables and a number of observations that is not negative give the value that belongs
to the last limit exceeded, and 4 for no observations; anything else raises an exception. -/
theorem C55_multiplier (total : Int) (limits : List Int) (values : List Rat) (k : Rat) :
    thresholdMultiplier total limits values = .ok k ↔
      Usable limits values ∧ ((total = 0 ∧ k = 4) ∨ (0 < total ∧ IsMultiplier total limits values k)) := by
  unfold thresholdMultiplier
  rw [pyAssert_bind]
  by_cases hl : limits.length = values.length
  swap
  · simp only [hl, decide_false, Bool.false_eq_true, if_false, reduceCtorEq, false_iff]
    exact fun h => hl h.1.1
  simp only [hl, decide_true, if_true]
  cases hmv : values.min? with
  | none =>
    simp only [reduceCtorEq, false_iff]
    rintro ⟨⟨-, -, h, -⟩, -⟩
    rw [List.min?_eq_none_iff] at hmv
    subst hmv
    have : limits = [] := by simpa using hl
    subst this
    simp at h
  | some mv =>
  cases hml : limits.min? with
  | none =>
    simp only [reduceCtorEq, false_iff]
    rintro ⟨⟨-, -, h, -⟩, -⟩
    rw [List.min?_eq_none_iff] at hml
    subst hml
    simp at h
  | some ml =>
    simp only
    have hv : 0 < mv ↔ ∀ v ∈ values, 0 < v := by
      constructor
      · intro h v hv
        exact lt_of_lt_of_le h ((List.min?_eq_some_iff.1 hmv).2 v hv)
      · intro h
        exact h mv (List.min?_eq_some_iff.1 hmv).1
    rw [pyAssert_bind]
    by_cases h1 : mv > 0
    swap
    · simp only [h1, decide_false, Bool.false_eq_true, if_false, reduceCtorEq, false_iff]
      exact fun h => h1 (hv.2 h.1.2.1)
    simp only [h1, decide_true, if_true]
    rw [pyAssert_bind]
    by_cases h2 : ml = 0
    swap
    · simp only [h2, decide_false, Bool.false_eq_true, if_false, reduceCtorEq, false_iff]
      rintro ⟨⟨-, -, h3, h4⟩, -⟩
      cases limits with
      | nil => simp at h3
      | cons a t =>
        simp only [List.head?_cons, Option.some.injEq] at h3
        subst h3
        rw [List.pairwise_cons] at h4
        obtain ⟨m1, m2⟩ := List.min?_eq_some_iff.1 hml
        rcases List.mem_cons.1 m1 with h | h
        · exact h2 h
        · have := h4.1 ml h
          have := m2 0 (List.mem_cons_self ..)
          omega
    simp only [h2, decide_true, if_true]
    rw [pyAssert_bind]
    by_cases h3 : limits.head? = some 0
    swap
    · simp only [h3, decide_false, Bool.false_eq_true, if_false, reduceCtorEq, false_iff]
      exact fun h => absurd h.1.2.2.1 h3
    simp only [h3, decide_true, if_true]
    rw [pyAssert_bind, ← hl]
    by_cases h4 : limits.Pairwise (· < ·)
    swap
    · rw [if_neg (fun h => h4 ((ascending_iff _).1 h))]
      simp only [reduceCtorEq, false_iff]
      exact fun h => h4 h.1.2.2.2
    rw [if_pos ((ascending_iff _).2 h4)]
    have hu : Usable limits values := ⟨hl, hv.1 h1, h3, h4⟩
    have h00 : limits[0]? = some 0 := by rw [← List.head?_eq_getElem?]; exact h3
    have hnn : ∀ n ∈ limits, (0 : Int) ≤ n := by
      intro n hn
      have := (List.min?_eq_some_iff.1 hml).2 n hn
      omega
    rw [pyAssert_bind]
    rcases multiplierLoop_spec total (limits.zip values) (if total = 0 then 4 else -1) with
      ⟨i, n, e1, e2, e3⟩ | ⟨e1, e2⟩
    · obtain ⟨f1, f2⟩ := zip_getElem?_some.1 e1
      have hpos : 0 < multiplierLoop total (limits.zip values) (if total = 0 then 4 else -1) :=
        hu.2.1 _ (List.mem_of_getElem? f2)
      have ht : 0 < total := lt_of_le_of_lt (hnn n (List.mem_of_getElem? f1)) e2
      rw [if_pos (by simpa using hpos), except_pure, Except.ok.injEq]
      have e3' : ∀ (j : Nat) (n' : Int), i < j → limits[j]? = some n' → total ≤ n' := by
        intro j n' hj hn'
        have hj' : j < values.length := by
          rw [← hl]
          exact (List.getElem?_eq_some_iff.1 hn').1
        exact e3 j (n', values[j]) hj (zip_getElem?_some.2 ⟨hn', List.getElem?_eq_getElem hj'⟩)
      constructor
      · rintro rfl
        exact ⟨hu, Or.inr ⟨ht, i, n, f1, e2, f2, e3'⟩⟩
      · rintro ⟨-, ⟨h0, -⟩ | ⟨-, i', n', g1, g2, g3, g4⟩⟩
        · omega
        · rcases lt_trichotomy i i' with h | h | h
          · have := e3' i' n' h g1
            omega
          · subst h
            rw [f2, Option.some.injEq] at g3
            exact g3
          · have := g4 i n h f1
            omega
    · have ht : total ≤ 0 := by
        have : (limits.zip values)[0]? = some ((0 : Int), values[0]'(by
            rw [← hl]; exact (List.getElem?_eq_some_iff.1 h00).1)) :=
          zip_getElem?_some.2 ⟨h00, List.getElem?_eq_getElem _⟩
        exact e1 _ (List.mem_of_getElem? this)
      rw [e2]
      by_cases h0 : total = 0
      · rw [if_pos h0, if_pos (by decide +kernel), except_pure, Except.ok.injEq]
        constructor
        · rintro rfl
          exact ⟨hu, Or.inl ⟨h0, rfl⟩⟩
        · rintro ⟨-, ⟨-, h⟩ | ⟨h, -⟩⟩
          · exact h.symm
          · omega
      · rw [if_neg h0, if_neg (by decide +kernel)]
        simp only [reduceCtorEq, false_iff]
        rintro ⟨-, ⟨h, -⟩ | ⟨h, -⟩⟩ <;> omega

/-- A positive number of observations and usable tables always have a multiplier. -/
theorem exists_multiplier {total : Int} {limits : List Int} {values : List Rat} (hu : Usable limits values)
    (ht : 0 < total) : ∃ k, IsMultiplier total limits values k := by
  obtain ⟨hl, hv, h3, h4⟩ := hu
  have h00 : limits[0]? = some 0 := by rw [← List.head?_eq_getElem?]; exact h3
  rcases multiplierLoop_spec total (limits.zip values) 0 with ⟨i, n, e1, e2, e3⟩ | ⟨e1, e2⟩
  · obtain ⟨f1, f2⟩ := zip_getElem?_some.1 e1
    refine ⟨_, i, n, f1, e2, f2, fun j n' hj hn' => ?_⟩
    have hj' : j < values.length := by
      rw [← hl]
      exact (List.getElem?_eq_some_iff.1 hn').1
    exact e3 j (n', values[j]) hj (zip_getElem?_some.2 ⟨hn', List.getElem?_eq_getElem hj'⟩)
  · exfalso
    have : (limits.zip values)[0]? = some ((0 : Int), values[0]'(by
        rw [← hl]; exact (List.getElem?_eq_some_iff.1 h00).1)) :=
      zip_getElem?_some.2 ⟨h00, List.getElem?_eq_getElem _⟩
    have := e1 _ (List.mem_of_getElem? this)
    simp only at this
    omega

example : Usable [0, 5, 15, 100] [4, 7 / 2, 3, 5 / 2] ∧ IsMultiplier 16 [0, 5, 15, 100] [4, 7 / 2, 3, 5 / 2] 3
    ∧ thresholdMultiplier 16 [0, 5, 15, 100] [4, 7 / 2, 3, 5 / 2] = .ok 3
    ∧ thresholdMultiplier 5 [0, 5, 15, 100] [4, 7 / 2, 3, 5 / 2] = .ok 4 := by
  have h : thresholdMultiplier 16 [0, 5, 15, 100] [4, 7 / 2, 3, 5 / 2] = .ok 3 := by decide +kernel
  obtain ⟨h1, h2⟩ := (C55_multiplier ..).1 h
  refine ⟨h1, ?_, h, by decide +kernel⟩
  rcases h2 with ⟨h2, -⟩ | h2
  · norm_num at h2
  · exact h2.2

/-! ## The search -/

theorem stdevAt_ok (field : StdevField) (c : Cell) (hp : c.2.2 < 73) (s : Rat) :
    stdevAt field c = .ok s ↔ IsDeviation field c s := by
  unfold stdevAt IsDeviation
  rw [(C02_pentad_first_day _).1 (by omega) (by omega), except_bind_ok, add_sub_cancel_right, Int.toNat_natCast]
  cases h : field (179 / 2 - c.2.1) (-359 / 2 + c.1) (Spec.dayOfYear (5 * c.2.2)).1 (Spec.dayOfYear (5 * c.2.2)).2 with
  | error e => simp
  | ok v =>
    rw [except_bind_ok, except_pure, Except.ok.injEq]
    simp only [Except.ok.injEq, exists_eq_left', usableStdev]
    cases v with
    | none => simp [eq_comm]
    | some w =>
      simp only [Option.some.injEq, forall_eq']
      constructor
      · intro hs
        split at hs
        · exact Or.inl ⟨‹_›, hs.symm⟩
        · subst hs
          exact Or.inr ⟨rfl, by linarith⟩
      · rintro (⟨h1, rfl⟩ | ⟨rfl, h1⟩)
        · rw [if_pos h1]
        · rw [if_neg (by linarith)]

theorem neighbours_radius {span : Int → Nat → Int} {g : SuperOb} {rad : List Int} {c : Cell} {nb : List Rat × List Nat}
    (h : g.neighbours span rad c = .ok nb) : ∃ rx ry rp l, rad = [rx, ry, rp]
      ∧ Neighbours g (span rx c.2.1) ry rp c l ∧ nb = (l.map g.grid, l.map g.nobs) := by
  unfold SuperOb.neighbours at h
  split at h
  · rename_i rx ry rp
    obtain ⟨l, h1, h2⟩ := neighbours_spec span g rx ry rp c
    refine ⟨rx, ry, rp, l, rfl, h1, ?_⟩
    unfold SuperOb.neighbours at h2
    simp only at h2 h
    rw [h, Except.ok.injEq] at h2
    exact h2
  · simp at h

theorem ratMean_iff {l : List Rat} (h : l ≠ []) (m : Rat) : ratMean l = m ↔ m * l.length = l.sum := by
  unfold ratMean
  have : (l.length : Rat) ≠ 0 := by
    simpa using h
  rw [div_eq_iff this, eq_comm]

theorem sum_nobs_pos {g : SuperOb} {l : List Cell} (h : ∀ c ∈ l, g.nobs c ≠ 0) (hl : l ≠ []) : 0 < (l.map g.nobs).sum := by
  cases l with
  | nil => exact absurd rfl hl
  | cons a t =>
    have := h a (List.mem_cons_self ..)
    rw [List.map_cons, List.sum_cons]
    omega

/-- A step of the search. -/
theorem levelStep_spec {span : Int → Nat → Int} {g : SuperOb} {P : BuddyParams} {c : Cell} {stdev : Rat}
    {st st' : Option (Rat × Rat)} {rad : List Int} {j : Nat}
    (h : levelStep span g P c stdev st (rad, j) = .ok st') :
    ∃ rx ry rp l, rad = [rx, ry, rp] ∧ Neighbours g (span rx c.2.1) ry rp c l
      ∧ ((st' = st ∧ (st ≠ none ∨ l = []))
        ∨ (st = none ∧ l ≠ [] ∧ ∃ m s t v k, st' = some (m, s) ∧ m * l.length = (l.map g.grid).sum
          ∧ P.thresholds[j]? = some t ∧ P.multipliers[j]? = some v ∧ Usable t v
          ∧ IsMultiplier ((l.map g.nobs).sum : Nat) t v k ∧ s = k * stdev)) := by
  unfold levelStep at h
  cases h1 : g.neighbours span rad c with
  | error e => simp only [h1] at h; simp at h
  | ok nb =>
    simp only [h1, except_bind_ok] at h
    obtain ⟨rx, ry, rp, l, e1, e2, e3⟩ := neighbours_radius h1
    refine ⟨rx, ry, rp, l, e1, e2, ?_⟩
    subst e3
    simp only [List.length_map] at h
    split at h
    · rename_i hc
      right
      have hl : l ≠ [] := by
        rintro rfl
        simp at hc
      refine ⟨hc.2, hl, ?_⟩
      cases ht : pyIndex P.thresholds (j : Int) with
      | error e => rw [ht] at h; simp at h
      | ok t =>
      cases hv : pyIndex P.multipliers (j : Int) with
      | error e => rw [ht, hv] at h; simp at h
      | ok v =>
      rw [ht, hv, except_bind_ok, except_bind_ok] at h
      cases hk : thresholdMultiplier ((l.map g.nobs).sum : Nat) t v with
      | error e => rw [hk] at h; simp at h
      | ok k =>
        rw [hk, except_bind_ok, except_pure, Except.ok.injEq] at h
        obtain ⟨u, hk⟩ := (C55_multiplier ..).1 hk
        have hpos := sum_nobs_pos (neighbours_nobs e2) hl
        refine ⟨_, _, t, v, k, h.symm, ?_, pyIndex_ok ht, pyIndex_ok hv, u, ?_, rfl⟩
        · have := (ratMean_iff (l := l.map g.grid) (by simpa using hl) _).1 rfl
          simpa using this
        · rcases hk with ⟨hk, -⟩ | hk
          · omega
          · exact hk.2
    · rename_i hc
      left
      rw [except_pure, Except.ok.injEq] at h
      refine ⟨h.symm, ?_⟩
      by_cases hs : st = none
      · right
        by_contra hl
        exact hc ⟨List.length_pos_iff.2 hl, hs⟩
      · exact Or.inl hs

/-- The search once a level has been chosen. -/
theorem levels_some {span : Int → Nat → Int} {g : SuperOb} {P : BuddyParams} {c : Cell} {stdev : Rat}
    {l : List (List Int)} {n : Nat} {r : Rat × Rat} {r' : Option (Rat × Rat)}
    (h : (l.zipIdx n).foldlM (levelStep span g P c stdev) (some r) = .ok r') : r' = some r := by
  induction l generalizing n with
  | nil =>
    simp only [List.zipIdx_nil, List.foldlM_nil, except_pure, Except.ok.injEq] at h
    exact h.symm
  | cons a l ih =>
    rw [List.zipIdx_cons, List.foldlM_cons] at h
    cases h1 : levelStep span g P c stdev (some r) (a, n) with
    | error e => rw [h1] at h; simp at h
    | ok st =>
      rw [h1, except_bind_ok] at h
      obtain ⟨_, _, _, _, _, _, h2⟩ := levelStep_spec h1
      rcases h2 with ⟨h2, -⟩ | ⟨h2, -⟩
      · subst h2
        exact ih h
      · simp at h2

/-- The search from a level on. -/
theorem levels_spec {span : Int → Nat → Int} {g : SuperOb} {P : BuddyParams} {c : Cell} {stdev : Rat}
    {l pre : List (List Int)} (hP : P.limits = pre ++ l) {r : Option (Rat × Rat)}
    (h0 : ∀ i < pre.length, Level span g P.limits c i [])
    (h : (l.zipIdx pre.length).foldlM (levelStep span g P c stdev) none = .ok r) :
    IsLimits span g stdev P c (r.getD (0, 500)).1 (r.getD (0, 500)).2 := by
  induction l generalizing pre with
  | nil =>
    simp only [List.zipIdx_nil, List.foldlM_nil, except_pure, Except.ok.injEq] at h
    subst h
    right
    refine ⟨fun i hi => h0 i ?_, rfl, rfl⟩
    rw [hP] at hi
    simpa using hi
  | cons a l ih =>
    rw [List.zipIdx_cons, List.foldlM_cons] at h
    cases h1 : levelStep span g P c stdev none (a, pre.length) with
    | error e => rw [h1] at h; simp at h
    | ok st =>
      rw [h1, except_bind_ok] at h
      obtain ⟨rx, ry, rp, nb, e1, e2, h2⟩ := levelStep_spec h1
      have hlev : Level span g P.limits c pre.length nb := by
        refine ⟨rx, ry, rp, ?_, e2⟩
        rw [hP, List.getElem?_append_right le_rfl, Nat.sub_self, List.getElem?_cons_zero, e1]
      rcases h2 with ⟨h2, h3⟩ | ⟨-, h3, m, s, t, v, k, h4, h5, h6, h7, h8, h9, h10⟩
      · subst h2
        have hnb : nb = [] := h3.resolve_left (by simp)
        subst hnb
        refine ih (pre := pre ++ [a]) (by rw [hP]; simp) ?_ (by rw [List.length_append]; exact h)
        intro i hi
        rw [List.length_append, List.length_singleton] at hi
        rcases Nat.lt_succ_iff_lt_or_eq.1 hi with hi | rfl
        · exact h0 i hi
        · exact hlev
      · subst h4
        have := levels_some h
        subst this
        left
        exact ⟨pre.length, nb, t, v, k, h0, hlev, h3, h5, h6, h7, h8, h9, h10⟩

/-- C55. The limits of a cell, when they are found, are those of the first level of the search that finds any
neighbours: their mean, and the deviation of the cell times the multiplier that belongs to their number of
observations.  With no neighbours at any level they are 0 and 500. -/
theorem C55_limits (span : Int → Nat → Int) (g : SuperOb) (field : StdevField) (P : BuddyParams) (c : Cell)
    (hp : c.2.2 < 73) (r : Rat × Rat) (h : cellLimits span g field P c = .ok r) :
    ∃ stdev, IsDeviation field c stdev ∧ IsLimits span g stdev P c r.1 r.2 := by
  unfold cellLimits at h
  cases h1 : stdevAt field c with
  | error e => rw [h1] at h; simp at h
  | ok stdev =>
    rw [h1, except_bind_ok] at h
    cases h2 : P.limits.zipIdx.foldlM (levelStep span g P c stdev) none with
    | error e => rw [h2] at h; simp at h
    | ok r' =>
      rw [h2, except_bind_ok, except_pure, Except.ok.injEq] at h
      subst h
      exact ⟨stdev, (stdevAt_ok field c hp stdev).1 h1, levels_spec (pre := []) rfl (by simp) h2⟩

theorem levelStep_ok {span : Int → Nat → Int} {g : SuperOb} {P : BuddyParams} {c : Cell} {stdev : Rat}
    (st : Option (Rat × Rat)) {rad : List Int} {j : Nat} (hr : rad.length = 3)
    (ht : ∃ t v, P.thresholds[j]? = some t ∧ P.multipliers[j]? = some v ∧ Usable t v) :
    ∃ st', levelStep span g P c stdev st (rad, j) = .ok st' := by
  obtain ⟨rx, ry, rp, rfl⟩ : ∃ rx ry rp, rad = [rx, ry, rp] := List.length_eq_three.1 hr
  obtain ⟨l, e1, e2⟩ := neighbours_spec span g rx ry rp c
  obtain ⟨t, v, t1, t2, t3⟩ := ht
  unfold levelStep
  simp only [e2, except_bind_ok]
  split
  · rename_i hc
    have hl : l ≠ [] := by
      rintro rfl
      simp at hc
    have hpos := sum_nobs_pos (neighbours_nobs e1) hl
    obtain ⟨k, hk⟩ := exists_multiplier (total := ((l.map g.nobs).sum : Nat)) t3 (by exact_mod_cast hpos)
    rw [pyIndex_eq_ok t1, pyIndex_eq_ok t2, except_bind_ok, except_bind_ok,
      (C55_multiplier ..).2 ⟨t3, Or.inr ⟨by exact_mod_cast hpos, hk⟩⟩, except_bind_ok]
    exact ⟨_, rfl⟩
  · exact ⟨_, rfl⟩

theorem levels_ok {span : Int → Nat → Int} {g : SuperOb} {P : BuddyParams} {c : Cell} {stdev : Rat}
    {l : List (List Int)} {n : Nat} (st : Option (Rat × Rat)) (hr : ∀ r ∈ l, r.length = 3)
    (ht : ∀ j < l.length, ∃ t v, P.thresholds[n + j]? = some t ∧ P.multipliers[n + j]? = some v ∧ Usable t v) :
    ∃ r, (l.zipIdx n).foldlM (levelStep span g P c stdev) st = .ok r := by
  induction l generalizing n st with
  | nil => exact ⟨_, rfl⟩
  | cons a l ih =>
    rw [List.zipIdx_cons, List.foldlM_cons]
    obtain ⟨st', h⟩ := levelStep_ok (span := span) (g := g) (P := P) (c := c) (stdev := stdev) st (rad := a) (j := n)
      (hr a (List.mem_cons_self ..)) (ht 0 (by simp))
    rw [h, except_bind_ok]
    refine ih st' (fun r h => hr r (List.mem_cons_of_mem _ h)) fun j hj => ?_
    rw [Nat.add_right_comm]
    exact ht (j + 1) (by simpa using hj)

/-- The parameters are usable: each level has three radii and usable tables. -/
def Spec.UsableParams (P : BuddyParams) : Prop :=
  (∀ r ∈ P.limits, r.length = 3) ∧ ∀ j < P.limits.length, ∃ t v, P.thresholds[j]? = some t
    ∧ P.multipliers[j]? = some v ∧ Usable t v

/-- C55: with usable parameters and a field that has a value or none in the cell, the limits are found. -/
theorem C55_completes (span : Int → Nat → Int) (g : SuperOb) (field : StdevField) (P : BuddyParams) (c : Cell)
    (hp : c.2.2 < 73) (hP : UsableParams P) (s : Rat) (hs : IsDeviation field c s) :
    ∃ r, cellLimits span g field P c = .ok r := by
  unfold cellLimits
  rw [(stdevAt_ok field c hp s).2 hs, except_bind_ok]
  obtain ⟨r, hr⟩ := levels_ok (span := span) (g := g) (P := P) (c := c) (stdev := s) (n := 0) none hP.1
    (by simpa using hP.2)
  rw [hr, except_bind_ok]
  exact ⟨_, rfl⟩

end MarineQC
