import Verif.Voyage.Values
import Mathlib.Logic.Function.Basic

/-!
# The elimination loop of the iQuam track check and the spike check
-/

namespace MarineQC

namespace Spec

/-- How many of the positions below `n` that have not been removed conflict with `i`. -/
def conflicts (n : Nat) (V : Nat → Nat → Prop) [DecidableRel V] (removed : List Nat) (i : Nat) : Nat :=
  ((List.range n).filter fun j => decide (V i j ∧ j ∉ removed)).length

/-- The positions removed so far (in order) when at each step the position with the most conflicts among
those left is removed, the first of them if there are several, provided it has a conflict. -/
inductive Removal (n : Nat) (V : Nat → Nat → Prop) [DecidableRel V] : List Nat → Prop
  | start : Removal n V []
  | next {l : List Nat} {m : Nat} : Removal n V l → m < n → m ∉ l → 0 < conflicts n V l m →
      (∀ i, i < n → i ∉ l → conflicts n V l i ≤ conflicts n V l m) →
      (∀ i, i < m → i ∉ l → conflicts n V l i < conflicts n V l m) → Removal n V (l ++ [m])

/-- A removal that has ended: no conflict is left. -/
def Finished (n : Nat) (V : Nat → Nat → Prop) [DecidableRel V] (l : List Nat) : Prop :=
  Removal n V l ∧ ∀ i, i < n → i ∉ l → conflicts n V l i = 0

end Spec

open Spec

/-! ## Facts about removals -/

theorem removal_lt {n : Nat} {V : Nat → Nat → Prop} [DecidableRel V] {l : List Nat} (h : Removal n V l) :
    l.Nodup ∧ ∀ i ∈ l, i < n := by
  induction h with
  | start => simp
  | next _ h1 h2 _ _ _ ih =>
    refine ⟨?_, ?_⟩
    · rw [List.nodup_append]
      refine ⟨ih.1, by simp, ?_⟩
      intro a ha b hb
      rw [List.mem_singleton] at hb
      subst hb
      rintro rfl
      exact h2 ha
    · intro i hi
      rw [List.mem_append, List.mem_singleton] at hi
      rcases hi with hi | rfl
      · exact ih.2 i hi
      · exact h1

theorem removal_conflict {n : Nat} {V : Nat → Nat → Prop} [DecidableRel V] {l : List Nat}
    (h : Removal n V l) : ∀ i ∈ l, ∃ j, j < n ∧ V i j := by
  induction h with
  | start => simp
  | next _ h1 h2 h3 _ _ ih =>
    intro i hi
    rw [List.mem_append, List.mem_singleton] at hi
    rcases hi with hi | rfl
    · exact ih i hi
    · obtain ⟨j, hj⟩ := List.exists_mem_of_length_pos h3
      rw [List.mem_filter, List.mem_range, decide_eq_true_eq] at hj
      exact ⟨j, hj.1, hj.2.1⟩

theorem finished_free {n : Nat} {V : Nat → Nat → Prop} [DecidableRel V] {l : List Nat}
    (h : Finished n V l) {i j : Nat} (hi : i < n) (hj : j < n) (hil : i ∉ l) (hjl : j ∉ l) : ¬ V i j := by
  intro hv
  have := h.2 i hi hil
  unfold conflicts at this
  rw [List.length_eq_zero_iff, List.filter_eq_nil_iff] at this
  exact this j (List.mem_range.2 hj) (by simp [hv, hjl])

/-- A removal that has ended is unique. -/
theorem finished_unique {n : Nat} {V : Nat → Nat → Prop} [DecidableRel V] {l l' : List Nat}
    (h : Finished n V l) (h' : Finished n V l') : l = l' := by
  have step : ∀ {k : List Nat} {m m' : Nat}, m < n → m ∉ k →
      (∀ i, i < n → i ∉ k → conflicts n V k i ≤ conflicts n V k m) →
      (∀ i, i < m → i ∉ k → conflicts n V k i < conflicts n V k m) → m' < n → m' ∉ k →
      (∀ i, i < n → i ∉ k → conflicts n V k i ≤ conflicts n V k m') →
      (∀ i, i < m' → i ∉ k → conflicts n V k i < conflicts n V k m') → m = m' := by
    intro k m m' a1 a2 a3 a4 b1 b2 b3 b4
    rcases Nat.lt_trichotomy m m' with h | h | h
    · have := b4 m h a2; have := a3 m' b1 b2; omega
    · exact h
    · have := a4 m' h b2; have := b3 m a1 a2; omega
  have pre : ∀ {a b : List Nat}, Removal n V a → Removal n V b → a.length ≤ b.length → a <+: b := by
    intro a b ha hb
    induction hb generalizing a with
    | start =>
      intro hl
      have : a = [] := List.length_eq_zero_iff.1 (by simpa using hl)
      rw [this]
    | next hb b1 b2 b3 b4 b5 ih =>
      rename_i k m
      intro hl
      rw [List.length_append, List.length_singleton] at hl
      by_cases hlk : a.length ≤ k.length
      · exact (ih ha hlk).trans (List.prefix_append _ _)
      · cases ha with
        | start => simp at hlk
        | next ha a1 a2 a3 a4 a5 =>
          rename_i k' m'
          rw [List.length_append, List.length_singleton] at hl hlk
          have e : k' = k := (ih ha (by omega)).eq_of_length (by omega)
          subst e
          rw [step a1 a2 a4 a5 b1 b2 b4 b5]
  have main : ∀ {a b : List Nat}, Finished n V a → Finished n V b → a.length ≤ b.length → a = b := by
    intro a b ha hb hl
    obtain ⟨t, rfl⟩ := pre ha.1 hb.1 hl
    by_contra hne
    have ht : t ≠ [] := by rintro rfl; simp at hne
    have key : ∀ {c : List Nat}, Removal n V c → ∀ t : List Nat, t ≠ [] → c = a ++ t →
        ∃ m, m < n ∧ m ∉ a ∧ 0 < conflicts n V a m := by
      intro c hc
      induction hc with
      | start => intro t ht e; simp at e; exact absurd e.2 ht
      | @next k m hc c1 c2 c3 _ _ ih =>
        intro t ht e
        rcases List.eq_nil_or_concat t with rfl | ⟨t', x, rfl⟩
        · exact absurd rfl ht
        · rw [List.concat_eq_append, ← List.append_assoc] at e
          obtain ⟨e1, e2⟩ := List.append_inj' e rfl
          by_cases ht' : t' = []
          · subst ht'
            rw [List.append_nil] at e1
            subst e1
            exact ⟨m, c1, c2, c3⟩
          · exact ih t' ht' e1
    obtain ⟨m, m1, m2, m3⟩ := key hb.1 t ht rfl
    have := ha.2 m m1 m2
    omega
  rcases Nat.le_total l.length l'.length with hl | hl
  · exact main h h' hl
  · exact (main h' h hl).symm

/-! ## `argmax` -/

theorem exists_max (l : List Int) (h : l ≠ []) : ∃ x ∈ l, ∀ y ∈ l, y ≤ x := by
  induction l with
  | nil => exact absurd rfl h
  | cons a l ih =>
    by_cases h0 : l = []
    · subst h0; exact ⟨a, by simp, by simp⟩
    · obtain ⟨x, h1, h2⟩ := ih h0
      by_cases hx : a ≤ x
      · refine ⟨x, by simp [h1], fun y hy => ?_⟩
        rcases List.mem_cons.1 hy with rfl | hy
        · exact hx
        · exact h2 y hy
      · refine ⟨a, by simp, fun y hy => ?_⟩
        rcases List.mem_cons.1 hy with rfl | hy
        · exact le_refl _
        · have := h2 y hy; omega

theorem argmax_spec (n : Nat) (f : Nat → Int) (hn : 0 < n) :
    argmax ((List.range n).map f) < n ∧ (∀ i, i < n → f i ≤ f (argmax ((List.range n).map f)))
      ∧ ∀ i, i < argmax ((List.range n).map f) → f i < f (argmax ((List.range n).map f)) := by
  set l := (List.range n).map f with hl
  have hlen : l.length = n := by rw [hl]; simp
  have hne : l ≠ [] := by intro h; rw [h] at hlen; simp at hlen; omega
  obtain ⟨x, hx, hmax⟩ := exists_max l hne
  have hlt : argmax l < l.length := by
    unfold argmax
    apply List.findIdx_lt_length_of_exists
    refine ⟨x, hx, ?_⟩
    rw [List.all_eq_true]
    intro y hy
    simpa using hmax y hy
  have hget : ∀ i (h : i < l.length), l[i] = f i := by
    intro i h; simp [hl]
  have hall : ∀ i, i < n → f i ≤ f (argmax l) := by
    have := List.findIdx_getElem (w := hlt)
    rw [List.all_eq_true] at this
    intro i hi
    have h2 := this (f i) (by rw [hl, List.mem_map]; exact ⟨i, List.mem_range.2 hi, rfl⟩)
    rw [decide_eq_true_eq] at h2
    rw [← hget _ hlt]
    exact h2
  refine ⟨by omega, hall, fun i hi => ?_⟩
  have := List.not_of_lt_findIdx hi
  rw [List.all_eq_false] at this
  obtain ⟨y, hy, hy2⟩ := this
  rw [hl, List.mem_map] at hy
  obtain ⟨j, hj, rfl⟩ := hy
  have h3 := hall j (List.mem_range.1 hj)
  rw [hget] at hy2
  simp only [decide_eq_true_eq, not_le] at hy2
  omega

/-! ## One round -/

theorem map_range_set {α : Type} (n : Nat) (f : Nat → α) (i : Nat) (x : α) :
    ((List.range n).map f).set i x = (List.range n).map (Function.update f i x) := by
  apply List.ext_getElem?
  intro j
  rw [List.getElem?_set]
  by_cases hij : i = j
  · subst hij
    by_cases hi : i < n
    · simp [hi]
    · simp [hi]
  · rw [if_neg hij, List.getElem?_map, List.getElem?_map]
    by_cases hj : j < n
    · simp [hj, Function.update_of_ne (Ne.symm hij)]
    · simp [hj]

theorem pyIndex_range {α : Type} (n : Nat) (f : Nat → α) (i : Nat) (h : i < n) :
    pyIndex ((List.range n).map f) (i : Int) = .ok (f i) := by
  rw [pyIndex_of_nat _ _ (by simpa using h)]
  simp

/-- A state given by functions of the position. -/
def elimOf (n : Nat) (vf : Nat → List Nat) (cf ff : Nat → Int) : Elim :=
  ⟨(List.range n).map vf, (List.range n).map cf, (List.range n).map ff⟩

theorem elimDrop_eq (n m : Nat) (vf : Nat → List Nat) (cf ff : Nat → Int) (i : Nat) (hi : i < n) :
    elimDrop m (elimOf n vf cf ff) i
      = .ok (elimOf n (Function.update vf i ((vf i).erase m))
          (Function.update cf i (if m ∈ vf i then cf i - 1 else cf i)) ff) := by
  unfold elimDrop elimOf
  simp only [pyIndex_range n vf i hi, except_bind_ok]
  by_cases hm : m ∈ vf i
  · simp only [hm, if_true, pyIndex_range n cf i hi, except_bind_ok, map_range_set, except_pure]
  · simp only [hm, if_false, List.erase_of_not_mem hm, Function.update_eq_self, except_pure]

theorem elimDrop_fold (n m : Nat) (l : List Nat) (hn : l.Nodup) (hl : ∀ i ∈ l, i < n)
    (vf : Nat → List Nat) (cf ff : Nat → Int) :
    l.foldlM (elimDrop m) (elimOf n vf cf ff)
      = .ok (elimOf n (fun i => if i ∈ l then (vf i).erase m else vf i)
          (fun i => if i ∈ l ∧ m ∈ vf i then cf i - 1 else cf i) ff) := by
  induction l generalizing vf cf with
  | nil => simp [except_pure]
  | cons a l ih =>
    rw [List.nodup_cons] at hn
    rw [List.foldlM_cons, elimDrop_eq n m vf cf ff a (hl a (by simp)), except_bind_ok,
      ih hn.2 (fun i hi => hl i (by simp [hi]))]
    congr 2
    · funext i
      by_cases hia : i = a
      · subst hia; simp [hn.1]
      · simp [hia]
    · funext i
      by_cases hia : i = a
      · subst hia; simp [hn.1]
      · simp [hia]

/-- What the state looks like when the positions in `P` have been removed. -/
structure ElimInv (n : Nat) (V : Nat → Nat → Prop) [DecidableRel V] (P : List Nat) (vf : Nat → List Nat)
    (cf ff : Nat → Int) : Prop where
  left : ∀ i, i < n → i ∉ P → vf i = (List.range n).filter (fun j => decide (V i j ∧ j ∉ P))
  count : ∀ i, i < n → i ∉ P → cf i = conflicts n V P i
  gone : ∀ i, i < n → i ∈ P → cf i = 0
  flag : ∀ i, i < n → ff i = if i ∈ P then 1 else 0

theorem sum_le_zero (l : List Int) (h : ∀ x ∈ l, x ≤ 0) : l.sum ≤ 0 := by
  induction l with
  | nil => simp
  | cons a l ih =>
    rw [List.sum_cons]
    have := h a (by simp)
    have := ih fun x hx => h x (by simp [hx])
    omega

theorem filter_erase {n : Nat} {p : Nat → Prop} [DecidablePred p] {m : Nat} :
    ((List.range n).filter fun j => decide (p j)).erase m
      = (List.range n).filter fun j => decide (p j ∧ j ≠ m) := by
  rw [List.Nodup.erase_eq_filter (List.Nodup.filter _ List.nodup_range), List.filter_filter]
  apply List.filter_congr
  intro j _
  by_cases h : j = m <;> simp [h, and_comm]

theorem elimRound_inv {n : Nat} {V : Nat → Nat → Prop} [DecidableRel V]
    (hs : ∀ i j, i < n → j < n → V i j → V j i) (hr : ∀ i, i < n → ¬ V i i) {P : List Nat}
    {vf : Nat → List Nat} {cf ff : Nat → Int} (hP : Removal n V P) (hI : ElimInv n V P vf cf ff)
    (hsum : ((List.range n).map cf).sum > 0) :
    ∃ m vf' cf' ff', elimRound (elimOf n vf cf ff) = .ok (elimOf n vf' cf' ff')
      ∧ Removal n V (P ++ [m]) ∧ ElimInv n V (P ++ [m]) vf' cf' ff' := by
  have hn : 0 < n := by
    by_contra h0
    have : n = 0 := by omega
    subst this
    simp at hsum
  obtain ⟨a1, a2, a3⟩ := argmax_spec n cf hn
  set m := argmax ((List.range n).map cf) with hm
  have hpos : 0 < cf m := by
    by_contra hc
    have : ((List.range n).map cf).sum ≤ 0 := by
      refine sum_le_zero _ fun x hx => ?_
      obtain ⟨i, hi, rfl⟩ := List.mem_map.1 hx
      have := a2 i (List.mem_range.1 hi)
      omega
    omega
  have hmP : m ∉ P := fun h => by have := hI.gone m a1 h; omega
  have hcm := hI.count m a1 hmP
  have hR : Removal n V (P ++ [m]) := by
    refine .next hP a1 hmP (by omega) (fun i hi hiP => ?_) (fun i hi hiP => ?_)
    · have h1 := a2 i hi
      have h2 := hI.count i hi hiP
      omega
    · have h1 := a3 i hi
      have h2 := hI.count i (by omega) hiP
      omega
  have hvm := hI.left m a1 hmP
  have hmem : ∀ i, i < n → i ∉ P → (i ∈ vf m ↔ V m i) := by
    intro i hi hiP
    rw [hvm, List.mem_filter, List.mem_range, decide_eq_true_eq]
    constructor
    · exact fun h => h.2.1
    · exact fun h => ⟨hi, h, hiP⟩
  refine ⟨m, fun i => if i ∈ vf m then (vf i).erase m else vf i,
    Function.update (fun i => if i ∈ vf m ∧ m ∈ vf i then cf i - 1 else cf i) m 0,
    Function.update ff m 1, ?_, hR, ?_⟩
  · unfold elimRound
    have e : ({ elimOf n vf cf ff with flags := (elimOf n vf cf ff).flags.set m 1 } : Elim)
        = elimOf n vf cf (Function.update ff m 1) := by
      unfold elimOf
      simp only [map_range_set]
    have h1 : argmax (elimOf n vf cf ff).count = m := rfl
    simp only [h1, e]
    have h2 : pyIndex (elimOf n vf cf ff).viol (m : Int) = .ok (vf m) :=
      pyIndex_range n vf m a1
    rw [h2, except_bind_ok, elimDrop_fold n m (vf m) (by rw [hvm]; exact List.Nodup.filter _ List.nodup_range)
      (by intro i hi; rw [hvm, List.mem_filter, List.mem_range] at hi; exact hi.1), except_bind_ok]
    simp only [elimOf, map_range_set, except_pure]
  · have key : ∀ i, i < n → i ∉ P ++ [m] →
        (if i ∈ vf m then (vf i).erase m else vf i)
          = (List.range n).filter (fun j => decide (V i j ∧ j ∉ P ++ [m])) := by
      intro i hi hiP
      simp only [List.mem_append, List.mem_singleton, not_or] at hiP
      have hvi := hI.left i hi hiP.1
      have e : (List.range n).filter (fun j => decide (V i j ∧ j ∉ P ++ [m]))
          = (List.range n).filter fun j => decide ((V i j ∧ j ∉ P) ∧ j ≠ m) := by
        apply List.filter_congr
        intro j _
        simp [and_assoc]
      rw [e]
      by_cases hc : i ∈ vf m
      · rw [if_pos hc, hvi, filter_erase]
      · rw [if_neg hc, hvi]
        apply List.filter_congr
        intro j hj
        rw [decide_eq_decide]
        constructor
        · rintro ⟨h1, h2⟩
          refine ⟨⟨h1, h2⟩, ?_⟩
          rintro rfl
          exact hc ((hmem i hi hiP.1).2 (hs _ _ hi (List.mem_range.1 hj) h1))
        · exact fun h => h.1
    refine ⟨key, fun i hi hiP => ?_, fun i hi hiP => ?_, fun i hi => ?_⟩
    · have hkey := key i hi hiP
      simp only [List.mem_append, List.mem_singleton, not_or] at hiP
      rw [Function.update_of_ne hiP.2]
      have hvi := hI.left i hi hiP.1
      have hci := hI.count i hi hiP.1
      have hci2 : cf i = ((vf i).length : Int) := by rw [hci, hvi]; rfl
      have hnew : (conflicts n V (P ++ [m]) i : Int)
          = ((if i ∈ vf m then (vf i).erase m else vf i).length : Int) := by rw [hkey]; rfl
      rw [hnew]
      by_cases hc : i ∈ vf m
      · have hmi : m ∈ vf i := by
          rw [hvi, List.mem_filter, List.mem_range, decide_eq_true_eq]
          exact ⟨a1, hs _ _ a1 hi ((hmem i hi hiP.1).1 hc), hmP⟩
        have hl := List.length_pos_of_mem hmi
        simp only [hc, hmi, and_self, if_true, List.length_erase_of_mem hmi]
        omega
      · simp only [hc, false_and, if_false]
        exact hci2
    · by_cases him : i = m
      · subst him; simp
      · rw [Function.update_of_ne him]
        rw [List.mem_append, List.mem_singleton] at hiP
        have hiP : i ∈ P := by tauto
        have : i ∉ vf m := by
          rw [hvm, List.mem_filter, decide_eq_true_eq]
          exact fun h => h.2.2 hiP
        simp only [this, false_and, if_false]
        exact hI.gone i hi hiP
    · by_cases him : i = m
      · subst him; simp
      · rw [Function.update_of_ne him, hI.flag i hi]
        simp [him]

theorem removal_length {n : Nat} {V : Nat → Nat → Prop} [DecidableRel V] {l : List Nat}
    (h : Removal n V l) : l.length ≤ n := by
  obtain ⟨h1, h2⟩ := removal_lt h
  have h3 := (List.subperm_of_subset h1 (l₂ := List.range n) (fun i hi => List.mem_range.2 (h2 i hi))).length_le
  simpa using h3

theorem elimLoop_inv {n : Nat} {V : Nat → Nat → Prop} [DecidableRel V]
    (hs : ∀ i j, i < n → j < n → V i j → V j i) (hr : ∀ i, i < n → ¬ V i i) (fuel : Nat) {P : List Nat}
    {vf : Nat → List Nat} {cf ff : Nat → Int} (hP : Removal n V P) (hI : ElimInv n V P vf cf ff)
    (hfuel : n ≤ fuel + P.length) :
    ∃ P' vf' cf' ff', elimLoop fuel (elimOf n vf cf ff) = .ok (elimOf n vf' cf' ff')
      ∧ Finished n V P' ∧ ElimInv n V P' vf' cf' ff' := by
  have stop : ∀ {P : List Nat} {vf : Nat → List Nat} {cf ff : Nat → Int}, Removal n V P →
      ElimInv n V P vf cf ff → ¬ ((List.range n).map cf).sum > 0 → Finished n V P := by
    intro P vf cf ff hP hI hsum
    refine ⟨hP, fun i hi hiP => ?_⟩
    have hnn : ∀ x ∈ (List.range n).map cf, 0 ≤ x := by
      intro x hx
      obtain ⟨j, hj, rfl⟩ := List.mem_map.1 hx
      have hj := List.mem_range.1 hj
      by_cases hjP : j ∈ P
      · rw [hI.gone j hj hjP]
      · rw [hI.count j hj hjP]; omega
    have hle : cf i ≤ ((List.range n).map cf).sum :=
      List.single_le_sum hnn (cf i) (List.mem_map.2 ⟨i, List.mem_range.2 hi, rfl⟩)
    have := hI.count i hi hiP
    omega
  induction fuel generalizing P vf cf ff with
  | zero =>
    by_cases hsum : ((List.range n).map cf).sum > 0
    · exfalso
      obtain ⟨m, _, _, _, -, hR, -⟩ := elimRound_inv hs hr hP hI hsum
      have := removal_length hR
      rw [List.length_append, List.length_singleton] at this
      omega
    · refine ⟨P, vf, cf, ff, ?_, stop hP hI hsum, hI⟩
      unfold elimLoop
      exact if_neg hsum
  | succ fuel ih =>
    by_cases hsum : ((List.range n).map cf).sum > 0
    · obtain ⟨m, vf1, cf1, ff1, h1, h2, h3⟩ := elimRound_inv hs hr hP hI hsum
      obtain ⟨P', vf', cf', ff', h4, h5⟩ := ih h2 h3 (by
        rw [List.length_append, List.length_singleton]; omega)
      refine ⟨P', vf', cf', ff', ?_, h5⟩
      unfold elimLoop
      have : (elimOf n vf cf ff).count.sum > 0 := hsum
      rw [if_pos this, h1, except_bind_ok]
      exact h4
    · refine ⟨P, vf, cf, ff, ?_, stop hP hI hsum, hI⟩
      unfold elimLoop
      exact if_neg hsum

/-! ## The whole elimination -/

theorem neighbours_eq (n : Nat) (nn : Int) (i : Nat) (hi : i < n) :
    neighbours n nn i = (List.range n).filter fun j : Nat => decide (|(i : Int) - (j : Int)| ≤ nn) := by
  unfold neighbours
  apply List.Perm.eq_of_pairwise (le := fun a b => a < b) (fun a b _ _ h1 h2 => by omega)
  · exact List.pairwise_lt_range'
  · exact List.Pairwise.filter _ List.pairwise_lt_range
  · rw [List.perm_ext_iff_of_nodup List.nodup_range' (List.Nodup.filter _ List.nodup_range)]
    intro j
    rw [List.mem_range'_1, List.mem_filter, List.mem_range, decide_eq_true_eq, abs_le]
    omega

theorem violators_eq {bad : Nat → Except Err Bool} {B : Nat → Prop} [DecidablePred B] (l : List Nat)
    (h : ∀ j ∈ l, bad j = .ok (decide (B j))) : violators bad l = .ok (l.filter fun j => decide (B j)) := by
  induction l with
  | nil => rfl
  | cons a l ih =>
    unfold violators
    rw [h a (by simp), except_bind_ok, ih (fun j hj => h j (by simp [hj])), except_bind_ok]
    by_cases hb : B a <;> simp [hb, except_pure]

theorem set_all (n : Nat) (fl : List Int) (h : fl.length = n) (x : Int) :
    (List.range n).foldl (fun fl t1 => fl.set t1 x) fl = (List.range n).map fun _ => x := by
  apply List.ext_getElem?
  intro j
  by_cases hj : j < n
  · rw [foldl_set_get _ _ _ _ (by omega), if_pos (List.mem_range.2 hj)]
    simp [hj]
  · rw [List.getElem?_eq_none (by rw [foldl_set_length]; omega), List.getElem?_eq_none (by simp; omega)]

/-- The elimination for a symmetric test: it ends, and flags exactly the positions that are removed when
conflicts between positions at most `nn` apart are resolved by removing the position with the most. -/
theorem eliminate_spec (n : Nat) (nn : Int) (bad : Nat → Nat → Except Err Bool) (B : Nat → Nat → Prop)
    [DecidableRel B] (hbad : ∀ i j, i < n → j < n → bad i j = .ok (decide (B i j)))
    (hs : ∀ i j, i < n → j < n → B i j → B j i) (hr : ∀ i, i < n → ¬ B i i) (fl : List Int)
    (hfl : fl.length = n) :
    ∃ P fl', eliminate n nn bad fl = .ok fl' ∧ fl'.length = n
      ∧ Finished n (fun i j => |(i : Int) - (j : Int)| ≤ nn ∧ B i j) P
      ∧ ∀ i, i < n → fl'[i]? = some (if i ∈ P then 1 else 0) := by
  set V : Nat → Nat → Prop := fun i j => |(i : Int) - (j : Int)| ≤ nn ∧ B i j with hV
  have hviol : ((List.range n).mapM fun t1 => violators (bad t1) (neighbours n nn t1))
      = .ok ((List.range n).map fun i => (List.range n).filter fun j => decide (V i j)) := by
    refine mapM_ok _ _ _ ?_
    intro i hi
    have hi := List.mem_range.1 hi
    rw [neighbours_eq n nn i hi, violators_eq (B := B i)]
    · rw [List.filter_filter]
      congr 1
      apply List.filter_congr
      intro j _
      simp [hV, and_comm]
    · intro j hj
      rw [List.mem_filter, List.mem_range] at hj
      exact hbad i j hi hj.1
  have hI : ElimInv n V [] (fun i => (List.range n).filter fun j => decide (V i j))
      (fun i => (((List.range n).filter fun j => decide (V i j)).length : Int)) (fun _ => 0) := by
    refine ⟨?_, ?_, ?_, ?_⟩
    · intro i _ _; simp
    · intro i _ _; unfold conflicts; simp
    · intro i _ h; simp at h
    · intro i _; simp
  obtain ⟨P, vf, cf, ff, h1, h2, h3⟩ := elimLoop_inv (V := V)
    (fun i j hi hj h => ⟨by rw [abs_sub_comm]; exact h.1, hs i j hi hj h.2⟩)
    (fun i hi h => hr i hi h.2) n .start hI (by simp)
  refine ⟨P, (List.range n).map ff, ?_, by simp, h2, fun i hi => ?_⟩
  · unfold eliminate
    rw [hviol, except_bind_ok, set_all n fl hfl]
    simp only [List.map_map]
    have e : (⟨(List.range n).map fun i => (List.range n).filter fun j => decide (V i j),
        (List.range n).map ((fun l : List Nat => (l.length : Int)) ∘ fun i =>
          (List.range n).filter fun j => decide (V i j)), (List.range n).map fun _ => 0⟩ : Elim)
        = elimOf n (fun i => (List.range n).filter fun j => decide (V i j))
          (fun i => (((List.range n).filter fun j => decide (V i j)).length : Int)) (fun _ => 0) := rfl
    rw [e, h1, except_bind_ok]
    rfl
  · simp [hi, h3.flag i hi]

end MarineQC
