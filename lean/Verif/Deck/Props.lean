import Verif.Deck.Model
import Verif.Deck.Spec
import Mathlib.Data.List.Induction
import Mathlib.Data.List.Perm.Basic
import Mathlib.Data.List.Nodup

/-!
# C37-C39: the QC filter, platforms of a deck, the climatology library
-/

namespace MarineQC

open Spec

/-! ## Dictionaries -/

theorem dictGet_set {κ υ : Type} [DecidableEq κ] (t : List (κ × υ)) (k k' : κ) (v : υ) :
    dictGet (dictSet t k v) k' = if k' = k then some v else dictGet t k' := by
  induction t with
  | nil =>
    by_cases h : k' = k
    · simp [dictSet, dictGet, h]
    · have h2 : ¬ k = k' := fun h2 => h h2.symm
      simp [dictSet, dictGet, h, h2]
  | cons a t ih =>
    obtain ⟨a, b⟩ := a
    unfold dictSet
    by_cases h : a = k
    · subst h
      simp only [if_true, dictGet]
      by_cases h2 : a = k'
      · simp [h2]
      · have h3 : ¬ k' = a := fun h3 => h2 h3.symm
        simp [h2, h3]
    · simp only [h, if_false, dictGet, ih]
      by_cases h2 : a = k'
      · subst h2; simp [h]
      · simp [h2]

/-! ## C39 -/

theorem getField_add {φ : Type} (c : ClimLib φ) (v s v' s' : String) (f : φ) :
    (c.addField v s f).getField v' s'
      = if v' = v ∧ s' = s then .ok f else c.getField v' s' := by
  unfold ClimLib.addField ClimLib.getField MultiClim.addStatistic MultiClim.getStatistic
  by_cases hv : v' = v
  · subst hv
    cases h : dictGet c v' with
    | none =>
      simp only [dictGet_set, if_true]
      by_cases hs : s' = s <;> simp [hs, dictGet]
    | some m =>
      simp only [dictGet_set, if_true]
      by_cases hs : s' = s <;> simp [hs]
  · cases h : dictGet c v <;> simp [dictGet_set, hv]

/-- C39. After any sequence of additions to an empty library, `get_field` gives the field most recently
added under the same variable and statistic, and raises when there is none. -/
theorem C39_get_field {φ : Type} (ws : List (FieldWrite φ)) (v s : String) :
    (ws.foldl (fun c w => ClimLib.addField c w.var w.stat w.field) []).getField v s
      = match lastField ws v s with
        | some f => .ok f
        | none => .error .assertion := by
  induction ws using List.reverseRecOn with
  | nil => rfl
  | append_singleton ws w ih =>
    rw [List.foldl_append, List.foldl_cons, List.foldl_nil, getField_add, ih]
    unfold lastField
    rw [List.filter_append, List.filter_cons, List.filter_nil]
    by_cases h : w.var = v ∧ w.stat = s
    · obtain ⟨rfl, rfl⟩ := h
      simp
    · have h' : ¬ (v = w.var ∧ s = w.stat) := fun h2 => h ⟨h2.1.symm, h2.2.symm⟩
      simp [h, h']

/-- C39. Adding a field changes no field under another variable or statistic. -/
theorem C39_add_other {φ : Type} (c : ClimLib φ) (v s v' s' : String) (f : φ)
    (h : v' ≠ v ∨ s' ≠ s) : (c.addField v s f).getField v' s' = c.getField v' s' := by
  rw [getField_add, if_neg (by tauto)]

/-- Non-vacuity: two statistics of one variable, one of them added twice. -/
example : let c : ClimLib Nat := ClimLib.addField (ClimLib.addField (ClimLib.addField [] "SST" "mean" 1)
      "SST" "stdev" 2) "SST" "mean" 3
    c.getField "SST" "mean" = .ok 3 ∧ c.getField "SST" "stdev" = .ok 2
      ∧ c.getField "AT" "mean" = .error .assertion ∧ c.getField "SST" "max" = .error .assertion := by
  decide

/-! ## C37 -/

theorem testReport_eq (q : QcFilter) (r : Report) :
    q.testReport r = if Passes q r then 0 else 1 := by
  unfold QcFilter.testReport
  induction q using List.reverseRecOn with
  | nil => simp [Passes]
  | append_singleton q a ih =>
    obtain ⟨t, f, v⟩ := a
    rw [List.foldl_append, List.foldl_cons, List.foldl_nil, ih]
    have hP : Passes (q ++ [(t, f, v)]) r ↔ Passes q r ∧ r.getQc t f = v := by
      constructor
      · intro h
        exact ⟨fun t' f' v' hm => h t' f' v' (by simp [hm]), h t f v (by simp)⟩
      · rintro ⟨h1, h2⟩ t' f' v' hm
        simp only [List.mem_append, List.mem_singleton, Prod.mk.injEq] at hm
        rcases hm with hm | ⟨rfl, rfl, rfl⟩
        · exact h1 _ _ _ hm
        · exact h2
    by_cases h1 : Passes q r <;> by_cases h2 : r.getQc t f = v <;> simp [hP, h1, h2]

/-- C37. The filter's verdict is 0 exactly when every configured flag has its configured value, else 1. -/
theorem C37_test_report (q : QcFilter) (r : Report) :
    (q.testReport r = 0 ↔ ∀ t f v, (t, f, v) ∈ q → r.getQc t f = v)
      ∧ (q.testReport r = 1 ↔ ∃ t f v, (t, f, v) ∈ q ∧ r.getQc t f ≠ v) := by
  rw [testReport_eq]
  by_cases h : Passes q r
  · refine ⟨iff_of_true (if_pos h) h, ?_⟩
    simp only [h, if_true]
    constructor
    · intro h; simp at h
    · rintro ⟨t, f, v, hm, hv⟩; exact absurd (h t f v hm) hv
  · refine ⟨iff_of_false (by simp [h]) h, ?_⟩
    simp only [h, if_false, true_iff]
    unfold Passes at h
    push Not at h
    exact h

/-- C37. Adding a test to a filter narrows it by exactly that test. -/
theorem C37_add (q : QcFilter) (t f : String) (v : Int) (r : Report) :
    (q.add t f v).testReport r = 0 ↔ q.testReport r = 0 ∧ r.getQc t f = v := by
  rw [(C37_test_report _ r).1, (C37_test_report q r).1]
  unfold QcFilter.add
  constructor
  · intro h
    exact ⟨fun t' f' v' hm => h t' f' v' (by simp [hm]), h t f v (by simp)⟩
  · rintro ⟨h1, h2⟩ t' f' v' hm
    simp only [List.mem_append, List.mem_singleton, Prod.mk.injEq] at hm
    rcases hm with hm | ⟨rfl, rfl, rfl⟩
    · exact h1 _ _ _ hm
    · exact h2

/-- The deck got by appending reports one by one. -/
def Deck.ofReports (d : Deck) (l : List Report) : Deck := l.foldl Deck.append d

theorem ofReports_reps (d : Deck) (l : List Report) : (d.ofReports l).reps = d.reps ++ l := by
  unfold Deck.ofReports
  induction l generalizing d with
  | nil => simp
  | cons a l ih => rw [List.foldl_cons, ih]; simp [Deck.append]

theorem ofReports_filter (d : Deck) (l : List Report) : (d.ofReports l).filter = d.filter := by
  unfold Deck.ofReports
  induction l generalizing d with
  | nil => rfl
  | cons a l ih => rw [List.foldl_cons, ih]; rfl

theorem splitLoop_eq (q : QcFilter) (n : Nat) (d p f : Deck) (h : n = d.reps.length) :
    q.splitLoop n d p f = .ok (p.ofReports (d.reps.filter fun r => decide (Passes q r)),
      f.ofReports (d.reps.filter fun r => decide (¬ Passes q r)), { d with reps := [] }) := by
  induction n generalizing d p f with
  | zero =>
    have : d.reps = [] := List.eq_nil_of_length_eq_zero h.symm
    obtain ⟨r, i, fl⟩ := d
    subst this
    rfl
  | succ n ih =>
    obtain ⟨rs, i, fl⟩ := d
    cases rs with
    | nil => simp at h
    | cons r rs =>
      have hpop : Deck.pop ⟨r :: rs, i, fl⟩ 0 = .ok (r, ⟨rs, i, fl⟩) := by
        simp [Deck.pop, pyIndex]
      rw [QcFilter.splitLoop, hpop, except_bind_ok]
      have hl : n = rs.length := by simpa using h
      simp only [testReport_eq]
      by_cases hp : Passes q r
      · simp [hp, ih ⟨rs, i, fl⟩ _ _ hl, Deck.ofReports]
      · simp [hp, ih ⟨rs, i, fl⟩ _ _ hl, Deck.ofReports]

/-- C37. `split_reports` never raises.  The passes are exactly the reports that pass, the fails the others,
both in the original order; together they hold every report exactly once; the deck passed in is emptied. -/
theorem C37_split (q : QcFilter) (d : Deck) :
    ∃ p f rest, q.split d = .ok (p, f, rest)
      ∧ p.reps = d.reps.filter (fun r => decide (Passes q r))
      ∧ f.reps = d.reps.filter (fun r => decide (¬ Passes q r))
      ∧ (p.reps ++ f.reps).Perm d.reps ∧ rest.reps = [] := by
  refine ⟨_, _, _, splitLoop_eq q _ d _ _ rfl, ?_, ?_, ?_, rfl⟩
  · rw [ofReports_reps]; simp [Deck.empty]
  · rw [ofReports_reps]; simp [Deck.empty]
  · rw [ofReports_reps, ofReports_reps]
    have := List.filter_append_perm (fun r => decide (Passes q r)) d.reps
    simpa [Deck.empty] using this

/-- A report with an ID and some flags, for examples. -/
def flagged (i : String) (fs : List (String × Int)) : Report :=
  { Report.empty (some i) none with qc := fun k => dictGet fs k }

/-- Non-vacuity: a filter with two tests tells three reports apart. -/
example : let q := QcFilter.add (QcFilter.add [] "POS" "date" 0) "SST" "noval" 0
    q.testReport (flagged "A" [("POSdate", 0), ("SSTnoval", 0)]) = 0
      ∧ q.testReport (flagged "A" [("POSdate", 1), ("SSTnoval", 0)]) = 1
      ∧ q.testReport (flagged "A" [("SSTnoval", 0)]) = 1 := by
  decide

/-! ## C38 -/

/-- What can be done to a deck before its platforms are extracted: append a report, set a filter, set a flag
on all reports, or set a flag on the report at one position (as the report-level and voyage-level checks
do). -/
inductive DeckOp where
  | append (r : Report)
  | addFilter (q : QcFilter)
  | setQc (t f : String) (v : Int)
  | setOne (i : Nat) (t f : String) (v : Int)

/-- The effect of one operation. -/
def Deck.op (d : Deck) : DeckOp → Except Err Deck
  | .append r => .ok (d.append r)
  | .addFilter q => .ok (d.addFilter q)
  | .setQc t f v => d.setQc t f v
  | .setOne i t f v => do
    let r ← pyIndex d.reps i
    let r ← r.setQc t f v
    return { d with reps := d.reps.set i r }

/-- The index a deck should have: one entry for each ID, with the positions of its reports. -/
def Deck.Indexed (d : Deck) : Prop :=
  (d.idtracker.map (·.1)).Nodup
    ∧ (∀ i, i ∈ d.idtracker.map (·.1) ↔ ∃ r ∈ d.reps, r.id = i)
    ∧ ∀ e ∈ d.idtracker, e.2 = (d.reps.zipIdx.filter fun p => decide (p.1.id = e.1)).map (·.2)

theorem dictSet_keys {κ υ : Type} [DecidableEq κ] (t : List (κ × υ)) (k : κ) (v : υ) :
    (dictSet t k v).map (·.1) = if k ∈ t.map (·.1) then t.map (·.1) else t.map (·.1) ++ [k] := by
  induction t with
  | nil => simp [dictSet]
  | cons a t ih =>
    obtain ⟨a, b⟩ := a
    unfold dictSet
    by_cases h : a = k
    · subst h; simp
    · have h' : ¬ k = a := fun h2 => h h2.symm
      simp only [h, if_false, List.map_cons, ih, List.mem_cons, h', false_or]
      split <;> simp_all

theorem mem_dictSet {κ υ : Type} [DecidableEq κ] {t : List (κ × υ)} {k : κ} {v : υ}
    (hn : (t.map (·.1)).Nodup) {e : κ × υ} (h : e ∈ dictSet t k v) :
    e = (k, v) ∨ (e ∈ t ∧ e.1 ≠ k) := by
  induction t with
  | nil => simpa [dictSet] using h
  | cons a t ih =>
    obtain ⟨a, b⟩ := a
    rw [List.map_cons, List.nodup_cons] at hn
    unfold dictSet at h
    by_cases hk : a = k
    · subst hk
      simp only [if_true, List.mem_cons] at h
      rcases h with h | h
      · exact Or.inl h
      · refine Or.inr ⟨by simp [h], fun h2 => hn.1 ?_⟩
        rw [← h2]
        exact List.mem_map.2 ⟨e, h, rfl⟩
    · simp only [hk, if_false, List.mem_cons] at h
      rcases h with h | h
      · subst h; exact Or.inr ⟨by simp, hk⟩
      · rcases ih hn.2 h with h | h
        · exact Or.inl h
        · exact Or.inr ⟨by simp [h.1], h.2⟩

theorem dictGet_some {κ υ : Type} [DecidableEq κ] {t : List (κ × υ)} {k : κ} {v : υ}
    (h : dictGet t k = some v) : (k, v) ∈ t := by
  induction t with
  | nil => simp [dictGet] at h
  | cons a t ih =>
    obtain ⟨a, b⟩ := a
    unfold dictGet at h
    by_cases hk : a = k
    · subst hk; simp at h; simp [h]
    · simp only [hk, if_false] at h; simp [ih h]

theorem dictGet_none {κ υ : Type} [DecidableEq κ] {t : List (κ × υ)} {k : κ}
    (h : dictGet t k = none) : k ∉ t.map (·.1) := by
  induction t with
  | nil => simp
  | cons a t ih =>
    obtain ⟨a, b⟩ := a
    unfold dictGet at h
    by_cases hk : a = k
    · subst hk; simp at h
    · simp only [hk, if_false] at h
      rw [List.map_cons, List.mem_cons]
      rintro (h2 | h2)
      · exact hk h2.symm
      · exact ih h h2

theorem append_indexed {d : Deck} (h : d.Indexed) (r : Report) : (d.append r).Indexed := by
  obtain ⟨hn, hk, he⟩ := h
  have hz : (d.reps ++ [r]).zipIdx = d.reps.zipIdx ++ [(r, d.reps.length)] := by
    rw [List.zipIdx_append]; simp
  have hlen : (d.reps ++ [r]).length - 1 = d.reps.length := by simp
  have hkeys : ∀ v, ((dictSet d.idtracker r.id v).map (·.1)).Nodup
      ∧ ∀ i, i ∈ (dictSet d.idtracker r.id v).map (·.1) ↔ ∃ r' ∈ d.reps ++ [r], r'.id = i := by
    intro v
    rw [dictSet_keys]
    split
    · rename_i hm
      refine ⟨hn, fun i => ?_⟩
      rw [hk]
      constructor
      · rintro ⟨r', h1, h2⟩; exact ⟨r', by simp [h1], h2⟩
      · rintro ⟨r', h1, h2⟩
        rw [List.mem_append, List.mem_singleton] at h1
        rcases h1 with h1 | h1
        · exact ⟨r', h1, h2⟩
        · subst h1; subst h2; exact (hk _).1 hm
    · rename_i hm
      refine ⟨?_, fun i => ?_⟩
      · rw [List.nodup_append]
        refine ⟨hn, by simp, ?_⟩
        intro a ha b hb
        rw [List.mem_singleton] at hb
        subst hb
        rintro rfl
        exact hm ha
      · rw [List.mem_append, hk, List.mem_singleton]
        constructor
        · rintro (⟨r', h1, h2⟩ | h1)
          · exact ⟨r', by simp [h1], h2⟩
          · exact ⟨r, by simp, h1.symm⟩
        · rintro ⟨r', h1, h2⟩
          rw [List.mem_append, List.mem_singleton] at h1
          rcases h1 with h1 | h1
          · exact Or.inl ⟨r', h1, h2⟩
          · subst h1; exact Or.inr h2.symm
  have hT : ∃ v, (d.append r).idtracker = dictSet d.idtracker r.id v
      ∧ v = ((d.reps ++ [r]).zipIdx.filter fun p => decide (p.1.id = r.id)).map (·.2) := by
    simp only [Deck.append, trackAdd, hlen, hz]
    cases hg : dictGet d.idtracker r.id with
    | some l =>
      refine ⟨_, rfl, ?_⟩
      have := he _ (dictGet_some hg)
      simp only at this
      rw [this]
      simp
    | none =>
      refine ⟨_, rfl, ?_⟩
      have h0 : d.reps.zipIdx.filter (fun p => decide (p.1.id = r.id)) = [] := by
        rw [List.filter_eq_nil_iff]
        intro p hp h2
        have hm : p.1 ∈ d.reps := by
          have := List.mem_map_of_mem (f := Prod.fst) hp
          rwa [List.zipIdx_map_fst] at this
        exact dictGet_none hg ((hk _).2 ⟨p.1, hm, by simpa using h2⟩)
      simp [h0]
  obtain ⟨v, hv1, hv2⟩ := hT
  unfold Deck.Indexed
  rw [hv1]
  refine ⟨(hkeys v).1, (hkeys v).2, ?_⟩
  intro e hm
  rcases mem_dictSet hn hm with rfl | ⟨hm, hne⟩
  · exact hv2
  · rw [he e hm]
    show _ = ((d.reps ++ [r]).zipIdx.filter fun p => decide (p.1.id = e.1)).map (·.2)
    rw [hz, List.filter_append]
    have : ¬ (r.id = e.1) := fun h => hne h.symm
    simp [this]

/-- Changing reports without changing their IDs keeps the index right. -/
theorem indexed_of_ids {d d' : Deck} (h : d.Indexed) (ht : d'.idtracker = d.idtracker)
    (hids : d'.reps.map Report.id = d.reps.map Report.id) : d'.Indexed := by
  obtain ⟨hn, hk, he⟩ := h
  have key : ∀ (l l' : List Report) (i : Option String) (n : Nat), l'.map Report.id = l.map Report.id →
      ((l'.zipIdx n).filter fun p => decide (p.1.id = i)).map (·.2)
        = ((l.zipIdx n).filter fun p => decide (p.1.id = i)).map (·.2) := by
    intro l
    induction l with
    | nil =>
      intro l' i n h
      have : l' = [] := by simpa using h
      subst this; rfl
    | cons a l ih =>
      intro l' i n h
      cases l' with
      | nil => simp at h
      | cons b l' =>
        simp only [List.map_cons, List.cons.injEq] at h
        have := ih l' i (n + 1) h.2
        simp only [List.zipIdx_cons, List.filter_cons, h.1]
        split <;> simp [this]
  refine ⟨by rw [ht]; exact hn, ?_, ?_⟩
  · intro i
    rw [ht, hk]
    have e1 : ∀ l : List Report, (∃ r ∈ l, r.id = i) ↔ i ∈ l.map Report.id := by
      intro l; rw [List.mem_map]
    rw [e1, e1, hids]
  · rw [ht]
    intro e hm
    rw [he e hm, key d.reps d'.reps e.1 0 hids]

theorem setQc_id {r r' : Report} {t f : String} {v : Int} (h : r.setQc t f v = .ok r') : r'.id = r.id := by
  unfold Report.setQc at h
  rw [pyAssert_bind, pyAssert_bind] at h
  split at h
  · split at h
    · simp only [except_pure, Except.ok.injEq] at h
      subst h; rfl
    · simp at h
  · simp at h

theorem mapM_setQc_ids {l l' : List Report} {t f : String} {v : Int}
    (h : l.mapM (fun r => r.setQc t f v) = .ok l') : l'.map Report.id = l.map Report.id := by
  induction l generalizing l' with
  | nil => simp [List.mapM_nil] at h; subst h; rfl
  | cons a l ih =>
    rw [List.mapM_cons] at h
    cases h1 : a.setQc t f v with
    | error e => rw [h1] at h; simp at h
    | ok a' =>
      rw [h1] at h
      cases h2 : l.mapM (fun r => r.setQc t f v) with
      | error e => rw [h2] at h; simp at h
      | ok l2 =>
        rw [h2] at h
        simp only [except_bind_ok, except_pure, Except.ok.injEq] at h
        subst h
        simp [setQc_id h1, ih h2]

theorem op_indexed {d d' : Deck} {o : DeckOp} (h : d.Indexed) (ho : d.op o = .ok d') : d'.Indexed := by
  cases o with
  | append r =>
    simp only [Deck.op, Except.ok.injEq] at ho
    subst ho
    exact append_indexed h r
  | addFilter q =>
    simp only [Deck.op, Except.ok.injEq] at ho
    subst ho
    exact h
  | setQc t f v =>
    simp only [Deck.op, Deck.setQc] at ho
    cases h2 : d.reps.mapM (fun r => r.setQc t f v) with
    | error e => rw [h2] at ho; simp at ho
    | ok l =>
      rw [h2] at ho
      simp only [except_bind_ok, except_pure, Except.ok.injEq] at ho
      subst ho
      exact indexed_of_ids h rfl (mapM_setQc_ids h2)
  | setOne i t f v =>
    simp only [Deck.op] at ho
    cases h1 : pyIndex d.reps (i : Int) with
    | error e => rw [h1] at ho; simp at ho
    | ok r =>
      rw [h1, except_bind_ok] at ho
      cases h2 : r.setQc t f v with
      | error e => rw [h2] at ho; simp at ho
      | ok r' =>
        rw [h2] at ho
        simp only [except_bind_ok, except_pure, Except.ok.injEq] at ho
        subst ho
        refine indexed_of_ids h rfl ?_
        have hi : d.reps[i]? = some r := by
          unfold pyIndex at h1
          have : ¬ ((i : Int) < 0) := by omega
          simp only [this, if_false, Int.toNat_natCast] at h1
          split at h1
          · rename_i a ha; simp at h1; rw [ha, h1]
          · simp at h1
        show (d.reps.set i r').map Report.id = _
        rw [List.map_set, setQc_id h2]
        apply List.ext_getElem?
        intro j
        rw [List.getElem?_set]
        split
        · rename_i hj
          subst hj
          split
          · rw [List.getElem?_map, hi]; rfl
          · rename_i hlen
            rw [List.getElem?_eq_none (by omega)]
        · rfl

theorem platform_eq (d : Deck) (l : List (Report × Nat)) (hl : ∀ p ∈ l, d.reps[p.2]? = some p.1)
    (acc : List (Report × Nat)) :
    (l.map (·.2)).foldlM (fun v (i : Nat) => do
      let r ← pyIndex d.reps i
      return if d.filter.testReport r = 0 then v ++ [(r, i)] else v) acc
      = (.ok (acc ++ l.filter fun p => decide (Passes d.filter p.1)) : Except Err _) := by
  simp only [except_pure]
  induction l generalizing acc with
  | nil => simp
  | cons p l ih =>
    have hp := hl p (by simp)
    have h1 : pyIndex d.reps (p.2 : Int) = .ok p.1 := by
      unfold pyIndex
      have : ¬ ((p.2 : Int) < 0) := by omega
      simp [this, hp]
    rw [List.map_cons, List.foldlM_cons, h1, except_bind_ok, testReport_eq]
    by_cases hpass : Passes d.filter p.1
    · simp only [hpass, if_true, except_pure, except_bind_ok]
      rw [ih fun q hq => hl q (by simp [hq])]
      simp [hpass]
    · simp only [hpass, if_false, except_pure, except_bind_ok, one_ne_zero]
      rw [ih fun q hq => hl q (by simp [hq])]
      simp [hpass]

theorem platforms_indexed {d : Deck} (h : d.Indexed) :
    d.platforms = .ok ((d.idtracker.map (·.1)).map (voyageOf d.reps d.filter)) := by
  unfold Deck.platforms
  rw [List.map_map]
  refine mapM_ok _ _ _ ?_
  intro e he
  unfold Deck.platform
  rw [h.2.2 e he, platform_eq d]
  · simp only [List.nil_append, Except.ok.injEq, List.filter_filter, Function.comp]
    unfold voyageOf
    congr 1
    funext p
    simp [Bool.and_comm]
  · intro p hp
    rw [List.mem_filter] at hp
    have := List.mem_zipIdx hp.1
    simp only [Nat.zero_le, Nat.zero_add, true_and, Nat.sub_zero] at this
    rw [List.getElem?_eq_getElem this.1, ← this.2]

/-- C38. Take any deck made from an empty one by appending reports, setting filters and setting flags, in any
order.  `get_one_platform_at_a_time` does not raise; it yields one voyage for each distinct ID in the deck,
in some order, and that voyage has exactly the reports with that ID that pass the filter, in the order
appended. -/
theorem C38_platforms (ops : List DeckOp) (d : Deck) (h : ops.foldlM Deck.op Deck.empty = .ok d) :
    ∃ ids : List (Option String), ids.Nodup ∧ (∀ i, i ∈ ids ↔ ∃ r ∈ d.reps, r.id = i)
      ∧ d.platforms = .ok (ids.map (voyageOf d.reps d.filter)) := by
  have hi : ∀ (ops : List DeckOp) (d0 : Deck), d0.Indexed → ops.foldlM Deck.op d0 = .ok d → d.Indexed := by
    intro ops
    induction ops with
    | nil => intro d0 h0 h; simp at h; subst h; exact h0
    | cons o ops ih =>
      intro d0 h0 h
      rw [List.foldlM_cons] at h
      cases h1 : d0.op o with
      | error e => rw [h1] at h; simp at h
      | ok d1 =>
        rw [h1, except_bind_ok] at h
        exact ih d1 (op_indexed h0 h1) h
  have hd := hi ops Deck.empty (by simp [Deck.Indexed, Deck.empty]) h
  exact ⟨_, hd.1, hd.2.1, platforms_indexed hd⟩

/-- The reports a deck holds after the operations are the ones appended, in order, up to their flags. -/
theorem C38_reports (ops : List DeckOp) (d : Deck) (h : ops.foldlM Deck.op Deck.empty = .ok d) :
    d.reps.map Report.id
      = (ops.filterMap fun o => match o with | .append r => some r | _ => none).map Report.id := by
  have key : ∀ (ops : List DeckOp) (d0 : Deck), ops.foldlM Deck.op d0 = .ok d →
      d.reps.map Report.id = d0.reps.map Report.id
        ++ (ops.filterMap fun o => match o with | .append r => some r | _ => none).map Report.id := by
    intro ops
    induction ops with
    | nil => intro d0 h; simp at h; subst h; simp
    | cons o ops ih =>
      intro d0 h
      rw [List.foldlM_cons] at h
      cases h1 : d0.op o with
      | error e => rw [h1] at h; simp at h
      | ok d1 =>
        rw [h1, except_bind_ok] at h
        rw [ih d1 h]
        cases o with
        | append r =>
          simp only [Deck.op, Except.ok.injEq] at h1
          subst h1
          simp [Deck.append]
        | addFilter q =>
          simp only [Deck.op, Except.ok.injEq] at h1
          subst h1
          simp [Deck.addFilter]
        | setQc t f v =>
          simp only [Deck.op, Deck.setQc] at h1
          cases h2 : d0.reps.mapM (fun r => r.setQc t f v) with
          | error e => rw [h2] at h1; simp at h1
          | ok l =>
            rw [h2] at h1
            simp only [except_bind_ok, except_pure, Except.ok.injEq] at h1
            subst h1
            simp [mapM_setQc_ids h2]
        | setOne i t f v =>
          simp only [Deck.op] at h1
          cases h2 : pyIndex d0.reps (i : Int) with
          | error e => rw [h2] at h1; simp at h1
          | ok r =>
            rw [h2, except_bind_ok] at h1
            cases h3 : r.setQc t f v with
            | error e => rw [h3] at h1; simp at h1
            | ok r' =>
              rw [h3] at h1
              simp only [except_bind_ok, except_pure, Except.ok.injEq] at h1
              subst h1
              have hi : d0.reps[i]? = some r := by
                unfold pyIndex at h2
                have : ¬ ((i : Int) < 0) := by omega
                simp only [this, if_false, Int.toNat_natCast] at h2
                split at h2
                · rename_i a ha; simp at h2; rw [ha, h2]
                · simp at h2
              have : (d0.reps.set i r').map Report.id = d0.reps.map Report.id := by
                rw [List.map_set, setQc_id h3]
                apply List.ext_getElem?
                intro j
                rw [List.getElem?_set]
                split
                · rename_i hj
                  subst hj
                  split
                  · rw [List.getElem?_map, hi]; rfl
                  · rename_i hlen
                    rw [List.getElem?_eq_none (by omega)]
                · rfl
              simp [this]
  simpa [Deck.empty] using key ops Deck.empty h


/-- C38. So each passing report of such a deck is seen exactly once. -/
theorem C38_once (ops : List DeckOp) (d : Deck) (h : ops.foldlM Deck.op Deck.empty = .ok d) :
    ∃ vs, d.platforms = .ok vs
      ∧ vs.flatten.Perm (d.reps.zipIdx.filter fun p => decide (Passes d.filter p.1)) := by
  obtain ⟨ids, hn, hm, hp⟩ := C38_platforms ops d h
  refine ⟨_, hp, ?_⟩
  have hz : d.reps.zipIdx.Nodup := by
    apply List.Nodup.of_map Prod.snd
    rw [List.zipIdx_map_snd]
    exact List.nodup_range'
  rw [← List.flatMap_def, List.perm_ext_iff_of_nodup ?_ (hz.filter _)]
  · intro p
    simp only [List.mem_flatMap, voyageOf, List.mem_filter, decide_eq_true_eq]
    constructor
    · rintro ⟨i, -, h1, -, h3⟩; exact ⟨h1, h3⟩
    · rintro ⟨h1, h3⟩
      refine ⟨p.1.id, (hm _).2 ⟨p.1, ?_, rfl⟩, h1, rfl, h3⟩
      have := List.mem_map_of_mem (f := Prod.fst) h1
      rwa [List.zipIdx_map_fst] at this
  · rw [List.nodup_flatMap]
    refine ⟨fun i _ => hz.filter _, hn.imp ?_⟩
    intro i j hij p h1 h2
    simp only [voyageOf, List.mem_filter, decide_eq_true_eq] at h1 h2
    exact hij (h1.2.1.symm.trans h2.2.1)

/-- Non-vacuity: a deck of four reports of two ships, one report failing the filter. -/
example : ∃ d, [DeckOp.append (flagged "A" []), .append (flagged "B" []), .append (flagged "A" []),
      .append (flagged "A" []), .setQc "POS" "date" 0, .setOne 2 "POS" "date" 1,
      .addFilter [("POS", "date", 0)]].foldlM Deck.op Deck.empty = .ok d
    ∧ (d.platforms.map fun vs => vs.map fun v => v.map (·.2)) = .ok [[0, 3], [1]] :=
  ⟨_, rfl, by decide⟩

/-! ### Sorting or popping breaks the index -/

theorem dictSet_new {κ : Type} [DecidableEq κ] (t : List (κ × List Nat)) (k : κ) (i : Nat)
    (h : dictGet t k = none) : dictSet t k [i] = t ++ [(k, [i])] := by
  induction t with
  | nil => rfl
  | cons a t ih =>
    obtain ⟨a, b⟩ := a
    unfold dictGet at h
    by_cases hk : a = k
    · subst hk; simp at h
    · simp only [hk, if_false] at h
      simp [dictSet, hk, ih h]

theorem dictSet_old {κ : Type} [DecidableEq κ] (t : List (κ × List Nat)) (k : κ) (l : List Nat) (i : Nat)
    (h : dictGet t k = some l) :
    ((dictSet t k (l ++ [i])).flatMap (·.2)).Perm (t.flatMap (·.2) ++ [i]) := by
  induction t with
  | nil => simp [dictGet] at h
  | cons a t ih =>
    obtain ⟨a, b⟩ := a
    unfold dictGet at h
    by_cases hk : a = k
    · subst hk
      simp only [if_true, Option.some.injEq] at h
      subst h
      simp only [dictSet, if_true, List.flatMap_cons, List.append_assoc]
      exact (List.perm_append_comm (l₁ := [i])).append_left b
    · simp only [hk, if_false] at h
      simp only [dictSet, hk, if_false, List.flatMap_cons, List.append_assoc]
      exact (ih h).append_left b

/-- Every addition to the index adds one position. -/
theorem trackAdd_flat (t : List (Option String × List Nat)) (k : Option String) (i : Nat) :
    ((trackAdd t k i).flatMap (·.2)).Perm (t.flatMap (·.2) ++ [i]) := by
  unfold trackAdd
  cases h : dictGet t k with
  | none => simp [dictSet_new t k i h]
  | some l => exact dictSet_old t k l i h

theorem index_flat (l : List (Report × Nat)) (t : List (Option String × List Nat)) :
    ((l.foldl (fun t p => trackAdd t p.1.id p.2) t).flatMap (·.2)).Perm
      (t.flatMap (·.2) ++ l.map (·.2)) := by
  induction l generalizing t with
  | nil => simp
  | cons p l ih =>
    rw [List.foldl_cons]
    refine (ih _).trans ?_
    rw [List.map_cons]
    have := (trackAdd_flat t p.1.id p.2).append_right (l.map (·.2))
    simpa using this

theorem ofReports_index (l : List Report) (d : Deck) :
    (d.ofReports l).idtracker
      = (l.zipIdx d.reps.length).foldl (fun t p => trackAdd t p.1.id p.2) d.idtracker := by
  induction l generalizing d with
  | nil => rfl
  | cons r l ih =>
    have : d.ofReports (r :: l) = (d.append r).ofReports l := rfl
    rw [this, ih, List.zipIdx_cons, List.foldl_cons]
    simp [Deck.append]

/-- C38, violated after `sort`: the index is extended, not rebuilt, so from every deck that was built by
appending and then sorted, each passing report is yielded exactly twice. -/
theorem C38_sort_violation (l : List Report) (q : QcFilter) :
    ∃ vs, (((Deck.empty.ofReports l).addFilter q).sort).platforms = .ok vs
      ∧ vs.flatten.Perm
        ((sortReports l).zipIdx.filter (fun p => decide (Passes q p.1))
          ++ (sortReports l).zipIdx.filter (fun p => decide (Passes q p.1))) := by
  set S := sortReports l with hS
  set d := ((Deck.empty.ofReports l).addFilter q).sort with hd
  have hlen : S.length = l.length := by
    rw [hS, sortReports, List.length_mergeSort]
  have hreps : d.reps = S := by
    rw [hd, hS]
    simp only [Deck.sort, Deck.indexById, Deck.addFilter, ofReports_reps]
    simp [Deck.empty]
  have hfil : d.filter = q := rfl
  have htr : (d.idtracker.flatMap (·.2)).Perm (S.zipIdx.map (·.2) ++ S.zipIdx.map (·.2)) := by
    have h1 : d.idtracker = (S.zipIdx).foldl (fun t p => trackAdd t p.1.id p.2)
        (l.zipIdx.foldl (fun t p => trackAdd t p.1.id p.2) []) := by
      rw [hd]
      simp only [Deck.sort, Deck.indexById, Deck.addFilter, ofReports_reps, ofReports_index]
      simp [Deck.empty, hS]
    rw [h1]
    refine (index_flat _ _).trans (List.Perm.append_right _ ?_)
    refine (index_flat _ _).trans ?_
    simp [List.zipIdx_map_snd, hlen]
  have hin : ∀ e ∈ d.idtracker, ∀ i ∈ e.2, i < S.length := by
    intro e he i hi
    have : i ∈ d.idtracker.flatMap (·.2) := List.mem_flatMap.2 ⟨e, he, hi⟩
    have := (htr.mem_iff).1 this
    simpa [List.zipIdx_map_snd] using this
  have hp : d.platforms = .ok (d.idtracker.map fun e => (e.2.filterMap fun i => S[i]?.map fun r => (r, i)).filter
      fun p => decide (Passes q p.1)) := by
    unfold Deck.platforms
    refine mapM_ok _ _ _ ?_
    intro e he
    unfold Deck.platform
    have hmap : (e.2.filterMap fun i => S[i]?.map fun r => (r, i)).map (·.2) = e.2 := by
      have := hin e he
      clear he
      revert this
      induction e.2 with
      | nil => intro _; rfl
      | cons i t ih =>
        intro this
        have hi := this i (by simp)
        simp only [List.filterMap_cons, List.getElem?_eq_getElem hi, Option.map_some, List.map_cons]
        rw [ih fun j hj => this j (by simp [hj])]
    conv_lhs => rw [← hmap]
    rw [platform_eq d]
    · simp [hfil]
    · intro p hp
      rw [List.mem_filterMap] at hp
      obtain ⟨i, -, h2⟩ := hp
      rw [hreps]
      cases h3 : S[i]? with
      | none => simp [h3] at h2
      | some r =>
        simp only [h3, Option.map_some, Option.some.injEq] at h2
        subst h2
        exact h3
  refine ⟨_, hp, ?_⟩
  have hflat : (d.idtracker.map fun e => (e.2.filterMap fun i => S[i]?.map fun r => (r, i)).filter
      fun p => decide (Passes q p.1)).flatten
      = ((d.idtracker.flatMap (·.2)).filterMap fun i => S[i]?.map fun r => (r, i)).filter
          fun p => decide (Passes q p.1) := by
    induction d.idtracker with
    | nil => rfl
    | cons e t ih => simp [List.flatMap_cons, List.filterMap_append, List.filter_append, ih]
  rw [hflat]
  refine ((htr.filterMap _).filter _).trans ?_
  rw [List.filterMap_append, List.filter_append]
  have hid : (S.zipIdx.map (·.2)).filterMap (fun i => S[i]?.map fun r => (r, i)) = S.zipIdx := by
    rw [List.filterMap_map]
    have : ∀ p ∈ S.zipIdx, ((fun i => S[i]?.map fun r => (r, i)) ∘ (·.2)) p = some p := by
      intro p hp
      have := List.mem_zipIdx hp
      simp only [Nat.zero_le, Nat.zero_add, true_and, Nat.sub_zero] at this
      simp only [Function.comp]
      rw [List.getElem?_eq_getElem this.1, Option.map_some, ← this.2]
    rw [List.filterMap_congr this]
    simp
  rw [hid]

/-- Non-vacuity: one report, yielded twice in one voyage. -/
example : (((Deck.empty.ofReports [flagged "A" []]).sort).platforms.map fun vs => vs.map fun v => v.map (·.2))
    = .ok [[0, 0]] := by
  decide +kernel

/-- C37: `pop` takes out the report at the given position, counted from the start or from the end, and leaves the
others as they were; at any other position it raises. -/
theorem C37_pop (d : Deck) (before after : List Report) (r : Report) (h : d.reps = before ++ r :: after) :
    d.pop before.length = .ok (r, { d with reps := before ++ after })
    ∧ d.pop (-(after.length + 1)) = .ok (r, { d with reps := before ++ after })
    ∧ ∀ pos : Int, pos ≥ d.reps.length ∨ pos < -d.reps.length → d.pop pos = .error .index := by
  have hl : d.reps.length = before.length + (after.length + 1) := by simp [h]
  have hg : d.reps[before.length]? = some r := by simp [h]
  have he : d.reps.eraseIdx before.length = before ++ after := by
    rw [h, List.eraseIdx_append_of_length_le (le_refl _)]
    simp
  refine ⟨?_, ?_, ?_⟩
  · unfold Deck.pop pyIndex
    have h0 : ¬ ((before.length : Int) < 0) := by omega
    simp only [if_neg h0, Int.toNat_natCast, hg, except_bind_ok, except_pure, he]
  · unfold Deck.pop pyIndex
    have h0 : (-((after.length : Int) + 1) < 0) := by omega
    have h1 : -((after.length : Int) + 1) + d.reps.length = before.length := by rw [hl]; push_cast; ring
    have h2 : ¬ ((before.length : Int) < 0) := by omega
    simp only [if_pos h0, h1, if_neg h2, Int.toNat_natCast, hg, except_bind_ok, except_pure, he]
  · intro pos hpos
    unfold Deck.pop pyIndex
    by_cases h0 : pos < 0
    · have h1 : pos + d.reps.length < 0 := by omega
      simp only [if_pos h0, if_pos h1, except_bind_error]
    · have h1 : d.reps[pos.toNat]? = none := by
        rw [List.getElem?_eq_none_iff]; omega
      simp only [if_neg h0, h1, except_bind_error]

/-- C38, violated after `pop`: the index still names the removed report and the generator raises. -/
theorem C38_pop_violation (r : Report) :
    ∃ d, (Deck.empty.append r).pop 0 = .ok (r, d) ∧ d.platforms = .error .index :=
  ⟨_, rfl, rfl⟩

/-- C37 and C38: the decks `split_reports` makes are indexed as if their reports had been appended, so
platforms can be extracted from them. -/
theorem C37_split_platforms (q : QcFilter) (d : Deck) :
    ∃ p f rest, q.split d = .ok (p, f, rest)
      ∧ (∃ vs, p.platforms = .ok vs ∧ vs.flatten.Perm p.reps.zipIdx)
      ∧ ∃ vs, f.platforms = .ok vs ∧ vs.flatten.Perm f.reps.zipIdx := by
  have key : ∀ l : List Report, ∃ vs, (Deck.empty.ofReports l).platforms = .ok vs
      ∧ vs.flatten.Perm (Deck.empty.ofReports l).reps.zipIdx := by
    intro l
    have h : (l.map DeckOp.append).foldlM Deck.op Deck.empty = .ok (Deck.empty.ofReports l) := by
      unfold Deck.ofReports
      generalize Deck.empty = d0
      induction l generalizing d0 with
      | nil => rfl
      | cons r l ih =>
        rw [List.map_cons, List.foldlM_cons, List.foldl_cons]
        exact ih _
    obtain ⟨vs, h1, h2⟩ := C38_once _ _ h
    refine ⟨vs, h1, h2.trans ?_⟩
    have hf : (Deck.empty.ofReports l).filter = [] := ofReports_filter _ _
    rw [hf]
    simp [Passes]
  exact ⟨_, _, _, splitLoop_eq q _ d _ _ rfl, key _, key _⟩

end MarineQC
