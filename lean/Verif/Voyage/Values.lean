import Verif.Voyage.Sat
import Verif.Deck.Props

/-!
# C42: repeated and rounded values
-/

namespace MarineQC

namespace Spec

/-- The values of a variable present in a voyage. -/
def valuesOf (v : List Report) (t : String) : List Rat := v.filterMap fun r => r.getvar t

/-- A whole number. -/
def Whole (x : Rat) : Prop := ∃ n : Int, x = n

instance (x : Rat) : Decidable (Whole x) :=
  decidable_of_iff (x.den = 1) ⟨fun h => ⟨x.num, by
    conv_lhs => rw [← Rat.num_div_den x]
    rw [h]; simp⟩, fun ⟨n, h⟩ => by rw [h]; exact Rat.den_intCast n⟩

/-- How many values print the same number as `x`. -/
def sameCount (rnd : Rat → Rat) (l : List Rat) (x : Rat) : Nat := l.countP fun y => decide (rnd y = rnd x)

/-- How many values print a whole number. -/
def wholeCount (rnd : Rat → Rat) (l : List Rat) : Nat := l.countP fun y => decide (Whole (rnd y))

end Spec

open Spec

theorem isInteger_iff (x : Rat) : isInteger x = true ↔ Whole x := by
  unfold isInteger
  rw [decide_eq_true_eq]
  constructor
  · intro h
    refine ⟨x.num, ?_⟩
    conv_lhs => rw [← Rat.num_div_den x]
    rw [h]; simp
  · rintro ⟨n, h⟩; rw [h]; exact Rat.den_intCast n

/-- One step of building the index. -/
def valueStep (rnd : Rat → Rat) (t : String) (d : List (Rat × List Nat)) (p : Report × Nat) :
    List (Rat × List Nat) :=
  match p.1.getvar t with
  | some x =>
    match dictGet d (rnd x) with
    | some l => dictSet d (rnd x) (l ++ [p.2])
    | none => dictSet d (rnd x) [p.2]
  | none => d

/-- The positions of the reports whose value prints as `k`. -/
def keyPos (rnd : Rat → Rat) (t : String) (L : List (Report × Nat)) (k : Rat) : List Nat :=
  (L.filter fun p => decide ((p.1.getvar t).map rnd = some k)).map (·.2)

structure ValInv (rnd : Rat → Rat) (t : String) (L : List (Report × Nat)) (d : List (Rat × List Nat)) :
    Prop where
  nodup : (d.map (·.1)).Nodup
  entry : ∀ e ∈ d, e.2 = keyPos rnd t L e.1
  key : ∀ k, k ∈ d.map (·.1) ↔ ∃ p ∈ L, (p.1.getvar t).map rnd = some k

theorem keyPos_append (rnd : Rat → Rat) (t : String) (L : List (Report × Nat)) (p : Report × Nat) (k : Rat) :
    keyPos rnd t (L ++ [p]) k
      = if (p.1.getvar t).map rnd = some k then keyPos rnd t L k ++ [p.2] else keyPos rnd t L k := by
  unfold keyPos
  rw [List.filter_append, List.map_append]
  by_cases h : (p.1.getvar t).map rnd = some k
  · rw [if_pos h, List.filter_cons_of_pos (by simpa using h)]; simp
  · rw [if_neg h, List.filter_cons_of_neg (by simpa using h)]; simp

theorem nodup_dictSet {κ υ : Type} [DecidableEq κ] {t : List (κ × υ)} (hn : (t.map (·.1)).Nodup) (k : κ)
    (v : υ) : ((dictSet t k v).map (·.1)).Nodup := by
  rw [dictSet_keys]
  split
  · exact hn
  · rename_i hm
    rw [List.nodup_append]
    refine ⟨hn, by simp, ?_⟩
    intro a ha b hb
    rw [List.mem_singleton] at hb
    subst hb
    rintro rfl
    exact hm ha

theorem mem_keys_dictSet {κ υ : Type} [DecidableEq κ] {t : List (κ × υ)} {k k' : κ} {v : υ} :
    k' ∈ (dictSet t k v).map (·.1) ↔ k' = k ∨ k' ∈ t.map (·.1) := by
  rw [dictSet_keys]
  split
  · rename_i hm
    constructor
    · exact Or.inr
    · rintro (rfl | h)
      · exact hm
      · exact h
  · rw [List.mem_append, List.mem_singleton]; tauto

theorem valueStep_inv {rnd : Rat → Rat} {t : String} {L : List (Report × Nat)} {d : List (Rat × List Nat)}
    (h : ValInv rnd t L d) (p : Report × Nat) : ValInv rnd t (L ++ [p]) (valueStep rnd t d p) := by
  unfold valueStep
  cases hx : p.1.getvar t with
  | none =>
    refine ⟨h.nodup, fun e he => ?_, fun k => ?_⟩
    · rw [keyPos_append, hx, if_neg (by simp)]; exact h.entry e he
    · rw [h.key]
      constructor
      · rintro ⟨q, h1, h2⟩; exact ⟨q, by simp [h1], h2⟩
      · rintro ⟨q, h1, h2⟩
        rw [List.mem_append, List.mem_singleton] at h1
        rcases h1 with h1 | rfl
        · exact ⟨q, h1, h2⟩
        · rw [hx] at h2; simp at h2
  | some x =>
    have hmain : ∀ l, l = keyPos rnd t L (rnd x) → ValInv rnd t (L ++ [p]) (dictSet d (rnd x) (l ++ [p.2])) := by
      intro l hl
      refine ⟨nodup_dictSet h.nodup _ _, fun e he => ?_, fun k => ?_⟩
      · rcases mem_dictSet h.nodup he with rfl | ⟨he, hne⟩
        · rw [keyPos_append, hx, if_pos (by simp), hl]
        · rw [keyPos_append, hx, if_neg (by simpa using fun h => hne h.symm)]; exact h.entry e he
      · rw [mem_keys_dictSet, h.key]
        constructor
        · rintro (rfl | ⟨q, h1, h2⟩)
          · exact ⟨p, by simp, by rw [hx]; rfl⟩
          · exact ⟨q, by simp [h1], h2⟩
        · rintro ⟨q, h1, h2⟩
          rw [List.mem_append, List.mem_singleton] at h1
          rcases h1 with h1 | rfl
          · exact Or.inr ⟨q, h1, h2⟩
          · rw [hx] at h2; simp at h2; exact Or.inl h2.symm
    cases hg : dictGet d (rnd x) with
    | some l => simp only [hg]; exact hmain l (h.entry _ (dictGet_some hg))
    | none =>
      simp only [hg]
      refine hmain [] ?_
      have := dictGet_none hg
      rw [h.key] at this
      unfold keyPos
      rw [eq_comm, List.map_eq_nil_iff, List.filter_eq_nil_iff]
      intro q hq h2
      exact this ⟨q, hq, by simpa using h2⟩

theorem valueIndex_inv (rnd : Rat → Rat) (v : List Report) (t : String) :
    ValInv rnd t v.zipIdx (valueIndex rnd v t) := by
  have key : ∀ (L M : List (Report × Nat)) (d : List (Rat × List Nat)), ValInv rnd t M d →
      ValInv rnd t (M ++ L) (L.foldl (valueStep rnd t) d) := by
    intro L
    induction L with
    | nil => intro M d h; simpa using h
    | cons p L ih =>
      intro M d h
      have := ih (M ++ [p]) _ (valueStep_inv h p)
      simpa using this
  have := key v.zipIdx [] [] ⟨by simp, by simp, by simp⟩
  rw [List.nil_append] at this
  exact this

/-- The sum over the entries with whole keys. -/
def wholeSum (d : List (Rat × List Nat)) : Nat :=
  d.foldl (fun n e => if isInteger e.1 then n + e.2.length else n) 0

theorem wholeSum_acc (d : List (Rat × List Nat)) (n : Nat) :
    d.foldl (fun n e => if isInteger e.1 then n + e.2.length else n) n = n + wholeSum d := by
  unfold wholeSum
  induction d generalizing n with
  | nil => simp
  | cons e d ih =>
    rw [List.foldl_cons, List.foldl_cons, ih, ih (if isInteger e.1 then 0 + e.2.length else 0)]
    split <;> omega

theorem wholeSum_cons (e : Rat × List Nat) (d : List (Rat × List Nat)) :
    wholeSum (e :: d) = (if isInteger e.1 then e.2.length else 0) + wholeSum d := by
  conv_lhs => unfold wholeSum
  rw [List.foldl_cons, wholeSum_acc]
  split <;> simp

theorem wholeSum_old {d : List (Rat × List Nat)} {k : Rat} {l : List Nat} (i : Nat)
    (h : dictGet d k = some l) :
    wholeSum (dictSet d k (l ++ [i])) = wholeSum d + if isInteger k then 1 else 0 := by
  induction d with
  | nil => simp [dictGet] at h
  | cons a d ih =>
    obtain ⟨a, b⟩ := a
    unfold dictGet at h
    by_cases hk : a = k
    · subst hk
      simp only [if_true, Option.some.injEq] at h
      subst h
      simp only [dictSet, if_true, wholeSum_cons, List.length_append, List.length_singleton]
      split <;> omega
    · simp only [hk, if_false] at h
      simp only [dictSet, hk, if_false, wholeSum_cons, ih h]
      omega

theorem wholeSum_new {d : List (Rat × List Nat)} {k : Rat} (i : Nat) (h : dictGet d k = none) :
    wholeSum (dictSet d k [i]) = wholeSum d + if isInteger k then 1 else 0 := by
  induction d with
  | nil => simp [dictSet, wholeSum]
  | cons a d ih =>
    obtain ⟨a, b⟩ := a
    unfold dictGet at h
    by_cases hk : a = k
    · subst hk; simp at h
    · simp only [hk, if_false] at h
      simp only [dictSet, hk, if_false, wholeSum_cons, ih h]
      omega

theorem wholeSum_index (rnd : Rat → Rat) (v : List Report) (t : String) :
    wholeSum (valueIndex rnd v t) = wholeCount rnd (valuesOf v t) := by
  have key : ∀ (l : List Report) (n : Nat) (d : List (Rat × List Nat)),
      wholeSum ((l.zipIdx n).foldl (valueStep rnd t) d) = wholeSum d + wholeCount rnd (valuesOf l t) := by
    intro l
    induction l with
    | nil => intro n d; simp [wholeCount, valuesOf]
    | cons r l ih =>
      intro n d
      rw [List.zipIdx_cons, List.foldl_cons, ih]
      unfold valueStep valuesOf wholeCount
      rw [List.filterMap_cons]
      cases hx : r.getvar t with
      | none => simp
      | some x =>
        simp only
        rw [List.countP_cons]
        have hd : decide (Whole (rnd x)) = isInteger (rnd x) := by
          rw [Bool.eq_iff_iff, decide_eq_true_eq, isInteger_iff]
        rw [hd]
        cases hg : dictGet d (rnd x) with
        | some l' => simp only [wholeSum_old _ hg]; split <;> omega
        | none => simp only [wholeSum_new _ hg]; split <;> omega
  have := key v 0 []
  have h0 : wholeSum [] = 0 := rfl
  rw [h0, Nat.zero_add] at this
  exact this

theorem allCount_eq (v : List Report) (t : String) : allCount v t = (valuesOf v t).length := by
  have key : ∀ (l : List Report) (n : Nat),
      l.foldl (fun n r => if (r.getvar t).isSome then n + 1 else n) n = n + (valuesOf l t).length := by
    intro l
    induction l with
    | nil => intro n; simp [valuesOf]
    | cons r l ih =>
      intro n
      rw [List.foldl_cons, ih]
      unfold valuesOf
      rw [List.filterMap_cons]
      cases hx : r.getvar t with
      | none => simp
      | some x => simp; omega
  have := key v 0
  simpa [allCount] using this

/-- The number of positions of a key is the number of values that print it. -/
theorem keyPos_length (rnd : Rat → Rat) (v : List Report) (t : String) (k : Rat) :
    (keyPos rnd t v.zipIdx k).length = (valuesOf v t).countP fun y => decide (rnd y = k) := by
  have key : ∀ (l : List Report) (n : Nat),
      (keyPos rnd t (l.zipIdx n) k).length = (valuesOf l t).countP fun y => decide (rnd y = k) := by
    intro l
    induction l with
    | nil => intro n; rfl
    | cons r l ih =>
      intro n
      have := ih (n + 1)
      unfold keyPos valuesOf at *
      rw [List.zipIdx_cons, List.filter_cons, List.filterMap_cons]
      cases hx : r.getvar t with
      | none => simp [hx]; simpa using this
      | some x =>
        by_cases hk : rnd x = k
        · simp [hx, hk]; simpa using this
        · simp [hx, hk]; simpa using this
  exact key v 0

theorem mem_keyPos {rnd : Rat → Rat} {v : List Report} {t : String} {k : Rat} {j : Nat} :
    j ∈ keyPos rnd t v.zipIdx k ↔ ∃ r, v[j]? = some r ∧ (r.getvar t).map rnd = some k := by
  unfold keyPos
  rw [List.mem_map]
  constructor
  · rintro ⟨p, hp, rfl⟩
    rw [List.mem_filter] at hp
    have hm := List.mem_zipIdx hp.1
    simp only [Nat.zero_le, Nat.zero_add, true_and, Nat.sub_zero] at hm
    refine ⟨p.1, ?_, by simpa using hp.2⟩
    rw [List.getElem?_eq_getElem hm.1, ← hm.2]
  · rintro ⟨r, hr, hk⟩
    refine ⟨(r, j), ?_, rfl⟩
    rw [List.mem_filter]
    refine ⟨?_, by simpa using hk⟩
    rw [List.mem_zipIdx_iff_getElem?]
    exact hr

/-- Setting all positions of some entries to a value that depends on the key. -/
theorem setEntries {rnd : Rat → Rat} {t : String} {v : List Report} (g : Rat → Option Int)
    (ent : List (Rat × List Nat)) (hent : ∀ e ∈ ent, e.2 = keyPos rnd t v.zipIdx e.1) (fl : List Int)
    (hfl : fl.length = v.length) (F : List Int → Rat × List Nat → List Int)
    (hF : ∀ fl, ∀ e ∈ ent, F fl e = match g e.1 with
      | some x => e.2.foldl (fun fl i => fl.set i x) fl
      | none => fl) :
    (ent.foldl F fl).length = v.length ∧ ∀ (j : Nat) (r : Report), v[j]? = some r →
      (ent.foldl F fl)[j]? = match r.getvar t with
        | some x => if rnd x ∈ ent.map (·.1) then (g (rnd x)).or fl[j]? else fl[j]?
        | none => fl[j]? := by
  induction ent generalizing fl with
  | nil => refine ⟨hfl, fun j r hr => ?_⟩; cases r.getvar t <;> simp
  | cons e ent ih =>
    rw [List.foldl_cons]
    have h1 := hF fl e (by simp)
    have hlen : (F fl e).length = v.length := by
      rw [h1]; split
      · rw [foldl_set_length, hfl]
      · exact hfl
    obtain ⟨i1, i2⟩ := ih (fun e he => hent e (by simp [he])) (F fl e) hlen
      (fun fl e he => hF fl e (by simp [he]))
    refine ⟨i1, fun j r hr => ?_⟩
    have hj : j < fl.length := by
      rw [hfl]
      by_contra hc
      rw [List.getElem?_eq_none (by omega)] at hr
      simp at hr
    have hFj : (F fl e)[j]? = if (r.getvar t).map rnd = some e.1 then (g e.1).or fl[j]? else fl[j]? := by
      rw [h1]
      have hm : j ∈ e.2 ↔ (r.getvar t).map rnd = some e.1 := by
        rw [hent e (by simp), mem_keyPos]
        constructor
        · rintro ⟨r', h1, h2⟩
          rw [hr] at h1
          simp only [Option.some.injEq] at h1
          subst h1; exact h2
        · intro h; exact ⟨r, hr, h⟩
      cases hg : g e.1 with
      | none => simp
      | some x =>
        simp only
        rw [foldl_set_get _ _ _ _ hj]
        by_cases hc : (r.getvar t).map rnd = some e.1
        · rw [if_pos (hm.2 hc), if_pos hc]; simp
        · rw [if_neg (fun h => hc (hm.1 h)), if_neg hc]
    rw [i2 j r hr, hFj]
    cases hx : r.getvar t with
    | none => simp
    | some x =>
      simp only [Option.map_some, Option.some.injEq, List.map_cons, List.mem_cons]
      by_cases c1 : rnd x = e.1
      · by_cases c2 : e.1 ∈ ent.map (·.1)
        · simp only [c1, c2, if_true, or_true]
          cases g e.1 <;> simp
        · simp only [c1, c2, if_true, if_false, true_or]
      · simp only [c1, if_false, false_or]

theorem zeros_get (v : List Report) (t f : String) (j : Nat) (r : Report) (h : v[j]? = some r) :
    ((readFlags v t f).map fun _ => (0 : Int))[j]? = some 0 := by
  simp [readFlags, h]

/-- C42, the repeated-value flags. -/
theorem repeatedFlags_spec {rnd : Rat → Rat} {minCount : Int} {threshold : Rat} {t : String}
    {v : List Report} {fl : List Int} (h : repeatedFlags rnd minCount threshold t v = .ok fl) :
    fl.length = v.length ∧ ∀ (j : Nat) (r : Report), v[j]? = some r →
      (fl[j]? = some 0 ∨ fl[j]? = some 1) ∧ (fl[j]? = some 1 ↔
        ((valuesOf v t).length : Int) > minCount ∧ ∃ x, r.getvar t = some x
          ∧ (sameCount rnd (valuesOf v t) x : Rat) / (valuesOf v t).length > threshold) := by
  unfold repeatedFlags at h
  rw [pyAssert_bind, pyAssert_bind] at h
  split at h
  swap
  · simp at h
  split at h
  swap
  · simp at h
  simp only [allCount_eq, except_pure] at h
  have hinv := valueIndex_inv rnd v t
  by_cases hc : ((valuesOf v t).length : Int) > minCount
  · rw [if_pos hc] at h
    simp only [Except.ok.injEq] at h
    subst h
    obtain ⟨h1, h2⟩ := setEntries (rnd := rnd) (t := t) (v := v)
      (fun k => some (if ((keyPos rnd t v.zipIdx k).length : Rat) / ((valuesOf v t).length : Rat) > threshold
        then 1 else 0)) (valueIndex rnd v t) hinv.entry ((readFlags v t "rep").map fun _ => (0 : Int))
      (by simp [readFlags])
      (fun fl e => if (e.2.length : Rat) / ((valuesOf v t).length : Rat) > threshold
        then e.2.foldl (fun fl i => fl.set i 1) fl else e.2.foldl (fun fl i => fl.set i 0) fl) (by
        intro fl e he
        simp only [hinv.entry e he]
        split <;> rfl)
    refine ⟨h1, fun j r hr => ?_⟩
    rw [h2 j r hr]
    cases hx : r.getvar t with
    | none => simp only [zeros_get v t "rep" j r hr]; simp
    | some x =>
      have hk : rnd x ∈ (valueIndex rnd v t).map (·.1) := by
        rw [hinv.key]
        refine ⟨(r, j), ?_, by simp [hx]⟩
        rw [List.mem_zipIdx_iff_getElem?]; exact hr
      simp only [hk, if_true, keyPos_length, Option.some_or]
      by_cases hq : (((valuesOf v t).countP fun y => decide (rnd y = rnd x) : Nat) : Rat)
          / ((valuesOf v t).length : Rat) > threshold
      · rw [if_pos hq]
        exact ⟨Or.inr rfl, ⟨fun _ => ⟨hc, x, rfl, hq⟩, fun _ => rfl⟩⟩
      · rw [if_neg hq]
        refine ⟨Or.inl rfl, ⟨fun h => by simp at h, ?_⟩⟩
        rintro ⟨-, y, hy, hq2⟩
        simp only [Option.some.injEq] at hy
        subst hy
        exact absurd hq2 hq
  · rw [if_neg hc] at h
    simp only [Except.ok.injEq] at h
    subst h
    refine ⟨by simp [readFlags], fun j r hr => ?_⟩
    rw [zeros_get v t "rep" j r hr]
    exact ⟨Or.inl rfl, ⟨fun h => by simp at h, fun h => absurd h.1 hc⟩⟩

/-- C42, the rounded-value flags. -/
theorem roundedFlags_spec {rnd : Rat → Rat} {minCount : Int} {threshold : Rat} {t : String}
    {v : List Report} {fl : List Int} (h : roundedFlags rnd minCount threshold t v = .ok fl) :
    fl.length = v.length ∧ ∀ (j : Nat) (r : Report), v[j]? = some r →
      (fl[j]? = some 0 ∨ fl[j]? = some 1) ∧ (fl[j]? = some 1 ↔
        ((valuesOf v t).length : Int) > minCount ∧ (∃ x, r.getvar t = some x ∧ Whole (rnd x))
          ∧ (wholeCount rnd (valuesOf v t) : Rat) / (valuesOf v t).length ≥ threshold) := by
  unfold roundedFlags at h
  rw [pyAssert_bind, pyAssert_bind] at h
  split at h
  swap
  · simp at h
  split at h
  swap
  · simp at h
  simp only [allCount_eq, except_pure] at h
  have hinv := valueIndex_inv rnd v t
  have hzero : ∀ (fl : List Int), fl = ((readFlags v t "round").map fun _ => (0 : Int)) →
      ¬ (((valuesOf v t).length : Int) > minCount
        ∧ (wholeCount rnd (valuesOf v t) : Rat) / (valuesOf v t).length ≥ threshold) →
      fl.length = v.length ∧ ∀ (j : Nat) (r : Report), v[j]? = some r →
      (fl[j]? = some 0 ∨ fl[j]? = some 1) ∧ (fl[j]? = some 1 ↔
        ((valuesOf v t).length : Int) > minCount ∧ (∃ x, r.getvar t = some x ∧ Whole (rnd x))
          ∧ (wholeCount rnd (valuesOf v t) : Rat) / (valuesOf v t).length ≥ threshold) := by
    rintro fl rfl hn
    refine ⟨by simp [readFlags], fun j r hr => ?_⟩
    rw [zeros_get v t "round" j r hr]
    exact ⟨Or.inl rfl, ⟨fun h => by simp at h, fun h => absurd ⟨h.1, h.2.2⟩ hn⟩⟩
  by_cases hc : ((valuesOf v t).length : Int) > minCount
  · rw [if_pos hc] at h
    have hw : (valueIndex rnd v t).foldl (fun n e => if isInteger e.1 then n + e.2.length else n) 0
        = wholeCount rnd (valuesOf v t) := by
      rw [← wholeSum_index]; rfl
    rw [hw] at h
    by_cases h0 : (valuesOf v t).length = 0
    · rw [if_pos h0] at h; simp at h
    · rw [if_neg h0] at h
      by_cases hq : (wholeCount rnd (valuesOf v t) : Rat) / ((valuesOf v t).length : Rat) ≥ threshold
      · rw [if_pos hq] at h
        simp only [Except.ok.injEq] at h
        subst h
        obtain ⟨h1, h2⟩ := setEntries (rnd := rnd) (t := t) (v := v)
          (fun k => if isInteger k then some 1 else none) (valueIndex rnd v t) hinv.entry
          ((readFlags v t "round").map fun _ => (0 : Int)) (by simp [readFlags])
          (fun fl e => if isInteger e.1 then e.2.foldl (fun fl i => fl.set i 1) fl else fl) (by
            intro fl e he
            by_cases hi : isInteger e.1 = true <;> simp [hi])
        refine ⟨h1, fun j r hr => ?_⟩
        rw [h2 j r hr]
        cases hx : r.getvar t with
        | none => simp only [zeros_get v t "round" j r hr]; simp
        | some x =>
          have hk : rnd x ∈ (valueIndex rnd v t).map (·.1) := by
            rw [hinv.key]
            refine ⟨(r, j), ?_, by simp [hx]⟩
            rw [List.mem_zipIdx_iff_getElem?]; exact hr
          simp only [hk, if_true, zeros_get v t "round" j r hr]
          by_cases hi : isInteger (rnd x) = true
          · simp only [hi, if_true, Option.some_or]
            exact ⟨Or.inr trivial, ⟨fun _ => ⟨hc, ⟨x, rfl, (isInteger_iff _).1 hi⟩, hq⟩, fun _ => trivial⟩⟩
          · simp only [hi, Option.none_or]
            refine ⟨Or.inl rfl, ⟨fun h => by simp at h, ?_⟩⟩
            rintro ⟨-, ⟨y, hy, hw⟩, -⟩
            simp only [Option.some.injEq] at hy
            subst hy
            exact absurd ((isInteger_iff _).2 hw) hi
      · rw [if_neg hq] at h
        simp only [Except.ok.injEq] at h
        exact hzero fl h.symm (fun hx => hq hx.2)
  · rw [if_neg hc] at h
    simp only [Except.ok.injEq] at h
    exact hzero fl h.symm (fun hx => hc hx.1)

theorem lt_of_get {α : Type} {l : List α} {j : Nat} {x : α} (h : l[j]? = some x) : j < l.length := by
  by_contra hc
  rw [List.getElem?_eq_none (by omega)] at h
  simp at h

/-- C42. When `find_repeated_values` returns, every report has a `rep` flag of 0 or 1; it is 1 exactly when the
voyage has more than `min_count` values of the variable, the report has one, and the fraction of values equal
to it (as printed) exceeds the threshold.  So reports without a value are never flagged.  Nothing else about
the reports changes. -/
theorem C42_repeated (rnd : Rat → Rat) (minCount : Int) (threshold : Rat) (t : String) (v v' : List Report)
    (h : findRepeated rnd minCount threshold t v = .ok v') :
    v'.length = v.length ∧ ∀ (j : Nat) (r r' : Report), v[j]? = some r → v'[j]? = some r' →
      (r'.getQc t "rep" = 0 ∨ r'.getQc t "rep" = 1)
        ∧ (r'.getQc t "rep" = 1 ↔ ((valuesOf v t).length : Int) > minCount ∧ ∃ x, r.getvar t = some x
            ∧ (sameCount rnd (valuesOf v t) x : Rat) / (valuesOf v t).length > threshold)
        ∧ r' = { r with qc := r'.qc } ∧ ∀ k, k ≠ t ++ "rep" → r'.qc k = r.qc k := by
  unfold findRepeated at h
  cases h1 : repeatedFlags rnd minCount threshold t v with
  | error e => rw [h1] at h; simp at h
  | ok fl =>
    rw [h1, except_bind_ok] at h
    obtain ⟨g1, g2⟩ := repeatedFlags_spec h1
    obtain ⟨w1, w2⟩ := writeFlags_spec g1 h
    refine ⟨w1, fun j r r' hr hr' => ?_⟩
    obtain ⟨⟨x, hx1, hx2⟩, w3, w4⟩ := w2 j r r' hr hr'
    obtain ⟨p1, p2⟩ := g2 j r hr
    rw [hx1] at p1 p2
    simp only [Option.some.injEq] at p1 p2
    rw [hx2]
    exact ⟨p1, p2, w3, w4⟩

/-- C42. When `find_multiple_rounded_values` returns, every report has a `round` flag of 0 or 1; it is 1 exactly
when the voyage has more than `min_count` values of the variable, the report's value (as printed) is a whole
number, and whole numbers make up at least the threshold fraction of the values.  So reports without a value
are never flagged.  Nothing else about the reports changes. -/
theorem C42_rounded (rnd : Rat → Rat) (minCount : Int) (threshold : Rat) (t : String) (v v' : List Report)
    (h : findMultipleRounded rnd minCount threshold t v = .ok v') :
    v'.length = v.length ∧ ∀ (j : Nat) (r r' : Report), v[j]? = some r → v'[j]? = some r' →
      (r'.getQc t "round" = 0 ∨ r'.getQc t "round" = 1)
        ∧ (r'.getQc t "round" = 1 ↔ ((valuesOf v t).length : Int) > minCount
            ∧ (∃ x, r.getvar t = some x ∧ Whole (rnd x))
            ∧ (wholeCount rnd (valuesOf v t) : Rat) / (valuesOf v t).length ≥ threshold)
        ∧ r' = { r with qc := r'.qc } ∧ ∀ k, k ≠ t ++ "round" → r'.qc k = r.qc k := by
  unfold findMultipleRounded at h
  cases h1 : roundedFlags rnd minCount threshold t v with
  | error e => rw [h1] at h; simp at h
  | ok fl =>
    rw [h1, except_bind_ok] at h
    obtain ⟨g1, g2⟩ := roundedFlags_spec h1
    obtain ⟨w1, w2⟩ := writeFlags_spec g1 h
    refine ⟨w1, fun j r r' hr hr' => ?_⟩
    obtain ⟨⟨x, hx1, hx2⟩, w3, w4⟩ := w2 j r r' hr hr'
    obtain ⟨p1, p2⟩ := g2 j r hr
    rw [hx1] at p1 p2
    simp only [Option.some.injEq] at p1 p2
    rw [hx2]
    exact ⟨p1, p2, w3, w4⟩

/-- C42. Neither check raises for an allowed variable, a threshold between 0 and 1 and a minimum count that is
not negative. -/
theorem C42_completes (rnd : Rat → Rat) (minCount : Int) (threshold : Rat) (t : String) (v : List Report)
    (ht : t ∈ ["SST", "AT", "AT2", "DPT"]) (h0 : 0 ≤ threshold) (h1 : threshold ≤ 1) (hm : 0 ≤ minCount) :
    (∃ v', findRepeated rnd minCount threshold t v = .ok v')
      ∧ ∃ v', findMultipleRounded rnd minCount threshold t v = .ok v' := by
  have ht2 : t ∈ ["SST", "AT", "AT2", "DPT", "SLP"] := by
    simp only [List.mem_cons, List.not_mem_nil, or_false] at ht ⊢; tauto
  have htype : t ∈ specialQcTypes ∨ t ∈ VARLIST := by
    simp only [List.mem_cons, List.not_mem_nil, or_false] at ht
    rcases ht with rfl | rfl | rfl | rfl <;> decide
  constructor
  · have : ∃ fl, repeatedFlags rnd minCount threshold t v = .ok fl := by
      unfold repeatedFlags
      rw [pyAssert_bind, pyAssert_bind, if_pos (by simpa using ht2), if_pos (by simp [h0, h1])]
      simp only [except_pure]
      split <;> exact ⟨_, rfl⟩
    obtain ⟨fl, hfl⟩ := this
    obtain ⟨g1, g2⟩ := repeatedFlags_spec hfl
    unfold findRepeated
    rw [hfl, except_bind_ok]
    refine writeFlags_ok htype ?_
    intro x hx
    obtain ⟨j, hj, rfl⟩ := List.mem_iff_getElem.1 hx
    have hr : v[j]? = some (v[j]'(by omega)) := List.getElem?_eq_getElem (by omega)
    rcases (g2 j _ hr).1 with h | h <;>
    · rw [List.getElem?_eq_getElem hj, Option.some.injEq] at h
      omega
  · have : ∃ fl, roundedFlags rnd minCount threshold t v = .ok fl := by
      unfold roundedFlags
      rw [pyAssert_bind, pyAssert_bind, if_pos (by simpa using ht), if_pos (by simp [h0, h1])]
      simp only [except_pure]
      split
      · rename_i hc
        rw [if_neg (by intro h; rw [h] at hc; simp at hc; omega)]
        split <;> exact ⟨_, rfl⟩
      · exact ⟨_, rfl⟩
    obtain ⟨fl, hfl⟩ := this
    obtain ⟨g1, g2⟩ := roundedFlags_spec hfl
    unfold findMultipleRounded
    rw [hfl, except_bind_ok]
    refine writeFlags_ok htype ?_
    intro x hx
    obtain ⟨j, hj, rfl⟩ := List.mem_iff_getElem.1 hx
    have hr : v[j]? = some (v[j]'(by omega)) := List.getElem?_eq_getElem (by omega)
    rcases (g2 j _ hr).1 with h | h <;>
    · rw [List.getElem?_eq_getElem hj, Option.some.injEq] at h
      omega

/-- A report with an SST or without, for examples. -/
def sampleSst (x : Option Rat) : Report :=
  sampleRep "SHIP" (match x with | some x => [("SST", x)] | none => [])

/-- Non-vacuity: five values, three of them equal; three of them whole. -/
example : repeatedFlags id 4 (1 / 2) "SST"
      ([some 10, some 10, none, some 10, some (21 / 2), some (23 / 2)].map sampleSst) = .ok [1, 1, 0, 1, 0, 0]
    ∧ roundedFlags id 4 (3 / 5) "SST"
      ([some 10, some 11, none, some 12, some (21 / 2), some (23 / 2)].map sampleSst) = .ok [1, 1, 0, 1, 0, 0]
    ∧ repeatedFlags id 5 (1 / 2) "SST"
      ([some 10, some 10, none, some 10, some (21 / 2), some (23 / 2)].map sampleSst)
        = .ok [0, 0, 0, 0, 0, 0] := by
  decide +kernel

end MarineQC
