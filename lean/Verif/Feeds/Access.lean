import Verif.Feeds.Props
import Verif.Voyage.Links

/-!
# C142: test records, and C143: the accessors of a voyage
-/

namespace MarineQC

namespace Spec

/-- The column `i` holds a text that reads as `x`. -/
def Column (num : List Char → Option Rat) (line : List (List Char)) (i : Nat) (x : Rat) : Prop :=
  ∃ s, line[i]? = some s ∧ num s = some x

/-- A number that stands for itself, or -32768 for a missing value. -/
def OrMissing (x : Rat) (v : Option Rat) : Prop := (x = -32768 → v = none) ∧ (x ≠ -32768 → v = some x)

/-- The whole number that is left when the digits after the point are cut off. -/
def CutOff (x : Rat) (n : Int) : Prop := |(n : Rat)| ≤ |x| ∧ |x - n| < 1

end Spec

open Spec

theorem pyIndex_nat {α : Type} (l : List α) (n : Nat) (i : Int) (hi : i = n) (x : α) :
    pyIndex l i = .ok x ↔ l[n]? = some x := by
  subst hi
  unfold pyIndex
  simp only [Nat.cast_nonneg, not_lt.2, if_false, Int.toNat_natCast]
  cases l[n]? <;> simp

theorem column_iff (num : List Char → Option Rat) (line : List (List Char)) (n : Nat) (i : Int) (hi : i = n) (x : Rat) :
    ((pyIndex line i).bind fun s => parsed (num s)) = .ok x ↔ Column num line n x := by
  have := bind_ok_iff (x := pyIndex line i) (f := fun s => parsed (num s)) (y := x)
  rw [show ((pyIndex line i).bind fun s => parsed (num s)) = (pyIndex line i >>= fun s => parsed (num s)) from rfl, this]
  simp only [pyIndex_nat line n i hi, parsed_ok]
  rfl

theorem missing_iff (x : Rat) (v : Option Rat) : missing32768 x = v ↔ OrMissing x v := by
  unfold missing32768 OrMissing
  by_cases h : x = -32768
  · simp [h, eq_comm]
  · simp [h, eq_comm]

theorem pyInt_iff (x : Rat) (n : Int) : pyInt x = n ↔ CutOff x n := by
  unfold pyInt CutOff
  by_cases h : 0 ≤ x
  · rw [if_pos h, Int.floor_eq_iff, abs_of_nonneg h, abs_le, abs_lt]
    constructor
    · rintro ⟨h1, h2⟩
      have : (-1 : Int) < n := by
        have : (-1 : Rat) < n := by linarith
        exact_mod_cast this
      have h0 : (0 : Rat) ≤ n := by
        have : 0 ≤ n := by omega
        exact_mod_cast this
      exact ⟨⟨by linarith, h1⟩, by linarith, by linarith⟩
    · rintro ⟨⟨h1, h2⟩, h3, h4⟩
      exact ⟨h2, by linarith⟩
  · rw [if_neg h, Int.ceil_eq_iff]
    push Not at h
    rw [abs_of_neg h, abs_le, abs_lt]
    constructor
    · rintro ⟨h1, h2⟩
      have : n < 1 := by
        have : (n : Rat) < 1 := by linarith
        exact_mod_cast this
      have h0 : (n : Rat) ≤ 0 := by
        have : n ≤ 0 := by omega
        exact_mod_cast this
      exact ⟨⟨by linarith, by linarith⟩, by linarith, by linarith⟩
    · rintro ⟨⟨h1, h2⟩, h3, h4⟩
      exact ⟨by linarith, by linarith⟩

/-- C142. A record is read from a list of texts exactly if columns 1 to 8 and 12 are there and, from the third on, can be
read as numbers.  The first two are the identifiers; year, month and day are cut off to whole numbers; -32768 means a
missing hour or temperature, and only there. -/
theorem C142_record (num : List Char → Option Rat) (line : List (List Char)) (r : TestRecord) :
    testRead num line = .ok r ↔
      line[0]? = some r.id ∧ line[1]? = some r.uid ∧ Column num line 2 r.lat ∧ Column num line 3 r.lon ∧
      (∃ x, Column num line 4 x ∧ CutOff x r.yr) ∧ (∃ x, Column num line 5 x ∧ CutOff x r.mo) ∧
      (∃ x, Column num line 6 x ∧ CutOff x r.dy) ∧ (∃ x, Column num line 7 x ∧ OrMissing x r.hr) ∧
      ∃ x, Column num line 11 x ∧ OrMissing x r.sst := by
  unfold testRead
  simp only [bind_ok_iff, pyIndex_nat line 0 0 rfl, pyIndex_nat line 1 1 rfl, column_iff num line 2 2 rfl,
    column_iff num line 3 3 rfl, column_iff num line 4 4 rfl, column_iff num line 5 5 rfl, column_iff num line 6 6 rfl,
    column_iff num line 7 7 rfl, column_iff num line 11 11 rfl, except_pure, Except.ok.injEq, ← missing_iff, ← pyInt_iff]
  constructor
  · rintro ⟨a, ha, b, hb, c, hc, d, hd, e, he, f, hf, g, hg, h, hh, k, hk, rfl⟩
    exact ⟨ha, hb, hc, hd, ⟨e, he, rfl⟩, ⟨f, hf, rfl⟩, ⟨g, hg, rfl⟩, ⟨h, hh, rfl⟩, k, hk, rfl⟩
  · rintro ⟨ha, hb, hc, hd, ⟨e, he, e1⟩, ⟨f, hf, e2⟩, ⟨g, hg, e3⟩, ⟨h, hh, e4⟩, k, hk, e5⟩
    refine ⟨_, ha, _, hb, _, hc, _, hd, e, he, f, hf, g, hg, h, hh, k, hk, ?_⟩
    rw [e1, e2, e3, e4, e5]

/-- Non-vacuity: a record with hour and temperature missing. -/
example : testRead (fun s => if s = "-32768".toList then some (-32768) else if s = "2003.0".toList then some 2003
      else some 5)
    (["A", "U", "5", "5", "2003.0", "5", "5", "-32768", "x", "x", "x", "-32768"].map String.toList) =
      .ok ⟨['A'], ['U'], 5, 5, 2003, 5, 5, none, none⟩ := by decide +kernel

/-! ## Voyages -/

/-- The report that an index means: from the start, or negative from the end. -/
def Spec.IndexMeans (n : Nat) (i : Int) (k : Nat) : Prop := k < n ∧ (i = k ∨ i = (k : Int) - n)

theorem pyIndex_means {α : Type} (v : List α) (i : Int) (x : α) :
    pyIndex v i = .ok x ↔ ∃ k, IndexMeans v.length i k ∧ v[k]? = some x := by
  have place : ∀ k, IndexMeans v.length i k → (if i < 0 then i + (v.length : Int) else i) = k := by
    rintro k ⟨h1, h2 | h2⟩ <;> split <;> omega
  unfold pyIndex
  dsimp only
  generalize hj : (if i < 0 then i + (v.length : Int) else i) = j at place
  constructor
  · intro h
    by_cases hn : j < 0
    · rw [if_pos hn] at h; cases h
    · rw [if_neg hn] at h
      cases hx : v[j.toNat]? with
      | none => rw [hx] at h; cases h
      | some y =>
        rw [hx] at h
        injection h with h
        subst h
        refine ⟨j.toNat, ⟨(List.getElem?_eq_some_iff.1 hx).1, ?_⟩, hx⟩
        split at hj
        · right; omega
        · left; omega
  · rintro ⟨k, hk, hx⟩
    have := place k hk
    rw [this, if_neg (by omega), Int.toNat_natCast, hx]

theorem pyIndex_out {α : Type} (v : List α) (i : Int) (h : ∀ k, ¬ IndexMeans v.length i k) : pyIndex v i = .error .index := by
  cases hx : pyIndex v i with
  | ok x =>
    obtain ⟨k, hk, -⟩ := (pyIndex_means v i x).1 hx
    exact absurd hk (h k)
  | error e =>
    unfold pyIndex at hx
    dsimp only at hx
    generalize (if i < 0 then i + (v.length : Int) else i) = j at hx
    by_cases hn : j < 0
    · rw [if_pos hn] at hx; exact hx.symm
    · rw [if_neg hn] at hx
      cases hy : v[j.toNat]? with
      | none => rw [hy] at hx; exact hx.symm
      | some y => rw [hy] at hx; cases hx

theorem placeAt_means {n : Nat} {i : Int} {k : Nat} (h : IndexMeans n i k) : placeAt n i = k := by
  obtain ⟨h1, h2 | h2⟩ := h
  · unfold placeAt; split <;> omega
  · unfold placeAt; split <;> omega

theorem indexMeans_unique {n : Nat} {i : Int} {k k' : Nat} (h : IndexMeans n i k) (h' : IndexMeans n i k') : k = k' :=
  (placeAt_means h).symm.trans (placeAt_means h')

/-- C143. An index means the report at that place from the start, or from the end if it is negative.  Reading through the
voyage gives what that report gives; an index that means no report raises IndexError. -/
theorem C143_get (v : List Report) (i : Int) :
    (∀ k r, IndexMeans v.length i k → v[k]? = some r → voyageRep v i = .ok r ∧
      (∀ name, voyageGetvar v i name = .ok (r.getvar name)) ∧ ∀ t f, voyageGetQc v i t f = .ok (r.getQc t f)) ∧
    ((∀ k, ¬ IndexMeans v.length i k) → voyageRep v i = .error .index ∧
      (∀ name, voyageGetvar v i name = .error .index) ∧ ∀ t f, voyageGetQc v i t f = .error .index) := by
  unfold voyageRep voyageGetvar voyageGetQc
  constructor
  · intro k r hk hr
    rw [(pyIndex_means v i r).2 ⟨k, hk, hr⟩]
    exact ⟨rfl, fun _ => rfl, fun _ _ => rfl⟩
  · intro h
    rw [pyIndex_out v i h]
    exact ⟨rfl, fun _ => rfl, fun _ _ => rfl⟩

/-- C143. The last report is the last one; an empty voyage has none. -/
theorem C143_last (v : List Report) :
    (∀ r, lastRep v = .ok r ↔ v.getLast? = some r) ∧ (lastRep v = .error .index ↔ v = []) := by
  unfold lastRep
  by_cases h : v = []
  · subst h
    refine ⟨fun r => ?_, ?_⟩
    · rw [pyIndex_out [] _ (by rintro k ⟨hk, -⟩; simp at hk)]
      simp
    · rw [pyIndex_out [] _ (by rintro k ⟨hk, -⟩; simp at hk)]
      simp
  · have hn : 0 < v.length := List.length_pos_iff.2 h
    have hm : IndexMeans v.length ((v.length : Int) - 1) (v.length - 1) := ⟨by omega, .inl (by omega)⟩
    have key : pyIndex v ((v.length : Int) - 1) = .ok (v.getLast h) := by
      rw [pyIndex_means]
      refine ⟨_, hm, ?_⟩
      rw [← List.getLast?_eq_getElem?, List.getLast?_eq_some_getLast h]
    rw [key, List.getLast?_eq_some_getLast h]
    simp [h]

/-- C143. Setting a variable through the voyage does to that one report what setting it there does, raises what that
raises, and leaves all other reports alone; an index that means no report raises IndexError and changes nothing. -/
theorem C143_setvar (v : List Report) (i : Int) (name : String) (x : Option Rat) :
    (∀ k r, IndexMeans v.length i k → v[k]? = some r →
      (voyageSetvar v i name x).2 = (r.setvar name x).2 ∧ (voyageSetvar v i name x).1.length = v.length ∧
      ∀ j, (voyageSetvar v i name x).1[j]? = if j = k then some (r.setvar name x).1 else v[j]?) ∧
    ((∀ k, ¬ IndexMeans v.length i k) → voyageSetvar v i name x = (v, some .index)) := by
  unfold voyageSetvar
  constructor
  · intro k r hk hr
    rw [(pyIndex_means v i r).2 ⟨k, hk, hr⟩]
    simp only [placeAt_means hk, List.length_set, true_and]
    intro j
    rw [List.getElem?_set]
    by_cases hj : j = k
    · subst hj
      simp [hk.1]
    · rw [if_neg (fun e => hj e.symm), if_neg hj]
  · intro h
    rw [pyIndex_out v i h]

/-- C143. Setting a flag through the voyage sets it in that one report and leaves all other reports alone; it is refused
exactly if the report refuses it. -/
theorem C143_setqc (v : List Report) (i : Int) (t f : String) (x : Int) :
    (∀ k r, IndexMeans v.length i k → v[k]? = some r →
      (∀ e, voyageSetQc v i t f x = .error e ↔ r.setQc t f x = .error e) ∧
      ∀ v', voyageSetQc v i t f x = .ok v' → v'.length = v.length ∧
        ∃ r', r.setQc t f x = .ok r' ∧ ∀ j, v'[j]? = if j = k then some r' else v[j]?) ∧
    ((∀ k, ¬ IndexMeans v.length i k) → voyageSetQc v i t f x = .error .index) := by
  unfold voyageSetQc
  constructor
  · intro k r hk hr
    rw [(pyIndex_means v i r).2 ⟨k, hk, hr⟩, except_bind_ok]
    cases hs : r.setQc t f x with
    | error e => exact ⟨fun e' => by rw [except_bind_error]; simp, fun v' h => by cases h⟩
    | ok r' =>
      refine ⟨fun e => ?_, fun v' h => ?_⟩
      · simp
      · rw [except_bind_ok, except_pure, Except.ok.injEq, placeAt_means hk] at h
        subst h
        refine ⟨List.length_set, r', rfl, fun j => ?_⟩
        rw [List.getElem?_set]
        by_cases hj : j = k
        · subst hj
          simp [hk.1]
        · rw [if_neg (fun e => hj e.symm), if_neg hj]
  · intro h
    rw [pyIndex_out v i h]
    rfl

/-- C143. What was set is read back, with any index that means the same report, and for the other reports what was there
before; for a variable that is stored as it is.  This holds also when setting an hour raises. -/
theorem C143_readback (v : List Report) (i : Int) (name : String) (x : Option Rat) (hv : name ∈ VARLIST)
    (hi : name ∉ intVars) (k : Nat) (hk : IndexMeans v.length i k) (i' : Int) (k' : Nat) (hk' : IndexMeans v.length i' k') :
    voyageGetvar (voyageSetvar v i name x).1 i' name = if k' = k then .ok x else voyageGetvar v i' name := by
  obtain ⟨r, hr⟩ : ∃ r, v[k]? = some r := ⟨_, List.getElem?_eq_getElem hk.1⟩
  obtain ⟨r', hr'⟩ : ∃ r', v[k']? = some r' := ⟨_, List.getElem?_eq_getElem hk'.1⟩
  obtain ⟨-, h2, h3⟩ := (C143_setvar v i name x).1 k r hk hr
  have hm : IndexMeans (voyageSetvar v i name x).1.length i' k' := by rw [h2]; exact hk'
  by_cases e : k' = k
  · rw [if_pos e]
    subst e
    have := h3 k'
    rw [if_pos rfl] at this
    rw [((C143_get _ i').1 k' _ hm this).2.1, getvar_of_mem hv hi]
    congr 1
    unfold Report.setvar
    rw [if_pos hv]
    dsimp only
    split
    · split <;> simp
    · simp
  · rw [if_neg e]
    have := h3 k'
    rw [if_neg e, hr'] at this
    rw [((C143_get _ i').1 k' _ hm this).2.1, ((C143_get v i').1 k' _ hk' hr').2.1]

/-- Non-vacuity: the last of two reports, by the indices 1 and -1; index 2 means none. -/
example : IndexMeans 2 1 1 ∧ IndexMeans 2 (-1) 1 ∧ ∀ k, ¬ IndexMeans 2 2 k := by
  refine ⟨⟨by decide, .inl rfl⟩, ⟨by decide, .inr rfl⟩, ?_⟩
  rintro k ⟨h1, h2⟩
  omega

/-- C143. Setting a variable never changes what is stored about the way from the report before: speed, course, distance
and time difference are those of the former position and time until the voyage is sorted. -/
theorem C143_stale (v : List Report) (i : Int) (name : String) (x : Option Rat) (j : Nat) (key : String) :
    ((voyageSetvar v i name x).1[j]?).map (·.getext key) = (v[j]?).map (·.getext key) := by
  by_cases h : ∃ k, IndexMeans v.length i k
  · obtain ⟨k, hk⟩ := h
    obtain ⟨r, hr⟩ : ∃ r, v[k]? = some r := ⟨_, List.getElem?_eq_getElem hk.1⟩
    rw [((C143_setvar v i name x).1 k r hk hr).2.2 j]
    by_cases e : j = k
    · subst e
      rw [if_pos rfl, hr]
      simp only [Option.map_some, Option.some.injEq]
      unfold Report.setvar
      split
      · dsimp only
        split
        · split <;> rfl
        · rfl
      · rfl
    · rw [if_neg e]
  · push Not at h
    rw [(C143_setvar v i name x).2 h]

/-- Two reports, two hours and 20 kilometres apart; after the second is moved to the place of the first, the stored
distance is still 20. -/
theorem C143_stale_violation :
    ((do
      let v ← [sampleAt 2 0 10, sampleAt 6 0 30].foldlM (addReport flatGeo) []
      let w := (voyageSetvar v (-1) "LON" (some 10)).1
      return w.map fun r => (r.getvar "LON", r.getext "distance")) : Except Err _)
    = .ok [(some 10, .ok none), (some 10, .ok (some 20))] := by
  decide +kernel

end MarineQC
