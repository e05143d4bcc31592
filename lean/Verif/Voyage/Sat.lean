import Verif.Voyage.Links

/-!
# C41: saturated runs
-/

namespace MarineQC

namespace Spec

/-- The report at a position of a voyage is saturated: dew point and air temperature are reported and
equal. -/
def SatAt (v : List Report) (i : Nat) : Prop :=
  ∃ r x, v[i]? = some r ∧ r.getvar "AT" = some x ∧ r.getvar "DPT" = some x

/-- Positions `a` to `b` are a maximal run of saturated reports. -/
def SatRun (v : List Report) (a b : Nat) : Prop :=
  a ≤ b ∧ (∀ i, a ≤ i → i ≤ b → SatAt v i) ∧ (a = 0 ∨ ¬ SatAt v (a - 1)) ∧ ¬ SatAt v (b + 1)

/-- The time in hours from the report at position `a` to that at `b` is at least `t`. -/
def LastsAtLeast (G : Geo) (v : List Report) (a b : Nat) (t : Rat) : Prop :=
  ∃ ra rb d, v[a]? = some ra ∧ v[b]? = some rb ∧ rb.sub G ra = .ok d ∧ t ≤ d.tdiff

/-- The report belongs to a maximal saturated run of more than `shortest` reports lasting at least `t`
hours. -/
def InLongSatRun (G : Geo) (v : List Report) (t : Rat) (shortest : Int) (i : Nat) : Prop :=
  ∃ a b : Nat, SatRun v a b ∧ a ≤ i ∧ i ≤ b ∧ (b : Int) - a + 1 > shortest ∧ LastsAtLeast G v a b t

end Spec

open Spec

theorem saturated_iff (r : Report) :
    r.saturated = true ↔ ∃ x, r.getvar "AT" = some x ∧ r.getvar "DPT" = some x := by
  unfold Report.saturated
  rw [decide_eq_true_eq]
  cases h1 : r.getvar "AT" with
  | none => simp
  | some x => cases h2 : r.getvar "DPT" <;> simp [eq_comm]

theorem satAt_iff {v : List Report} {i : Nat} {r : Report} (h : v[i]? = some r) :
    SatAt v i ↔ r.saturated = true := by
  rw [saturated_iff]
  constructor
  · rintro ⟨r', x, h1, h2⟩
    rw [h] at h1
    simp only [Option.some.injEq] at h1
    subst h1
    exact ⟨x, h2⟩
  · rintro ⟨x, h2⟩
    exact ⟨r, x, h, h2⟩

/-- Two maximal runs with a common report are the same. -/
theorem satRun_unique {v : List Report} {a b a' b' j : Nat} (h : SatRun v a b) (h' : SatRun v a' b')
    (ha : a ≤ j) (hb : j ≤ b) (ha' : a' ≤ j) (hb' : j ≤ b') : a = a' ∧ b = b' := by
  obtain ⟨h1, h2, h3, h4⟩ := h
  obtain ⟨g1, g2, g3, g4⟩ := h'
  constructor
  · rcases Nat.lt_trichotomy a a' with h | h | h
    · rcases g3 with g3 | g3
      · omega
      · exact absurd (h2 (a' - 1) (by omega) (by omega)) g3
    · exact h
    · rcases h3 with h3 | h3
      · omega
      · exact absurd (g2 (a - 1) (by omega) (by omega)) h3
  · rcases Nat.lt_trichotomy b b' with h | h | h
    · exact absurd (g2 (b + 1) (by omega) (by omega)) h4
    · exact h
    · exact absurd (h2 (b' + 1) (by omega) (by omega)) g4

theorem pyIndex_ok {α : Type} {l : List α} {i : Nat} {x : α} (h : pyIndex l (i : Int) = .ok x) :
    l[i]? = some x := by
  unfold pyIndex at h
  have : ¬ ((i : Int) < 0) := by omega
  simp only [this, if_false, Int.toNat_natCast] at h
  split at h
  · rename_i a ha; simp at h; rw [ha, h]
  · simp at h

theorem pyIndex_eq_ok {α : Type} {l : List α} {i : Nat} {x : α} (h : l[i]? = some x) :
    pyIndex l (i : Int) = .ok x := by
  unfold pyIndex
  have : ¬ ((i : Int) < 0) := by omega
  simp [this, h]

theorem foldl_set_length (l : List Nat) (x : Int) (fl : List Int) :
    (l.foldl (fun fl i => fl.set i x) fl).length = fl.length := by
  induction l generalizing fl with
  | nil => rfl
  | cons a l ih => rw [List.foldl_cons, ih, List.length_set]

theorem foldl_set_get (l : List Nat) (x : Int) (fl : List Int) (j : Nat) (hj : j < fl.length) :
    (l.foldl (fun fl i => fl.set i x) fl)[j]? = if j ∈ l then some x else fl[j]? := by
  induction l generalizing fl with
  | nil => simp
  | cons a l ih =>
    rw [List.foldl_cons, ih _ (by simpa using hj), List.getElem?_set]
    by_cases h1 : j ∈ l
    · simp [h1]
    · by_cases h2 : a = j
      · subst h2; simp [h1, hj]
      · have : ¬ j = a := fun h => h2 h.symm
        simp [h1, h2, this]

open Classical in
/-- What closing the run `a … k - 1` does. -/
theorem closeRun_spec {G : Geo} {t : Rat} {shortest : Int} {v : List Report} {a k : Nat} (hak : a < k)
    {fl fl' : List Int} (hfl : fl.length = v.length)
    (h : closeRun G t shortest v (List.range' a (k - a)) fl = .ok fl') :
    fl'.length = v.length ∧ ∀ j, j < v.length → fl'[j]? =
      if a ≤ j ∧ j < k ∧ (k : Int) - a > shortest ∧ LastsAtLeast G v a (k - 1) t then some 1 else fl[j]? := by
  unfold closeRun at h
  rw [List.length_range'] at h
  have hkc : ((k - a : Nat) : Int) = (k : Int) - a := by omega
  rw [hkc] at h
  by_cases hs : (k : Int) - a > shortest
  · rw [if_pos hs] at h
    have hh : (List.range' a (k - a)).head? = some a := by
      rw [List.head?_range', if_neg (by omega)]
    have hl : (List.range' a (k - a)).getLast? = some (k - 1) := by
      rw [List.getLast?_range', if_neg (by omega)]
      simp; omega
    rw [hh, hl] at h
    simp only at h
    cases e1 : pyIndex v (a : Int) with
    | error e => simp [e1] at h
    | ok ra =>
    cases e2 : pyIndex v ((k - 1 : Nat) : Int) with
    | error e => simp [e1, e2] at h
    | ok rb =>
    cases e3 : rb.sub G ra with
    | error e => simp [e1, e2, e3] at h
    | ok d =>
    simp only [e1, e2, e3, except_bind_ok, except_pure, Except.ok.injEq] at h
    have hL : LastsAtLeast G v a (k - 1) t ↔ t ≤ d.tdiff := by
      constructor
      · rintro ⟨ra', rb', d', f1, f2, f3, f4⟩
        rw [pyIndex_ok e1] at f1
        rw [pyIndex_ok e2] at f2
        simp only [Option.some.injEq] at f1 f2
        subst f1; subst f2
        rw [e3] at f3
        simp only [Except.ok.injEq] at f3
        subst f3
        exact f4
      · intro f; exact ⟨ra, rb, d, pyIndex_ok e1, pyIndex_ok e2, e3, f⟩
    by_cases hd : d.tdiff ≥ t
    · rw [if_pos hd] at h
      subst h
      refine ⟨by rw [foldl_set_length, hfl], fun j hj => ?_⟩
      rw [foldl_set_get _ _ _ _ (by omega)]
      have hm : j ∈ List.range' a (k - a) ↔ a ≤ j ∧ j < k := by
        rw [List.mem_range'_1]; omega
      by_cases hj2 : a ≤ j ∧ j < k
      · rw [if_pos (hm.2 hj2), if_pos ⟨hj2.1, hj2.2, hs, hL.2 hd⟩]
      · rw [if_neg (fun hc => hj2 (hm.1 hc)), if_neg (fun hc => hj2 ⟨hc.1, hc.2.1⟩)]
    · rw [if_neg hd] at h
      subst h
      refine ⟨hfl, fun j hj => ?_⟩
      rw [if_neg (fun hc => hd (hL.1 hc.2.2.2))]
  · rw [if_neg hs] at h
    simp only [Except.ok.injEq] at h
    subst h
    exact ⟨hfl, fun j hj => by rw [if_neg (fun hc => hs hc.2.2.1)]⟩

/-- Closing no run at all. -/
theorem closeRun_nil {G : Geo} {t : Rat} {shortest : Int} {v : List Report} {fl fl' : List Int}
    (h : closeRun G t shortest v [] fl = .ok fl') : fl' = fl := by
  unfold closeRun at h
  split at h
  · simp at h
  · simp only [Except.ok.injEq] at h; exact h.symm

/-- The state after `k` reports. -/
structure SatInv (G : Geo) (t : Rat) (shortest : Int) (v : List Report) (k : Nat)
    (s : List Nat × List Int) : Prop where
  len : s.2.length = v.length
  run : ∃ a, a ≤ k ∧ s.1 = List.range' a (k - a) ∧ (∀ i, a ≤ i → i < k → SatAt v i)
    ∧ (a = 0 ∨ ¬ SatAt v (a - 1))
    ∧ ∀ j, j < k → (s.2[j]? = some 1 ∨ s.2[j]? = some 0)
        ∧ (s.2[j]? = some 1 ↔ InLongSatRun G v t shortest j ∧ j < a)

/-- Closing the current run at position `k` settles all flags before `k`. -/
theorem settle {G : Geo} {t : Rat} {shortest : Int} {v : List Report} {k : Nat} (hk : k ≤ v.length)
    {s : List Nat × List Int} (hI : SatInv G t shortest v k s) (hns : ¬ SatAt v k)
    {fl0 fl : List Int} (hl0 : fl0.length = v.length) (h0 : ∀ j, j < k → fl0[j]? = s.2[j]?)
    (h : closeRun G t shortest v s.1 fl0 = .ok fl) :
    fl.length = v.length ∧ (∀ j, j < k → (fl[j]? = some 1 ∨ fl[j]? = some 0)
        ∧ (fl[j]? = some 1 ↔ InLongSatRun G v t shortest j))
      ∧ ∀ j, k ≤ j → j < v.length → fl[j]? = fl0[j]? := by
  obtain ⟨a, hak, hs1, hrun, hstart, hfl⟩ := hI.run
  rw [hs1] at h
  rcases Nat.lt_or_ge a k with hlt | hge
  · obtain ⟨hlen, hset⟩ := closeRun_spec hlt hl0 h
    have hR : SatRun v a (k - 1) := by
      refine ⟨by omega, fun i h1 h2 => hrun i h1 (by omega), hstart, ?_⟩
      have : k - 1 + 1 = k := by omega
      rw [this]; exact hns
    refine ⟨hlen, fun j hj => ?_, fun j hj hj2 => ?_⟩
    · rw [hset j (by omega)]
      by_cases hja : a ≤ j
      · have hF : InLongSatRun G v t shortest j ↔ (k : Int) - a > shortest ∧ LastsAtLeast G v a (k - 1) t := by
          constructor
          · rintro ⟨a', b', r1, r2, r3, r4, r5⟩
            obtain ⟨rfl, rfl⟩ := satRun_unique hR r1 hja (by omega) r2 r3
            exact ⟨by omega, r5⟩
          · rintro ⟨r4, r5⟩
            exact ⟨a, k - 1, hR, hja, by omega, by omega, r5⟩
        by_cases hc : (k : Int) - a > shortest ∧ LastsAtLeast G v a (k - 1) t
        · rw [if_pos ⟨hja, hj, hc.1, hc.2⟩]
          exact ⟨Or.inl rfl, ⟨fun _ => hF.2 hc, fun _ => rfl⟩⟩
        · rw [if_neg (fun hx => hc ⟨hx.2.2.1, hx.2.2.2⟩), h0 j hj]
          obtain ⟨g1, g2⟩ := hfl j hj
          have : ¬ s.2[j]? = some 1 := fun hx => by have := (g2.1 hx).2; omega
          refine ⟨g1, ⟨fun hx => absurd hx this, fun hx => absurd (hF.1 hx) hc⟩⟩
      · rw [if_neg (fun hx => hja hx.1), h0 j hj]
        obtain ⟨g1, g2⟩ := hfl j hj
        refine ⟨g1, ⟨fun hx => (g2.1 hx).1, fun hx => g2.2 ⟨hx, by omega⟩⟩⟩
    · rw [hset j hj2, if_neg (by omega)]
  · have hka : k - a = 0 := by omega
    rw [hka] at h
    have := closeRun_nil h
    subst this
    refine ⟨hl0, fun j hj => ?_, fun j _ _ => rfl⟩
    rw [h0 j hj]
    obtain ⟨g1, g2⟩ := hfl j hj
    refine ⟨g1, ⟨fun hx => (g2.1 hx).1, fun hx => g2.2 ⟨hx, by omega⟩⟩⟩

theorem satStep_inv {G : Geo} {t : Rat} {shortest : Int} {v : List Report} {k : Nat} {r : Report}
    (hr : v[k]? = some r) {s s' : List Nat × List Int} (hI : SatInv G t shortest v k s)
    (h : satStep G t shortest v s (r, k) = .ok s') : SatInv G t shortest v (k + 1) s' := by
  have hk : k < v.length := by
    by_contra hc
    rw [List.getElem?_eq_none (by omega)] at hr
    simp at hr
  unfold satStep at h
  simp only at h
  by_cases hsat : r.saturated = true
  · rw [if_pos hsat] at h
    simp only [Except.ok.injEq] at h
    subst h
    obtain ⟨a, hak, hs1, hrun, hstart, hfl⟩ := hI.run
    refine ⟨by simp [hI.len], a, by omega, ?_, ?_, hstart, ?_⟩
    · show s.1 ++ [k] = _
      rw [hs1]
      have e1 : k + 1 - a = (k - a) + 1 := by omega
      rw [e1, List.range'_concat]
      congr 2
      omega
    · intro i h1 h2
      rcases Nat.lt_or_ge i k with h3 | h3
      · exact hrun i h1 h3
      · have : i = k := by omega
        subst this
        exact (satAt_iff hr).2 hsat
    · intro j hj
      show (_ ∨ _) ∧ _
      rw [List.getElem?_set]
      rcases Nat.lt_or_ge j k with h3 | h3
      · rw [if_neg (by omega)]
        exact hfl j h3
      · have : k = j := by omega
        subst this
        rw [if_pos rfl, if_pos (by rw [hI.len]; exact hk)]
        refine ⟨Or.inr rfl, ⟨fun hx => by simp at hx, fun hx => by omega⟩⟩
  · rw [if_neg hsat] at h
    have hns : ¬ SatAt v k := fun hc => hsat ((satAt_iff hr).1 hc)
    cases hc : closeRun G t shortest v s.1 (s.2.set k 0) with
    | error e => simp [hc] at h
    | ok fl =>
      simp only [hc, except_bind_ok, except_pure, Except.ok.injEq] at h
      subst h
      obtain ⟨h1, h2, h3⟩ := settle (by omega) hI hns (by simp [hI.len])
        (fun j hj => by rw [List.getElem?_set, if_neg (by omega)]) hc
      refine ⟨h1, k + 1, by omega, by simp, fun i h1 h2 => by omega, Or.inr (by simpa using hns), ?_⟩
      intro j hj
      rcases Nat.lt_or_ge j k with hj2 | hj2
      · obtain ⟨g1, g2⟩ := h2 j hj2
        exact ⟨g1, ⟨fun hx => ⟨g2.1 hx, hj⟩, fun hx => g2.2 hx.1⟩⟩
      · have : k = j := by omega
        subst this
        show (fl[k]? = _ ∨ _) ∧ _
        rw [h3 k (by omega) hk, List.getElem?_set, if_pos rfl, if_pos (by rw [hI.len]; exact hk)]
        refine ⟨Or.inr rfl, ⟨fun hx => by simp at hx, ?_⟩⟩
        rintro ⟨⟨a, b, r1, r2, r3, -, -⟩, -⟩
        exact absurd (r1.2.1 k r2 r3) hns

theorem satFold_inv {G : Geo} {t : Rat} {shortest : Int} {v : List Report} (l : List Report) (k : Nat)
    (hl : v.drop k = l) {s s' : List Nat × List Int} (hI : SatInv G t shortest v k s)
    (h : (l.zipIdx k).foldlM (satStep G t shortest v) s = .ok s') : SatInv G t shortest v (k + l.length) s' := by
  induction l generalizing k s with
  | nil =>
    simp only [List.zipIdx_nil, List.foldlM_nil, except_pure, Except.ok.injEq] at h
    subst h
    exact hI
  | cons r l ih =>
    rw [List.zipIdx_cons, List.foldlM_cons] at h
    have hr : v[k]? = some r := by
      have := congrArg (fun l => l[0]?) hl
      simpa using this
    cases h1 : satStep G t shortest v s (r, k) with
    | error e => rw [h1] at h; simp at h
    | ok s1 =>
      rw [h1, except_bind_ok] at h
      have hl2 : v.drop (k + 1) = l := by
        have := congrArg List.tail hl
        simpa using this
      have := ih (k + 1) hl2 (satStep_inv hr hI h1) h
      rw [List.length_cons]
      have e : k + (l.length + 1) = k + 1 + l.length := by omega
      rw [e]
      exact this

/-- C41, on the flags. -/
theorem saturatedFlags_spec {G : Geo} {t : Rat} {shortest : Int} {v : List Report} {fl : List Int}
    (h : saturatedFlags G t shortest v = .ok fl) :
    fl.length = v.length ∧ ∀ j, j < v.length → (fl[j]? = some 1 ∨ fl[j]? = some 0)
        ∧ (fl[j]? = some 1 ↔ InLongSatRun G v t shortest j) := by
  unfold saturatedFlags at h
  cases h1 : v.zipIdx.foldlM (satStep G t shortest v) ([], readFlags v "DPT" "repsat") with
  | error e => rw [h1] at h; simp at h
  | ok s =>
    rw [h1, except_bind_ok] at h
    have h0 : SatInv G t shortest v 0 ([], readFlags v "DPT" "repsat") :=
      ⟨by simp [readFlags], 0, by omega, by simp, fun i h1 h2 => by omega, Or.inl rfl, fun j hj => by omega⟩
    have hI := satFold_inv v 0 (by simp) h0 h1
    rw [Nat.zero_add] at hI
    have hns : ¬ SatAt v v.length := by
      rintro ⟨r, x, hr, -⟩
      rw [List.getElem?_eq_none (by omega)] at hr
      simp at hr
    obtain ⟨g1, g2, -⟩ := settle (by omega) hI hns hI.len (fun j _ => rfl) h
    exact ⟨g1, g2⟩

/-! ## Writing flags back -/

/-- `writeFlags` gives every report its flag and changes nothing else. -/
theorem writeFlags_spec {v v' : List Report} {t f : String} {fl : List Int} (hl : fl.length = v.length)
    (h : writeFlags v t f fl = .ok v') :
    v'.length = v.length ∧ ∀ (j : Nat) (r r' : Report), v[j]? = some r → v'[j]? = some r' →
      (∃ x, fl[j]? = some x ∧ r'.getQc t f = x)
        ∧ r' = { r with qc := r'.qc } ∧ ∀ k, k ≠ t ++ f → r'.qc k = r.qc k := by
  unfold writeFlags at h
  induction v generalizing fl v' with
  | nil =>
    simp only [List.zip_nil_left, List.mapM_nil, except_pure, Except.ok.injEq] at h
    subst h
    exact ⟨rfl, fun j r r' hr => by simp at hr⟩
  | cons a v ih =>
    cases fl with
    | nil => simp at hl
    | cons x fl =>
      rw [List.zip_cons_cons, List.mapM_cons] at h
      cases h1 : a.setQc t f x with
      | error e => simp [h1] at h
      | ok a' =>
        cases h2 : (v.zip fl).mapM (fun p => p.1.setQc t f p.2) with
        | error e => simp [h1, h2] at h
        | ok w =>
          simp only [h1, h2, except_bind_ok, except_pure, Except.ok.injEq] at h
          subst h
          obtain ⟨g1, g2⟩ := ih (by simpa using hl) h2
          refine ⟨by simp [g1], ?_⟩
          intro j r r' hr hr'
          cases j with
          | succ j => exact g2 j r r' (by simpa using hr) (by simpa using hr')
          | zero =>
            simp only [List.getElem?_cons_zero, Option.some.injEq] at hr hr'
            subst hr; subst hr'
            unfold Report.setQc at h1
            rw [pyAssert_bind, pyAssert_bind] at h1
            split at h1
            · split at h1
              · simp only [except_pure, Except.ok.injEq] at h1
                subst h1
                refine ⟨⟨x, by simp, by simp [Report.getQc]⟩, rfl, ?_⟩
                intro k hk
                simp [hk]
              · simp at h1
            · simp at h1

/-- `writeFlags` succeeds for digits and known types. -/
theorem writeFlags_ok {v : List Report} {t f : String} {fl : List Int}
    (ht : t ∈ specialQcTypes ∨ t ∈ VARLIST) (hf : ∀ x ∈ fl, 0 ≤ x ∧ x ≤ 9) :
    ∃ v', writeFlags v t f fl = .ok v' := by
  refine ⟨_, mapM_ok _ (fun p => { p.1 with qc := fun k => if k = t ++ f then some p.2 else p.1.qc k }) _ ?_⟩
  intro p hp
  have hx := hf p.2 (List.of_mem_zip hp).2
  unfold Report.setQc
  have h1 : decide (p.2 ∈ [0, 1, 2, 3, 4, 5, 6, 7, 8, 9]) = true := by
    rw [decide_eq_true_eq]; simp only [List.mem_cons, List.not_mem_nil, or_false]; omega
  have h2 : (decide (t ∈ specialQcTypes) || decide (t ∈ VARLIST)) = true := by
    simpa using ht
  rw [h1, h2]
  rfl

/-- C41. When `find_saturated_runs` returns, every report has a `repsat` flag of 0 or 1; it is 1 exactly for
the members of maximal runs of saturated reports that number more than the minimum and last at least the
minimum time; nothing else about the reports changes. -/
theorem C41_saturated_runs (G : Geo) (minTime : Rat) (shortest : Int) (v v' : List Report)
    (h : findSaturatedRuns G minTime shortest v = .ok v') :
    v'.length = v.length ∧ ∀ (j : Nat) (r r' : Report), v[j]? = some r → v'[j]? = some r' →
      (r'.getQc "DPT" "repsat" = 0 ∨ r'.getQc "DPT" "repsat" = 1)
        ∧ (r'.getQc "DPT" "repsat" = 1 ↔ InLongSatRun G v minTime shortest j)
        ∧ r' = { r with qc := r'.qc } ∧ ∀ k, k ≠ "DPTrepsat" → r'.qc k = r.qc k := by
  unfold findSaturatedRuns at h
  cases h1 : saturatedFlags G minTime shortest v with
  | error e => rw [h1] at h; simp at h
  | ok fl =>
    rw [h1, except_bind_ok] at h
    obtain ⟨g1, g2⟩ := saturatedFlags_spec h1
    obtain ⟨w1, w2⟩ := writeFlags_spec g1 h
    refine ⟨w1, fun j r r' hr hr' => ?_⟩
    obtain ⟨⟨x, hx1, hx2⟩, w3, w4⟩ := w2 j r r' hr hr'
    have hj : j < v.length := by
      by_contra hc
      rw [List.getElem?_eq_none (by omega)] at hr
      simp at hr
    obtain ⟨p1, p2⟩ := g2 j hj
    rw [hx1] at p1 p2
    simp only [Option.some.injEq] at p1 p2
    rw [hx2]
    exact ⟨p1.symm, p2, w3, w4⟩

/-- C41. The check does not raise on reports with position and time, whatever else they hold. -/
theorem C41_completes (G : Geo) (minTime : Rat) (shortest : Int) (hs : 0 ≤ shortest) (v : List Report)
    (hv : ∀ r ∈ v, r.Placed) : ∃ v', findSaturatedRuns G minTime shortest v = .ok v' := by
  have hclose : ∀ (sat : List Nat) (fl : List Int), (∀ i ∈ sat, i < v.length) →
      ∃ fl', closeRun G minTime shortest v sat fl = .ok fl' := by
    intro sat fl hsat
    unfold closeRun
    by_cases hc : (sat.length : Int) > shortest
    · rw [if_pos hc]
      cases sat with
      | nil => simp at hc; omega
      | cons a l =>
        obtain ⟨b, hb⟩ : ∃ b, (a :: l).getLast? = some b := ⟨_, List.getLast?_eq_some_getLast (by simp)⟩
        have ha := hsat a (by simp)
        have hb' := hsat b (List.mem_of_getLast? hb)
        rw [hb, List.head?_cons]
        simp only
        rw [pyIndex_of_nat v a ha, pyIndex_of_nat v b hb']
        obtain ⟨d, hd⟩ := sub_ok G (hv v[b] (List.getElem_mem hb')) (hv v[a] (List.getElem_mem ha))
        simp only [except_bind_ok, hd, except_pure]
        exact ⟨_, rfl⟩
    · rw [if_neg hc]; exact ⟨_, rfl⟩
  have hfold : ∀ (l : List (Report × Nat)) (s : List Nat × List Int), (∀ p ∈ l, p.2 < v.length) →
      (∀ i ∈ s.1, i < v.length) → ∃ s', l.foldlM (satStep G minTime shortest v) s = .ok s'
        ∧ ∀ i ∈ s'.1, i < v.length := by
    intro l
    induction l with
    | nil => intro s _ h2; exact ⟨s, rfl, h2⟩
    | cons p l ih =>
      intro s h1 h2
      rw [List.foldlM_cons]
      have : ∃ s', satStep G minTime shortest v s p = .ok s' ∧ ∀ i ∈ s'.1, i < v.length := by
        unfold satStep
        by_cases hsat : p.1.saturated = true
        · rw [if_pos hsat]
          refine ⟨_, rfl, ?_⟩
          intro i hi
          simp only [List.mem_append, List.mem_singleton] at hi
          rcases hi with hi | rfl
          · exact h2 i hi
          · exact h1 p (by simp)
        · rw [if_neg hsat]
          obtain ⟨fl', hfl⟩ := hclose s.1 (s.2.set p.2 0) h2
          rw [hfl]
          exact ⟨_, rfl, by simp⟩
      obtain ⟨s', e1, e2⟩ := this
      rw [e1, except_bind_ok]
      exact ih s' (fun p hp => h1 p (by simp [hp])) e2
  obtain ⟨s, e1, e2⟩ := hfold v.zipIdx ([], readFlags v "DPT" "repsat") (by
    intro p hp
    have := (List.mem_zipIdx hp).2.1
    omega) (by simp)
  obtain ⟨fl, hfl⟩ := hclose s.1 s.2 e2
  have hF : saturatedFlags G minTime shortest v = .ok fl := by
    unfold saturatedFlags
    rw [e1, except_bind_ok, hfl]
  obtain ⟨g1, g2⟩ := saturatedFlags_spec hF
  unfold findSaturatedRuns
  rw [hF, except_bind_ok]
  refine writeFlags_ok (Or.inl (by decide)) ?_
  intro x hx
  obtain ⟨j, hj, rfl⟩ := List.mem_iff_getElem.1 hx
  rcases (g2 j (by omega)).1 with h | h <;>
  · rw [List.getElem?_eq_getElem hj, Option.some.injEq] at h
    omega

/-- A saturated or unsaturated report at an hour, for examples. -/
def sampleSat (h : Rat) (sat : Bool) : Report :=
  sampleRep "SHIP" [("YR", 2000), ("MO", 1), ("DY", 1), ("HR", h), ("LAT", 0), ("LON", 0), ("AT", 10),
    ("DPT", if sat then 10 else 5)]

/-- Non-vacuity: a run of two lasting an hour is kept, a run of three lasting six hours is flagged when more
than two reports and six hours are asked for. -/
example : saturatedFlags flatGeo 6 2
    [sampleSat 0 true, sampleSat 1 true, sampleSat 2 false, sampleSat 3 true, sampleSat 6 true,
      sampleSat 9 true] = .ok [0, 0, 0, 1, 1, 1] := by
  decide +kernel

end MarineQC
