import Verif.Buoy.Fixes

/-!
# C49 aground checks
-/

namespace MarineQC

namespace Spec

/-- On a smoothed track of `m` positions, position `j` is the last one at most `maxH` hours after position `i`, and
it is at least `minH` hours after it. -/
def GroundWindow (m : Nat) (shrs : Nat → Rat) (minH maxH : Rat) (i j : Nat) : Prop :=
  i < m ∧ j < m ∧ shrs j ≤ shrs i + maxH ∧ (∀ k, j < k → k < m → shrs i + maxH < shrs k)
    ∧ minH ≤ shrs j - shrs i

/-- Position `j` is the last one of the smoothed track, and it is at least `minH` hours after position `i`. -/
def FinalWindow (m : Nat) (shrs : Nat → Rat) (minH : Rat) (i j : Nat) : Prop :=
  i < m ∧ j + 1 = m ∧ minH ≤ shrs j - shrs i

/-- The two positions are no further apart than one hundredth of a degree of latitude and longitude at the
equator. -/
def NearBy (G : Geo) (slat slon : Nat → Rat) (i j : Nat) : Prop :=
  G.dist (slat i) (slon i) (slat j) (slon j) ≤ G.dist 0 0 (1 / 100) (1 / 100)

/-- From smoothed position `g` on, the drifter does not move: there is a window starting at `g`, and over each
window starting there or later it ends near to where it started. -/
def StuckFrom (window near : Nat → Nat → Prop) (g : Nat) : Prop :=
  (∃ j, window g j) ∧ ∀ i j, g ≤ i → window i j → near i j

/-- Report `k` is aground: the drifter does not move from the first smoothed position on, or from a smoothed
position whose window has its middle at report `k` or before. -/
def AgroundAt (w : Nat) (window near : Nat → Nat → Prop) (k : Nat) : Prop :=
  ∃ g, StuckFrom window near g ∧ (g = 0 ∨ g + w / 2 ≤ k)

end Spec

open Spec

theorem pyIndex_last {α : Type} (l : List α) (x : α) (h : l.getLast? = some x) : pyIndex l (-1) = .ok x := by
  rw [List.getLast?_eq_getElem?] at h
  have hl : 0 < l.length := by
    by_contra hc
    have : l = [] := List.eq_nil_of_length_eq_zero (by omega)
    subst this
    simp at h
  unfold pyIndex
  have h1 : ¬ ((-1 : Int) + l.length < 0) := by omega
  have h2 : ((-1 : Int) + l.length).toNat = l.length - 1 := by omega
  simp [h1, h2, h]

theorem filter_getLast {α : Type} (p : α → Bool) (l : List α) (h : ∃ x ∈ l, p x = true) :
    ∃ (j : Nat) (x : α), (l.filter p).getLast? = some x ∧ l[j]? = some x ∧ p x = true
      ∧ ∀ (k : Nat) (y : α), j < k → l[k]? = some y → p y = false := by
  induction l using List.reverseRecOn with
  | nil => simp at h
  | append_singleton l a ih =>
    by_cases ha : p a = true
    · refine ⟨l.length, a, by simp [ha], by simp, ha, ?_⟩
      intro k y hk hy
      rw [List.getElem?_eq_none (by simp; omega)] at hy
      simp at hy
    · obtain ⟨x, hx, hpx⟩ := h
      have hx' : x ∈ l := by
        rcases List.mem_append.1 hx with h | h
        · exact h
        · simp only [List.mem_singleton] at h
          subst h
          exact absurd hpx ha
      obtain ⟨j, y, h1, h2, h3, h4⟩ := ih ⟨x, hx', hpx⟩
      have hj : j < l.length := by
        by_contra hc
        rw [List.getElem?_eq_none (by omega)] at h2
        simp at h2
      refine ⟨j, y, by simp [ha, h1], by rw [List.getElem?_append_left hj]; exact h2, h3, ?_⟩
      intro k z hk hz
      rcases Nat.lt_or_ge k l.length with hc | hc
      · rw [List.getElem?_append_left hc] at hz
        exact h4 k z hk hz
      · rw [List.getElem?_append_right hc] at hz
        rcases Nat.eq_or_lt_of_le hc with he | he
        · rw [← he] at hz
          simp only [Nat.sub_self, List.getElem?_cons_zero, Option.some.injEq] at hz
          subst hz
          simpa using ha
        · rw [List.getElem?_eq_none (by simp; omega)] at hz
          simp at hz

/-! ## The loop -/

/-- The positions assessed before `i` and what was found there. -/
def GroundInv (T : Nat → Option Bool) (i : Nat) : Option Nat → Prop
  | none => ∀ x, x < i → T x ≠ none → ∃ j, x ≤ j ∧ j < i ∧ T j = some false
  | some g => g < i ∧ T g ≠ none ∧ (∀ j, g ≤ j → j < i → T j ≠ none → T j = some true)
      ∧ ∀ x, x < g → T x ≠ none → ∃ j, x ≤ j ∧ j < g ∧ T j = some false

theorem groundLoop_spec {minH : Rat} (hpos : 0 < minH) {m : Nat} {F : Nat → Fix} {T : Nat → Option Bool}
    {test : Fix → Except Err (Option Bool)}
    (hmono : ∀ i j, i ≤ j → j < m → (F i).hrs ≤ (F j).hrs)
    (ht : ∀ i, i < m → minH ≤ (F (m - 1)).hrs - (F i).hrs → test (F i) = .ok (T i))
    (hn : ∀ i, ¬ (i < m ∧ minH ≤ (F (m - 1)).hrs - (F i).hrs) → T i = none)
    (k i : Nat) (g : Option Nat) (hi : i < m) (hk : m ≤ i + k) (hg : GroundInv T i g) :
    ∃ g', groundLoop minH ((List.range m).map F) test k i g = .ok g' ∧ GroundInv T m g' := by
  induction k generalizing i g with
  | zero => omega
  | succ k ih =>
    have hlast : pyIndex ((List.range m).map F) (-1) = .ok (F (m - 1)) := by
      refine pyIndex_last _ _ ?_
      rw [List.getLast?_eq_getElem?]
      simp only [List.length_map, List.length_range, List.getElem?_map]
      rw [List.getElem?_range (by omega)]
      rfl
    have hidx : pyIndex ((List.range m).map F) (i : Int) = .ok (F i) := by
      refine pyIndex_eq_ok ?_
      rw [List.getElem?_map, List.getElem?_range hi]
      rfl
    rw [groundLoop]
    simp only [hlast, hidx, except_bind_ok]
    by_cases hc : (F (m - 1)).hrs - (F i).hrs ≥ minH
    · have hi' : i + 1 < m := by
        by_contra hcon
        have : i = m - 1 := by omega
        rw [this] at hc
        simp only [sub_self, ge_iff_le] at hc
        linarith
      rw [if_pos hc, ht i hi hc, except_bind_ok]
      cases hT : T i with
      | none =>
        refine ih (i + 1) g hi' (by omega) ?_
        cases g with
        | none =>
          intro x hx hx'
          have : x ≠ i := by rintro rfl; exact hx' hT
          obtain ⟨j, h1, h2, h3⟩ := hg x (by omega) hx'
          exact ⟨j, h1, by omega, h3⟩
        | some g =>
          obtain ⟨h1, h2, h3, h4⟩ := hg
          refine ⟨by omega, h2, ?_, h4⟩
          intro j hj hj' hne
          have : j ≠ i := by rintro rfl; exact hne hT
          exact h3 j hj (by omega) hne
      | some b =>
        cases b with
        | true =>
          refine ih (i + 1) _ hi' (by omega) ?_
          cases g with
          | none =>
            refine ⟨by simp, by simp [hT], ?_, ?_⟩
            · intro j hj hj' _
              have : j = i := by simp only [Option.getD_none] at hj; omega
              rw [this]; exact hT
            · intro x hx hx'
              exact hg x hx hx'
          | some g =>
            obtain ⟨h1, h2, h3, h4⟩ := hg
            refine ⟨by simp only [Option.getD_some]; omega, h2, ?_, h4⟩
            intro j hj hj' hne
            rcases Nat.lt_or_ge j i with hc' | hc'
            · exact h3 j hj hc' hne
            · have : j = i := by omega
              rw [this]; exact hT
        | false =>
          refine ih (i + 1) none hi' (by omega) ?_
          intro x hx hx'
          exact ⟨i, by omega, by omega, hT⟩
    · rw [if_neg hc]
      refine ⟨g, rfl, ?_⟩
      have hnone : ∀ j, i ≤ j → T j = none := by
        intro j hj
        refine hn j ?_
        rintro ⟨hj', hcon⟩
        have := hmono i j hj hj'
        apply hc
        show minH ≤ _
        linarith
      cases g with
      | none =>
        intro x hx hx'
        have : x < i := by
          by_contra hcon
          exact hx' (hnone x (by omega))
        obtain ⟨j, h1, h2, h3⟩ := hg x this hx'
        exact ⟨j, h1, by omega, h3⟩
      | some g =>
        obtain ⟨h1, h2, h3, h4⟩ := hg
        refine ⟨by omega, h2, ?_, h4⟩
        intro j hj _ hne
        have : j < i := by
          by_contra hcon
          exact hne (hnone j (by omega))
        exact h3 j hj this hne

/-- The outcome of the loop against windows and nearness. -/
theorem ground_outcome {m : Nat} {T : Nat → Option Bool} {window near : Nat → Nat → Prop}
    (hw : ∀ i, i < m → (T i ≠ none ↔ ∃ j, window i j)) (hwm : ∀ i j, window i j → i < m)
    (hnr : ∀ i j, window i j → (T i = some true ↔ near i j)) {g : Option Nat} (h : GroundInv T m g)
    (n half k : Nat) (hk : k < n) :
    ∃ x : Int, (groundFlags n half g)[k]? = some x ∧ (x = 0 ∨ x = 1) ∧
      (x = 1 ↔ ∃ y, StuckFrom window near y ∧ (y = 0 ∨ y + half ≤ k)) := by
  have stuck : ∀ y, StuckFrom window near y →
      y < m ∧ T y ≠ none ∧ ∀ j, y ≤ j → j < m → T j ≠ none → T j = some true := by
    rintro y ⟨⟨j, hj⟩, h2⟩
    have hy := hwm y j hj
    refine ⟨hy, (hw y hy).2 ⟨j, hj⟩, ?_⟩
    intro i hi him hne
    obtain ⟨j', hj'⟩ := (hw i him).1 hne
    exact (hnr i j' hj').2 (h2 i j' hi hj')
  cases g with
  | none =>
    refine ⟨0, by simp [groundFlags, hk], .inl rfl, ?_⟩
    constructor
    · intro hc; simp at hc
    · rintro ⟨y, hy, -⟩
      obtain ⟨h1, h2, h3⟩ := stuck y hy
      obtain ⟨j, h4, h5, h6⟩ := h y h1 h2
      have := h3 j h4 h5 (by rw [h6]; simp)
      rw [h6] at this
      simp at this
  | some g =>
    obtain ⟨h1, h2, h3, h4⟩ := h
    have hst : StuckFrom window near g := by
      refine ⟨(hw g h1).1 h2, ?_⟩
      intro i j hi hij
      have him := hwm i j hij
      exact (hnr i j hij).1 (h3 i hi him ((hw i him).2 ⟨j, hij⟩))
    have hmin : ∀ y, StuckFrom window near y → g ≤ y := by
      intro y hy
      obtain ⟨k1, k2, k3⟩ := stuck y hy
      by_contra hc
      obtain ⟨j, j1, j2, j3⟩ := h4 y (by omega) k2
      have := k3 j j1 (by omega) (by rw [j3]; simp)
      rw [j3] at this
      simp at this
    refine ⟨if k < (if g > 0 then g + half else g) then 0 else 1, ?_, ?_, ?_⟩
    · simp [groundFlags, hk]
    · exact ite_eq_or_eq _ _ _
    · by_cases hg0 : g > 0
      · rw [if_pos hg0]
        by_cases hkg : k < g + half
        · rw [if_pos hkg]
          constructor
          · intro hc; simp at hc
          · rintro ⟨y, hy, hy'⟩
            have := hmin y hy
            omega
        · rw [if_neg hkg]
          exact ⟨fun _ => ⟨g, hst, .inr (by omega)⟩, fun _ => rfl⟩
      · rw [if_neg hg0]
        have hg0' : g = 0 := by omega
        rw [hg0', if_neg (by omega)]
        exact ⟨fun _ => ⟨0, hg0' ▸ hst, .inl rfl⟩, fun _ => rfl⟩

/-! ## The tests -/

theorem smooth_mono {n w : Nat} {v : List Report} {lat lon hrs slat slon shrs : Nat → Rat}
    (hv : v.length = n) (ht : IsTrack v lat lon hrs) (hs : IsSmoothed n w lat lon hrs slat slon shrs)
    (hwn : w ≤ n) (hw : w % 2 = 1) :
    ∀ i j, i ≤ j → j < n - w + 1 → shrs i ≤ shrs j := by
  intro i j hij hj
  rw [(hs i (by omega)).2.2, (hs j (by omega)).2.2]
  exact track_mono ht (by omega) (by omega)

/-- What `agroundTest` finds at position `i` of a smoothed track. -/
theorem agroundTest_spec (G : Geo) {minH maxH : Rat} (hmm : minH ≤ maxH) (h0 : 0 < minH) {m : Nat} (F : Nat → Fix)
    (hmono : ∀ i j, i ≤ j → j < m → (F i).hrs ≤ (F j).hrs) (i : Nat) (hi : i < m) :
    ∃ t, agroundTest G minH maxH ((List.range m).map F) (F i) = .ok t
      ∧ (t ≠ none ↔ ∃ j, GroundWindow m (fun i => (F i).hrs) minH maxH i j)
      ∧ (∀ j, GroundWindow m (fun i => (F i).hrs) minH maxH i j →
        (t = some true ↔ NearBy G (fun i => (F i).lat) (fun i => (F i).lon) i j)) := by
  obtain ⟨j, x, h1, h2, h3, h4⟩ := filter_getLast (fun f : Fix => decide (f.hrs ≤ (F i).hrs + maxH))
    ((List.range m).map F) ⟨F i, List.mem_map.2 ⟨i, List.mem_range.2 hi, rfl⟩, by
      rw [decide_eq_true_eq]; linarith⟩
  have hj : j < m := by
    have := lt_of_get h2
    simpa using this
  have hx : x = F j := by
    rw [List.getElem?_map, List.getElem?_range hj] at h2
    simpa using h2.symm
  subst hx
  have h3' : (F j).hrs ≤ (F i).hrs + maxH := by simpa using h3
  have h4' : ∀ k, j < k → k < m → (F i).hrs + maxH < (F k).hrs := by
    intro k hk hkm
    have := h4 k (F k) hk (by rw [List.getElem?_map, List.getElem?_range hkm]; rfl)
    simpa using this
  have huniq : ∀ j', GroundWindow m (fun i => (F i).hrs) minH maxH i j' → j' = j := by
    rintro j' ⟨-, k2, k3, k4, -⟩
    rcases Nat.lt_trichotomy j j' with hc | hc | hc
    · have := h4' j' hc k2
      exact absurd k3 (not_le.2 this)
    · exact hc.symm
    · have := k4 j hc hj
      exact absurd h3' (not_le.2 this)
  unfold agroundTest
  rw [pyIndex_last _ _ h1]
  simp only [except_bind_ok]
  by_cases hc : (F j).hrs - (F i).hrs < minH
  · rw [if_pos hc]
    refine ⟨none, rfl, ?_, ?_⟩
    · simp only [ne_eq, not_true, false_iff]
      rintro ⟨j', hj'⟩
      have := huniq j' hj'
      subst this
      exact absurd hj'.2.2.2.2 (not_le.2 hc)
    · intro j' hj'
      have := huniq j' hj'
      subst this
      exact absurd hj'.2.2.2.2 (not_le.2 hc)
  · rw [if_neg hc]
    refine ⟨_, rfl, ?_, ?_⟩
    · simp only [ne_eq, reduceCtorEq, not_false_iff, true_iff]
      exact ⟨j, hi, hj, h3', h4', not_lt.1 hc⟩
    · intro j' hj'
      have := huniq j' hj'
      subst this
      simp [NearBy, groundTolerance]

theorem newAgroundTest_spec (G : Geo) {minH : Rat} {m : Nat} (F : Nat → Fix) (i : Nat) (hi : i < m)
    (hc : minH ≤ (F (m - 1)).hrs - (F i).hrs) :
    ∃ t, newAgroundTest G ((List.range m).map F) (F i) = .ok t
      ∧ (t ≠ none ↔ ∃ j, FinalWindow m (fun i => (F i).hrs) minH i j)
      ∧ (∀ j, FinalWindow m (fun i => (F i).hrs) minH i j →
        (t = some true ↔ NearBy G (fun i => (F i).lat) (fun i => (F i).lon) i j)) := by
  unfold newAgroundTest
  rw [pyIndex_last _ (F (m - 1))]
  · refine ⟨_, rfl, ?_, ?_⟩
    · simp only [ne_eq, reduceCtorEq, not_false_iff, true_iff]
      exact ⟨m - 1, hi, by omega, hc⟩
    · rintro j ⟨-, hj, -⟩
      have : j = m - 1 := by omega
      subst this
      simp [NearBy, groundTolerance]
  · rw [List.getLast?_eq_getElem?]
    simp only [List.length_map, List.length_range, List.getElem?_map]
    rw [List.getElem?_range (by omega)]
    rfl

/-! ## The checks -/

theorem writeFlags_flags {v v' : List Report} {t f : String} {fl : List Int} (hl : fl.length = v.length)
    (h : writeFlags v t f fl = .ok v') (P : Nat → Prop)
    (hfl : ∀ k, k < v.length → ∃ x : Int, fl[k]? = some x ∧ (x = 0 ∨ x = 1) ∧ (x = 1 ↔ P k)) :
    v'.length = v.length ∧ ∀ (k : Nat) (r r' : Report), v[k]? = some r → v'[k]? = some r' →
      (r'.getQc t f = 0 ∨ r'.getQc t f = 1) ∧ (r'.getQc t f = 1 ↔ P k)
        ∧ r' = { r with qc := r'.qc } ∧ ∀ key, key ≠ t ++ f → r'.qc key = r.qc key := by
  obtain ⟨w1, w2⟩ := writeFlags_spec hl h
  refine ⟨w1, fun k r r' hr hr' => ?_⟩
  obtain ⟨⟨x, hx1, hx2⟩, w3, w4⟩ := w2 k r r' hr hr'
  obtain ⟨y, hy1, hy2, hy3⟩ := hfl k (lt_of_get hr)
  rw [hx1] at hy1
  simp only [Option.some.injEq] at hy1
  subst hy1
  rw [hx2]
  exact ⟨hy2, hy3, w3, w4⟩

theorem groundFlags_length (n half : Nat) (g : Option Nat) : (groundFlags n half g).length = n := by
  cases g <;> simp [groundFlags]

theorem zeros_flags (n : Nat) : ∀ k, k < n →
    ∃ x : Int, (List.replicate n (0 : Int))[k]? = some x ∧ (x = 0 ∨ x = 1) ∧ (x = 1 ↔ False) := by
  intro k hk
  exact ⟨0, by simp [hk], .inl rfl, by simp⟩

/-- The flags of `aground_check` for a record longer than the window. -/
theorem agroundFlags_long (G : Geo) {w : Nat} {minP maxP : Int} (hw : w % 2 = 1) (hmin : 1 ≤ minP)
    (hmax : minP ≤ maxP) {v : List Report} (hlen : w < v.length) {lat lon hrs : Nat → Rat}
    (ht : IsTrack v lat lon hrs) :
    ∃ slat slon shrs fl, IsSmoothed v.length w lat lon hrs slat slon shrs
      ∧ agroundFlags G w minP maxP v = .ok fl ∧ fl.length = v.length
      ∧ ∀ k, k < v.length → ∃ x : Int, fl[k]? = some x ∧ (x = 0 ∨ x = 1)
        ∧ (x = 1 ↔ AgroundAt w (GroundWindow (v.length - w + 1) shrs (minP * 24) (maxP * 24))
            (NearBy G slat slon) k) := by
  obtain ⟨slat, slon, shrs, hs, he⟩ := smoothTrack_spec v.length w lat lon hrs hw (by omega)
  have hmono := smooth_mono rfl ht hs (by omega) hw
  have hminR : (0 : Rat) < minP * 24 := by
    have : (1 : Rat) ≤ minP := by exact_mod_cast hmin
    linarith
  have hmaxR : (minP : Rat) * 24 ≤ maxP * 24 := by
    have : (minP : Rat) ≤ maxP := by exact_mod_cast hmax
    linarith
  set m := v.length - w + 1 with hm
  set F : Nat → Fix := fun i => ⟨slat i, slon i, shrs i⟩ with hF
  have htest : ∀ i, ∃ t, i < m → agroundTest G (minP * 24) (maxP * 24) ((List.range m).map F) (F i) = .ok t
      ∧ (t ≠ none ↔ ∃ j, GroundWindow m shrs (minP * 24) (maxP * 24) i j)
      ∧ (∀ j, GroundWindow m shrs (minP * 24) (maxP * 24) i j → (t = some true ↔ NearBy G slat slon i j)) := by
    intro i
    by_cases hi : i < m
    · obtain ⟨t, h⟩ := agroundTest_spec G hmaxR hminR F hmono i hi
      exact ⟨t, fun _ => h⟩
    · exact ⟨none, fun h => absurd h hi⟩
  choose T hT using htest
  have hcond : ∀ i j, GroundWindow m shrs (minP * 24) (maxP * 24) i j → minP * 24 ≤ shrs (m - 1) - shrs i := by
    rintro i j ⟨h1, h2, -, -, h5⟩
    have := hmono j (m - 1) (by omega) (by omega)
    linarith
  obtain ⟨g, hg1, hg2⟩ := groundLoop_spec hminR (m := m) (F := F)
    (T := fun i => if i < m ∧ (minP : Rat) * 24 ≤ shrs (m - 1) - shrs i then T i else none)
    (test := agroundTest G (minP * 24) (maxP * 24) ((List.range m).map F)) hmono
    (fun i hi hc => by
      have : (i < m ∧ (minP : Rat) * 24 ≤ shrs (m - 1) - shrs i) := ⟨hi, hc⟩
      rw [if_pos this]; exact (hT i hi).1)
    (fun i hi => by rw [if_neg]; exact hi) m 0 none (by omega) (by omega) (by intro x hx; omega)
  refine ⟨slat, slon, shrs, groundFlags v.length ((w - 1) / 2) g, hs, ?_, groundFlags_length _ _ _, ?_⟩
  · unfold agroundFlags
    have a1 : ((w : Int) ≥ 1) := by omega
    have a2 : ((w : Int) % 2 ≠ 0) := by omega
    have a3 : minP ≥ 1 := hmin
    have a4 : maxP ≥ 1 := by omega
    have a5 : maxP ≥ minP := hmax
    have a6 : ¬ v.length ≤ (w : Int).toNat := by omega
    simp only [a1, a2, a3, a4, a5, decide_true, pyAssert_true, except_bind_ok, if_neg a6,
      driftFixes_of_track ht, Int.toNat_natCast, he]
    rw [pyAssert_bind, if_pos (by simpa using a2), if_neg (by simpa using a6)]
    simp only [List.length_map, List.length_range, hg1]
    rfl
  · intro k hk
    have hw2 : (w - 1) / 2 = w / 2 := by omega
    rw [hw2]
    refine ground_outcome (m := m)
      (T := fun i => if i < m ∧ (minP : Rat) * 24 ≤ shrs (m - 1) - shrs i then T i else none) ?_ ?_ ?_ hg2 _ _ k hk
    · intro i hi
      by_cases hc : (minP : Rat) * 24 ≤ shrs (m - 1) - shrs i
      · simp only [hi, hc, and_self, if_true]
        exact (hT i hi).2.1
      · simp only [hc, and_false, if_false, ne_eq, not_true, false_iff]
        rintro ⟨j, hj⟩
        exact hc (hcond i j hj)
    · rintro i j ⟨h, -⟩
      exact h
    · intro i j hij
      simp only [hij.1, hcond i j hij, and_self, if_true]
      exact (hT i hij.1).2.2 j hij

/-- The flags of `new_aground_check` for a record longer than the window. -/
theorem newAgroundFlags_long (G : Geo) {w : Nat} {minP : Int} (hw : w % 2 = 1) (hmin : 1 ≤ minP)
    {v : List Report} (hlen : w < v.length) {lat lon hrs : Nat → Rat} (ht : IsTrack v lat lon hrs) :
    ∃ slat slon shrs fl, IsSmoothed v.length w lat lon hrs slat slon shrs
      ∧ newAgroundFlags G w minP v = .ok fl ∧ fl.length = v.length
      ∧ ∀ k, k < v.length → ∃ x : Int, fl[k]? = some x ∧ (x = 0 ∨ x = 1)
        ∧ (x = 1 ↔ AgroundAt w (FinalWindow (v.length - w + 1) shrs (minP * 24))
            (NearBy G slat slon) k) := by
  obtain ⟨slat, slon, shrs, hs, he⟩ := smoothTrack_spec v.length w lat lon hrs hw (by omega)
  have hmono := smooth_mono rfl ht hs (by omega) hw
  have hminR : (0 : Rat) < minP * 24 := by
    have : (1 : Rat) ≤ minP := by exact_mod_cast hmin
    linarith
  set m := v.length - w + 1 with hm
  set F : Nat → Fix := fun i => ⟨slat i, slon i, shrs i⟩ with hF
  have htest : ∀ i, ∃ t, i < m → (minP : Rat) * 24 ≤ shrs (m - 1) - shrs i →
      newAgroundTest G ((List.range m).map F) (F i) = .ok t
      ∧ (t ≠ none ↔ ∃ j, FinalWindow m shrs (minP * 24) i j)
      ∧ (∀ j, FinalWindow m shrs (minP * 24) i j → (t = some true ↔ NearBy G slat slon i j)) := by
    intro i
    by_cases hi : i < m ∧ (minP : Rat) * 24 ≤ shrs (m - 1) - shrs i
    · obtain ⟨t, h⟩ := newAgroundTest_spec G F i hi.1 hi.2
      exact ⟨t, fun _ _ => h⟩
    · exact ⟨none, fun h h' => absurd ⟨h, h'⟩ hi⟩
  choose T hT using htest
  have hcond : ∀ i j, FinalWindow m shrs (minP * 24) i j → minP * 24 ≤ shrs (m - 1) - shrs i := by
    rintro i j ⟨h1, h2, h5⟩
    have : j = m - 1 := by omega
    rw [← this]
    exact h5
  obtain ⟨g, hg1, hg2⟩ := groundLoop_spec hminR (m := m) (F := F)
    (T := fun i => if i < m ∧ (minP : Rat) * 24 ≤ shrs (m - 1) - shrs i then T i else none)
    (test := newAgroundTest G ((List.range m).map F)) hmono
    (fun i hi hc => by
      have : (i < m ∧ (minP : Rat) * 24 ≤ shrs (m - 1) - shrs i) := ⟨hi, hc⟩
      rw [if_pos this]; exact (hT i hi hc).1)
    (fun i hi => by rw [if_neg]; exact hi) m 0 none (by omega) (by omega) (by intro x hx; omega)
  refine ⟨slat, slon, shrs, groundFlags v.length ((w - 1) / 2) g, hs, ?_, groundFlags_length _ _ _, ?_⟩
  · unfold newAgroundFlags
    have a1 : ((w : Int) ≥ 1) := by omega
    have a2 : ((w : Int) % 2 ≠ 0) := by omega
    have a3 : minP ≥ 1 := hmin
    have a6 : ¬ v.length ≤ (w : Int).toNat := by omega
    simp only [a1, a2, a3, decide_true, pyAssert_true, except_bind_ok, if_neg a6,
      driftFixes_of_track ht, Int.toNat_natCast, he]
    rw [pyAssert_bind, if_pos (by simpa using a2), if_neg (by simpa using a6)]
    simp only [List.length_map, List.length_range, hg1]
    rfl
  · intro k hk
    have hw2 : (w - 1) / 2 = w / 2 := by omega
    rw [hw2]
    refine ground_outcome (m := m)
      (T := fun i => if i < m ∧ (minP : Rat) * 24 ≤ shrs (m - 1) - shrs i then T i else none) ?_ ?_ ?_ hg2 _ _ k hk
    · intro i hi
      by_cases hc : (minP : Rat) * 24 ≤ shrs (m - 1) - shrs i
      · simp only [hi, hc, and_self, if_true]
        exact (hT i hi hc).2.1
      · simp only [hc, and_false, if_false, ne_eq, not_true, false_iff]
        rintro ⟨j, hj⟩
        exact hc (hcond i j hj)
    · rintro i j ⟨h, -⟩
      exact h
    · intro i j hij
      have hc := hcond i j hij
      simp only [hij.1, hc, and_self, if_true]
      exact (hT i hij.1 hc).2.2 j hij

/-- The window is odd and the periods are positive and in order. -/
def GroundParams (win minP maxP : Int) : Prop := 1 ≤ win ∧ win % 2 ≠ 0 ∧ 1 ≤ minP ∧ minP ≤ maxP

theorem agroundFlags_params {G : Geo} {win minP maxP : Int} {v : List Report} :
    (¬ GroundParams win minP maxP → agroundFlags G win minP maxP v = .error .assertion)
    ∧ (GroundParams win minP maxP → v.length ≤ win.toNat →
        agroundFlags G win minP maxP v = .ok (List.replicate v.length 0))
    ∧ (∀ fl, agroundFlags G win minP maxP v = .ok fl → win.toNat < v.length →
        ∃ l, driftFixes v = .ok l) := by
  refine ⟨?_, ?_, ?_⟩
  · intro h
    unfold agroundFlags
    rw [pyAssert_bind, pyAssert_bind, pyAssert_bind, pyAssert_bind, pyAssert_bind]
    repeat' split
    all_goals first | rfl | (exfalso; apply h; simp_all [GroundParams])
  · rintro ⟨h1, h2, h3, h4⟩ hl
    unfold agroundFlags
    have a4 : maxP ≥ 1 := by omega
    simp [h1, h2, h3, h4, a4, if_pos hl]
  · intro fl h hl
    unfold agroundFlags at h
    rw [pyAssert_bind, pyAssert_bind, pyAssert_bind, pyAssert_bind, pyAssert_bind] at h
    cases hd : driftFixes v with
    | ok l => exact ⟨l, rfl⟩
    | error e =>
      exfalso
      rw [hd] at h
      simp only [if_neg (not_le.2 hl), except_bind_error] at h
      repeat' split at h
      all_goals simp at h

theorem newAgroundFlags_params {G : Geo} {win minP : Int} {v : List Report} :
    (¬ GroundParams win minP minP → newAgroundFlags G win minP v = .error .assertion)
    ∧ (GroundParams win minP minP → v.length ≤ win.toNat →
        newAgroundFlags G win minP v = .ok (List.replicate v.length 0))
    ∧ (∀ fl, newAgroundFlags G win minP v = .ok fl → win.toNat < v.length →
        ∃ l, driftFixes v = .ok l) := by
  refine ⟨?_, ?_, ?_⟩
  · intro h
    unfold newAgroundFlags
    rw [pyAssert_bind, pyAssert_bind, pyAssert_bind]
    repeat' split
    all_goals first | rfl | (exfalso; apply h; simp_all [GroundParams])
  · rintro ⟨h1, h2, h3, h4⟩ hl
    unfold newAgroundFlags
    simp [h1, h2, h3, if_pos hl]
  · intro fl h hl
    unfold newAgroundFlags at h
    rw [pyAssert_bind, pyAssert_bind, pyAssert_bind] at h
    cases hd : driftFixes v with
    | ok l => exact ⟨l, rfl⟩
    | error e =>
      exfalso
      rw [hd] at h
      simp only [if_neg (not_le.2 hl), except_bind_error] at h
      repeat' split at h
      all_goals simp at h

/-- C49. When `aground_check` returns, every report has a flag of 0 or 1 and nothing else about it has changed.
If the record is not longer than the smoothing window all flags are 0; otherwise the reports are a track in time
order and a report is flagged exactly if, judged by the smoothed track and by windows between the two periods, the
drifter has run aground by then. -/
theorem C49_aground (G : Geo) (win minP maxP : Int) (v v' : List Report)
    (h : agroundCheck G win minP maxP v = .ok v') :
    v'.length = v.length ∧ ∃ Flagged : Nat → Prop,
      (∀ (k : Nat) (r r' : Report), v[k]? = some r → v'[k]? = some r' →
        (r'.getQc "POS" "drf_agr" = 0 ∨ r'.getQc "POS" "drf_agr" = 1)
        ∧ (r'.getQc "POS" "drf_agr" = 1 ↔ Flagged k)
        ∧ r' = { r with qc := r'.qc } ∧ ∀ key, key ≠ "POSdrf_agr" → r'.qc key = r.qc key)
      ∧ (v.length ≤ win.toNat → ∀ k, ¬ Flagged k)
      ∧ (win.toNat < v.length → ∃ lat lon hrs slat slon shrs, IsTrack v lat lon hrs
        ∧ IsSmoothed v.length win.toNat lat lon hrs slat slon shrs
        ∧ ∀ k, k < v.length → (Flagged k ↔ AgroundAt win.toNat
            (GroundWindow (v.length - win.toNat + 1) shrs (minP * 24) (maxP * 24)) (NearBy G slat slon) k)) := by
  unfold agroundCheck at h
  cases h1 : agroundFlags G win minP maxP v with
  | error e => rw [h1] at h; simp at h
  | ok fl =>
    rw [h1, except_bind_ok] at h
    obtain ⟨p1, p2, p3⟩ := agroundFlags_params (G := G) (win := win) (minP := minP) (maxP := maxP) (v := v)
    have hp : GroundParams win minP maxP := by
      by_contra hc
      rw [p1 hc] at h1
      simp at h1
    rcases Nat.lt_or_ge win.toNat v.length with hl | hl
    · obtain ⟨l, hd⟩ := p3 fl h1 hl
      obtain ⟨lat, lon, hrs, ht, -⟩ := track_of_driftFixes hd
      obtain ⟨q1, q2, q3, q4⟩ := hp
      obtain ⟨slat, slon, shrs, fl', hs, hfl, hlen, hflag⟩ := agroundFlags_long G (w := win.toNat) (minP := minP)
        (maxP := maxP) (by omega) q3 q4 hl ht
      rw [Int.toNat_of_nonneg (by omega), h1, Except.ok.injEq] at hfl
      subst hfl
      obtain ⟨w1, w2⟩ := writeFlags_flags hlen h _ hflag
      exact ⟨w1, _, w2, fun hc => by omega, fun _ => ⟨lat, lon, hrs, slat, slon, shrs, ht, hs, fun _ _ => Iff.rfl⟩⟩
    · rw [p2 hp hl, Except.ok.injEq] at h1
      subst h1
      obtain ⟨w1, w2⟩ := writeFlags_flags (by simp) h (fun _ => False) (zeros_flags _)
      exact ⟨w1, _, w2, fun _ _ => id, fun hc => by omega⟩

/-- C49, the same for `new_aground_check`: the displacement is always measured to the end of the smoothed track. -/
theorem C49_new_aground (G : Geo) (win minP : Int) (v v' : List Report)
    (h : newAgroundCheck G win minP v = .ok v') :
    v'.length = v.length ∧ ∃ Flagged : Nat → Prop,
      (∀ (k : Nat) (r r' : Report), v[k]? = some r → v'[k]? = some r' →
        (r'.getQc "POS" "drf_agr" = 0 ∨ r'.getQc "POS" "drf_agr" = 1)
        ∧ (r'.getQc "POS" "drf_agr" = 1 ↔ Flagged k)
        ∧ r' = { r with qc := r'.qc } ∧ ∀ key, key ≠ "POSdrf_agr" → r'.qc key = r.qc key)
      ∧ (v.length ≤ win.toNat → ∀ k, ¬ Flagged k)
      ∧ (win.toNat < v.length → ∃ lat lon hrs slat slon shrs, IsTrack v lat lon hrs
        ∧ IsSmoothed v.length win.toNat lat lon hrs slat slon shrs
        ∧ ∀ k, k < v.length → (Flagged k ↔ AgroundAt win.toNat
            (FinalWindow (v.length - win.toNat + 1) shrs (minP * 24)) (NearBy G slat slon) k)) := by
  unfold newAgroundCheck at h
  cases h1 : newAgroundFlags G win minP v with
  | error e => rw [h1] at h; simp at h
  | ok fl =>
    rw [h1, except_bind_ok] at h
    obtain ⟨p1, p2, p3⟩ := newAgroundFlags_params (G := G) (win := win) (minP := minP) (v := v)
    have hp : GroundParams win minP minP := by
      by_contra hc
      rw [p1 hc] at h1
      simp at h1
    rcases Nat.lt_or_ge win.toNat v.length with hl | hl
    · obtain ⟨l, hd⟩ := p3 fl h1 hl
      obtain ⟨lat, lon, hrs, ht, -⟩ := track_of_driftFixes hd
      obtain ⟨q1, q2, q3, q4⟩ := hp
      obtain ⟨slat, slon, shrs, fl', hs, hfl, hlen, hflag⟩ := newAgroundFlags_long G (w := win.toNat) (minP := minP)
        (by omega) q3 hl ht
      rw [Int.toNat_of_nonneg (by omega), h1, Except.ok.injEq] at hfl
      subst hfl
      obtain ⟨w1, w2⟩ := writeFlags_flags hlen h _ hflag
      exact ⟨w1, _, w2, fun hc => by omega, fun _ => ⟨lat, lon, hrs, slat, slon, shrs, ht, hs, fun _ _ => Iff.rfl⟩⟩
    · rw [p2 hp hl, Except.ok.injEq] at h1
      subst h1
      obtain ⟨w1, w2⟩ := writeFlags_flags (by simp) h (fun _ => False) (zeros_flags _)
      exact ⟨w1, _, w2, fun _ _ => id, fun hc => by omega⟩

/-- The set of reports that are aground is closed towards the end of the record. -/
theorem agroundAt_later {w : Nat} {window near : Nat → Nat → Prop} {k k' : Nat} (h : AgroundAt w window near k)
    (hk : k ≤ k') : AgroundAt w window near k' := by
  obtain ⟨g, h1, h2⟩ := h
  exact ⟨g, h1, by omega⟩

/-- C49: once a report is flagged by `aground_check`, all later ones are. -/
theorem C49_suffix (G : Geo) (win minP maxP : Int) (v v' : List Report)
    (h : agroundCheck G win minP maxP v = .ok v' ∨ newAgroundCheck G win minP v = .ok v')
    (k k' : Nat) (r r' : Report) (hk : k ≤ k') (hr : v'[k]? = some r) (hr' : v'[k']? = some r')
    (hf : r.getQc "POS" "drf_agr" = 1) : r'.getQc "POS" "drf_agr" = 1 := by
  rcases h with h | h
  · obtain ⟨h1, F, h2, h3, h4⟩ := C49_aground G win minP maxP v v' h
    have a1 := lt_of_get hr
    have a2 := lt_of_get hr'
    obtain ⟨-, b1, -⟩ := h2 k _ r (List.getElem?_eq_getElem (by omega)) hr
    obtain ⟨-, b2, -⟩ := h2 k' _ r' (List.getElem?_eq_getElem (by omega)) hr'
    rcases Nat.lt_or_ge win.toNat v.length with hl | hl
    · obtain ⟨lat, lon, hrs, slat, slon, shrs, -, -, h5⟩ := h4 hl
      rw [b2, h5 k' (by omega)]
      exact agroundAt_later ((h5 k (by omega)).1 (b1.1 hf)) hk
    · exact absurd (b1.1 hf) (h3 hl k)
  · obtain ⟨h1, F, h2, h3, h4⟩ := C49_new_aground G win minP v v' h
    have a1 := lt_of_get hr
    have a2 := lt_of_get hr'
    obtain ⟨-, b1, -⟩ := h2 k _ r (List.getElem?_eq_getElem (by omega)) hr
    obtain ⟨-, b2, -⟩ := h2 k' _ r' (List.getElem?_eq_getElem (by omega)) hr'
    rcases Nat.lt_or_ge win.toNat v.length with hl | hl
    · obtain ⟨lat, lon, hrs, slat, slon, shrs, -, -, h5⟩ := h4 hl
      rw [b2, h5 k' (by omega)]
      exact agroundAt_later ((h5 k (by omega)).1 (b1.1 hf)) hk
    · exact absurd (b1.1 hf) (h3 hl k)

/-- C49: with an odd window and positive periods in order, both checks complete on every record that is short or a
track in time order. -/
theorem C49_completes (G : Geo) (win minP maxP : Int) (h1 : 1 ≤ win) (h2 : win % 2 ≠ 0) (h3 : 1 ≤ minP)
    (h4 : minP ≤ maxP) (v : List Report)
    (hv : (v.length : Int) ≤ win ∨ ∃ lat lon hrs, IsTrack v lat lon hrs) :
    (∃ v', agroundCheck G win minP maxP v = .ok v') ∧ ∃ v', newAgroundCheck G win minP v = .ok v' := by
  have digits : ∀ (n : Nat) (fl : List Int) (P : Nat → Prop), fl.length = n → (∀ k, k < n → ∃ x : Int, fl[k]? = some x ∧
      (x = 0 ∨ x = 1) ∧ (x = 1 ↔ P k)) → ∀ x ∈ fl, 0 ≤ x ∧ x ≤ 9 := by
    intro n fl P hl hf x hx
    obtain ⟨k, hk, rfl⟩ := List.mem_iff_getElem.1 hx
    obtain ⟨y, hy, hy', -⟩ := hf k (by omega)
    rw [List.getElem?_eq_getElem hk, Option.some.injEq] at hy
    rw [hy]
    omega
  obtain ⟨-, p2, -⟩ := agroundFlags_params (G := G) (win := win) (minP := minP) (maxP := maxP) (v := v)
  obtain ⟨-, q2, -⟩ := newAgroundFlags_params (G := G) (win := win) (minP := minP) (v := v)
  unfold agroundCheck newAgroundCheck
  rcases Nat.lt_or_ge win.toNat v.length with hl | hl
  · have ht : ∃ lat lon hrs, IsTrack v lat lon hrs := by
      rcases hv with hv | hv
      · omega
      · exact hv
    obtain ⟨lat, lon, hrs, ht⟩ := ht
    constructor
    · obtain ⟨_, _, _, fl, -, hfl, hlen, hflag⟩ := agroundFlags_long G (w := win.toNat) (minP := minP)
        (maxP := maxP) (by omega) h3 h4 hl ht
      rw [Int.toNat_of_nonneg (by omega)] at hfl
      rw [hfl, except_bind_ok]
      exact writeFlags_ok (.inl (by decide)) (digits _ fl _ hlen hflag)
    · obtain ⟨_, _, _, fl, -, hfl, hlen, hflag⟩ := newAgroundFlags_long G (w := win.toNat) (minP := minP)
        (by omega) h3 hl ht
      rw [Int.toNat_of_nonneg (by omega)] at hfl
      rw [hfl, except_bind_ok]
      exact writeFlags_ok (.inl (by decide)) (digits _ fl _ hlen hflag)
  · rw [p2 ⟨h1, h2, h3, h4⟩ hl, q2 ⟨h1, h2, h3, le_refl _⟩ hl, except_bind_ok]
    have := writeFlags_ok (v := v) (t := "POS") (f := "drf_agr") (fl := List.replicate v.length 0)
      (.inl (by decide)) (digits _ _ _ (by simp) (zeros_flags _))
    exact ⟨this, this⟩

/-- C49: other parameters are rejected, whatever the record. -/
theorem C49_rejects (G : Geo) (win minP maxP : Int) (v : List Report) :
    (¬ (1 ≤ win ∧ win % 2 ≠ 0 ∧ 1 ≤ minP ∧ minP ≤ maxP) → agroundCheck G win minP maxP v = .error .assertion)
    ∧ (¬ (1 ≤ win ∧ win % 2 ≠ 0 ∧ 1 ≤ minP) → newAgroundCheck G win minP v = .error .assertion) := by
  constructor
  · intro h
    unfold agroundCheck
    rw [agroundFlags_params.1 h]
    rfl
  · intro h
    unfold newAgroundCheck
    rw [newAgroundFlags_params.1 (fun hc => h ⟨hc.1, hc.2.1, hc.2.2.1⟩)]
    rfl

/-- A report of a drifter at the given position, the given hours after the one before, for examples. -/
def sampleDrift (lat lon dt : Rat) : Report :=
  (sampleAt 0 lat lon).setext "time_diff" (some dt)

/-- Non-vacuity: five reports a day apart; the drifter moves, then stays.  With a window of one report and periods of
one and two days it is aground from the third report on. -/
example : (agroundCheck flatGeo 1 1 2 [sampleDrift 0 0 0, sampleDrift 0 1 24, sampleDrift 0 2 24, sampleDrift 0 2 24,
      sampleDrift 0 2 24]).map (fun v => v.map fun r => r.getQc "POS" "drf_agr") = .ok [0, 0, 1, 1, 1] := by
  decide +kernel

example : (newAgroundCheck flatGeo 3 1 [sampleDrift 0 0 0, sampleDrift 0 1 24, sampleDrift 0 2 24, sampleDrift 0 2 24,
      sampleDrift 0 2 24, sampleDrift 0 2 24]).map (fun v => v.map fun r => r.getQc "POS" "drf_agr")
    = .ok [0, 0, 1, 1, 1, 1] := by
  decide +kernel

example : ∃ lat lon hrs, IsTrack [sampleDrift 0 0 0, sampleDrift 0 1 24, sampleDrift 0 2 12] lat lon hrs := by
  cases h : driftFixes [sampleDrift 0 0 0, sampleDrift 0 1 24, sampleDrift 0 2 12] with
  | error e =>
    have : (driftFixes [sampleDrift 0 0 0, sampleDrift 0 1 24, sampleDrift 0 2 12]).isOk = true := by decide +kernel
    rw [h] at this
    simp [Except.isOk, Except.toBool] at this
  | ok l =>
    obtain ⟨lat, lon, hrs, ht, -⟩ := track_of_driftFixes h
    exact ⟨lat, lon, hrs, ht⟩

end MarineQC
