import Verif.Buoy.Aground

/-!
# C50 and C51 drifter speed checks
-/

namespace MarineQC

namespace Spec

/-- In a record of `n` reports, report `j` is the last one at most `maxH` hours after report `i`, and it is at least
`minH` hours after it. -/
def SpeedWindow (n : Nat) (hrs : Nat → Rat) (minH maxH : Rat) (i j : Nat) : Prop :=
  i < n ∧ j < n ∧ hrs j ≤ hrs i + maxH ∧ (∀ k, j < k → k < n → hrs i + maxH < hrs k)
    ∧ minH ≤ hrs j - hrs i

/-- Among the reports for which `Kept` holds, `j` is the first one at least `minH` hours after the kept report `i`. -/
def KeptWindow (n : Nat) (hrs : Nat → Rat) (minH : Rat) (Kept : Nat → Prop) (i j : Nat) : Prop :=
  i < n ∧ j < n ∧ Kept i ∧ Kept j ∧ hrs i + minH ≤ hrs j
    ∧ ∀ k, k < j → Kept k → hrs k < hrs i + minH

/-- Getting from position `i` to position `j` took more than `limit` metres per second (distances are in kilometres,
times in hours). -/
def FasterThan (G : Geo) (limit : Rat) (lat lon hrs : Nat → Rat) (i j : Nat) : Prop :=
  1000 * G.dist (lat i) (lon i) (lat j) (lon j) > limit * (3600 * (hrs j - hrs i))

/-- The copy of a report that is taken for a ship's: same identifier and values, but platform type 5. -/
def AsShip (c r : Report) : Prop :=
  c.id = r.id ∧ ∀ k, c.data k = if k = "PT" then some 5 else r.data k

/-- `screen k` is the flag report `k` gets from the iQuam track check when all reports of the record are taken for a
ship's. -/
def ScreenedAsShip (G : Geo) (P : IquamParams) (v : List Report) (screen : Nat → Int) : Prop :=
  ∃ w w', List.Forall₂ AsShip w v ∧ iquamTrackCheck G P w = .ok w' ∧ w'.length = v.length
    ∧ ∀ (k : Nat) (r : Report), w'[k]? = some r → screen k = r.getQc "POS" "iquam_track"

/-- Report `k` lies in a fast window. -/
def InFastWindow (window fast : Nat → Nat → Prop) (k : Nat) : Prop :=
  ∃ i j, window i j ∧ fast i j ∧ i ≤ k ∧ k ≤ j

end Spec

open Spec

theorem flagRange_spec (fl : List Int) (i j n : Nat) (hl : fl.length = n) (hj : j < n)
    (h01 : ∀ k, k < n → fl[k]? = some 0 ∨ fl[k]? = some 1) :
    (flagRange fl i j).length = n ∧ ∀ k, k < n →
      ((flagRange fl i j)[k]? = some 0 ∨ (flagRange fl i j)[k]? = some 1)
        ∧ ((flagRange fl i j)[k]? = some 1 ↔ fl[k]? = some 1 ∨ (i ≤ k ∧ k ≤ j)) := by
  have key : ∀ (c : Nat) (fl : List Int) (i : Nat), fl.length = n → i + c ≤ n →
      (∀ k, k < n → fl[k]? = some 0 ∨ fl[k]? = some 1) →
      (List.foldl (fun (fl : List Int) ix => if fl[ix]? = some 0 then fl.set ix 1 else fl) fl (List.range' i c)).length = n
      ∧ ∀ k, k < n →
      ((List.foldl (fun (fl : List Int) ix => if fl[ix]? = some 0 then fl.set ix 1 else fl) fl (List.range' i c))[k]? = some 0
        ∨ (List.foldl (fun (fl : List Int) ix => if fl[ix]? = some 0 then fl.set ix 1 else fl) fl (List.range' i c))[k]? = some 1)
        ∧ ((List.foldl (fun (fl : List Int) ix => if fl[ix]? = some 0 then fl.set ix 1 else fl) fl (List.range' i c))[k]? = some 1
            ↔ fl[k]? = some 1 ∨ (i ≤ k ∧ k < i + c)) := by
    intro c
    induction c with
    | zero =>
      intro fl i hl hn h01
      refine ⟨hl, fun k hk => ⟨h01 k hk, ?_⟩⟩
      simp only [List.range'_zero, List.foldl_nil]
      constructor
      · exact Or.inl
      · rintro (h | ⟨h1, h2⟩)
        · exact h
        · omega
    | succ c ih =>
      intro fl i hl hn h01
      rw [List.range'_succ, List.foldl_cons]
      have step : ∀ k, k < n → ((if fl[i]? = some 0 then fl.set i 1 else fl)[k]? = some 0
          ∨ (if fl[i]? = some 0 then fl.set i 1 else fl)[k]? = some 1)
          ∧ ((if fl[i]? = some 0 then fl.set i 1 else fl)[k]? = some 1 ↔ fl[k]? = some 1 ∨ k = i) := by
        intro k hk
        have hi := h01 i (by omega)
        have hk' := h01 k hk
        by_cases h0 : fl[i]? = some 0
        · rw [if_pos h0, List.getElem?_set]
          by_cases hki : i = k
          · subst hki
            simp [hl, hk]
          · rw [if_neg hki]
            exact ⟨hk', ⟨Or.inl, fun h => h.elim id fun h => absurd h.symm hki⟩⟩
        · rw [if_neg h0]
          refine ⟨hk', ⟨Or.inl, ?_⟩⟩
          rintro (h | h)
          · exact h
          · rw [h]; exact hi.resolve_left h0
      obtain ⟨a1, a2⟩ := ih (if fl[i]? = some 0 then fl.set i 1 else fl) (i + 1)
        (by split <;> simp [hl]) (by omega) (fun k hk => (step k hk).1)
      refine ⟨a1, fun k hk => ⟨(a2 k hk).1, ?_⟩⟩
      rw [(a2 k hk).2, (step k hk).2]
      constructor
      · rintro ((h | h) | h)
        · exact .inl h
        · exact .inr (by omega)
        · exact .inr (by omega)
      · rintro (h | h)
        · exact .inl (.inl h)
        · by_cases hki : k = i
          · exact .inl (.inr hki)
          · exact .inr (by omega)
  unfold flagRange
  rcases Nat.lt_or_ge j i with hij | hij
  · have : j + 1 - i = 0 := by omega
    rw [this]
    refine ⟨hl, fun k hk => ⟨h01 k hk, ?_⟩⟩
    simp only [List.range'_zero, List.foldl_nil]
    constructor
    · exact Or.inl
    · rintro (h | ⟨h1, h2⟩)
      · exact h
      · omega
  · obtain ⟨a1, a2⟩ := key (j + 1 - i) fl i hl (by omega) h01
    refine ⟨a1, fun k hk => ⟨(a2 k hk).1, ?_⟩⟩
    rw [(a2 k hk).2]
    constructor
    · rintro (h | h)
      · exact .inl h
      · exact .inr (by omega)
    · rintro (h | h)
      · exact .inl h
      · exact .inr (by omega)

theorem speedLoop_spec (G : Geo) {limit minH : Rat} (hpos : 0 < minH) {n : Nat} {lat lon hrs : Nat → Rat}
    {win : Nat → Fix → Except Err (Option (Fix × Nat))} {W : Nat → Option Nat}
    (hmono : ∀ i j, i ≤ j → j < n → hrs i ≤ hrs j)
    (hw : ∀ i, i < n → minH ≤ hrs (n - 1) - hrs i → win i ⟨lat i, lon i, hrs i⟩
      = .ok ((W i).map fun j => (⟨lat j, lon j, hrs j⟩, j)))
    (hW : ∀ i j, W i = some j → i < n ∧ j < n ∧ minH ≤ hrs j - hrs i)
    (k i : Nat) (fl : List Int) (hi : i < n) (hk : n ≤ i + k) (hl : fl.length = n)
    (hfl : ∀ x, x < n → (fl[x]? = some 0 ∨ fl[x]? = some 1)
      ∧ (fl[x]? = some 1 ↔ ∃ a b, a < i ∧ W a = some b ∧ FasterThan G limit lat lon hrs a b ∧ a ≤ x ∧ x ≤ b)) :
    ∃ fl', speedLoop G limit minH ((List.range n).map fun i => ⟨lat i, lon i, hrs i⟩) win k i fl = .ok fl'
      ∧ fl'.length = n ∧ ∀ x, x < n → (fl'[x]? = some 0 ∨ fl'[x]? = some 1)
      ∧ (fl'[x]? = some 1 ↔ InFastWindow (fun a b => W a = some b) (FasterThan G limit lat lon hrs) x) := by
  induction k generalizing i fl with
  | zero => omega
  | succ k ih =>
    have hlast : pyIndex ((List.range n).map fun i => (⟨lat i, lon i, hrs i⟩ : Fix)) (-1)
        = .ok ⟨lat (n - 1), lon (n - 1), hrs (n - 1)⟩ := by
      refine pyIndex_last _ _ ?_
      rw [List.getLast?_eq_getElem?]
      simp only [List.length_map, List.length_range, List.getElem?_map]
      rw [List.getElem?_range (by omega)]
      rfl
    have hidx : pyIndex ((List.range n).map fun i => (⟨lat i, lon i, hrs i⟩ : Fix)) (i : Int)
        = .ok ⟨lat i, lon i, hrs i⟩ := by
      refine pyIndex_eq_ok ?_
      rw [List.getElem?_map, List.getElem?_range hi]
      rfl
    rw [speedLoop]
    simp only [hlast, hidx, except_bind_ok]
    by_cases hc : hrs (n - 1) - hrs i ≥ minH
    · have hi' : i + 1 < n := by
        by_contra hcon
        have : i = n - 1 := by omega
        rw [this] at hc
        simp only [sub_self, ge_iff_le] at hc
        linarith
      rw [if_pos hc, hw i hi hc, except_bind_ok]
      cases hT : W i with
      | none =>
        simp only [Option.map_none]
        refine ih (i + 1) fl hi' (by omega) hl ?_
        intro x hx
        obtain ⟨h1, h2⟩ := hfl x hx
        refine ⟨h1, h2.trans ?_⟩
        constructor
        · rintro ⟨a, b, h3, h4⟩
          exact ⟨a, b, by omega, h4⟩
        · rintro ⟨a, b, h3, h4, h5⟩
          have : a ≠ i := by rintro rfl; rw [hT] at h4; simp at h4
          exact ⟨a, b, by omega, h4, h5⟩
      | some j =>
        simp only [Option.map_some]
        obtain ⟨-, hj, hlen⟩ := hW i j hT
        have hfast : driftTooFast G limit ⟨lat i, lon i, hrs i⟩ ⟨lat j, lon j, hrs j⟩ = true
            ↔ FasterThan G limit lat lon hrs i j := by
          have hd : 0 < hrs j - hrs i := by linarith
          unfold driftTooFast FasterThan
          simp only [if_neg hd.ne', decide_eq_true_eq, gt_iff_lt]
          rw [lt_div_iff₀ (by norm_num), mul_comm (_ / _) (1000 : Rat), ← mul_div_assoc, lt_div_iff₀ hd]
          constructor <;> intro h <;> linarith
        have hiff : ∀ x, (∃ a b, a < i + 1 ∧ W a = some b ∧ FasterThan G limit lat lon hrs a b ∧ a ≤ x ∧ x ≤ b)
            ↔ (∃ a b, a < i ∧ W a = some b ∧ FasterThan G limit lat lon hrs a b ∧ a ≤ x ∧ x ≤ b)
              ∨ (FasterThan G limit lat lon hrs i j ∧ i ≤ x ∧ x ≤ j) := by
          intro x
          constructor
          · rintro ⟨a, b, h1, h2, h3⟩
            by_cases ha : a = i
            · subst ha
              rw [hT, Option.some.injEq] at h2
              subst h2
              exact .inr h3
            · exact .inl ⟨a, b, by omega, h2, h3⟩
          · rintro (⟨a, b, h1, h2⟩ | h)
            · exact ⟨a, b, by omega, h2⟩
            · exact ⟨i, j, by omega, hT, h⟩
        by_cases hf : driftTooFast G limit ⟨lat i, lon i, hrs i⟩ ⟨lat j, lon j, hrs j⟩ = true
        · rw [if_pos hf]
          obtain ⟨f1, f2⟩ := flagRange_spec fl i j n hl hj (fun k hk => (hfl k hk).1)
          refine ih (i + 1) _ hi' (by omega) f1 ?_
          intro x hx
          refine ⟨(f2 x hx).1, ?_⟩
          rw [(f2 x hx).2, (hfl x hx).2, hiff x]
          exact or_congr Iff.rfl ⟨fun h => ⟨hfast.1 hf, h⟩, fun h => h.2⟩
        · rw [if_neg hf]
          refine ih (i + 1) fl hi' (by omega) hl ?_
          intro x hx
          refine ⟨(hfl x hx).1, ?_⟩
          rw [(hfl x hx).2, hiff x]
          exact ⟨Or.inl, fun h => h.elim id fun h => absurd (hfast.2 h.1) hf⟩
    · rw [if_neg hc]
      refine ⟨fl, rfl, hl, fun x hx => ⟨(hfl x hx).1, (hfl x hx).2.trans ?_⟩⟩
      constructor
      · rintro ⟨a, b, -, h2, h3, h4⟩
        exact ⟨a, b, h2, h3, h4⟩
      · rintro ⟨a, b, h2, h3, h4⟩
        refine ⟨a, b, ?_, h2, h3, h4⟩
        by_contra hcon
        obtain ⟨w1, w2, w3⟩ := hW a b h2
        have m1 := hmono i a (by omega) w1
        have m2 := hmono b (n - 1) (by omega) (by omega)
        apply hc
        show minH ≤ _
        linarith

/-- The loop started from flags 0. -/
theorem speedLoop_start (G : Geo) {limit minH : Rat} (hpos : 0 < minH) {n : Nat} (hn : 0 < n)
    {lat lon hrs : Nat → Rat} {win : Nat → Fix → Except Err (Option (Fix × Nat))} {W : Nat → Option Nat}
    (hmono : ∀ i j, i ≤ j → j < n → hrs i ≤ hrs j)
    (hw : ∀ i, i < n → minH ≤ hrs (n - 1) - hrs i → win i ⟨lat i, lon i, hrs i⟩
      = .ok ((W i).map fun j => (⟨lat j, lon j, hrs j⟩, j)))
    (hW : ∀ i j, W i = some j → i < n ∧ j < n ∧ minH ≤ hrs j - hrs i) :
    ∃ fl', speedLoop G limit minH ((List.range n).map fun i => ⟨lat i, lon i, hrs i⟩) win (n + 1) 0
        (List.replicate n 0) = .ok fl'
      ∧ fl'.length = n ∧ ∀ k, k < n → ∃ x : Int, fl'[k]? = some x ∧ (x = 0 ∨ x = 1)
        ∧ (x = 1 ↔ InFastWindow (fun a b => W a = some b) (FasterThan G limit lat lon hrs) k) := by
  obtain ⟨fl', h1, h2, h3⟩ := speedLoop_spec G (limit := limit) hpos hmono hw hW (n + 1) 0 (List.replicate n 0) hn
    (by omega) (by simp) (fun x hx => ⟨.inl (by simp [hx]), by simp [hx]⟩)
  refine ⟨fl', h1, h2, fun k hk => ?_⟩
  obtain ⟨h4, h5⟩ := h3 k hk
  refine ⟨fl'[k], List.getElem?_eq_getElem _, ?_, ?_⟩
  · rw [List.getElem?_eq_getElem (by omega)] at h4
    simpa using h4
  · rw [List.getElem?_eq_getElem (by omega)] at h5
    simpa using h5


/-! ## C50 -/

theorem speedWindow_spec {n : Nat} {lat lon hrs : Nat → Rat} {minH maxH : Rat} (hmax : 0 ≤ maxH) (i : Nat)
    (hi : i < n) :
    ∃ W : Option Nat, speedWindow minH maxH ((List.range n).map fun i => ⟨lat i, lon i, hrs i⟩) i ⟨lat i, lon i, hrs i⟩
      = .ok (W.map fun j => (⟨lat j, lon j, hrs j⟩, j))
      ∧ ∀ j, W = some j ↔ SpeedWindow n hrs minH maxH i j := by
  have hz : ∀ k, k < n → (((List.range n).map fun i => (⟨lat i, lon i, hrs i⟩ : Fix)).zipIdx)[k]?
      = some (⟨lat k, lon k, hrs k⟩, k) := by
    intro k hk
    rw [List.getElem?_zipIdx, List.getElem?_map, List.getElem?_range hk]
    simp
  obtain ⟨j, x, h1, h2, h3, h4⟩ := filter_getLast (fun p : Fix × Nat => decide (p.1.hrs ≤ hrs i + maxH))
    (((List.range n).map fun i => (⟨lat i, lon i, hrs i⟩ : Fix)).zipIdx)
    ⟨_, List.mem_of_getElem? (hz i hi), by simpa using hmax⟩
  have hj : j < n := by
    have := lt_of_get h2
    simpa using this
  rw [hz j hj, Option.some.injEq] at h2
  subst h2
  have hlt : ∀ k, j < k → k < n → hrs i + maxH < hrs k := by
    intro k hk hkn
    simpa using h4 k _ hk (hz k hkn)
  have hle : hrs j ≤ hrs i + maxH := by simpa using h3
  unfold speedWindow
  rw [pyIndex_last _ _ h1, except_bind_ok]
  by_cases hc : hrs j - hrs i < minH
  · refine ⟨none, by simp [hc], fun j' => ⟨fun h => by simp at h, ?_⟩⟩
    rintro ⟨-, a1, a2, a3, a4⟩
    exfalso
    rcases Nat.lt_trichotomy j j' with h | h | h
    · have := hlt j' h a1; linarith
    · subst h; linarith
    · have := a3 j h hj; linarith
  · refine ⟨some j, by simp [hc], fun j' => ?_⟩
    constructor
    · intro h
      rw [Option.some.injEq] at h
      subst h
      exact ⟨hi, hj, hle, hlt, by linarith⟩
    · rintro ⟨-, a1, a2, a3, a4⟩
      rw [Option.some.injEq]
      rcases Nat.lt_trichotomy j j' with h | h | h
      · have := hlt j' h a1; linarith
      · exact h
      · have := a3 j h hj; linarith

theorem inFastWindow_congr {w w' f : Nat → Nat → Prop} (h : ∀ i j, w i j ↔ w' i j) (k : Nat) :
    InFastWindow w f k ↔ InFastWindow w' f k := by
  unfold InFastWindow
  simp only [h]

theorem speedFlags_long (G : Geo) {limit minP maxP : Rat} (h0 : 0 ≤ limit) (h1 : 0 < minP) (h2 : minP ≤ maxP)
    {v : List Report} (hl : 1 < v.length) {lat lon hrs : Nat → Rat} (ht : IsTrack v lat lon hrs) :
    ∃ fl, speedFlags G limit minP maxP v = .ok fl ∧ fl.length = v.length
      ∧ ∀ k, k < v.length → ∃ x : Int, fl[k]? = some x ∧ (x = 0 ∨ x = 1)
        ∧ (x = 1 ↔ InFastWindow (SpeedWindow v.length hrs (minP * 24) (maxP * 24))
            (FasterThan G limit lat lon hrs) k) := by
  have hmax : (0 : Rat) ≤ maxP * 24 := by linarith
  choose W hW1 hW2 using fun (i : Nat) (hi : i < v.length) =>
    speedWindow_spec (lat := lat) (lon := lon) (hrs := hrs) (minH := minP * 24) hmax i hi
  obtain ⟨fl, a1, a2, a3⟩ := speedLoop_start G (limit := limit) (minH := minP * 24) (by linarith)
    (n := v.length) (by omega) (lat := lat) (lon := lon) (hrs := hrs)
    (win := speedWindow (minP * 24) (maxP * 24) ((List.range v.length).map fun i => ⟨lat i, lon i, hrs i⟩))
    (W := fun i => if hi : i < v.length then W i hi else none)
    (fun i j hij hj => track_mono ht hij hj)
    (fun i hi _ => by rw [dif_pos hi]; exact hW1 i hi)
    (fun i j h => by
      by_cases hi : i < v.length
      · rw [dif_pos hi] at h
        obtain ⟨b1, b2, b3, b4, b5⟩ := (hW2 i hi j).1 h
        exact ⟨b1, b2, b5⟩
      · rw [dif_neg hi] at h; simp at h)
  refine ⟨fl, ?_, a2, fun k hk => ?_⟩
  · unfold speedFlags
    rw [pyAssert_bind, if_pos (by simpa using h0), pyAssert_bind, if_pos (by simpa using h1.le), pyAssert_bind,
      if_pos (by simpa using h1.le.trans h2), pyAssert_bind, if_pos (by simpa using h2), if_neg (by omega),
      driftFixes_of_track ht, except_bind_ok]
    exact a1
  · obtain ⟨x, b1, b2, b3⟩ := a3 k hk
    refine ⟨x, b1, b2, b3.trans (inFastWindow_congr (fun i j => ?_) k)⟩
    by_cases hi : i < v.length
    · rw [dif_pos hi]; exact hW2 i hi j
    · rw [dif_neg hi]
      exact ⟨fun h => by simp at h, fun h => absurd h.1 hi⟩

theorem speedFlags_params {G : Geo} {limit minP maxP : Rat} {v : List Report} :
    (¬ (0 ≤ limit ∧ 0 ≤ minP ∧ minP ≤ maxP) → speedFlags G limit minP maxP v = .error .assertion)
    ∧ ((0 ≤ limit ∧ 0 ≤ minP ∧ minP ≤ maxP) → v.length ≤ 1 →
        speedFlags G limit minP maxP v = .ok (List.replicate v.length 0))
    ∧ (∀ fl, speedFlags G limit minP maxP v = .ok fl → 1 < v.length → ∃ l, driftFixes v = .ok l) := by
  unfold speedFlags
  refine ⟨?_, ?_, ?_⟩
  · intro h
    rw [pyAssert_bind]
    split
    · rw [pyAssert_bind]
      split
      · rw [pyAssert_bind]
        split
        · rw [pyAssert_bind]
          split
          · rename_i a1 a2 a3 a4
            exact absurd ⟨by simpa using a1, by simpa using a2, by simpa using a4⟩ h
          · rfl
        · rfl
      · rfl
    · rfl
  · rintro ⟨h1, h2, h3⟩ hl
    rw [pyAssert_bind, if_pos (by simpa using h1), pyAssert_bind, if_pos (by simpa using h2), pyAssert_bind,
      if_pos (by simpa using h2.trans h3), pyAssert_bind, if_pos (by simpa using h3), if_pos hl]
    rfl
  · intro fl h hl
    rw [if_neg (by omega)] at h
    cases hd : driftFixes v with
    | ok l => exact ⟨l, rfl⟩
    | error e =>
      rw [hd] at h
      simp only [except_bind_error] at h
      rw [pyAssert_bind] at h
      split at h
      · rw [pyAssert_bind] at h
        split at h
        · rw [pyAssert_bind] at h
          split at h
          · rw [pyAssert_bind] at h
            split at h
            · simp at h
            · simp at h
          · simp at h
        · simp at h
      · simp at h

/-- C50. When `speed_check` with a positive minimum period completes: every report gets the flag 0 or 1, a record of
at most one report gets only 0; otherwise a report gets 1 exactly if it lies in a window, from a report to the last
one at most `max_win_period` days later and at least `min_win_period` days long, over which the mean speed exceeds the
limit.  Nothing else about the reports changes. -/
theorem C50_speed (G : Geo) (limit minP maxP : Rat) (hp : 0 < minP) (v v' : List Report)
    (h : speedCheck G limit minP maxP v = .ok v') :
    v'.length = v.length ∧ ∃ Flagged : Nat → Prop,
      (∀ (k : Nat) (r r' : Report), v[k]? = some r → v'[k]? = some r' →
        (r'.getQc "POS" "drf_spd" = 0 ∨ r'.getQc "POS" "drf_spd" = 1)
        ∧ (r'.getQc "POS" "drf_spd" = 1 ↔ Flagged k)
        ∧ r' = { r with qc := r'.qc } ∧ ∀ key, key ≠ "POSdrf_spd" → r'.qc key = r.qc key)
      ∧ (v.length ≤ 1 → ∀ k, ¬ Flagged k)
      ∧ (1 < v.length → ∃ lat lon hrs, IsTrack v lat lon hrs
        ∧ ∀ k, k < v.length → (Flagged k ↔ InFastWindow (SpeedWindow v.length hrs (minP * 24) (maxP * 24))
            (FasterThan G limit lat lon hrs) k)) := by
  unfold speedCheck at h
  cases h1 : speedFlags G limit minP maxP v with
  | error e => rw [h1] at h; simp at h
  | ok fl =>
    rw [h1, except_bind_ok] at h
    obtain ⟨p1, p2, p3⟩ := speedFlags_params (G := G) (limit := limit) (minP := minP) (maxP := maxP) (v := v)
    have hpar : 0 ≤ limit ∧ 0 ≤ minP ∧ minP ≤ maxP := by
      by_contra hc
      rw [p1 hc] at h1
      simp at h1
    rcases Nat.lt_or_ge 1 v.length with hl | hl
    · obtain ⟨l, hd⟩ := p3 fl h1 hl
      obtain ⟨lat, lon, hrs, ht, -⟩ := track_of_driftFixes hd
      obtain ⟨fl', hfl, hlen, hflag⟩ := speedFlags_long G hpar.1 hp hpar.2.2 hl ht
      rw [h1, Except.ok.injEq] at hfl
      subst hfl
      obtain ⟨w1, w2⟩ := writeFlags_flags hlen h _ hflag
      exact ⟨w1, _, w2, fun hc => by omega, fun _ => ⟨lat, lon, hrs, ht, fun _ _ => Iff.rfl⟩⟩
    · rw [p2 hpar hl, Except.ok.injEq] at h1
      subst h1
      obtain ⟨w1, w2⟩ := writeFlags_flags (by simp) h (fun _ => False) (zeros_flags _)
      exact ⟨w1, _, w2, fun _ _ => id, fun hc => by omega⟩

theorem flags_digits {n : Nat} {fl : List Int} {P : Nat → Prop} (hl : fl.length = n)
    (hf : ∀ k, k < n → ∃ x : Int, fl[k]? = some x ∧ (x = 0 ∨ x = 1) ∧ (x = 1 ↔ P k)) :
    ∀ x ∈ fl, 0 ≤ x ∧ x ≤ 9 := by
  intro x hx
  obtain ⟨k, hk, rfl⟩ := List.mem_iff_getElem.1 hx
  obtain ⟨y, hy, hy', -⟩ := hf k (by omega)
  rw [List.getElem?_eq_getElem hk, Option.some.injEq] at hy
  rw [hy]
  omega

/-- C50: with a non-negative limit and positive periods in order, the check completes on every record that has at
most one report or is a track in time order; a negative limit or period, or a maximum period below the minimum, is
rejected. -/
theorem C50_completes (G : Geo) (limit minP maxP : Rat) (v : List Report) :
    (0 ≤ limit → 0 < minP → minP ≤ maxP → (v.length ≤ 1 ∨ ∃ lat lon hrs, IsTrack v lat lon hrs) →
      ∃ v', speedCheck G limit minP maxP v = .ok v')
    ∧ (¬ (0 ≤ limit ∧ 0 ≤ minP ∧ minP ≤ maxP) → speedCheck G limit minP maxP v = .error .assertion) := by
  obtain ⟨p1, p2, -⟩ := speedFlags_params (G := G) (limit := limit) (minP := minP) (maxP := maxP) (v := v)
  unfold speedCheck
  constructor
  · intro h0 h1 h2 hv
    rcases Nat.lt_or_ge 1 v.length with hl | hl
    · obtain ⟨lat, lon, hrs, ht⟩ := hv.resolve_left (by omega)
      obtain ⟨fl, hfl, hlen, hflag⟩ := speedFlags_long G h0 h1 h2 hl ht
      rw [hfl, except_bind_ok]
      exact writeFlags_ok (.inl (by decide)) (flags_digits hlen hflag)
    · rw [p2 ⟨h0, h1.le, h2⟩ hl, except_bind_ok]
      exact writeFlags_ok (.inl (by decide)) (flags_digits (by simp) (zeros_flags _))
  · intro h
    rw [p1 h]
    rfl

theorem speedLoop_zero (G : Geo) {limit : Rat} {l : List Fix} (hl : l ≠ [])
    (hlast : ∀ e x, l.getLast? = some e → x ∈ l → x.hrs ≤ e.hrs)
    {win : Nat → Fix → Except Err (Option (Fix × Nat))} (hwin : ∀ i a, l[i]? = some a → ∃ b, win i a = .ok b)
    (k i : Nat) (hi : i ≤ l.length) (hk : l.length < i + k) (fl : List Int) :
    speedLoop G limit 0 l win k i fl = .error .index := by
  induction k generalizing i fl with
  | zero => omega
  | succ k ih =>
    obtain ⟨e, he⟩ : ∃ e, l.getLast? = some e := by
      rw [List.getLast?_eq_some_getLast hl]; exact ⟨_, rfl⟩
    rw [speedLoop, pyIndex_last _ _ he, except_bind_ok]
    rcases Nat.lt_or_ge i l.length with h | h
    · have hg : l[i]? = some l[i] := List.getElem?_eq_getElem h
      rw [pyIndex_eq_ok hg, except_bind_ok]
      have := hlast e l[i] he (List.getElem_mem h)
      rw [if_pos (by simp only [ge_iff_le]; linarith)]
      obtain ⟨b, hb⟩ := hwin i _ hg
      rw [hb, except_bind_ok]
      cases b with
      | none => exact ih (i + 1) (by omega) (by omega) _
      | some b =>
        obtain ⟨b, j⟩ := b
        show (if _ then _ else _) = _
        split
        · exact ih (i + 1) (by omega) (by omega) _
        · exact ih (i + 1) (by omega) (by omega) _
    · have : pyIndex l (i : Int) = .error .index := by
        unfold pyIndex
        have h' : ¬ (i : Int) < 0 := by omega
        simp only [if_neg h', Int.toNat_natCast, List.getElem?_eq_none h]
      rw [this]
      rfl

/-- C50: a minimum period of zero is accepted, but then the check runs off the end of every record of two or more
reports and raises. -/
theorem C50_zero_period_violation (G : Geo) (limit maxP : Rat) (h0 : 0 ≤ limit) (h1 : 0 ≤ maxP) (v : List Report)
    (hl : 1 < v.length) (lat lon hrs : Nat → Rat) (ht : IsTrack v lat lon hrs) :
    speedCheck G limit 0 maxP v = .error .index := by
  unfold speedCheck speedFlags
  rw [pyAssert_bind, if_pos (by simpa using h0), pyAssert_bind, if_pos (by simp), pyAssert_bind,
    if_pos (by simpa using h1), pyAssert_bind, if_pos (by simpa using h1), if_neg (by omega),
    driftFixes_of_track ht, except_bind_ok]
  have hlen : ((List.range v.length).map fun i => (⟨lat i, lon i, hrs i⟩ : Fix)).length = v.length := by simp
  rw [zero_mul, speedLoop_zero]
  · rfl
  · intro hc
    rw [hc] at hlen
    simp at hlen
    omega
  · intro e x he hx
    rw [List.getLast?_eq_getElem?, hlen, List.getElem?_map, List.getElem?_range (by omega)] at he
    simp only [Option.map_some, Option.some.injEq] at he
    subst he
    simp only [List.mem_map, List.mem_range] at hx
    obtain ⟨i, hi, rfl⟩ := hx
    exact track_mono ht (by omega) (by omega)
  · intro i a ha
    have hi := lt_of_get ha
    rw [hlen] at hi
    rw [List.getElem?_map, List.getElem?_range hi] at ha
    simp only [Option.map_some, Option.some.injEq] at ha
    subst ha
    obtain ⟨W, hW, -⟩ := speedWindow_spec (lat := lat) (lon := lon) (hrs := hrs) (minH := 0) (maxH := maxP * 24)
      (by linarith) i hi
    exact ⟨_, hW⟩
  · omega
  · rw [hlen]; omega


/-- Non-vacuity: four reports half a day apart, the last two legs of 200 km each; with a limit of 2.5 m/s and windows
of 0.8 to 1 days only the last window is fast, so the first report is not flagged. -/
example : (speedCheck flatGeo (5/2) (4/5) 1 [sampleDrift 0 0 0, sampleDrift 0 1 12, sampleDrift 0 100 12,
      sampleDrift 0 300 12, sampleDrift 0 500 12]).map (fun v => v.map fun r => r.getQc "POS" "drf_spd")
    = .ok [0, 1, 1, 1, 1] := by
  decide +kernel

example : (speedCheck flatGeo (5/2) 0 1 [sampleDrift 0 0 0, sampleDrift 0 1 12]).isOk = false := by
  decide +kernel

/-! ## C51 -/

theorem set_binary {l : List Int} (h : ∀ x ∈ l, x = 0 ∨ x = 1) (i : Nat) (y : Int) (hy : y = 0 ∨ y = 1) :
    ∀ x ∈ l.set i y, x = 0 ∨ x = 1 := by
  intro x hx
  rcases List.mem_or_eq_of_mem_set hx with hx | hx
  · exact h x hx
  · rw [hx]; exact hy

theorem elimDrop_flags {m : Nat} (l : List Nat) (s s' : Elim) (h : l.foldlM (elimDrop m) s = .ok s') :
    s'.flags = s.flags := by
  induction l generalizing s with
  | nil =>
    simp only [List.foldlM_nil, except_pure, Except.ok.injEq] at h
    rw [h]
  | cons i l ih =>
    rw [List.foldlM_cons] at h
    cases h1 : elimDrop m s i with
    | error e => rw [h1] at h; simp at h
    | ok s1 =>
      rw [h1, except_bind_ok] at h
      rw [ih s1 h]
      unfold elimDrop at h1
      cases h2 : pyIndex s.viol (i : Int) with
      | error e => rw [h2] at h1; simp at h1
      | ok x =>
        rw [h2, except_bind_ok] at h1
        split at h1
        · cases h3 : pyIndex s.count (i : Int) with
          | error e => rw [h3] at h1; simp at h1
          | ok c =>
            rw [h3, except_bind_ok, except_pure, Except.ok.injEq] at h1
            rw [← h1]
        · rw [except_pure, Except.ok.injEq] at h1
          rw [h1]

theorem elimLoop_binary (k : Nat) (s s' : Elim) (h : elimLoop k s = .ok s') (hs : ∀ x ∈ s.flags, x = 0 ∨ x = 1) :
    s'.flags.length = s.flags.length ∧ ∀ x ∈ s'.flags, x = 0 ∨ x = 1 := by
  induction k generalizing s with
  | zero =>
    unfold elimLoop at h
    split at h
    · simp at h
    · rw [Except.ok.injEq] at h; subst h; exact ⟨rfl, hs⟩
  | succ k ih =>
    unfold elimLoop at h
    split at h
    · cases h1 : elimRound s with
      | error e => rw [h1] at h; simp at h
      | ok s1 =>
        rw [h1, except_bind_ok] at h
        unfold elimRound at h1
        simp only at h1
        cases h2 : pyIndex s.viol (argmax s.count : Int) with
        | error e => rw [h2] at h1; simp at h1
        | ok x =>
          rw [h2, except_bind_ok] at h1
          cases h3 : x.foldlM (elimDrop (argmax s.count)) { s with flags := s.flags.set (argmax s.count) 1 } with
          | error e => rw [h3] at h1; simp at h1
          | ok s2 =>
            rw [h3, except_bind_ok, except_pure, Except.ok.injEq] at h1
            have hf := elimDrop_flags _ _ _ h3
            obtain ⟨i1, i2⟩ := ih s1 h (by
              rw [← h1]
              show ∀ x ∈ s2.flags, _
              rw [hf]
              exact set_binary hs _ _ (.inr rfl))
            refine ⟨?_, i2⟩
            rw [i1, ← h1]
            show s2.flags.length = _
            rw [hf]
            simp
    · rw [Except.ok.injEq] at h; subst h; exact ⟨rfl, hs⟩

theorem set_all_zero (n : Nat) (fl : List Int) (h : fl.length = n) :
    (List.range n).foldl (fun fl i => fl.set i 0) fl = List.replicate n 0 := by
  rw [set_all n fl h 0]
  simp

/-- Whatever the record, the iQuam track check leaves flags 0 and 1. -/
theorem iquamFlags_binary {G : Geo} {P : IquamParams} {v : List Report} {fl : List Int}
    (h : iquamFlags G P v = .ok fl) : fl.length = v.length ∧ ∀ x ∈ fl, x = 0 ∨ x = 1 := by
  have hlen : (readFlags v "POS" "iquam_track").length = v.length := by simp [readFlags]
  have hz : ∀ x ∈ List.replicate v.length (0 : Int), x = 0 ∨ x = 1 := by
    intro x hx; exact .inl (List.eq_of_mem_replicate hx)
  unfold iquamFlags at h
  cases hh : v.head? with
  | none =>
    rw [hh] at h
    simp only [Except.ok.injEq] at h
    subst h
    rw [List.head?_eq_none_iff] at hh
    subst hh
    simp
  | some r =>
    rw [hh] at h
    simp only at h
    split at h
    · rw [Except.ok.injEq, set_all_zero _ _ hlen] at h
      subst h
      exact ⟨by simp, hz⟩
    · unfold eliminate at h
      rw [set_all_zero _ _ hlen] at h
      cases h1 : (List.range v.length).mapM fun t1 => violators (iquamBad G P
          (if r.getint "PT" = some 6 ∨ r.getint "PT" = some 7 then P.buoySpeedLimit else P.shipSpeedLimit) v t1)
          (neighbours v.length P.neighbours t1) with
      | error e => rw [h1] at h; simp at h
      | ok viol =>
        rw [h1, except_bind_ok] at h
        simp only at h
        cases h2 : elimLoop v.length ⟨viol, viol.map fun l => (l.length : Int), List.replicate v.length 0⟩ with
        | error e => rw [h2] at h; simp at h
        | ok s =>
          rw [h2, except_bind_ok, except_pure, Except.ok.injEq] at h
          subst h
          obtain ⟨a1, a2⟩ := elimLoop_binary _ _ _ h2 hz
          exact ⟨by simpa using a1, a2⟩


/-- The copy taken for a ship's. -/
theorem shipCopy_eq (r : Report) : ∃ c, shipCopy r = .ok c ∧ AsShip c r := by
  unfold shipCopy Report.setvar
  rw [if_pos (by decide)]
  simp only [String.reduceEq, or_self, if_false]
  obtain ⟨c, hc⟩ : ∃ c, Report.setQc { r with data := fun k => if k = "PT" then some 5 else r.data k } "POS"
      "iquam_track" 0 = .ok c := by
    unfold Report.setQc
    rw [pyAssert_bind, if_pos (by decide), pyAssert_bind, if_pos (by decide)]
    exact ⟨_, rfl⟩
  refine ⟨c, hc, ?_⟩
  unfold Report.setQc at hc
  rw [pyAssert_bind, if_pos (by decide), pyAssert_bind, if_pos (by decide), except_pure, Except.ok.injEq] at hc
  rw [← hc]
  exact ⟨rfl, fun k => rfl⟩

theorem shipCopies (v : List Report) : ∃ cs, v.mapM shipCopy = .ok cs ∧ List.Forall₂ AsShip cs v := by
  induction v with
  | nil => exact ⟨[], rfl, .nil⟩
  | cons r v ih =>
    obtain ⟨cs, h1, h2⟩ := ih
    obtain ⟨c, h3, h4⟩ := shipCopy_eq r
    refine ⟨c :: cs, ?_, .cons h4 h2⟩
    rw [List.mapM_cons, h3, except_bind_ok, h1, except_bind_ok, except_pure]

theorem asShip_trans {a b c : List Report} (h1 : List.Forall₂ SameReport a b) (h2 : List.Forall₂ AsShip b c) :
    List.Forall₂ AsShip a c := by
  induction h1 generalizing c with
  | nil => exact h2
  | cons h hs ih =>
    cases h2 with
    | cons g gs =>
      refine .cons ⟨h.1.trans g.1, fun k => ?_⟩ (ih gs)
      rw [h.2.2.1]
      exact g.2 k

theorem iquamTrackCheck_flags {G : Geo} {P : IquamParams} {w w' : List Report} (h : iquamTrackCheck G P w = .ok w') :
    w'.length = w.length ∧ ∀ (k : Nat) (r : Report), w'[k]? = some r →
      r.getQc "POS" "iquam_track" = 0 ∨ r.getQc "POS" "iquam_track" = 1 := by
  unfold iquamTrackCheck at h
  cases h1 : iquamFlags G P w with
  | error e => rw [h1] at h; simp at h
  | ok fl =>
    rw [h1, except_bind_ok] at h
    obtain ⟨b1, b2⟩ := iquamFlags_binary h1
    obtain ⟨w1, w2⟩ := writeFlags_spec b1 h
    refine ⟨w1, fun k r hr => ?_⟩
    have hk := lt_of_get hr
    obtain ⟨⟨x, x1, x2⟩, -⟩ := w2 k _ r (List.getElem?_eq_getElem (by omega)) hr
    rw [x2]
    exact b2 x (List.mem_of_getElem? x1)

theorem shipScreen_spec {G : Geo} {P : IquamParams} {v : List Report} {screen : List Int}
    (h : shipScreen G P v = .ok screen) :
    screen.length = v.length ∧ (∀ x ∈ screen, x = 0 ∨ x = 1)
      ∧ ScreenedAsShip G P v fun k => screen.getD k 0 := by
  obtain ⟨cs, c1, c2⟩ := shipCopies v
  unfold shipScreen at h
  rw [c1, except_bind_ok] at h
  cases h1 : cs.foldlM (addReport G) [] with
  | error e => rw [h1] at h; simp at h
  | ok w =>
    rw [h1, except_bind_ok] at h
    cases h2 : iquamTrackCheck G P w with
    | error e => rw [h2] at h; simp at h
    | ok w' =>
      rw [h2, except_bind_ok, except_pure, Except.ok.injEq] at h
      obtain ⟨a1, -, -⟩ := C40_add_report G cs w h1
      have hw := asShip_trans a1 c2
      obtain ⟨f1, f2⟩ := iquamTrackCheck_flags h2
      have hlen : w'.length = v.length := by rw [f1, hw.length_eq]
      subst h
      refine ⟨by simp [readFlags, hlen], ?_, w, w', hw, h2, hlen, ?_⟩
      · intro x hx
        simp only [readFlags, List.mem_map] at hx
        obtain ⟨r, hr, rfl⟩ := hx
        obtain ⟨k, hk⟩ := List.mem_iff_getElem?.1 hr
        exact f2 k r hk
      · intro k r hr
        simp only [readFlags, List.getD_eq_getElem?_getD, List.getElem?_map, hr]
        rfl

theorem newSpeedWindow_spec {n : Nat} {lat lon hrs : Nat → Rat} {minH : Rat} (hmin : 0 < minH) {screen : List Int}
    (hs : screen.length = n) (hb : ∀ x ∈ screen, x = 0 ∨ x = 1) (i : Nat) (hi : i < n) :
    ∃ W : Option Nat, newSpeedWindow minH ((List.range n).map fun i => ⟨lat i, lon i, hrs i⟩) screen i
        ⟨lat i, lon i, hrs i⟩ = .ok (W.map fun j => (⟨lat j, lon j, hrs j⟩, j))
      ∧ ∀ j, W = some j ↔ KeptWindow n hrs minH (fun k => screen.getD k 0 = 0) i j := by
  have hz : ∀ k, k < n → (((List.range n).map fun i => (⟨lat i, lon i, hrs i⟩ : Fix)).zipIdx)[k]?
      = some (⟨lat k, lon k, hrs k⟩, k) := by
    intro k hk
    rw [List.getElem?_zipIdx, List.getElem?_map, List.getElem?_range hk]
    simp
  have hget : ∀ k (hk : k < n), screen[k]? = some (screen.getD k 0) := by
    intro k hk
    rw [List.getD_eq_getElem?_getD, List.getElem?_eq_getElem (by omega)]
    rfl
  have hbk : ∀ k, k < n → screen.getD k 0 = 0 ∨ screen.getD k 0 = 1 := fun k hk => hb _ (List.mem_of_getElem? (hget k hk))
  unfold newSpeedWindow
  rw [pyIndex_eq_ok (hget i hi), except_bind_ok]
  by_cases h1 : screen.getD i 0 = 1
  · refine ⟨none, by simp only [if_pos h1]; rfl, fun j => ⟨fun h => by simp at h, ?_⟩⟩
    rintro ⟨-, -, h2, -⟩
    omega
  · have h0 : screen.getD i 0 = 0 := (hbk i hi).resolve_right h1
    rw [if_neg h1, except_pure]
    have key : ∀ m, m ≤ n → ∃ W : Option Nat,
        (((((List.range n).map fun i => (⟨lat i, lon i, hrs i⟩ : Fix)).zipIdx).drop (n - m)).filter
          fun p => decide (p.1.hrs ≥ hrs i + minH) && decide (screen[p.2]? = some 0)).head?
            = W.map (fun j => (⟨lat j, lon j, hrs j⟩, j))
        ∧ ∀ j, W = some j ↔ (n - m ≤ j ∧ j < n ∧ screen.getD j 0 = 0 ∧ hrs i + minH ≤ hrs j
            ∧ ∀ k, n - m ≤ k → k < j → screen.getD k 0 = 0 → hrs k < hrs i + minH) := by
      intro m
      induction m with
      | zero =>
        intro _
        refine ⟨none, ?_, fun j => ⟨fun h => by simp at h, fun h => by omega⟩⟩
        rw [List.drop_of_length_le (by simp)]
        rfl
      | succ m ih =>
        intro hm
        obtain ⟨W, w1, w2⟩ := ih (by omega)
        have hk : n - (m + 1) < n := by omega
        have hdrop : (((List.range n).map fun i => (⟨lat i, lon i, hrs i⟩ : Fix)).zipIdx).drop (n - (m + 1))
            = (⟨lat (n - (m + 1)), lon (n - (m + 1)), hrs (n - (m + 1))⟩, n - (m + 1))
              :: (((List.range n).map fun i => (⟨lat i, lon i, hrs i⟩ : Fix)).zipIdx).drop (n - m) := by
          have hlen : n - (m + 1) < (((List.range n).map fun i => (⟨lat i, lon i, hrs i⟩ : Fix)).zipIdx).length := by
            simp; omega
          rw [List.drop_eq_getElem_cons hlen]
          have e1 := hz (n - (m + 1)) hk
          rw [List.getElem?_eq_getElem hlen, Option.some.injEq] at e1
          rw [e1]
          congr 2
          omega
        rw [hdrop]
        by_cases hp : hrs (n - (m + 1)) ≥ hrs i + minH ∧ screen.getD (n - (m + 1)) 0 = 0
        · refine ⟨some (n - (m + 1)), ?_, fun j => ?_⟩
          · rw [List.filter_cons_of_pos]
            · rfl
            · rw [hget _ hk]
              simpa using hp
          · rw [Option.some.injEq]
            constructor
            · rintro rfl
              exact ⟨le_refl _, hk, hp.2, hp.1, fun k h1 h2 => by omega⟩
            · rintro ⟨a1, a2, a3, a4, a5⟩
              by_contra hne
              have := a5 (n - (m + 1)) (le_refl _) (by omega) hp.2
              have := hp.1
              linarith
        · refine ⟨W, ?_, fun j => ?_⟩
          · rw [List.filter_cons_of_neg]
            · exact w1
            · rw [hget _ hk]
              simpa using hp
          · rw [w2 j]
            constructor
            · rintro ⟨a1, a2, a3, a4, a5⟩
              refine ⟨by omega, a2, a3, a4, fun k b1 b2 b3 => ?_⟩
              by_cases hkk : k = n - (m + 1)
              · subst hkk
                by_contra hc
                exact hp ⟨not_lt.1 hc, b3⟩
              · exact a5 k (by omega) b2 b3
            · rintro ⟨a1, a2, a3, a4, a5⟩
              have : j ≠ n - (m + 1) := by
                rintro rfl
                exact hp ⟨a4, a3⟩
              exact ⟨by omega, a2, a3, a4, fun k b1 b2 b3 => a5 k (by omega) b2 b3⟩
    obtain ⟨W, w1, w2⟩ := key n (le_refl _)
    refine ⟨W, ?_, fun j => ?_⟩
    · rw [Nat.sub_self, List.drop_zero] at w1
      rw [w1]
    · rw [w2 j]
      unfold KeptWindow
      constructor
      · rintro ⟨a1, a2, a3, a4, a5⟩
        exact ⟨hi, a2, h0, a3, a4, fun k b1 b2 => a5 k (by omega) b1 b2⟩
      · rintro ⟨-, a2, -, a3, a4, a5⟩
        exact ⟨by omega, a2, a3, a4, fun k _ b1 b2 => a5 k b1 b2⟩

theorem newSpeedFlags_long (G : Geo) (P : IquamParams) {limit minP : Rat} (h0 : 0 ≤ limit) (h1 : 0 < minP)
    {v : List Report} (hl : 1 < v.length) {lat lon hrs : Nat → Rat} (ht : IsTrack v lat lon hrs)
    {screen : List Int} (hs : shipScreen G P v = .ok screen) :
    ∃ fl, newSpeedFlags G P limit minP v = .ok fl ∧ fl.length = v.length
      ∧ ∀ k, k < v.length → ∃ x : Int, fl[k]? = some x ∧ (x = 0 ∨ x = 1)
        ∧ (x = 1 ↔ InFastWindow (KeptWindow v.length hrs (minP * 24) fun k => screen.getD k 0 = 0)
            (FasterThan G limit lat lon hrs) k) := by
  obtain ⟨s1, s2, -⟩ := shipScreen_spec hs
  choose W hW1 hW2 using fun (i : Nat) (hi : i < v.length) =>
    newSpeedWindow_spec (lat := lat) (lon := lon) (hrs := hrs) (minH := minP * 24) (by linarith) s1 s2 i hi
  obtain ⟨fl, a1, a2, a3⟩ := speedLoop_start G (limit := limit) (minH := minP * 24) (by linarith)
    (n := v.length) (by omega) (lat := lat) (lon := lon) (hrs := hrs)
    (win := newSpeedWindow (minP * 24) ((List.range v.length).map fun i => ⟨lat i, lon i, hrs i⟩) screen)
    (W := fun i => if hi : i < v.length then W i hi else none)
    (fun i j hij hj => track_mono ht hij hj)
    (fun i hi _ => by rw [dif_pos hi]; exact hW1 i hi)
    (fun i j h => by
      by_cases hi : i < v.length
      · rw [dif_pos hi] at h
        obtain ⟨b1, b2, b3, b4, b5, -⟩ := (hW2 i hi j).1 h
        exact ⟨b1, b2, by linarith⟩
      · rw [dif_neg hi] at h; simp at h)
  refine ⟨fl, ?_, a2, fun k hk => ?_⟩
  · unfold newSpeedFlags
    rw [pyAssert_bind, if_pos (by simpa using h0), pyAssert_bind, if_pos (by simpa using h1.le), if_neg (by omega),
      driftFixes_of_track ht, except_bind_ok, hs, except_bind_ok]
    exact a1
  · obtain ⟨x, b1, b2, b3⟩ := a3 k hk
    refine ⟨x, b1, b2, b3.trans (inFastWindow_congr (fun i j => ?_) k)⟩
    by_cases hi : i < v.length
    · rw [dif_pos hi]; exact hW2 i hi j
    · rw [dif_neg hi]
      exact ⟨fun h => by simp at h, fun h => absurd h.1 hi⟩

theorem newSpeedFlags_params {G : Geo} {P : IquamParams} {limit minP : Rat} {v : List Report} :
    (¬ (0 ≤ limit ∧ 0 ≤ minP) → newSpeedFlags G P limit minP v = .error .assertion)
    ∧ ((0 ≤ limit ∧ 0 ≤ minP) → v.length ≤ 1 →
        newSpeedFlags G P limit minP v = .ok (List.replicate v.length 0))
    ∧ (∀ fl, newSpeedFlags G P limit minP v = .ok fl → 1 < v.length →
        ∃ l s, driftFixes v = .ok l ∧ shipScreen G P v = .ok s) := by
  unfold newSpeedFlags
  refine ⟨?_, ?_, ?_⟩
  · intro h
    rw [pyAssert_bind]
    split
    · rw [pyAssert_bind]
      split
      · rename_i a1 a2
        exact absurd ⟨by simpa using a1, by simpa using a2⟩ h
      · rfl
    · rfl
  · rintro ⟨h1, h2⟩ hl
    rw [pyAssert_bind, if_pos (by simpa using h1), pyAssert_bind, if_pos (by simpa using h2), if_pos hl]
    rfl
  · intro fl h hl
    rw [if_neg (by omega)] at h
    rw [pyAssert_bind] at h
    split at h
    · rw [pyAssert_bind] at h
      split at h
      · cases hd : driftFixes v with
        | error e => rw [hd] at h; simp at h
        | ok l =>
          cases hs : shipScreen G P v with
          | error e => rw [hd, except_bind_ok, hs] at h; simp at h
          | ok s => exact ⟨l, s, rfl, rfl⟩
      · simp at h
    · simp at h

/-- C51. When `new_speed_check` with a positive minimum period completes: every report gets the flag 0 or 1, a record
of at most one report gets only 0; otherwise a report gets 1 exactly if it lies between an unscreened report and the
first unscreened report at least `min_win_period` days later, and the mean speed between these two exceeds the limit.
Screened out are the reports the iQuam track check flags when the record is taken for a ship's.  Nothing but the
flag `POS`/`drf_spd` changes: existing iQuam flags stay as they were. -/
theorem C51_new_speed (G : Geo) (P : IquamParams) (limit minP : Rat) (hp : 0 < minP) (v v' : List Report)
    (h : newSpeedCheck G P limit minP v = .ok v') :
    v'.length = v.length ∧ ∃ Flagged : Nat → Prop,
      (∀ (k : Nat) (r r' : Report), v[k]? = some r → v'[k]? = some r' →
        (r'.getQc "POS" "drf_spd" = 0 ∨ r'.getQc "POS" "drf_spd" = 1)
        ∧ (r'.getQc "POS" "drf_spd" = 1 ↔ Flagged k)
        ∧ r' = { r with qc := r'.qc } ∧ (∀ key, key ≠ "POSdrf_spd" → r'.qc key = r.qc key)
        ∧ r'.getQc "POS" "iquam_track" = r.getQc "POS" "iquam_track")
      ∧ (v.length ≤ 1 → ∀ k, ¬ Flagged k)
      ∧ (1 < v.length → ∃ lat lon hrs screen, IsTrack v lat lon hrs ∧ ScreenedAsShip G P v screen
        ∧ ∀ k, k < v.length → (Flagged k ↔ InFastWindow
            (KeptWindow v.length hrs (minP * 24) fun k => screen k = 0) (FasterThan G limit lat lon hrs) k)) := by
  unfold newSpeedCheck at h
  have iq : ∀ (r r' : Report), (∀ key, key ≠ "POSdrf_spd" → r'.qc key = r.qc key) →
      r'.getQc "POS" "iquam_track" = r.getQc "POS" "iquam_track" := by
    intro r r' hr
    unfold Report.getQc
    rw [hr _ (by decide)]
  cases h1 : newSpeedFlags G P limit minP v with
  | error e => rw [h1] at h; simp at h
  | ok fl =>
    rw [h1, except_bind_ok] at h
    obtain ⟨p1, p2, p3⟩ := newSpeedFlags_params (G := G) (P := P) (limit := limit) (minP := minP) (v := v)
    have hpar : 0 ≤ limit ∧ 0 ≤ minP := by
      by_contra hc
      rw [p1 hc] at h1
      simp at h1
    rcases Nat.lt_or_ge 1 v.length with hl | hl
    · obtain ⟨l, s, hd, hs⟩ := p3 fl h1 hl
      obtain ⟨lat, lon, hrs, ht, -⟩ := track_of_driftFixes hd
      obtain ⟨fl', hfl, hlen, hflag⟩ := newSpeedFlags_long G P hpar.1 hp hl ht hs
      rw [h1, Except.ok.injEq] at hfl
      subst hfl
      obtain ⟨w1, w2⟩ := writeFlags_flags hlen h _ hflag
      refine ⟨w1, _, fun k r r' hr hr' => ?_, fun hc => by omega,
        fun _ => ⟨lat, lon, hrs, _, ht, (shipScreen_spec hs).2.2, fun _ _ => Iff.rfl⟩⟩
      obtain ⟨x1, x2, x3, x4⟩ := w2 k r r' hr hr'
      exact ⟨x1, x2, x3, x4, iq r r' x4⟩
    · rw [p2 hpar hl, Except.ok.injEq] at h1
      subst h1
      obtain ⟨w1, w2⟩ := writeFlags_flags (by simp) h (fun _ => False) (zeros_flags _)
      refine ⟨w1, _, fun k r r' hr hr' => ?_, fun _ _ => id, fun hc => by omega⟩
      obtain ⟨x1, x2, x3, x4⟩ := w2 k r r' hr hr'
      exact ⟨x1, x2, x3, x4, iq r r' x4⟩

end MarineQC
