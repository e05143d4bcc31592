import Verif.Buoy.SstModel
import Verif.Buoy.Aground

/-!
# C52: the two tails of a record
-/

namespace MarineQC

namespace Spec

/-- Of the windows `0 … N - 1`, exactly the first `a` in a row fail. -/
def LeadingRun (N : Nat) (fails : Nat → Prop) (a : Nat) : Prop :=
  a ≤ N ∧ (∀ i, i < a → fails i) ∧ (a < N → ¬ fails a)

/-- Of the windows `0 … N - 1`, exactly the last `b` in a row fail. -/
def TrailingRun (N : Nat) (fails : Nat → Prop) (b : Nat) : Prop :=
  b ≤ N ∧ (∀ i, N ≤ i + b → i < N → fails i) ∧ (b < N → ¬ fails (N - 1 - b))

/-- The length of a tail after the long check: up to the middle of the last failing window in a row. -/
def longTail (len run : Nat) : Nat := if run = 0 then 0 else run + (len - 1) / 2

/-- The lengths `s` and `e` of the tails of a record of `n` observations, where `long i` and `short i` tell that the
windows of `longLen` and `shortLen` observations from observation `i` on fail.  The long check finds tails up to the
middle of the failing windows at either end.  Among the observations between them, the short check adds one
observation to a tail for every failing window in a row at its end.  If all the windows of either check fail, nothing
is a tail. -/
def TailLengths (n longLen shortLen : Nat) (long short : Nat → Prop) (s e : Nat) : Prop :=
  ∃ a b, LeadingRun (n + 1 - longLen) long a ∧ TrailingRun (n + 1 - longLen) long b ∧
    if 0 < a ∧ a = n + 1 - longLen then s = 0 ∧ e = 0
    else
      ∃ s0 e0 m c d, s0 = longTail longLen a ∧ e0 = longTail longLen b ∧ s0 + m + e0 = n
        ∧ LeadingRun (m + 1 - shortLen) (fun i => short (s0 + i)) c
        ∧ TrailingRun (m + 1 - shortLen) (fun i => short (s0 + i)) d
        ∧ if 0 < c ∧ c = m + 1 - shortLen then s = 0 ∧ e = 0 else s = s0 + c ∧ e = e0 + d

end Spec

open Spec

/-- Runs at both ends either are everything or leave a window between them. -/
theorem runs_cases {N : Nat} {fails : Nat → Prop} {a b : Nat} (ha : LeadingRun N fails a)
    (hb : TrailingRun N fails b) : (a = N ∧ b = N) ∨ a + b < N := by
  obtain ⟨a1, a2, a3⟩ := ha
  obtain ⟨b1, b2, b3⟩ := hb
  by_cases h : a = N
  · left
    refine ⟨h, ?_⟩
    by_contra hne
    exact b3 (by omega) (a2 _ (by omega))
  · right
    by_contra hc
    exact a3 (by omega) (b2 a (by omega) (by omega))

/-- C52: the tails of a record never cover all its observations. -/
theorem tailLengths_lt {n L S : Nat} (hL : L % 2 = 1) (hS : 1 ≤ S) (hn : 0 < n) {long short : Nat → Prop} {s e : Nat}
    (h : TailLengths n L S long short s e) : s + e < n := by
  obtain ⟨a, b, ha, hb, h⟩ := h
  split at h
  · omega
  · rename_i hall
    obtain ⟨s0, e0, m, c, d, h1, h2, h3, hc, hd, h⟩ := h
    unfold longTail at h1 h2
    have hm : 0 < m := by
      rcases runs_cases ha hb with ⟨h4, h5⟩ | h4
      · split at h1 <;> split at h2 <;> omega
      · split at h1 <;> split at h2 <;> omega
    split at h
    · omega
    · rename_i hall'
      rcases runs_cases hc hd with ⟨h4, h5⟩ | h4
      · omega
      · omega

theorem longLoop_run (T : TailTests) (len : Nat) (temp : List SstObs) (set : Nat → Int) (cnt lo : Nat) (cur : Int) :
    ∃ a, a ≤ cnt
      ∧ (∀ i, i < a → T.unreliable ((temp.drop (lo + i)).take len) = false
          ∧ T.longBad ((temp.drop (lo + i)).take len) = true)
      ∧ (a < cnt → ¬ (T.unreliable ((temp.drop (lo + a)).take len) = false
          ∧ T.longBad ((temp.drop (lo + a)).take len) = true))
      ∧ longLoop T len temp set (List.range' lo cnt) cur = if a = 0 then cur else set (lo + a - 1) := by
  induction cnt generalizing lo cur with
  | zero => exact ⟨0, le_refl _, by simp, by simp, by simp [longLoop]⟩
  | succ cnt ih =>
    rw [List.range'_succ, longLoop]
    by_cases h1 : T.unreliable ((temp.drop lo).take len) = true
    · exact ⟨0, by omega, by omega, fun _ => by simp [h1], by simp [h1]⟩
    · by_cases h2 : T.longBad ((temp.drop lo).take len) = true
      · obtain ⟨a, i1, i2, i3, i4⟩ := ih (lo + 1) (set lo)
        refine ⟨a + 1, by omega, ?_, ?_, ?_⟩
        · intro i hi
          cases i with
          | zero => exact ⟨by simpa using h1, by simpa using h2⟩
          | succ i =>
            have := i2 i (by omega)
            rwa [show lo + 1 + i = lo + (i + 1) by omega] at this
        · intro ha
          have := i3 (by omega)
          rwa [show lo + 1 + a = lo + (a + 1) by omega] at this
        · simp only [h1, h2, if_true]
          rw [if_neg (by simp), i4, if_neg (Nat.succ_ne_zero a)]
          by_cases ha : a = 0
          · subst ha; simp
          · rw [if_neg ha]; congr 1; omega
      · exact ⟨0, by omega, by omega, fun _ => by simp [h2], by simp [h1, h2]⟩

theorem shortLoop_run (T : TailTests) (len : Nat) (temp : List SstObs) (step : Nat → Int) (cnt lo : Nat) (cur : Int) :
    ∃ a, a ≤ cnt
      ∧ (∀ i, i < a → T.unreliable ((temp.drop (lo + i)).take len) = false
          ∧ T.shortBad ((temp.drop (lo + i)).take len) = true)
      ∧ (a < cnt → ¬ (T.unreliable ((temp.drop (lo + a)).take len) = false
          ∧ T.shortBad ((temp.drop (lo + a)).take len) = true))
      ∧ shortLoop T len temp step (List.range' lo cnt) cur = cur + ((List.range' lo a).map step).sum := by
  induction cnt generalizing lo cur with
  | zero => exact ⟨0, le_refl _, by simp, by simp, by simp [shortLoop]⟩
  | succ cnt ih =>
    rw [List.range'_succ, shortLoop]
    by_cases h1 : T.unreliable ((temp.drop lo).take len) = true
    · exact ⟨0, by omega, by omega, fun _ => by simp [h1], by simp [h1]⟩
    · by_cases h2 : T.shortBad ((temp.drop lo).take len) = true
      · obtain ⟨a, i1, i2, i3, i4⟩ := ih (lo + 1) (cur + step lo)
        refine ⟨a + 1, by omega, ?_, ?_, ?_⟩
        · intro i hi
          cases i with
          | zero => exact ⟨by simpa using h1, by simpa using h2⟩
          | succ i =>
            have := i2 i (by omega)
            rwa [show lo + 1 + i = lo + (i + 1) by omega] at this
        · intro ha
          have := i3 (by omega)
          rwa [show lo + 1 + a = lo + (a + 1) by omega] at this
        · simp only [h1, h2, if_true]
          rw [if_neg (by simp), i4, List.range'_succ, List.map_cons, List.sum_cons]
          ring
      · exact ⟨0, by omega, by omega, fun _ => by simp [h2], by simp [h1, h2]⟩

/-- The sum of the steps of the short check. -/
theorem step_sum (M S : Nat) (x y : Int) (a : Nat) (ha : a ≤ M) :
    ((List.range' 0 a).map fun ix : Nat => if (ix : Int) = (M : Int) - 1 then x else y).sum
      = if 0 < a ∧ a = M then ((a : Int) - 1) * y + x else a * y := by
  induction a with
  | zero => simp
  | succ a ih =>
    rw [List.range'_concat, List.map_append, List.sum_append, ih (by omega), if_neg (by omega)]
    simp only [List.map_cons, List.map_nil, List.sum_cons, List.sum_nil, Nat.zero_add, Nat.one_mul, add_zero]
    by_cases h : a + 1 = M
    · rw [if_pos (by omega), if_pos ⟨by omega, h⟩]
      push_cast
      ring
    · rw [if_neg (by omega), if_neg (fun hc => h hc.2)]
      push_cast
      ring

theorem reverse_window {α : Type} (l : List α) (i len : Nat) (h : i + len ≤ l.length) :
    (l.reverse.drop i).take len = ((l.drop (l.length - i - len)).take len).reverse := by
  rw [List.drop_reverse, List.take_reverse, List.length_take, min_eq_left (by omega), List.drop_take]
  congr 2
  omega

theorem window_window {α : Type} (l : List α) (s m i len : Nat) (h : i + len ≤ m) :
    (((l.take (s + m)).drop s).drop i).take len = (l.drop (s + i)).take len := by
  rw [List.drop_drop, List.drop_take, List.take_take, min_eq_left (by omega)]

/-- The tests do not depend on the direction of the window. -/
def TailTests.Symmetric (T : TailTests) : Prop :=
  ∀ w : List SstObs, T.unreliable w.reverse = T.unreliable w ∧ T.longBad w.reverse = T.longBad w
    ∧ T.shortBad w.reverse = T.shortBad w

/-- A window fails the long check. -/
def TailTests.Long (T : TailTests) (len : Nat) (obs : List SstObs) (i : Nat) : Prop :=
  T.unreliable ((obs.drop i).take len) = false ∧ T.longBad ((obs.drop i).take len) = true

/-- A window fails the short check. -/
def TailTests.Short (T : TailTests) (len : Nat) (obs : List SstObs) (i : Nat) : Prop :=
  T.unreliable ((obs.drop i).take len) = false ∧ T.shortBad ((obs.drop i).take len) = true

theorem longTails_spec {T : TailTests} (hT : T.Symmetric) {L : Nat} (obs : List SstObs) :
    ∃ a b, LeadingRun (obs.length + 1 - L) (T.Long L obs) a ∧ TrailingRun (obs.length + 1 - L) (T.Long L obs) b
      ∧ longTails T L obs = ((longTail L a : Int) - 1, (obs.length : Int) - longTail L b) := by
  unfold longTails
  by_cases h : obs.length < L
  · refine ⟨0, 0, ⟨by omega, by omega, by omega⟩, ⟨by omega, by omega, by omega⟩, ?_⟩
    simp [h, longTail]
  · obtain ⟨a, a1, a2, a3, a4⟩ := longLoop_run T L obs (fun ix => ((ix + (L - 1) / 2 : Nat) : Int))
      (obs.length - L + 1) 0 (-1)
    obtain ⟨b, b1, b2, b3, b4⟩ := longLoop_run T L obs.reverse (fun ix => ((obs.length : Int) - 1) - ix - ((L - 1) / 2 : Nat))
      (obs.length - L + 1) 0 obs.length
    have hN : obs.length + 1 - L = obs.length - L + 1 := by omega
    have hrev : ∀ i, i + L ≤ obs.length →
        ((T.unreliable ((obs.reverse.drop (0 + i)).take L) = false
          ∧ T.longBad ((obs.reverse.drop (0 + i)).take L) = true) ↔ T.Long L obs (obs.length - L - i)) := by
      intro i hi
      rw [Nat.zero_add, reverse_window obs i L hi, (hT _).1, (hT _).2.1, show obs.length - i - L = obs.length - L - i by omega]
      rfl
    refine ⟨a, b, ⟨by omega, ?_, ?_⟩, ⟨by omega, ?_, ?_⟩, ?_⟩
    · intro i hi
      have := a2 i hi
      rwa [Nat.zero_add] at this
    · intro ha
      have := a3 (by omega)
      rwa [Nat.zero_add] at this
    · intro i h1 h2
      have := (hrev (obs.length - L - i) (by omega)).1 (b2 _ (by omega))
      rwa [show obs.length - L - (obs.length - L - i) = i by omega] at this
    · intro hb
      have := b3 (by omega)
      rw [hrev b (by omega)] at this
      rwa [show obs.length + 1 - L - 1 - b = obs.length - L - b by omega]
    · simp only [if_neg h, List.range_eq_range', a4, b4]
      unfold longTail
      refine Prod.ext ?_ ?_
      · simp only
        split
        · simp
        · push_cast [Nat.zero_add]
          omega
      · simp only
        split
        · simp
        · push_cast [Nat.zero_add]
          omega

theorem shortTails_spec {T : TailTests} (hT : T.Symmetric) {S : Nat} (hS : 1 ≤ S) (obs : List SstObs)
    (s0 m e0 : Nat) (hm : 0 < m) (hn : s0 + m + e0 = obs.length) :
    ∃ c d, LeadingRun (m + 1 - S) (fun i => T.Short S obs (s0 + i)) c
      ∧ TrailingRun (m + 1 - S) (fun i => T.Short S obs (s0 + i)) d
      ∧ shortTails T S obs ((s0 : Int) - 1, (obs.length : Int) - e0)
        = .ok ((s0 : Int) - 1 + (if 0 < c ∧ c = m + 1 - S then (m : Int) else c),
            (obs.length : Int) - e0 - (if 0 < d ∧ d = m + 1 - S then (m : Int) else d)) := by
  unfold shortTails
  rw [if_neg (by simp only [ge_iff_le, not_le]; omega)]
  have hnp : (obs.length : Int) - e0 - 1 - ((s0 : Int) - 1 + 1) + 1 = m := by omega
  simp only [hnp]
  rw [pyAssert_bind, if_pos (by simpa using hm)]
  by_cases h : m < S
  · refine ⟨0, 0, ⟨by omega, by omega, by omega⟩, ⟨by omega, by omega, by omega⟩, ?_⟩
    rw [if_pos (by omega)]
    simp
  · rw [if_neg (by omega)]
    have e1 : ((obs.length : Int) - e0 - 1 + 1).toNat = s0 + m := by omega
    have e2 : ((s0 : Int) - 1 + 1).toNat = s0 := by omega
    rw [e1, e2, Int.toNat_natCast, List.range_eq_range']
    have hlen : ((obs.take (s0 + m)).drop s0).length = m := by
      rw [List.length_drop, List.length_take]; omega
    obtain ⟨c, c1, c2, c3, c4⟩ := shortLoop_run T S ((obs.take (s0 + m)).drop s0)
      (fun ix => if (ix : Int) = (m : Int) - S then (S : Int) else 1) (m - S + 1) 0 ((s0 : Int) - 1)
    obtain ⟨d, d1, d2, d3, d4⟩ := shortLoop_run T S ((obs.take (s0 + m)).drop s0).reverse
      (fun ix => - if (ix : Int) = (m : Int) - S then (S : Int) else 1) (m - S + 1) 0 ((obs.length : Int) - e0)
    have hfor : ∀ i, i + S ≤ m →
        ((T.unreliable ((((obs.take (s0 + m)).drop s0).drop (0 + i)).take S) = false
          ∧ T.shortBad ((((obs.take (s0 + m)).drop s0).drop (0 + i)).take S) = true) ↔ T.Short S obs (s0 + i)) := by
      intro i hi
      rw [Nat.zero_add, window_window obs s0 m i S hi]
      rfl
    have hrev : ∀ i, i + S ≤ m →
        ((T.unreliable ((((obs.take (s0 + m)).drop s0).reverse.drop (0 + i)).take S) = false
          ∧ T.shortBad ((((obs.take (s0 + m)).drop s0).reverse.drop (0 + i)).take S) = true)
            ↔ T.Short S obs (s0 + (m - S - i))) := by
      intro i hi
      rw [Nat.zero_add, reverse_window _ i S (by omega), (hT _).1, (hT _).2.2, hlen,
        show m - i - S = m - S - i by omega, window_window obs s0 m _ S (by omega)]
      rfl
    refine ⟨c, d, ⟨by omega, ?_, ?_⟩, ⟨by omega, ?_, ?_⟩, ?_⟩
    · intro i hi
      exact (hfor i (by omega)).1 (c2 i hi)
    · intro hc
      have := c3 (by omega)
      rwa [hfor c (by omega)] at this
    · intro i h1 h2
      have := (hrev (m - S - i) (by omega)).1 (d2 _ (by omega))
      rwa [show m - S - (m - S - i) = i by omega] at this
    · intro hd
      have := d3 (by omega)
      rw [hrev d (by omega)] at this
      rwa [show m + 1 - S - 1 - d = m - S - d by omega]
    · rw [c4, d4, except_pure]
      have hM : (m : Int) - S = ((m - S + 1 : Nat) : Int) - 1 := by omega
      have f1 : (fun ix : Nat => if (ix : Int) = (m : Int) - S then (S : Int) else 1)
          = fun ix : Nat => if (ix : Int) = ((m - S + 1 : Nat) : Int) - 1 then (S : Int) else 1 := by
        rw [hM]
      have f2 : (fun ix : Nat => - if (ix : Int) = (m : Int) - S then (S : Int) else 1)
          = fun ix : Nat => if (ix : Int) = ((m - S + 1 : Nat) : Int) - 1 then -(S : Int) else -1 := by
        rw [hM]
        funext ix
        split <;> rfl
      rw [f1, f2, step_sum (m - S + 1) S _ _ c c1, step_sum (m - S + 1) S _ _ d d1]
      congr 2
      · have hN : m + 1 - S = m - S + 1 := by omega
        rw [hN]
        split
        · push_cast; omega
        · omega
      · have hN : m + 1 - S = m - S + 1 := by omega
        rw [hN]
        split
        · push_cast; omega
        · omega

/-- The indices the tail check ends with are those of tails of the lengths described; the assertion that something
is left for the short check never fails. -/
theorem tails_spec {T : TailTests} (hT : T.Symmetric) {L S : Nat} (hL : L % 2 = 1) (hS : 1 ≤ S) (obs : List SstObs)
    (hn : 0 < obs.length) :
    ∃ (s e : Nat) (p : Int × Int), shortTails T S obs (longTails T L obs) = .ok p
      ∧ (if p.1 ≥ p.2 then (-1, (obs.length : Int)) else p) = ((s : Int) - 1, (obs.length : Int) - e)
      ∧ TailLengths obs.length L S (T.Long L obs) (T.Short S obs) s e := by
  have pick : ∀ x y : Int, (x ≥ y → (if (x, y).1 ≥ (x, y).2 then ((-1 : Int), (obs.length : Int)) else (x, y))
        = (((0 : Nat) : Int) - 1, (obs.length : Int) - (0 : Nat)))
      ∧ (x < y → (if (x, y).1 ≥ (x, y).2 then ((-1 : Int), (obs.length : Int)) else (x, y)) = (x, y)) := by
    intro x y
    refine ⟨fun h => ?_, fun h => if_neg (by simpa using h)⟩
    rw [if_pos h]
    simp
  obtain ⟨a, b, ha, hb, hl⟩ := longTails_spec hT (L := L) obs
  rw [hl]
  have ha1 := ha.1
  have hb1 := hb.1
  by_cases hall : 0 < a ∧ a = obs.length + 1 - L
  · have hbb : b = obs.length + 1 - L := by
      rcases runs_cases ha hb with ⟨-, h⟩ | h
      · exact h
      · omega
    have hta : longTail L a = a + (L - 1) / 2 := by unfold longTail; rw [if_neg (by omega)]
    have htb : longTail L b = b + (L - 1) / 2 := by unfold longTail; rw [if_neg (by omega)]
    have hge : (longTail L a : Int) - 1 ≥ (obs.length : Int) - longTail L b := by omega
    refine ⟨0, 0, _, ?_, (pick _ _).1 hge, a, b, ha, hb, ?_⟩
    · unfold shortTails
      rw [if_pos hge]
    · rw [if_pos hall]
      exact ⟨rfl, rfl⟩
  · obtain ⟨m, hm0, hm⟩ : ∃ m, 0 < m ∧ longTail L a + m + longTail L b = obs.length := by
      rcases runs_cases ha hb with ⟨h1, h2⟩ | h1
      · have h0 : a = 0 := by omega
        have h0' : b = 0 := by omega
        exact ⟨obs.length, hn, by simp [longTail, h0, h0']⟩
      · have hta : longTail L a ≤ a + (L - 1) / 2 := by unfold longTail; split <;> omega
        have htb : longTail L b ≤ b + (L - 1) / 2 := by unfold longTail; split <;> omega
        exact ⟨obs.length - longTail L a - longTail L b, by omega, by omega⟩
    obtain ⟨c, d, hc, hd, hs⟩ := shortTails_spec hT hS obs (longTail L a) m (longTail L b) hm0 hm
    rw [hs]
    have hc1 := hc.1
    have hd1 := hd.1
    by_cases hcall : 0 < c ∧ c = m + 1 - S
    · have hdd : 0 < d ∧ d = m + 1 - S := by
        rcases runs_cases hc hd with ⟨-, h⟩ | h <;> omega
      rw [if_pos hcall, if_pos hdd]
      refine ⟨0, 0, _, rfl, (pick _ _).1 (by omega), a, b, ha, hb, ?_⟩
      rw [if_neg hall]
      refine ⟨_, _, m, c, d, rfl, rfl, hm, hc, hd, ?_⟩
      rw [if_pos hcall]
      exact ⟨rfl, rfl⟩
    · have hdd : ¬ (0 < d ∧ d = m + 1 - S) := by
        rcases runs_cases hc hd with ⟨h', h⟩ | h <;> omega
      rw [if_neg hcall, if_neg hdd]
      have hlt : (longTail L a : Int) - 1 + c < (obs.length : Int) - longTail L b - d := by
        rcases runs_cases hc hd with ⟨h3, h4⟩ | h3 <;> omega
      refine ⟨longTail L a + c, longTail L b + d, _, rfl, ?_, a, b, ha, hb, ?_⟩
      · rw [(pick _ _).2 hlt]
        refine Prod.ext ?_ ?_ <;> simp only <;> push_cast <;> ring
      · rw [if_neg hall]
        refine ⟨_, _, m, c, d, rfl, rfl, hm, hc, hd, ?_⟩
        rw [if_neg hcall]
        exact ⟨rfl, rfl⟩

end MarineQC
