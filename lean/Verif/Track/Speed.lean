import Verif.Track.Model
import Mathlib.Data.Rat.Floor
import Mathlib.Tactic.Linarith
import Mathlib.Tactic.NormNum
import Mathlib.Tactic.FieldSimp
import Mathlib.Tactic.IntervalCases

/-!
# C47: modal speed and speed limits
-/

namespace MarineQC

namespace Spec

/-- A speed in km/h belongs to the 3-knot class `c` (0 to 11): from `3c` up to but not including `3c + 3` knots;
the lowest class takes everything below, the highest everything above. -/
def InClass (c : Nat) (s : Rat) : Prop :=
  (c = 0 ∨ 3 * (c : Rat) ≤ s * kmToNm) ∧ (c = 11 ∨ s * kmToNm < 3 * c + 3)

instance (c : Nat) (s : Rat) : Decidable (InClass c s) := by unfold InClass; infer_instance

/-- The number of speeds in a class. -/
def classCount (l : List Rat) (c : Nat) : Nat := l.countP fun s => decide (InClass c s)

end Spec

open Spec

theorem speedBin_lt (s : Rat) : speedBin s < 12 := by
  unfold speedBin
  simp only
  split
  · omega
  · split <;> omega

theorem speedBin_iff (s : Rat) (c : Nat) (hc : c < 12) : speedBin s = c ↔ InClass c s := by
  unfold speedBin InClass
  simp only
  have h1 : ∀ n : Int, n ≤ ⌊kmToNm * s / 3⌋ ↔ 3 * (n : Rat) ≤ s * kmToNm := by
    intro n
    rw [Int.le_floor, le_div_iff₀ (by norm_num)]
    constructor <;> intro h <;> linarith
  generalize hf : ⌊kmToNm * s / 3⌋ = f at h1 ⊢
  have ha : 3 * (c : Rat) ≤ s * kmToNm ↔ (c : Int) ≤ f := by
    rw [h1 c]; push_cast; rfl
  have hb : s * kmToNm < 3 * c + 3 ↔ f < (c : Int) + 1 := by
    rw [← not_iff_not, not_lt, not_lt, h1]; push_cast
    constructor <;> intro h <;> linarith
  rw [ha, hb]
  split
  · omega
  · split <;> omega

theorem addFreq_length (f : List Int) (b : Nat) : (addFreq f b).length = f.length := by simp [addFreq]

theorem freq_get (bins : List Nat) (f : List Int) (h : ∀ b ∈ bins, b < f.length) (c : Nat) (hc : c < f.length) :
    (bins.foldl addFreq f).getD c 0 = f.getD c 0 + (bins.countP fun b => decide (b = c) : Nat) := by
  induction bins generalizing f with
  | nil => simp
  | cons b bins ih =>
    rw [List.foldl_cons, ih _ (fun x hx => by rw [addFreq_length]; exact h x (by simp [hx]))
      (by rw [addFreq_length]; exact hc), List.countP_cons]
    have hb := h b (by simp)
    unfold addFreq
    by_cases hbc : b = c
    · subst hbc
      simp [List.getD_eq_getElem?_getD, hb]
      omega
    · simp [List.getD_eq_getElem?_getD, List.getElem?_set, hbc]

/-- The scan for the fullest class finds the first. -/
theorem modeStep_scan (freq : List Int) (h0 : ∀ c, 0 ≤ freq.getD c 0) (k : Nat) :
    ∃ b, b ≤ k ∧ (List.range (k + 1)).foldl (modeStep freq) (-32768, 0)
        = (freq.getD b 0, ((b : Rat) + 1) * 3 - 3 / 2)
      ∧ (∀ c, c ≤ k → freq.getD c 0 ≤ freq.getD b 0) ∧ ∀ c, c < b → freq.getD c 0 < freq.getD b 0 := by
  induction k with
  | zero =>
    refine ⟨0, le_refl _, ?_, ?_, ?_⟩
    · have := h0 0
      simp only [List.range_succ, List.range_zero, List.nil_append, List.foldl_cons, List.foldl_nil, modeStep]
      rw [if_pos (by omega)]
    · intro c hc
      have : c = 0 := by omega
      subst this; exact le_refl _
    · intro c hc; omega
  | succ k ih =>
    obtain ⟨b, h1, h2, h3, h4⟩ := ih
    rw [List.range_succ, List.foldl_append, h2]
    simp only [List.foldl_cons, List.foldl_nil, modeStep]
    by_cases hc : freq.getD (k + 1) 0 > freq.getD b 0
    · rw [if_pos hc]
      refine ⟨k + 1, le_refl _, rfl, ?_, ?_⟩
      · intro c hck
        by_cases h : c = k + 1
        · rw [h]
        · have := h3 c (by omega); omega
      · intro c hck
        have := h3 c (by omega); omega
    · rw [if_neg hc]
      refine ⟨b, by omega, rfl, ?_, h4⟩
      intro c hck
      by_cases h : c = k + 1
      · rw [h]; omega
      · exact h3 c (by omega)

/-- C47. `modesp` of a list of at least two speeds, the first of which is not used and the others of which are
present, is the centre of the class with the most speeds (the lowest such class), or 8.5 knots if that is more,
in km/h.  In particular it is at least 8.5 knots. -/
theorem C47_modesp (first : Option Rat) (speeds : List Rat) (h : speeds ≠ []) :
    ∃ c, c < 12 ∧ (∀ d, d < 12 → classCount speeds d ≤ classCount speeds c)
      ∧ (∀ d, d < c → classCount speeds d < classCount speeds c)
      ∧ ∃ m, modesp (first :: speeds.map some) = .ok (some m)
        ∧ m * kmToNm = max (17 / 2) (3 * (c : Rat) + 3 / 2) := by
  have hk : kmToNm ≠ 0 := by unfold kmToNm; norm_num
  have hlen : (first :: speeds.map some).length > 1 := by
    have := List.length_pos_iff.2 h
    simp; omega
  have hbins : (first :: speeds.map some).tail.mapM speedBinOf = .ok (speeds.map speedBin) := by
    rw [List.tail_cons]
    clear hlen h
    induction speeds with
    | nil => rfl
    | cons a l ih =>
      rw [List.map_cons, List.mapM_cons, ih]
      rfl
  have hfreq : ∀ c, c < 12 → ((speeds.map speedBin).foldl addFreq (List.replicate 12 0)).getD c 0
      = classCount speeds c := by
    intro c hc
    rw [freq_get _ _ (by
      intro b hb
      obtain ⟨s, -, rfl⟩ := List.mem_map.1 hb
      simpa using speedBin_lt s) c (by simpa using hc)]
    unfold classCount
    rw [List.countP_map]
    have e : (List.replicate 12 (0 : Int)).getD c 0 = 0 := by
      interval_cases c <;> rfl
    rw [e, Int.zero_add]
    congr 1
    apply List.countP_congr
    intro s _
    simp [speedBin_iff s c hc]
  set freq := (speeds.map speedBin).foldl addFreq (List.replicate 12 0) with hfr
  have hflen : freq.length = 12 := by
    have : ∀ (l : List Nat) (f : List Int), (l.foldl addFreq f).length = f.length := by
      intro l
      induction l with
      | nil => intro f; rfl
      | cons b l ih => intro f; rw [List.foldl_cons, ih, addFreq_length]
    rw [hfr, this]; simp
  obtain ⟨c, h1, h2, h3, h4⟩ := modeStep_scan freq (by
    intro c
    by_cases hc : c < 12
    · rw [hfreq c hc]; omega
    · rw [List.getD_eq_getElem?_getD, List.getElem?_eq_none (by omega)]; simp) 11
  refine ⟨c, by omega, fun d hd => ?_, fun d hd => ?_, ?_⟩
  · have := h3 d (by omega)
    rw [hfreq d hd, hfreq c (by omega)] at this
    exact_mod_cast this
  · have := h4 d hd
    rw [hfreq d (by omega), hfreq c (by omega)] at this
    exact_mod_cast this
  · unfold modesp
    rw [if_pos hlen, hbins, except_bind_ok]
    simp only [← hfr, h2, except_pure]
    refine ⟨_, rfl, ?_⟩
    rw [div_mul_cancel₀ _ hk]
    by_cases hm : ((c : Rat) + 1) * 3 - 3 / 2 ≤ 17 / 2
    · rw [if_pos hm, max_eq_left (by linarith)]
    · rw [if_neg hm, max_eq_right (by linarith)]
      ring

/-- C47. Fewer than two speeds have no modal speed; a missing speed after the first raises. -/
theorem C47_modesp_few (l : List (Option Rat)) :
    (l.length < 2 → modesp l = .ok none)
      ∧ (none ∈ l.tail → modesp l = .error .type) := by
  constructor
  · intro h
    unfold modesp
    rw [if_neg (by omega)]
    rfl
  · intro h
    have hl : l.length > 1 := by
      have := List.length_pos_of_mem h
      rw [List.length_tail] at this
      omega
    have : ∀ l : List (Option Rat), none ∈ l → l.mapM speedBinOf = .error .type := by
      intro l
      induction l with
      | nil => intro h; simp at h
      | cons a l ih =>
        intro h
        rw [List.mapM_cons]
        cases a with
        | none => rfl
        | some s =>
          rw [ih (by simpa using h)]
          rfl
    unfold modesp
    rw [if_pos hl, this _ h]
    rfl

/-- C47. The speed limits in knots: without a modal speed or with one of at most 8.51 knots, 15, 20 and 0;
otherwise five quarters of the modal speed, 30, and three quarters of the modal speed.  The first two are
positive, the third is not negative, and the third is below the first. -/
theorem C47_limits (amode : Option Rat) :
    (∀ k, (amode = none ∨ ∃ m, amode = some m ∧ m * kmToNm ≤ 851 / 100) → k = setSpeedLimits amode →
      k.1 * kmToNm = 15 ∧ k.2.1 * kmToNm = 20 ∧ k.2.2 = 0)
    ∧ (∀ k m, amode = some m → 851 / 100 < m * kmToNm → k = setSpeedLimits amode →
      k.1 = m * (5 / 4) ∧ k.2.1 * kmToNm = 30 ∧ k.2.2 = m * (3 / 4))
    ∧ 0 < (setSpeedLimits amode).1 ∧ 0 < (setSpeedLimits amode).2.1 ∧ 0 ≤ (setSpeedLimits amode).2.2
    ∧ (setSpeedLimits amode).2.2 < (setSpeedLimits amode).1 := by
  have hk : (0 : Rat) < kmToNm := by unfold kmToNm; norm_num
  have key : ∀ m, m ≤ (851 / 100) / kmToNm ↔ m * kmToNm ≤ 851 / 100 := fun m => le_div_iff₀ hk
  have base : 15 / kmToNm * kmToNm = 15 ∧ 20 / kmToNm * kmToNm = 20 ∧ 0 / kmToNm = 0 := by
    refine ⟨div_mul_cancel₀ _ hk.ne', div_mul_cancel₀ _ hk.ne', by simp⟩
  refine ⟨?_, ?_, ?_⟩
  · rintro k (rfl | ⟨m, rfl, hm⟩) rfl
    · exact base
    · unfold setSpeedLimits
      simp only [(key m).2 hm, if_true]
      exact base
  · rintro k m rfl hm rfl
    unfold setSpeedLimits
    have : ¬ m ≤ (851 / 100) / kmToNm := by rw [key]; exact not_le.2 hm
    simp only [this, if_false]
    exact ⟨trivial, div_mul_cancel₀ _ hk.ne', trivial⟩
  · have p1 : 0 < 15 / kmToNm := by positivity
    have p2 : 0 < 20 / kmToNm := by positivity
    have p3 : 0 < 30 / kmToNm := by positivity
    have p4 : 0 < (851 / 100) / kmToNm := by positivity
    unfold setSpeedLimits
    cases amode with
    | none => exact ⟨p1, p2, by simp, by simpa using p1⟩
    | some m =>
      simp only
      split
      · exact ⟨p1, p2, by simp, by simpa using p1⟩
      · rename_i h
        push Not at h
        exact ⟨by simp only; linarith, p3, by simp only; linarith, by simp only; linarith⟩

/-- C47. For modal speeds above 8.51 knots the largest and smallest allowed speeds grow with the modal speed. -/
theorem C47_limits_monotone_partial (m m' : Rat) (h : 851 / 100 < m * kmToNm) (hm : m < m') :
    (setSpeedLimits (some m)).1 < (setSpeedLimits (some m')).1
      ∧ (setSpeedLimits (some m)).2.2 < (setSpeedLimits (some m')).2.2 := by
  have hk : (0 : Rat) < kmToNm := by unfold kmToNm; norm_num
  have h' : 851 / 100 < m' * kmToNm := lt_trans h (mul_lt_mul_of_pos_right hm hk)
  obtain ⟨a1, -, a3⟩ := (C47_limits (some m)).2.1 _ m rfl h rfl
  obtain ⟨b1, -, b3⟩ := (C47_limits (some m')).2.1 _ m' rfl h' rfl
  rw [a1, a3, b1, b3]
  constructor <;> linarith

/-- C47. But the largest allowed speed does not grow with the modal speed throughout: a ship with modal speed
10.5 knots has a lower limit than one with 8.5 knots.  And from a modal speed of 25.5 knots on the "max" speed
exceeds the "max max" speed. -/
theorem C47_limits_violation :
    (setSpeedLimits (some ((21 / 2) / kmToNm))).1 < (setSpeedLimits (some ((17 / 2) / kmToNm))).1
      ∧ (setSpeedLimits (some ((51 / 2) / kmToNm))).2.1 < (setSpeedLimits (some ((51 / 2) / kmToNm))).1 := by
  decide +kernel

/-- Non-vacuity: speeds of 10, 10.4, 20 and 50 knots have mode 10.5 knots. -/
example : modesp [none, some (10 / kmToNm), some (52 / 5 / kmToNm), some (20 / kmToNm), some (50 / kmToNm)]
    = .ok (some ((21 / 2) / kmToNm)) := by
  decide +kernel

end MarineQC
