import Verif.Grid.Model
import Mathlib.Algebra.Order.Archimedean.Basic

/-!
# Helper lemmas about grid indices
-/

namespace MarineQC

theorem pyInt_nonneg {q : Rat} (h : 0 ≤ q) : pyInt q = ⌊q⌋ := by simp [pyInt, h]

theorem pyInt_neg {q : Rat} (h : q < 0) : pyInt q = ⌈q⌉ := by
  have : ¬ 0 ≤ q := by linarith
  simp [pyInt, this]

@[simp] theorem pyInt_intCast (i : Int) : pyInt (i : Rat) = i := by
  unfold pyInt; split <;> simp

theorem pyInt_eq_of_int {q : Rat} {i : Int} (h : q = i) : pyInt q = i := by rw [h, pyInt_intCast]

/-- `lat_to_yindex` on a grid of `n` rows. -/
theorem latToYindex_eq (n : Nat) (hn : 0 < n) (lat : Rat) (h1 : -90 ≤ lat) (h2 : lat ≤ 90) :
    latToYindex lat (180 / n) = if lat = -90 then (n : Int) - 1 else ⌊(90 - lat) * n / 180⌋ := by
  have hn' : (0 : Rat) < n := by exact_mod_cast hn
  have e1 : (180 : Rat) / (180 / n) = n := by field_simp
  have e2 : (90 - lat) / (180 / n) = (90 - lat) * n / 180 := by field_simp
  have q0 : 0 ≤ (90 - lat) * n / 180 := by
    apply div_nonneg _ (by norm_num)
    exact mul_nonneg (by linarith) hn'.le
  have f0 : 0 ≤ ⌊(90 - lat) * n / 180⌋ := Int.floor_nonneg.2 q0
  have key : (if ((⌊(90 - lat) * n / 180⌋ : Int) : Rat) ≥ n then pyInt ((n : Rat) - 1)
      else ⌊(90 - lat) * n / 180⌋) = if lat = -90 then (n : Int) - 1 else ⌊(90 - lat) * n / 180⌋ := by
    by_cases hp : lat = -90
    · subst hp
      have : ((90:Rat) - -90) * n / 180 = (n : Int) := by push_cast; ring
      rw [this, Int.floor_intCast]
      simp only [Int.cast_natCast, ge_iff_le, le_refl, if_true]
      apply pyInt_eq_of_int; push_cast; ring
    · have hlt : (90 - lat) * n / 180 < n := by
        have : -90 < lat := lt_of_le_of_ne h1 (Ne.symm hp)
        rw [div_lt_iff₀ (by norm_num)]
        have := mul_lt_mul_of_pos_right (show 90 - lat < 180 by linarith) hn'
        linarith
      have hfl : ⌊(90 - lat) * n / 180⌋ < (n : Int) := by
        rw [Int.floor_lt]; exact_mod_cast hlt
      have hnot : ¬ (((⌊(90 - lat) * n / 180⌋ : Int) : Rat) ≥ n) := by
        rw [ge_iff_le, not_le]; exact_mod_cast hfl
      rw [if_neg hnot, if_neg hp]
  have nonneg : 0 ≤ (if lat = -90 then (n : Int) - 1 else ⌊(90 - lat) * n / 180⌋) := by
    split <;> omega
  unfold latToYindex
  by_cases hr : (180 : Rat) / n = 1
  · have hn1 : n = 180 := by
      have : (n : Rat) = 180 := by field_simp at hr; linarith
      exact_mod_cast this
    subst hn1
    rw [if_pos hr]
    have e3 : (90 - lat) * ((180:Nat):Rat) / 180 = 90 - lat := by push_cast; ring
    rw [e3] at key q0 f0 nonneg ⊢
    simp only [pyInt_nonneg q0]
    have key' : (if ⌊90 - lat⌋ ≥ 180 then (179:Int) else ⌊90 - lat⌋) =
        if lat = -90 then ((180:Nat) : Int) - 1 else ⌊90 - lat⌋ := by
      rw [← key]
      have c : (((⌊90 - lat⌋ : Int) : Rat) ≥ ((180:Nat):Rat)) ↔ ⌊90 - lat⌋ ≥ 180 := by
        rw [ge_iff_le, show ((180:Nat):Rat) = ((180:Int):Rat) by norm_num, Int.cast_le]
      simp only [c]
      have : pyInt (((180:Nat):Rat) - 1) = 179 := pyInt_eq_of_int (by norm_num)
      rw [this]
    rw [key', if_neg (by omega)]
  · rw [if_neg hr]
    simp only [e1, e2, pyInt_nonneg q0, key]
    rw [if_neg (by omega)]

theorem wrapIndex_small {m x : Rat} (h : x < m) : wrapIndex m x = x := by
  rw [wrapIndex]
  have : ¬ (0 < m ∧ m ≤ x) := by rintro ⟨_, h'⟩; linarith
  simp [this]

/-- The wrapping loop subtracts a multiple of the modulus and ends below it. -/
theorem wrapIndex_spec (m x : Rat) (hm : 0 < m) (hx : 0 ≤ x) :
    ∃ k : Nat, wrapIndex m x = x - k * m ∧ 0 ≤ wrapIndex m x ∧ wrapIndex m x < m := by
  have gen : ∀ (N : Nat) (x : Rat), 0 ≤ x → x < N * m →
      ∃ k : Nat, wrapIndex m x = x - k * m ∧ 0 ≤ wrapIndex m x ∧ wrapIndex m x < m := by
    intro N
    induction N with
    | zero => intro x h1 h2; simp at h2; linarith
    | succ N ih =>
      intro x h1 h2
      by_cases hc : x < m
      · rw [wrapIndex_small hc]; exact ⟨0, by simp, h1, hc⟩
      · rw [wrapIndex]
        have hc' : 0 < m ∧ m ≤ x := ⟨hm, by linarith⟩
        rw [if_pos hc']
        obtain ⟨k, a, b, c⟩ := ih (x - m) (by linarith) (by push_cast at h2; linarith)
        exact ⟨k + 1, by rw [a]; push_cast; ring, b, c⟩
  obtain ⟨N, hN⟩ := exists_nat_gt (x / m)
  exact gen N x hx (by rwa [div_lt_iff₀ hm] at hN)

/-- Longitude brought into the range the index is computed from. -/
def inLon (lon : Rat) : Rat :=
  let i := if lon ≥ 180 then -180 + (lon - 180) else lon
  if i < -180 then i + 360 else i

theorem inLon_spec (lon : Rat) (h : -540 ≤ lon) :
    -180 ≤ inLon lon ∧ (∃ k : Int, inLon lon = lon + 360 * k) ∧ (lon < 540 → inLon lon < 180) := by
  unfold inLon
  by_cases h1 : lon ≥ 180
  · have : ¬ (-180 + (lon - 180) < -180) := by linarith
    simp only [h1, if_true, this, if_false]
    exact ⟨by linarith, ⟨-1, by push_cast; ring⟩, fun _ => by linarith⟩
  · simp only [h1, if_false]
    by_cases h2 : lon < -180
    · simp only [h2, if_true]
      exact ⟨by linarith, ⟨1, by push_cast; ring⟩, fun _ => by linarith⟩
    · simp only [h2, if_false]
      exact ⟨by linarith, ⟨0, by push_cast; ring⟩, fun _ => by linarith⟩

/-- `lon_to_xindex` on a grid of `n` columns. -/
theorem lonToXindex_spec (n : Nat) (hn : 0 < n) (lon : Rat) (h : -540 ≤ lon) :
    ∃ (i : Nat) (k : Int), lonToXindex lon (360 / n) = i ∧ i < n ∧
      (i : Rat) ≤ (lon + 360 * k + 180) * n / 360 ∧ (lon + 360 * k + 180) * n / 360 < i + 1 := by
  have hn' : (0 : Rat) < n := by exact_mod_cast hn
  obtain ⟨a, ⟨k, hk⟩, _⟩ := inLon_spec lon h
  have e1 : (360 : Rat) / (360 / n) = n := by field_simp
  have e2 : (inLon lon + 180) / (360 / n) = (inLon lon + 180) * n / 360 := by field_simp
  have q0 : 0 ≤ (inLon lon + 180) * n / 360 := by
    apply div_nonneg _ (by norm_num)
    exact mul_nonneg (by linarith) hn'.le
  have f0 : 0 ≤ ⌊(inLon lon + 180) * n / 360⌋ := Int.floor_nonneg.2 q0
  have heq : lonToXindex lon (360 / n) =
      pyInt (wrapIndex n ((⌊(inLon lon + 180) * n / 360⌋ : Int) : Rat)) := by
    unfold lonToXindex
    change (if (360 : Rat) / n = 1 then pyInt (wrapIndex 360 (pyInt (inLon lon + 180)))
      else pyInt (wrapIndex (360 / (360 / n)) (pyInt ((inLon lon + 180) / (360 / n))))) = _
    by_cases hr : (360 : Rat) / n = 1
    · have hn1 : (n : Rat) = 360 := by field_simp at hr; linarith
      rw [if_pos hr, hn1]
      have e3 : (inLon lon + 180) * 360 / 360 = inLon lon + 180 := by ring
      rw [e3, pyInt_nonneg (q := inLon lon + 180) (by linarith)]
    · rw [if_neg hr, e1, e2, pyInt_nonneg q0]
  obtain ⟨j, b, c, d⟩ := wrapIndex_spec n ((⌊(inLon lon + 180) * n / 360⌋ : Int) : Rat) hn'
    (by exact_mod_cast f0)
  have b' : wrapIndex n ((⌊(inLon lon + 180) * n / 360⌋ : Int) : Rat)
      = ((⌊(inLon lon + 180) * n / 360⌋ - j * n : Int) : Rat) := by rw [b]; push_cast; ring
  rw [b'] at c d heq
  rw [pyInt_intCast] at heq
  have c' : 0 ≤ ⌊(inLon lon + 180) * n / 360⌋ - (j:Int) * n := by exact_mod_cast c
  have d' : ⌊(inLon lon + 180) * n / 360⌋ - (j:Int) * n < n := by exact_mod_cast d
  have g1 := Int.floor_le ((inLon lon + 180) * n / 360)
  have g2 := Int.lt_floor_add_one ((inLon lon + 180) * n / 360)
  refine ⟨(⌊(inLon lon + 180) * n / 360⌋ - (j:Int) * n).toNat, k - j, ?_, by omega, ?_, ?_⟩
  · rw [heq]; omega
  · have : (((⌊(inLon lon + 180) * n / 360⌋ - (j:Int) * n).toNat : Nat) : Rat)
        = ((⌊(inLon lon + 180) * n / 360⌋ - (j:Int) * n : Int) : Rat) := by
      exact_mod_cast congrArg (Int.cast : Int → Rat) (Int.toNat_of_nonneg c')
    rw [this]; push_cast; rw [hk] at *; ring_nf at *; linarith
  · have : (((⌊(inLon lon + 180) * n / 360⌋ - (j:Int) * n).toNat : Nat) : Rat)
        = ((⌊(inLon lon + 180) * n / 360⌋ - (j:Int) * n : Int) : Rat) := by
      exact_mod_cast congrArg (Int.cast : Int → Rat) (Int.toNat_of_nonneg c')
    rw [this]; push_cast; rw [hk] at *; ring_nf at *; linarith

/-- The index is determined by the cell. -/
theorem cell_unique {n : Nat} (hn : 0 < n) {x : Rat} {i j : Nat} {k l : Int}
    (hi : i < n) (hj : j < n)
    (a1 : (i : Rat) ≤ (x + 360 * k + 180) * n / 360) (a2 : (x + 360 * k + 180) * n / 360 < i + 1)
    (b1 : (j : Rat) ≤ (x + 360 * l + 180) * n / 360) (b2 : (x + 360 * l + 180) * n / 360 < j + 1) :
    i = j := by
  have e : ∀ k : Int, (x + 360 * k + 180) * n / 360 = (x + 180) * n / 360 + ((k * n : Int) : Rat) := by
    intro k; push_cast; ring
  rw [e] at a1 a2 b1 b2
  have hi' : ⌊(x + 180) * n / 360⌋ = (i : Int) - k * n := by
    rw [Int.floor_eq_iff]; push_cast at *; constructor <;> linarith
  have hj' : ⌊(x + 180) * n / 360⌋ = (j : Int) - l * n := by
    rw [Int.floor_eq_iff]; push_cast at *; constructor <;> linarith
  have h1 : (i : Int) - k * n = j - l * n := by rw [← hi', hj']
  have h2 : (i : Int) - j = (k - l) * n := by linarith
  have h3 : k - l = 0 := by
    by_contra hne
    rcases lt_or_gt_of_ne hne with h | h
    · have : (k - l) * n ≤ -1 * n := mul_le_mul_of_nonneg_right (by omega) (by omega)
      omega
    · have : 1 * (n:Int) ≤ (k - l) * n := mul_le_mul_of_nonneg_right (by omega) (by omega)
      omega
  rw [h3] at h2; omega

end MarineQC
