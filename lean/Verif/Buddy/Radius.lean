import Verif.Buddy.Limits
import Mathlib.Analysis.Real.Pi.Bounds
import Mathlib.Analysis.SpecialFunctions.Trigonometric.Bounds

/-!
# C76: the cells searched for neighbours; C77: the limits with fixed parameters
-/

namespace MarineQC

open Spec

namespace Spec

/-- The angle of the middle of a row from the equator, with the code's value of pi. -/
noncomputable def rowAngle (y : Nat) : ℝ := (89.5 - y) * (3.1415928 / 180)

/-- Two columns are at most `n` apart, going round the globe. -/
def ColumnsWithin (n : Int) (x x' : Nat) : Prop := ∃ k : Int, |(x' : Int) - x + 360 * k| ≤ n

/-- Two pentads are at most `n` apart, going round the year. -/
def PentadsWithin (n : Int) (p p' : Nat) : Prop := ∃ k : Int, |(p' : Int) - p + 73 * k| ≤ n

/-- The tables that are written into `get_buddy_limits`. -/
def fixedParams : BuddyParams where
  limits := [[1, 1, 2], [2, 2, 2], [1, 1, 4], [2, 2, 4]]
  thresholds := [[0, 5, 15, 100], [0], [0, 5, 15, 100], [0]]
  multipliers := [[4, 7 / 2, 3, 5 / 2], [4], [4, 7 / 2, 3, 5 / 2], [4]]

end Spec

/-! ## The number of columns -/

theorem rowAngle_bound (y : Nat) (hy : y < 180) : |rowAngle y| ≤ 89.5 * (3.1415928 / 180) := by
  have h1 : (0 : ℝ) ≤ y := by positivity
  have h2 : (y : ℝ) ≤ 179 := by exact_mod_cast (by omega : y ≤ 179)
  unfold rowAngle
  rw [abs_le]
  constructor
  · linarith
  · linarith

theorem cos_rowAngle_pos (y : Nat) (hy : y < 180) : 0 < Real.cos (rowAngle y) := by
  have h := abs_le.1 (rowAngle_bound y hy)
  have hpi := Real.pi_gt_d6
  apply Real.cos_pos_of_mem_Ioo
  constructor <;> norm_num at h ⊢ <;> linarith

theorem fullXspan_eq (rx : Int) (hr : 0 ≤ rx) (y : Nat) (hy : y < 180) :
    fullXspan rx y = ⌊(rx : ℝ) / Real.cos (rowAngle y)⌋ := by
  have hc := cos_rowAngle_pos y hy
  have : (0 : ℝ) ≤ rx := by exact_mod_cast hr
  unfold fullXspan
  simp only
  rw [show (89.5 - (y : ℝ)) * (3.1415928 / 180) = rowAngle y from rfl, if_pos (by positivity)]

/-- C76. The number of columns searched on each side is the greatest whose width in the middle of the row, in degrees
at the equator, is within the radius. -/
theorem C76_columns (rx : Int) (hr : 0 ≤ rx) (y : Nat) (hy : y < 180) (n : Int) :
    n ≤ fullXspan rx y ↔ (n : ℝ) * Real.cos (rowAngle y) ≤ rx := by
  rw [fullXspan_eq rx hr y hy, Int.le_floor, le_div_iff₀ (cos_rowAngle_pos y hy)]

/-- C76: it is at least the radius, and the same for rows as far north as south. -/
theorem C76_columns_symmetric (rx : Int) (hr : 0 ≤ rx) (y : Nat) (hy : y < 180) :
    rx ≤ fullXspan rx y ∧ fullXspan rx y = fullXspan rx (179 - y) := by
  constructor
  · rw [C76_columns rx hr y hy]
    have : (0 : ℝ) ≤ rx := by exact_mod_cast hr
    nlinarith [Real.cos_le_one (rowAngle y)]
  · rw [fullXspan_eq rx hr y hy, fullXspan_eq rx hr _ (by omega)]
    have : rowAngle (179 - y) = - rowAngle y := by
      unfold rowAngle
      rw [Nat.cast_sub (by omega)]
      push_cast
      ring
    rw [this, Real.cos_neg]

/-- C76: with radii up to two degrees fewer than 180 columns on each side are searched, except in the two rows at the
poles. -/
theorem C76_columns_bound (rx : Int) (hr : 0 ≤ rx) (hr2 : rx ≤ 2) (y : Nat) (h1 : 1 ≤ y) (h2 : y ≤ 178) :
    fullXspan rx y < 180 := by
  rw [← not_le, C76_columns rx hr y (by omega), not_le]
  have hrx : (rx : ℝ) ≤ 2 := by exact_mod_cast hr2
  have hy1 : (1 : ℝ) ≤ y := by exact_mod_cast h1
  have hy2 : (y : ℝ) ≤ 178 := by exact_mod_cast h2
  have hpi := Real.pi_gt_d6
  have hpi' := Real.pi_lt_d6
  have ha : |rowAngle y| ≤ 88.5 * (3.1415928 / 180) := by
    unfold rowAngle
    rw [abs_le]
    constructor <;> norm_num <;> linarith
  have hj := Real.mul_le_sin (x := Real.pi / 2 - |rowAngle y|) (by norm_num at ha; linarith)
    (by linarith [abs_nonneg (rowAngle y)])
  rw [Real.sin_pi_div_two_sub, Real.cos_abs] at hj
  have : (1 / 80 : ℝ) ≤ 2 / Real.pi * (Real.pi / 2 - |rowAngle y|) := by
    rw [div_mul_eq_mul_div, le_div_iff₀ Real.pi_pos]
    norm_num at ha
    linarith
  push_cast
  linarith

/-! ## The cells -/

/-- The full statement of C76, at a cell of the grid: no cell is searched twice, the cell itself is not, and the cells
with observations found are those within the radius. -/
def Spec.SearchedOnce (g : SuperOb) (fx ry rp : Int) (c : Cell) (l : List Cell) : Prop :=
  l.Nodup ∧ ∀ c', c' ∈ l ↔ c' ≠ c ∧ c'.1 < 360 ∧ c'.2.1 < 180 ∧ c'.2.2 < 73 ∧ g.nobs c' ≠ 0
    ∧ ColumnsWithin fx c.1 c'.1 ∧ |(c'.2.1 : Int) - c.2.1| ≤ ry ∧ PentadsWithin rp c.2.2 c'.2.2

theorem neighbours_list {g : SuperOb} {fx ry rp : Int} {c : Cell} {l : List Cell} (h : Neighbours g fx ry rp c l) :
    ∃ os : List (Int × Int × Int), os.Nodup ∧ l = os.map (wrapCell c)
      ∧ ∀ o, o ∈ os ↔ IsStep fx ry rp o ∧ g.nobs (wrapCell c o) ≠ 0 := by
  obtain ⟨os, n, f, m⟩ := h
  refine ⟨os, n, ?_, fun o => ?_⟩
  · clear m n
    induction f with
    | nil => rfl
    | cons h _ ih => rw [List.map_cons, ← ih, isCellAt_iff.1 h]
  · rw [m o]
    simp only [isCellAt_iff, exists_eq_left]

/-- C76 for rows at least the radius from the poles and radii that do not reach around the globe or the year. -/
theorem C76_neighbours_partial (g : SuperOb) (fx ry rp : Int) (c : Cell) (l : List Cell)
    (hc : c.1 < 360 ∧ c.2.1 < 180 ∧ c.2.2 < 73) (hx : fx < 180) (hy : ry ≤ c.2.1 ∧ c.2.1 + ry < 180) (hp : rp ≤ 36)
    (h : Neighbours g fx ry rp c l) : SearchedOnce g fx ry rp c l := by
  obtain ⟨os, n, rfl, m⟩ := neighbours_list h
  obtain ⟨x, y, p⟩ := c
  simp only at hc hy
  have key : ∀ {o : Int × Int × Int}, o ∈ os → |o.1| ≤ fx ∧ |o.2.1| ≤ ry ∧ |o.2.2| ≤ rp ∧ o ≠ (0, 0, 0) :=
    fun ho => ((m _).1 ho).1
  constructor
  · refine (List.nodup_map_iff_inj_on n).2 ?_
    rintro ⟨a, b, d⟩ ho ⟨a', b', d'⟩ ho' e
    have k := key ho
    have k' := key ho'
    simp only [abs_le] at k k'
    unfold wrapCell at e
    simp only [Prod.mk.injEq] at e ⊢
    omega
  · rintro ⟨x', y', p'⟩
    rw [List.mem_map]
    unfold ColumnsWithin PentadsWithin
    simp only
    constructor
    · rintro ⟨⟨a, b, d⟩, ho, e⟩
      obtain ⟨k, hn⟩ := (m _).1 ho
      rw [e] at hn
      unfold IsStep at k
      simp only [abs_le, ne_eq, Prod.mk.injEq] at k
      unfold wrapCell at e
      simp only [Prod.mk.injEq] at e
      refine ⟨?_, by omega, by omega, by omega, hn, ⟨((x : Int) + a) / 360, ?_⟩, ?_, ⟨((p : Int) + d) / 73, ?_⟩⟩
      · simp only [ne_eq, Prod.mk.injEq]
        omega
      · rw [abs_le]; omega
      · rw [abs_le]; omega
      · rw [abs_le]; omega
    · rintro ⟨h1, h2, h3, h4, h5, ⟨k, h6⟩, h7, ⟨k', h8⟩⟩
      rw [abs_le] at h6 h7 h8
      have e : wrapCell (x, y, p) ((x' : Int) - x + 360 * k, (y' : Int) - y, (p' : Int) - p + 73 * k')
          = (x', y', p') := by
        unfold wrapCell
        simp only [Prod.mk.injEq]
        omega
      refine ⟨_, (m _).2 ⟨⟨abs_le.2 h6, abs_le.2 h7, abs_le.2 h8, ?_⟩, by rw [e]; exact h5⟩, e⟩
      intro h0
      simp only [Prod.mk.injEq] at h0
      apply h1
      simp only [Prod.mk.injEq]
      omega

/-- C76: so it is for all searches of `get_buddy_limits` in rows more than two degrees from the poles. -/
theorem C76_fixed_searches_partial (g : SuperOb) (rad : List Int) (hrad : rad ∈ fixedParams.limits) (c : Cell)
    (hc : c.1 < 360 ∧ c.2.2 < 73) (hy : 2 ≤ c.2.1 ∧ c.2.1 ≤ 177) :
    ∃ rx ry rp l, rad = [rx, ry, rp] ∧ g.neighbours fullXspan rad c = .ok (l.map g.grid, l.map g.nobs)
      ∧ SearchedOnce g (fullXspan rx c.2.1) ry rp c l := by
  have : ∃ rx ry rp, rad = [rx, ry, rp] ∧ (0 ≤ rx ∧ rx ≤ 2) ∧ ry ≤ 2 ∧ rp ≤ 36 := by
    simp only [fixedParams, List.mem_cons, List.not_mem_nil, or_false] at hrad
    rcases hrad with rfl | rfl | rfl | rfl <;> exact ⟨_, _, _, rfl, by norm_num⟩
  obtain ⟨rx, ry, rp, rfl, h1, h2, h3⟩ := this
  obtain ⟨l, e1, e2⟩ := neighbours_spec fullXspan g rx ry rp c
  exact ⟨rx, ry, rp, l, rfl, e2, C76_neighbours_partial g _ ry rp c l ⟨hc.1, by omega, hc.2⟩
    (C76_columns_bound rx h1.1 h1.2 _ (by omega) (by omega)) (by omega) h3 e1⟩

/-- C76 fails in the row at the north pole: the row at the south pole is searched. -/
theorem C76_pole_violation (g : SuperOb) (fx ry rp : Int) (hx : 0 ≤ fx) (hy : 1 ≤ ry) (hp : 0 ≤ rp) (x p : Nat)
    (h1 : x < 360) (h2 : p < 73) (hn : g.nobs (x, 179, p) ≠ 0) (l : List Cell)
    (h : Neighbours g fx ry rp (x, 0, p) l) : (x, 179, p) ∈ l := by
  obtain ⟨os, n, rfl, m⟩ := neighbours_list h
  have e : wrapCell (x, 0, p) (0, -1, 0) = (x, 179, p) := by
    unfold wrapCell
    simp only [Prod.mk.injEq]
    omega
  refine List.mem_map.2 ⟨_, (m _).2 ⟨⟨?_, ?_, ?_, by simp⟩, by rw [e]; exact hn⟩, e⟩
  · simpa using hx
  · simpa using hy
  · simpa using hp

theorem pole_columns : 180 ≤ fullXspan 2 0 := by
  rw [C76_columns 2 (by norm_num) 0 (by norm_num)]
  have hpi := Real.pi_lt_d6
  have hpi' := Real.pi_gt_d6
  have h : Real.cos (rowAngle 0) ≤ Real.pi / 2 - rowAngle 0 := by
    rw [← Real.sin_pi_div_two_sub]
    apply Real.sin_le
    unfold rowAngle
    norm_num
    linarith
  unfold rowAngle at h ⊢
  norm_num at h ⊢
  linarith

/-- C76 fails there for radius 2 also because cells half way round the globe are searched twice. -/
theorem C76_double_count_violation (g : SuperOb) (ry rp : Int) (hy : 0 ≤ ry) (hp : 0 ≤ rp)
    (hn : g.nobs (180, 0, 0) ≠ 0) (l : List Cell) (h : Neighbours g (fullXspan 2 0) ry rp (0, 0, 0) l) :
    2 ≤ l.count (180, 0, 0) := by
  obtain ⟨os, n, rfl, m⟩ := neighbours_list h
  have hp0 := pole_columns
  have a : (180, 0, 0) ∈ os := (m _).2 ⟨⟨by simpa using hp0, by simpa using hy, by simpa using hp, by simp⟩, hn⟩
  have b : (-180, 0, 0) ∈ os := (m _).2 ⟨⟨by simpa using hp0, by simpa using hy, by simpa using hp, by simp⟩, hn⟩
  have hs : List.Sublist [(180, 0, 0), (-180, 0, 0)] os ∨ List.Sublist [(-180, 0, 0), ((180, 0, 0) : Int × Int × Int)] os := by
    obtain ⟨s, t, rfl⟩ := List.append_of_mem a
    rcases List.mem_append.1 b with b | b
    · right
      exact (List.singleton_sublist.2 b).append (List.Sublist.cons_cons _ (List.nil_sublist _))
    · left
      rcases List.mem_cons.1 b with b | b
      · simp at b
      · exact (List.nil_sublist s).append (List.Sublist.cons_cons _ (List.singleton_sublist.2 b))
  rcases hs with hs | hs
  · have := (hs.map (wrapCell (0, 0, 0))).count_le (180, 0, 0)
    simpa [wrapCell] using this
  · have := (hs.map (wrapCell (0, 0, 0))).count_le (180, 0, 0)
    simpa [wrapCell] using this

/-! ## Fixed parameters -/

theorem fixedStage_eq {span : Int → Nat → Int} {g : SuperOb} {P : BuddyParams} {c : Cell} {stdev : Rat}
    {st : Option (Rat × Rat)} {rx ry rp : Int} {t : List Int} {v : List Rat} (j : Nat)
    (ht : P.thresholds[j]? = some t) (hv : P.multipliers[j]? = some v) :
    fixedStage span g c stdev [rx, ry, rp] t v st = levelStep span g P c stdev st ([rx, ry, rp], j) := by
  obtain ⟨l, e1, e2⟩ := neighbours_spec span g rx ry rp c
  unfold fixedStage levelStep
  simp only [e2, except_bind_ok]
  cases st with
  | some r => simp [except_pure]
  | none =>
    simp only [and_true]
    split
    · rename_i hc
      have hl : l ≠ [] := by
        rintro rfl
        simp at hc
      have hpos := sum_nobs_pos (neighbours_nobs e1) hl
      rw [pyIndex_eq_ok ht, pyIndex_eq_ok hv, except_bind_ok, except_bind_ok]
      congr 1
      funext k
      rw [pyAssert_bind, if_pos (by simpa using hpos.ne')]
    · rfl

/-- C77. The limits with fixed parameters are those with the tables given as parameters. -/
theorem C77_fixed_limits (span : Int → Nat → Int) (g : SuperOb) (field : StdevField) (c : Cell) :
    fixedLimits span g field c = cellLimits span g field fixedParams c := by
  unfold fixedLimits cellLimits
  cases stdevAt field c with
  | error e => rfl
  | ok stdev =>
    simp only [except_bind_ok]
    rw [fixedStage_eq (P := fixedParams) 0 rfl rfl]
    simp only [fixedStage_eq (P := fixedParams) (t := [0]) (v := [4]) (rx := 2) (ry := 2) (rp := 2) 1 rfl rfl,
      fixedStage_eq (P := fixedParams) (t := [0, 5, 15, 100]) (v := [4, 7 / 2, 3, 5 / 2]) (rx := 1) (ry := 1) (rp := 4)
        2 rfl rfl,
      fixedStage_eq (P := fixedParams) (t := [0]) (v := [4]) (rx := 2) (ry := 2) (rp := 4) 3 rfl rfl]
    simp [fixedParams, List.zipIdx_cons, List.foldlM_cons]

theorem fixedParams_usable : UsableParams fixedParams := by
  refine ⟨by decide, ?_⟩
  have u1 : Usable [0, 5, 15, 100] [4, 7 / 2, 3, 5 / 2] := by
    refine ⟨rfl, ?_, rfl, by decide⟩
    intro v hv
    simp only [List.mem_cons, List.not_mem_nil, or_false] at hv
    rcases hv with rfl | rfl | rfl | rfl <;> norm_num
  have u2 : Usable [0] [4] := ⟨rfl, by simp, rfl, by decide⟩
  intro j hj
  have hj' : j < 4 := hj
  interval_cases j
  · exact ⟨_, _, rfl, rfl, u1⟩
  · exact ⟨_, _, rfl, rfl, u2⟩
  · exact ⟨_, _, rfl, rfl, u1⟩
  · exact ⟨_, _, rfl, rfl, u2⟩

/-- C77: those tables are usable, so the limits are found wherever the field has a value or none. -/
theorem C77_completes (span : Int → Nat → Int) (g : SuperOb) (field : StdevField) (c : Cell) (hp : c.2.2 < 73) (s : Rat)
    (hs : IsDeviation field c s) : ∃ r, fixedLimits span g field c = .ok r := by
  rw [C77_fixed_limits]
  exact C55_completes span g field fixedParams c hp fixedParams_usable s hs

/-- A grid with two observations next to each other: the limits of one are the anomaly of the other and 4 times the
deviation. -/
example : cellLimits (fun rx _ => rx)
    ⟨fun c => if c = (10, 20, 30) then 2 else if c = (11, 20, 30) then 3 else 0,
     fun c => if c = (10, 20, 30) ∨ c = (11, 20, 30) then 1 else 0⟩
    (fun _ _ _ _ => .ok (some (1 / 2))) fixedParams (10, 20, 30) = .ok (3, 2) := by decide +kernel

end MarineQC
