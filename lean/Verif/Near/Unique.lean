import Verif.Near.Spec
import Verif.Buddy.Radius

/-!
# The flags of the buddy checks are determined by the cells searched
-/

namespace MarineQC

open Spec

theorem deviation_unique {f : StdevField} {c : Cell} {s s' : Rat} (h : IsDeviation f c s) (h' : IsDeviation f c s') : s = s' := by
  obtain ⟨v, h1, h2⟩ := h
  obtain ⟨v', h1', h2'⟩ := h'
  rw [h1, Except.ok.injEq] at h1'
  subst h1'
  rcases h2 with ⟨a, rfl⟩ | ⟨rfl, a⟩
  · rcases h2' with ⟨-, rfl⟩ | ⟨rfl, b⟩
    · rfl
    · exact absurd (a _ rfl) (not_lt.mpr b)
  · rcases h2' with ⟨b, rfl⟩ | ⟨e, b⟩
    · exact absurd (b _ rfl) (not_lt.mpr a)
    · injection e

/-- The grids agree in the cell. -/
structure AgreeAt (g g' : SuperOb) (c : Cell) : Prop where
  nobs : g.nobs c = g'.nobs c
  grid : g.grid c = g'.grid c

theorem agree_of_perm {l l' : List Obs} {g g' : SuperOb} (h : IsMeanGrid l g) (h' : IsMeanGrid l' g') {c : Cell}
    (hp : (anomaliesIn c l).Perm (anomaliesIn c l')) : AgreeAt g g' c := by
  obtain ⟨a1, a2, a3⟩ := h c
  obtain ⟨b1, b2, b3⟩ := h' c
  refine ⟨by rw [a1, b1, hp.length_eq], ?_⟩
  rw [← hp.length_eq, ← hp.sum_eq, ← a2] at b2
  by_cases e : anomaliesIn c l = []
  · rw [a3 e, b3]
    rw [e] at hp
    exact hp.nil_eq.symm
  · have : ((anomaliesIn c l).length : Rat) ≠ 0 := by
      rw [Nat.cast_ne_zero]
      exact fun h => e (List.length_eq_zero_iff.mp h)
    exact (mul_right_cancel₀ this b2).symm

theorem neighbours_local {g g' : SuperOb} {fx ry rp : Int} {c : Cell} {l l' : List Cell}
    (hg : ∀ o c', IsStep fx ry rp o → IsCellAt c o c' → AgreeAt g g' c')
    (h : Neighbours g fx ry rp c l) (h' : Neighbours g' fx ry rp c l') : l.Perm l' ∧ ∀ c' ∈ l, AgreeAt g g' c' := by
  have hin : ∀ c' ∈ l, AgreeAt g g' c' := by
    obtain ⟨os, -, a, m⟩ := h
    intro c' hc'
    obtain ⟨n, hn⟩ := List.mem_iff_getElem?.mp hc'
    obtain ⟨o, h1, h2⟩ := forall2_get a.flip n c' hn
    exact hg o c' ((m o).1 (List.mem_of_getElem? h1)).1 h2
  refine ⟨?_, hin⟩
  have hw : ∀ o, IsCellAt c o (wrapCell c o) := by
    intro o
    unfold IsCellAt wrapCell
    refine ⟨?_, ?_, ?_, ?_, ?_, ?_⟩ <;> simp only <;> omega
  obtain ⟨os, n, rfl, m⟩ := neighbours_list h
  obtain ⟨os', n', rfl, m'⟩ := neighbours_list h'
  refine List.Perm.map _ ?_
  rw [List.perm_ext_iff_of_nodup n n']
  intro o
  rw [m, m']
  constructor
  · rintro ⟨h1, h3⟩
    exact ⟨h1, by rw [← (hg o _ h1 (hw o)).nobs]; exact h3⟩
  · rintro ⟨h1, h3⟩
    exact ⟨h1, by rw [(hg o _ h1 (hw o)).nobs]; exact h3⟩

/-- The grids agree in all cells that are searched from `c`. -/
def AgreeNear (span : Int → Nat → Int) (radii : List (List Int)) (c : Cell) (g g' : SuperOb) : Prop :=
  ∀ c', Reaches span radii c c' → AgreeAt g g' c'

theorem level_local {span : Int → Nat → Int} {radii limits : List (List Int)} (hl : ∀ x ∈ limits, x ∈ radii) {c : Cell}
    {g g' : SuperOb} (hg : AgreeNear span radii c g g') {j : Nat} {l l' : List Cell} (h : Level span g limits c j l)
    (h' : Level span g' limits c j l') : l.Perm l' ∧ ∀ c' ∈ l, AgreeAt g g' c' := by
  obtain ⟨rx, ry, rp, a, b⟩ := h
  obtain ⟨rx', ry', rp', a', b'⟩ := h'
  rw [a] at a'
  simp only [Option.some.injEq, List.cons.injEq, and_true] at a'
  obtain ⟨rfl, rfl, rfl⟩ := a'
  exact neighbours_local (fun o c' h1 h2 => hg c' ⟨rx, ry, rp, o, hl _ (List.mem_of_getElem? a), h1, h2⟩) b b'

theorem AgreeNear.symm {span : Int → Nat → Int} {radii : List (List Int)} {c : Cell} {g g' : SuperOb}
    (h : AgreeNear span radii c g g') : AgreeNear span radii c g' g :=
  fun c' hc => ⟨(h c' hc).nobs.symm, (h c' hc).grid.symm⟩

theorem sums_agree {g g' : SuperOb} {l l' : List Cell} (h : l.Perm l') (hg : ∀ c' ∈ l, AgreeAt g g' c') :
    (l.map g.grid).sum = (l'.map g'.grid).sum ∧ (l.map g.nobs).sum = (l'.map g'.nobs).sum := by
  rw [List.map_congr_left (g := g'.grid) (fun c hc => (hg c hc).grid), List.map_congr_left (g := g'.nobs) (fun c hc => (hg c hc).nobs)]
  exact ⟨(h.map _).sum_eq, (h.map _).sum_eq⟩

theorem multiplier_unique {t : Int} {n : List Int} {v : List Rat} {k k' : Rat} (h : IsMultiplier t n v k) (h' : IsMultiplier t n v k') :
    k = k' := by
  obtain ⟨i, a, h1, h2, h3, h4⟩ := h
  obtain ⟨i', a', h1', h2', h3', h4'⟩ := h'
  rcases lt_trichotomy i i' with e | rfl | e
  · exact absurd (h4 _ _ e h1') (not_le.mpr h2')
  · rw [h3, Option.some.injEq] at h3'
    exact h3'
  · exact absurd (h4' _ _ e h1) (not_le.mpr h2)

theorem limits_unique {span : Int → Nat → Int} {radii : List (List Int)} {P : BuddyParams} (hl : ∀ x ∈ P.limits, x ∈ radii) {c : Cell}
    {g g' : SuperOb} (hg : AgreeNear span radii c g g') {sd m s m' s' : Rat} (h : IsLimits span g sd P c m s)
    (h' : IsLimits span g' sd P c m' s') : m = m' ∧ s = s' := by
  have inRange : ∀ {g : SuperOb} {j l}, Level span g P.limits c j l → j < P.limits.length := by
    rintro g j l ⟨_, _, _, e, -⟩
    by_contra hj
    rw [List.getElem?_eq_none (by omega)] at e
    cases e
  have clash : ∀ {g g' : SuperOb}, AgreeNear span radii c g g' → ∀ {j l}, Level span g P.limits c j l → l ≠ [] →
      Level span g' P.limits c j [] → False := by
    intro g g' hg j l a b d
    exact b (level_local hl hg a d).1.eq_nil
  rcases h with ⟨j, l, t, v, k, a1, a2, a3, a4, a5, a6, -, a8, a9⟩ | ⟨a1, rfl, rfl⟩
  · rcases h' with ⟨j', l', t', v', k', b1, b2, b3, b4, b5, b6, -, b8, b9⟩ | ⟨b1, -, -⟩
    · rcases lt_trichotomy j j' with e | rfl | e
      · exact (clash hg a2 a3 (b1 j e)).elim
      · obtain ⟨p1, p2⟩ := level_local hl hg a2 b2
        obtain ⟨s1, s2⟩ := sums_agree p1 p2
        rw [a5, Option.some.injEq] at b5
        rw [a6, Option.some.injEq] at b6
        subst b5 b6
        rw [← s2] at b8
        rw [a9, b9, multiplier_unique a8 b8]
        refine ⟨?_, rfl⟩
        rw [← s1, ← a4, ← p1.length_eq] at b4
        have : (l.length : Rat) ≠ 0 := by
          rw [Nat.cast_ne_zero]
          exact fun h => a3 (List.length_eq_zero_iff.mp h)
        exact (mul_right_cancel₀ this b4).symm
      · exact (clash hg.symm b2 b3 (a1 j' e)).elim
    · exact (clash hg a2 a3 (b1 j (inRange a2))).elim
  · rcases h' with ⟨j', l', t', v', k', b1, b2, b3, -⟩ | ⟨-, rfl, rfl⟩
    · exact (clash hg.symm b2 b3 (a1 j' (inRange b2))).elim
    · exact ⟨rfl, rfl⟩

theorem bayes_unique {span : Int → Nat → Int} {radii : List (List Int)} {limits : List Int} (hl : limits ∈ radii) {c : Cell}
    {g g' : SuperOb} (hg : AgreeNear span radii c g g') {sigma noise s1 s2 s3 : Rat} {m s m' s' : ℝ}
    (h : IsBayesLimits span g limits sigma noise s1 s2 s3 c m s) (h' : IsBayesLimits span g' limits sigma noise s1 s2 s3 c m' s') :
    m = m' ∧ s = s' := by
  obtain ⟨l, a, a'⟩ := h
  obtain ⟨l', b, b'⟩ := h'
  obtain ⟨p1, p2⟩ := level_local (fun x hx => by rw [List.mem_singleton] at hx; rw [hx]; exact hl) hg a b
  rcases a' with ⟨rfl, rfl, rfl⟩ | ⟨a1, a2, a3, a4⟩
  · rcases b' with ⟨-, rfl, rfl⟩ | ⟨b1, -⟩
    · exact ⟨rfl, rfl⟩
    · exact absurd p1.nil_eq.symm b1
  · rcases b' with ⟨rfl, -, -⟩ | ⟨b1, b2, b3, b4⟩
    · exact absurd p1.eq_nil a1
    · have e1 := (sums_agree p1 p2).1
      have e2 : (l.map fun c' => (sigma ^ 2 + noise * s2 ^ 2) / (g.nobs c' : Rat)).sum =
          (l'.map fun c' => (sigma ^ 2 + noise * s2 ^ 2) / (g'.nobs c' : Rat)).sum := by
        rw [List.map_congr_left (g := fun c' => (sigma ^ 2 + noise * s2 ^ 2) / (g'.nobs c' : Rat))
          (fun c hc => by simp only [(p2 c hc).nobs])]
        exact (p1.map _).sum_eq
      constructor
      · rw [← e1, ← a2, ← p1.length_eq] at b2
        have : (l.length : ℝ) ≠ 0 := by
          rw [Nat.cast_ne_zero]
          exact fun h => a1 (List.length_eq_zero_iff.mp h)
        exact (mul_right_cancel₀ this b2).symm
      · rw [← e2, ← p1.length_eq, ← a4] at b4
        exact ((pow_left_inj₀ b3 a3 (by norm_num)).mp b4).symm

theorem tenths_unique {x x' : Int} {p : ℝ} (h : (x : ℝ) ≤ 10 * p) (h9 : x ≤ 9) (k : 10 * p < x + 1 ∨ (x = 9 ∧ p = 1))
    (h' : (x' : ℝ) ≤ 10 * p) (h9' : x' ≤ 9) (k' : 10 * p < x' + 1 ∨ (x' = 9 ∧ p = 1)) : x = x' := by
  rcases k with k | ⟨rfl, rfl⟩
  · rcases k' with k' | ⟨rfl, rfl⟩
    · have a : x < x' + 1 := by exact_mod_cast lt_of_le_of_lt h k'
      have b : x' < x + 1 := by exact_mod_cast lt_of_le_of_lt h' k
      omega
    · have : (10 : Int) < x + 1 := by
        have : (10 : ℝ) < x + 1 := by linarith
        exact_mod_cast this
      omega
  · rcases k' with k' | ⟨rfl, -⟩
    · have : (10 : Int) < x' + 1 := by
        have : (10 : ℝ) < x' + 1 := by linarith
        exact_mod_cast this
      omega
    · rfl

/-- The reports have the same place, date and anomalies, and are both among the buddies or both not. -/
structure SameBuddy (v : String) (E : Report → Prop) (r s : Report) : Prop where
  obs : obsOf v s = obsOf v r
  elig : E s ↔ E r

theorem SameBuddy.anom {v : String} {E : Report → Prop} {r s : Report} (h : SameBuddy v E r s) : s.getanom v = r.getanom v :=
  congrArg Obs.anom h.obs

theorem mds_unique {span : Int → Nat → Int} {radii : List (List Int)} {f : StdevField} {P : BuddyParams}
    (hl : ∀ x ∈ P.limits, x ∈ radii) {v : String} {E : Report → Prop} {l l' : List Report} {r s : Report} (hs : SameBuddy v E r s)
    (hg : ∀ c c', FallsIn c (obsOf v r) → Reaches span radii c c' →
      (anomaliesIn c' (buddyObs l v E)).Perm (anomaliesIn c' (buddyObs l' v E))) {x x' : Int}
    (h : MdsFlag span f P v E l r x) (h' : MdsFlag span f P v E l' s x') : x = x' := by
  obtain ⟨a1, a2, a3⟩ := h
  obtain ⟨b1, b2, b3⟩ := h'
  by_cases he : E r
  · obtain ⟨g, k1, c, sd, m, st, a, k2, k3, k4, k5, k6⟩ := a3 he
    obtain ⟨g', q1, c', sd', m', st', a', q2, q3, q4, q5, q6⟩ := b3 (hs.elig.mpr he)
    rw [hs.obs] at q2
    have := fallsIn_unique q2 k2
    subst this
    have := deviation_unique q3 k3
    subst this
    rw [hs.anom, k5, Option.some.injEq] at q5
    subst q5
    have hn : AgreeNear span radii c' g g' := fun c hc => agree_of_perm k1 q1 (hg c' c k2 hc)
    obtain ⟨rfl, rfl⟩ := limits_unique hl hn k4 q4
    rcases a1 with rfl | rfl
    · rcases b1 with rfl | rfl
      · rfl
      · exact absurd (k6.mpr (q6.mp rfl)) (by decide)
    · rcases b1 with rfl | rfl
      · exact absurd (q6.mpr (k6.mp rfl)) (by decide)
      · rfl
  · rw [a2 he, b2 (fun e => he (hs.elig.mp e))]

theorem bayesFlag_unique {span : Int → Nat → Int} {radii : List (List Int)} {f1 f2 f3 : StdevField} {P : BayesParams}
    (hl : P.limits ∈ radii) {v : String} {E : Report → Prop} {l l' : List Report} {r s : Report} (hs : SameBuddy v E r s)
    (hg : ∀ c c', FallsIn c (obsOf v r) → Reaches span radii c c' →
      (anomaliesIn c' (buddyObs l v E)).Perm (anomaliesIn c' (buddyObs l' v E))) {x x' : Int}
    (h : BayesFlag span f1 f2 f3 P v E l r x) (h' : BayesFlag span f1 f2 f3 P v E l' s x') : x = x' := by
  obtain ⟨a1, a2, a3⟩ := h
  obtain ⟨b1, b2, b3⟩ := h'
  by_cases he : E r
  · obtain ⟨g, k1, c, s1, s2, s3, m, st, a, p, k2, k3, k4, k5, k6, k7, k8, k9, k10⟩ := a3 he
    obtain ⟨g', q1, c', s1', s2', s3', m', st', a', p', q2, q3, q4, q5, q6, q7, q8, q9, q10⟩ := b3 (hs.elig.mpr he)
    rw [hs.obs] at q2
    have := fallsIn_unique q2 k2
    subst this
    have := deviation_unique q3 k3
    subst this
    have := deviation_unique q4 k4
    subst this
    have := deviation_unique q5 k5
    subst this
    rw [hs.anom, k7, Option.some.injEq] at q7
    subst q7
    have hn : AgreeNear span radii c' g g' := fun c hc => agree_of_perm k1 q1 (hg c' c k2 hc)
    obtain ⟨rfl, rfl⟩ := bayes_unique hl hn k6 q6
    rw [k8, Except.ok.injEq] at q8
    subst q8
    exact tenths_unique k9 a1.2 k10 q9 b1.2 q10
  · rw [a2 he, b2 (fun e => he (hs.elig.mp e))]

end MarineQC
