import Verif.Buddy.Radius
import Verif.Deck.Props
import Verif.Report.Props
import Verif.Grid.Clim
import Verif.Stats.Props
import Verif.Track.Complete

/-!
# C56: the flags of the buddy checks
-/

namespace MarineQC

namespace Spec

/-- What a report contributes to the grid. -/
def obsOf (v : String) (r : Report) : Obs := ⟨r.lat, r.lon, r.getint "MO", r.getint "DY", r.getanom v⟩

open Classical in
/-- The observations of the reports that pass the filter. -/
noncomputable def keptObs (q : QcFilter) (v : String) (reps : List Report) : List Obs :=
  (reps.filter fun r => decide (Passes q r)).map (obsOf v)

/-- `r'` is `r` with one flag set to `x`, and nothing else changed. -/
def FlagSet (r r' : Report) (t f : String) (x : Int) : Prop :=
  r'.getQc t f = x ∧ r' = { r with qc := r'.qc } ∧ ∀ k, k ≠ t ++ f → r'.qc k = r.qc k

/-- The mean and deviation of a cell for the Bayesian check: the mean of the neighbours, and the deviation of its
difference from a single observation; 0 and 500 if there are no neighbours.  `sigma` is the measurement error, `s1`,
`s2` and `s3` the deviations of cell against neighbourhood, observation against cell and neighbour against
neighbourhood. -/
def IsBayesLimits (span : Int → Nat → Int) (g : SuperOb) (limits : List Int) (sigma noise s1 s2 s3 : Rat) (c : Cell)
    (m s : ℝ) : Prop :=
  ∃ l : List Cell, Level span g [limits] c 0 l
    ∧ ((l = [] ∧ m = 0 ∧ s = 500)
      ∨ (l ≠ [] ∧ m * l.length = ((l.map g.grid).sum : Rat) ∧ 0 ≤ s
        ∧ s ^ 2 = ((sigma ^ 2 + s1 ^ 2 + noise * s2 ^ 2
          + ((l.map fun c' => (sigma ^ 2 + noise * s2 ^ 2) / g.nobs c').sum / l.length + s3 ^ 2) / l.length : Rat) : ℝ)))

end Spec

open Spec

theorem setQc_flagSet {r r' : Report} {t f : String} {x : Int} (h : r.setQc t f x = .ok r') :
    FlagSet r r' t f x ∧ 0 ≤ x ∧ x ≤ 9 := by
  by_cases ha : (FlagWrite.mk t f x).Acceptable
  · obtain ⟨ht, h0, h9⟩ := ha
    simp only at ht h0 h9
    rw [setQc_ok ((allowed_iff _).2 ht) h0 h9, Except.ok.injEq] at h
    subst h
    refine ⟨⟨by simp [Report.getQc], rfl, ?_⟩, h0, h9⟩
    intro k hk
    simp [hk]
  · rw [(C30_accepted r ⟨t, f, x⟩).2 ha] at h
    simp at h

/-! ## The grid -/

theorem gridReports_eq (q : QcFilter) (v : String) (reps : List Report) :
    gridReports q v reps = ((keptObs q v reps).foldlM SuperOb.addObs SuperOb.empty).map SuperOb.takeAverage := by
  classical
  have key : ∀ (reps : List Report) (g : SuperOb), reps.foldlM (fun g r =>
      if q.testReport r = 0 then g.addRep r.lat r.lon (r.getint "MO") (r.getint "DY") (r.getanom v) else .ok g) g
      = (keptObs q v reps).foldlM SuperOb.addObs g := by
    intro reps
    induction reps with
    | nil => intro g; rfl
    | cons r reps ih =>
      intro g
      rw [List.foldlM_cons]
      unfold keptObs at ih ⊢
      rw [List.filter_cons, testReport_eq]
      by_cases hp : Passes q r
      · simp only [hp, if_true, decide_true, List.map_cons, List.foldlM_cons]
        unfold SuperOb.addObs obsOf
        simp only
        congr 1
        funext g'
        exact ih g'
      · simp only [hp, if_false, decide_false, Bool.false_eq_true, one_ne_zero, except_bind_ok]
        exact ih g
  unfold gridReports
  rw [key]
  cases (keptObs q v reps).foldlM SuperOb.addObs SuperOb.empty <;> rfl

theorem gridReports_spec {q : QcFilter} {v : String} {reps : List Report} {g : SuperOb}
    (h : gridReports q v reps = .ok g) : IsMeanGrid (keptObs q v reps) g ∧ ∀ o ∈ keptObs q v reps, ∃ c, FallsIn c o := by
  rw [gridReports_eq] at h
  cases h1 : (keptObs q v reps).foldlM SuperOb.addObs SuperOb.empty with
  | error e => rw [h1] at h; simp [Except.map] at h
  | ok g' =>
    rw [h1] at h
    simp only [Except.map, Except.ok.injEq] at h
    subst h
    exact ⟨C54_super_observations _ _ h1, (C54_completes _).1 ⟨_, h1⟩⟩

theorem gridReports_ok {q : QcFilter} {v : String} {reps : List Report}
    (h : ∀ o ∈ keptObs q v reps, ∃ c, FallsIn c o) : ∃ g, gridReports q v reps = .ok g := by
  obtain ⟨g, hg⟩ := (C54_completes _).2 h
  rw [gridReports_eq, hg]
  exact ⟨_, rfl⟩

theorem mem_keptObs {q : QcFilter} {v : String} {reps : List Report} {r : Report} (h : r ∈ reps) (hp : Passes q r) :
    obsOf v r ∈ keptObs q v reps := by
  unfold keptObs
  exact List.mem_map.2 ⟨r, by simp [h, hp], rfl⟩

theorem keptObs_mem {q : QcFilter} {v : String} {reps : List Report} {o : Obs} (h : o ∈ keptObs q v reps) :
    ∃ r ∈ reps, Passes q r ∧ o = obsOf v r := by
  unfold keptObs at h
  obtain ⟨r, hr, rfl⟩ := List.mem_map.1 h
  simp only [List.mem_filter, decide_eq_true_eq] at hr
  exact ⟨r, hr.1, hr.2, rfl⟩

/-- A cell with an observation that has an anomaly is occupied. -/
theorem occupied {l : List Obs} {g : SuperOb} (hg : IsMeanGrid l g) {o : Obs} (ho : o ∈ l) {c : Cell} (hc : FallsIn c o)
    {x : Rat} (hx : o.anom = some x) : g.nobs c ≠ 0 := by
  rw [(hg c).1]
  have : x ∈ anomaliesIn c l := by
    unfold anomaliesIn
    rw [List.mem_filterMap]
    exact ⟨o, by simp [ho, hc], hx⟩
  intro h0
  rw [List.length_eq_zero_iff] at h0
  rw [h0] at this
  simp at this

theorem mem_allCells {c : Cell} (h : c.1 < 360 ∧ c.2.1 < 180 ∧ c.2.2 < 73) : c ∈ allCells := by
  obtain ⟨x, y, p⟩ := c
  unfold allCells
  simp only [List.mem_flatMap, List.mem_map, List.mem_range]
  exact ⟨x, h.1, y, h.2.1, p, h.2.2, rfl⟩

theorem allCells_mem {c : Cell} (h : c ∈ allCells) : c.1 < 360 ∧ c.2.1 < 180 ∧ c.2.2 < 73 := by
  unfold allCells at h
  simp only [List.mem_flatMap, List.mem_map, List.mem_range] at h
  obtain ⟨x, hx, y, hy, p, hp, rfl⟩ := h
  exact ⟨hx, hy, hp⟩

theorem limitsOf_spec {K : Type} [Zero K] {g : SuperOb} {f : Cell → Except Err (K × K)} {lim : Cell → K × K}
    (h : limitsOf g f = .ok lim) (c : Cell) (hc : c.1 < 360 ∧ c.2.1 < 180 ∧ c.2.2 < 73) (hn : g.nobs c ≠ 0) :
    f c = .ok (lim c) := by
  unfold limitsOf at h
  cases h1 : g.nonmiss.mapM fun c => do
      let r ← f c
      return (c, r) with
  | error e => rw [h1] at h; simp at h
  | ok l =>
    rw [h1, except_bind_ok, except_pure, Except.ok.injEq] at h
    subst h
    obtain ⟨-, h2⟩ := mapM_get h1
    have entry : ∀ c' ∈ g.nonmiss, ∃ r, f c' = .ok r ∧ (c', r) ∈ l := by
      intro c' hc'
      obtain ⟨i, hi, e⟩ := List.getElem_of_mem hc'
      obtain ⟨y, hy, hi⟩ := h2 i c' (by rw [List.getElem?_eq_getElem hi, e])
      cases h3 : f c' with
      | error e => rw [h3] at hy; simp at hy
      | ok r =>
        rw [h3, except_bind_ok, except_pure, Except.ok.injEq] at hy
        subst hy
        exact ⟨r, rfl, List.mem_of_getElem? hi⟩
    have hmem : c ∈ g.nonmiss := by
      unfold SuperOb.nonmiss
      simp [mem_allCells hc, hn]
    obtain ⟨r, h3, h4⟩ := entry c hmem
    cases h5 : dictGet l c with
    | none =>
      exact absurd (List.mem_map.2 ⟨_, h4, rfl⟩) (dictGet_none h5)
    | some r' =>
      have h6 := dictGet_some h5
      simp only [h5, Option.getD_some]
      obtain ⟨i, hi, e⟩ := List.getElem_of_mem h6
      have hlen := (mapM_get h1).1
      have hi' : i < g.nonmiss.length := by omega
      obtain ⟨y, hy, hi2⟩ := h2 i _ (List.getElem?_eq_getElem hi')
      rw [List.getElem?_eq_getElem hi, e, Option.some.injEq] at hi2
      subst hi2
      cases h7 : f g.nonmiss[i] with
      | error e => rw [h7] at hy; simp at hy
      | ok r2 =>
        rw [h7, except_bind_ok, except_pure, Except.ok.injEq, Prod.mk.injEq] at hy
        rw [← hy.2, ← h7, hy.1]

theorem limitsOf_ok {K : Type} [Zero K] {g : SuperOb} {f : Cell → Except Err (K × K)}
    (h : ∀ c : Cell, c.1 < 360 ∧ c.2.1 < 180 ∧ c.2.2 < 73 → ∃ r, f c = .ok r) : ∃ lim, limitsOf g f = .ok lim := by
  unfold limitsOf
  obtain ⟨l, hl⟩ := mapM_exists (l := g.nonmiss) (f := fun c => do
      let r ← f c
      return (c, r)) (by
    intro c hc
    unfold SuperOb.nonmiss at hc
    obtain ⟨r, hr⟩ := h c (allCells_mem (List.mem_filter.1 hc).1)
    exact ⟨(c, r), by rw [hr]; rfl⟩)
  rw [hl]
  exact ⟨_, rfl⟩

theorem limitsAt_ok {K : Type} (lim : Cell → K × K) {o : Obs} {c : Cell} (h : FallsIn c o) :
    limitsAt lim o.lat o.lon o.month o.day = .ok (lim c) := by
  obtain ⟨h1, h2, h3, h4⟩ := cellIndex_of_fallsIn h
  unfold limitsAt
  rw [h1, except_bind_ok, npAxis_nat h2, npAxis_nat h3, npAxis_nat h4]
  rfl

theorem fallsIn_valid {c : Cell} {o : Obs} (h : FallsIn c o) : c.1 < 360 ∧ c.2.1 < 180 ∧ c.2.2 < 73 :=
  (cellIndex_of_fallsIn h).2

/-- The field can be read at every place of the globe and every day of an ordinary year. -/
def Spec.Readable (f : StdevField) : Prop :=
  ∀ lat lon m d, -90 < lat → lat < 90 → -180 < lon → lon < 180 → IsDate 2003 m d → ∃ x, f lat lon m d = .ok x

theorem pentad_isDate : ∀ p < 73, IsDate 2003 (Spec.dayOfYear (5 * p)).1 (Spec.dayOfYear (5 * p)).2 := by decide +kernel

theorem exists_deviation {field : StdevField} (hf : Spec.Readable field) (c : Cell)
    (hc : c.1 < 360 ∧ c.2.1 < 180 ∧ c.2.2 < 73) : ∃ s, IsDeviation field c s := by
  have h1 : (c.1 : Rat) ≤ 359 := by exact_mod_cast Nat.lt_succ_iff.mp hc.1
  have h2 : (c.2.1 : Rat) ≤ 179 := by exact_mod_cast Nat.lt_succ_iff.mp hc.2.1
  have h3 : (0 : Rat) ≤ c.1 := Nat.cast_nonneg _
  have h4 : (0 : Rat) ≤ c.2.1 := Nat.cast_nonneg _
  obtain ⟨x, hx⟩ := hf (179 / 2 - c.2.1) (-359 / 2 + c.1) (Spec.dayOfYear (5 * c.2.2)).1 (Spec.dayOfYear (5 * c.2.2)).2
    (by linarith) (by linarith) (by linarith) (by linarith) (pentad_isDate _ hc.2.2)
  cases x with
  | none => exact ⟨1, none, hx, Or.inl ⟨by simp, rfl⟩⟩
  | some w =>
    by_cases hw : w < 0
    · exact ⟨1, some w, hx, Or.inl ⟨by simpa using hw, rfl⟩⟩
    · exact ⟨w, some w, hx, Or.inr ⟨rfl, by linarith⟩⟩

/-! ## The MDS check -/

/-- C56. The MDS buddy check gives every report flag 0 or 1 and changes nothing else.  Reports that do not pass the
filter get 0.  For the others let `m` and `s` be the limits of the cell of the report, found from the means of the
reports that pass the filter: the flag is 1 exactly when the anomaly differs from `m` by `s` or more. -/
theorem C56_mds_flags (span : Int → Nat → Int) (d d' : Deck) (v : String) (field : StdevField) (P : BuddyParams)
    (h : mdsBuddyCheck span d v field P = .ok d') :
    d' = { d with reps := d'.reps } ∧ d'.reps.length = d.reps.length
      ∧ ∃ g, IsMeanGrid (keptObs d.filter v d.reps) g ∧ ∀ (i : Nat) (r r' : Report), d.reps[i]? = some r →
        d'.reps[i]? = some r' → ∃ x : Int, (x = 0 ∨ x = 1) ∧ FlagSet r r' v "bud" x ∧ (¬ Passes d.filter r → x = 0)
          ∧ (Passes d.filter r → ∃ c stdev m s a, FallsIn c (obsOf v r) ∧ IsDeviation field c stdev
            ∧ IsLimits span g stdev P c m s ∧ r.getanom v = some a ∧ (x = 1 ↔ s ≤ |a - m|)) := by
  unfold mdsBuddyCheck at h
  rw [pyAssert_bind] at h
  split at h
  swap
  · simp at h
  cases hg : gridReports d.filter v d.reps with
  | error e => rw [hg] at h; simp at h
  | ok g =>
  rw [hg, except_bind_ok] at h
  cases hlim : limitsOf g (cellLimits span g field P) with
  | error e => rw [hlim] at h; simp at h
  | ok lim =>
  rw [hlim, except_bind_ok] at h
  cases hr : d.reps.mapM (mdsBuddyFlag d.filter v lim) with
  | error e => rw [hr] at h; simp at h
  | ok reps =>
    rw [hr, except_bind_ok, except_pure, Except.ok.injEq] at h
    subst h
    obtain ⟨m1, m2⟩ := mapM_get hr
    obtain ⟨g1, g2⟩ := gridReports_spec hg
    refine ⟨rfl, m1, g, g1, ?_⟩
    intro i r r' hri hri'
    obtain ⟨y, hy, hyi⟩ := m2 i r hri
    simp only at hri'
    rw [hri', Option.some.injEq] at hyi
    subst hyi
    unfold mdsBuddyFlag at hy
    rw [testReport_eq] at hy
    by_cases hp : Passes d.filter r
    · rw [if_pos hp, if_pos rfl] at hy
      have hmem := mem_keptObs (v := v) (List.mem_of_getElem? hri) hp
      obtain ⟨c, hc⟩ := g2 _ hmem
      rw [show limitsAt lim r.lat r.lon (r.getint "MO") (r.getint "DY") = .ok (lim c) from limitsAt_ok lim hc,
        except_bind_ok] at hy
      cases ha : r.getanom v with
      | none => rw [ha] at hy; simp at hy
      | some a =>
        rw [ha] at hy
        simp only at hy
        have hn := occupied g1 hmem hc (x := a) ha
        have hl := limitsOf_spec hlim c (fallsIn_valid hc) hn
        obtain ⟨stdev, s1, s2⟩ := C55_limits span g field P c (fallsIn_valid hc).2.2 _ hl
        refine ⟨_, ?_, (setQc_flagSet hy).1, fun hn => absurd hp hn,
          fun _ => ⟨c, stdev, (lim c).1, (lim c).2, a, hc, s1, s2, rfl, ?_⟩⟩
        · split <;> simp
        · split
          · rename_i h; exact iff_of_true rfl h
          · rename_i h; exact iff_of_false (by norm_num) h
    · rw [if_neg hp, if_neg (by norm_num)] at hy
      exact ⟨0, Or.inl rfl, (setQc_flagSet hy).1, fun _ => rfl, fun h => absurd h hp⟩

/-- The check completes when the reports that pass the filter have a place on the globe, a date and an anomaly, the
parameters are usable and the field can be read. -/
theorem C56_mds_completes (span : Int → Nat → Int) (d : Deck) (v : String) (field : StdevField) (P : BuddyParams)
    (hv : v ∈ ["SST", "AT", "DPT", "SLP"]) (hP : UsableParams P)
    (hf : Spec.Readable field)
    (hr : ∀ r ∈ d.reps, Passes d.filter r → (∃ c, FallsIn c (obsOf v r)) ∧ r.getanom v ≠ none) :
    ∃ d', mdsBuddyCheck span d v field P = .ok d' := by
  have hdev := exists_deviation hf
  have hall : v ∈ specialQcTypes ∨ v ∈ VARLIST := by
    simp only [List.mem_cons, List.not_mem_nil, or_false] at hv
    rcases hv with rfl | rfl | rfl | rfl <;> decide
  unfold mdsBuddyCheck
  rw [pyAssert_bind, if_pos (by simpa using hv)]
  obtain ⟨g, hg⟩ := gridReports_ok (q := d.filter) (v := v) (reps := d.reps) (by
    intro o ho
    obtain ⟨r, h1, h2, rfl⟩ := keptObs_mem ho
    exact (hr r h1 h2).1)
  rw [hg, except_bind_ok]
  obtain ⟨lim, hlim⟩ := limitsOf_ok (g := g) (f := cellLimits span g field P) (by
    intro c hc
    obtain ⟨s, hs⟩ := hdev c hc
    exact C55_completes span g field P c hc.2.2 hP s hs)
  rw [hlim, except_bind_ok]
  obtain ⟨reps, hreps⟩ := mapM_exists (l := d.reps) (f := mdsBuddyFlag d.filter v lim) (by
    intro r hrr
    unfold mdsBuddyFlag
    rw [testReport_eq]
    by_cases hp : Passes d.filter r
    · rw [if_pos hp, if_pos rfl]
      obtain ⟨⟨c, hc⟩, ha⟩ := hr r hrr hp
      obtain ⟨a, ha⟩ := Option.ne_none_iff_exists'.1 ha
      rw [show limitsAt lim r.lat r.lon (r.getint "MO") (r.getint "DY") = .ok (lim c) from limitsAt_ok lim hc,
        except_bind_ok, ha]
      simp only
      exact ⟨_, setQc_ok hall (by split <;> norm_num) (by split <;> norm_num)⟩
    · rw [if_neg hp, if_neg (by norm_num)]
      exact ⟨_, setQc_ok hall (by norm_num) (by norm_num)⟩)
  rw [hreps]
  exact ⟨_, rfl⟩

/-! ## The Bayesian check -/

theorem newLimits_spec {span : Int → Nat → Int} {g : SuperOb} {f1 f2 f3 : StdevField} {limits : List Int}
    {sigma noise : Rat} {c : Cell} (hp : c.2.2 < 73) {r : ℝ × ℝ}
    (h : newLimits span g f1 f2 f3 limits sigma noise c = .ok r) :
    ∃ s1 s2 s3, IsDeviation f1 c s1 ∧ IsDeviation f2 c s2 ∧ IsDeviation f3 c s3
      ∧ IsBayesLimits span g limits sigma noise s1 s2 s3 c r.1 r.2 := by
  unfold newLimits at h
  cases h1 : stdevAt f1 c with
  | error e => rw [h1] at h; simp at h
  | ok s1 =>
  cases h2 : stdevAt f2 c with
  | error e => rw [h1, h2] at h; simp at h
  | ok s2 =>
  cases h3 : stdevAt f3 c with
  | error e => rw [h1, h2, h3] at h; simp at h
  | ok s3 =>
  cases h4 : g.neighbours span limits c with
  | error e => rw [h1, h2, h3, h4] at h; simp at h
  | ok nb =>
  rw [h1, h2, h3, h4, except_bind_ok, except_bind_ok, except_bind_ok, except_bind_ok] at h
  refine ⟨s1, s2, s3, (stdevAt_ok _ _ hp _).1 h1, (stdevAt_ok _ _ hp _).1 h2, (stdevAt_ok _ _ hp _).1 h3, ?_⟩
  obtain ⟨rx, ry, rp, l, rfl, e2, rfl⟩ := neighbours_radius h4
  refine ⟨l, ⟨rx, ry, rp, rfl, e2⟩, ?_⟩
  simp only [List.length_map] at h
  split at h
  · rename_i hl
    have hl' : l ≠ [] := List.length_pos_iff.1 hl
    have hl0 : (l.length : Rat) ≠ 0 := by exact_mod_cast hl.ne'
    right
    split at h
    · simp at h
    · rename_i hvar
      rw [except_pure, Except.ok.injEq] at h
      subst h
      refine ⟨hl', ?_, Real.sqrt_nonneg _, ?_⟩
      · have := (ratMean_iff (l := l.map g.grid) (by simpa using hl') _).1 rfl
        rw [List.length_map] at this
        rw [← this]
        push_cast
        rfl
      · rw [Real.sq_sqrt (by exact_mod_cast not_lt.1 hvar)]
        norm_cast
        unfold neighbourVariance
        simp only [List.map_map, List.length_map]
        have : (List.map ((fun n : Nat => sigma ^ 2 / (n : Rat) + noise * (s2 ^ 2 / (n : Rat))) ∘ g.nobs) l)
            = l.map fun c' => (sigma ^ 2 + noise * s2 ^ 2) / (g.nobs c' : Rat) := by
          apply List.map_congr_left
          intro c' _
          simp only [Function.comp]
          ring
        rw [this]
        field_simp
  · rename_i hl
    left
    rw [except_pure, Except.ok.injEq] at h
    subst h
    exact ⟨by simpa using hl, rfl, rfl⟩

theorem bayesFlag_spec (p : ℝ) (h0 : 0 ≤ p) (h1 : p ≤ 1) :
    0 ≤ bayesFlag p ∧ bayesFlag p ≤ 9 ∧ (bayesFlag p : ℝ) ≤ 10 * p ∧ (10 * p < bayesFlag p + 1 ∨ (bayesFlag p = 9 ∧ p = 1)) := by
  unfold bayesFlag
  have a := Int.floor_le (p * 10)
  have b := Int.lt_floor_add_one (p * 10)
  have c : 0 ≤ ⌊p * 10⌋ := Int.floor_nonneg.2 (by linarith)
  split
  · split
    · rename_i h
      have : (10 : ℝ) ≤ ⌊p * 10⌋ := by exact_mod_cast h
      have hp : p = 1 := by linarith
      subst hp
      norm_num
    · refine ⟨c, by omega, by linarith, Or.inl (by linarith)⟩
  · have : p = 0 := by linarith
    subst this
    norm_num

theorem pGross_range {p0 q rHi rLo x mu sigma p : ℝ} (h : pGross erf p0 q rHi rLo x mu sigma = .ok p) :
    0 ≤ p ∧ p ≤ 1 := by
  by_cases hc : 0 ≤ p0 ∧ p0 ≤ 1 ∧ 0 < q ∧ rLo < rHi ∧ rLo ≤ x ∧ x ≤ rHi ∧ 0 < sigma
  · obtain ⟨h0, h1, h2, h3, h4, h5, h6⟩ := hc
    obtain ⟨p', e, a, b⟩ := C28_p_gross_erf p0 q rHi rLo x mu sigma h0 h1 h2 h6 h3 h4 h5
    rw [h, Except.ok.injEq] at e
    subst e
    exact ⟨a, b⟩
  · exfalso
    apply hc
    unfold pGross at h
    simp only [pyAssert_bind, decide_eq_true_eq] at h
    split at h
    · split at h
      · split at h
        · split at h
          · split at h
            · split at h
              · split at h
                · refine ⟨‹_›, ‹_›, ‹_›, ‹_›, ‹_›, ‹_›, ‹_›⟩
                all_goals simp at h
              all_goals simp at h
            all_goals simp at h
          all_goals simp at h
        all_goals simp at h
      all_goals simp at h
    all_goals simp at h

/-- C56. The Bayesian buddy check gives every report a flag from 0 to 9 and changes nothing else.  Reports that do not
pass the filter get 0.  For the others let `m` and `s` be the limits of the cell of the report and `p` the probability
of a gross error they imply: the flag is ten times the probability rounded down, and 9 for probability 1. -/
theorem C56_bayes_flags (span : Int → Nat → Int) (d d' : Deck) (v : String) (f1 f2 f3 : StdevField) (P : BayesParams)
    (h : bayesianBuddyCheck erf span d v f1 f2 f3 P = .ok d') :
    d' = { d with reps := d'.reps } ∧ d'.reps.length = d.reps.length
      ∧ ∃ g, IsMeanGrid (keptObs d.filter v d.reps) g ∧ ∀ (i : Nat) (r r' : Report), d.reps[i]? = some r →
        d'.reps[i]? = some r' → ∃ x : Int, (0 ≤ x ∧ x ≤ 9) ∧ FlagSet r r' v "bbud" x ∧ (¬ Passes d.filter r → x = 0)
          ∧ (Passes d.filter r → ∃ c s1 s2 s3 m s a p, FallsIn c (obsOf v r) ∧ IsDeviation f1 c s1
            ∧ IsDeviation f2 c s2 ∧ IsDeviation f3 c s3 ∧ IsBayesLimits span g P.limits P.sigmaM P.noise s1 s2 s3 c m s
            ∧ r.getanom v = some a ∧ pGross erf P.p0 P.q P.rHi (-P.rHi) a m s = .ok p
            ∧ (x : ℝ) ≤ 10 * p ∧ (10 * p < x + 1 ∨ (x = 9 ∧ p = 1))) := by
  unfold bayesianBuddyCheck at h
  rw [pyAssert_bind] at h
  split at h
  swap
  · simp at h
  cases hg : gridReports d.filter v d.reps with
  | error e => rw [hg] at h; simp at h
  | ok g =>
  rw [hg, except_bind_ok] at h
  cases hlim : limitsOf g (newLimits span g f1 f2 f3 P.limits P.sigmaM P.noise) with
  | error e => rw [hlim] at h; simp at h
  | ok lim =>
  rw [hlim, except_bind_ok] at h
  cases hr : d.reps.mapM (bayesBuddyFlag erf d.filter v P lim) with
  | error e => rw [hr] at h; simp at h
  | ok reps =>
    rw [hr, except_bind_ok, except_pure, Except.ok.injEq] at h
    subst h
    obtain ⟨m1, m2⟩ := mapM_get hr
    obtain ⟨g1, g2⟩ := gridReports_spec hg
    refine ⟨rfl, m1, g, g1, ?_⟩
    intro i r r' hri hri'
    obtain ⟨y, hy, hyi⟩ := m2 i r hri
    simp only at hri'
    rw [hri', Option.some.injEq] at hyi
    subst hyi
    unfold bayesBuddyFlag at hy
    rw [testReport_eq] at hy
    by_cases hp : Passes d.filter r
    · rw [if_pos hp, if_pos rfl] at hy
      have hmem := mem_keptObs (v := v) (List.mem_of_getElem? hri) hp
      obtain ⟨c, hc⟩ := g2 _ hmem
      rw [show limitsAt lim r.lat r.lon (r.getint "MO") (r.getint "DY") = .ok (lim c) from limitsAt_ok lim hc,
        except_bind_ok] at hy
      cases ha : r.getanom v with
      | none => rw [ha] at hy; simp at hy
      | some a =>
        rw [ha] at hy
        simp only at hy
        have hn := occupied g1 hmem hc (x := a) ha
        have hl := limitsOf_spec hlim c (fallsIn_valid hc) hn
        obtain ⟨s1, s2, s3, t1, t2, t3, t4⟩ := newLimits_spec (fallsIn_valid hc).2.2 hl
        rw [neg_one_mul] at hy
        cases hpg : pGross erf P.p0 P.q P.rHi (-P.rHi) a (lim c).1 (lim c).2 with
        | error e => rw [hpg] at hy; simp at hy
        | ok p =>
          rw [hpg, except_bind_ok] at hy
          obtain ⟨q1, q2⟩ := pGross_range hpg
          obtain ⟨b1, b2, b3, b4⟩ := bayesFlag_spec p q1 q2
          exact ⟨_, ⟨b1, b2⟩, (setQc_flagSet hy).1, fun hn => absurd hp hn,
            fun _ => ⟨c, s1, s2, s3, (lim c).1, (lim c).2, a, p, hc, t1, t2, t3, t4, rfl, hpg, b3, b4⟩⟩
    · rw [if_neg hp, if_neg (by norm_num)] at hy
      exact ⟨0, by norm_num, (setQc_flagSet hy).1, fun _ => rfl, fun h => absurd h hp⟩

theorem newLimits_ok {span : Int → Nat → Int} {g : SuperOb} {f1 f2 f3 : StdevField} {limits : List Int}
    {sigma noise : Rat} {c : Cell} (hc : c.1 < 360 ∧ c.2.1 < 180 ∧ c.2.2 < 73) (hl : limits.length = 3) (hs : sigma ≠ 0) (hn : 0 ≤ noise)
    (h1 : Spec.Readable f1) (h2 : Spec.Readable f2) (h3 : Spec.Readable f3) :
    ∃ r, newLimits span g f1 f2 f3 limits sigma noise c = .ok r ∧ 0 < r.2 := by
  obtain ⟨rx, ry, rp, rfl⟩ := List.length_eq_three.1 hl
  obtain ⟨s1, d1⟩ := exists_deviation h1 c hc
  obtain ⟨s2, d2⟩ := exists_deviation h2 c hc
  obtain ⟨s3, d3⟩ := exists_deviation h3 c hc
  obtain ⟨l, e1, e2⟩ := neighbours_spec span g rx ry rp c
  unfold newLimits
  rw [(stdevAt_ok _ _ hc.2.2 _).2 d1, (stdevAt_ok _ _ hc.2.2 _).2 d2, (stdevAt_ok _ _ hc.2.2 _).2 d3, e2, except_bind_ok,
    except_bind_ok, except_bind_ok, except_bind_ok]
  simp only
  split
  · have hv : 0 ≤ neighbourVariance sigma noise s2 s3 (l.map g.nobs) := by
      unfold neighbourVariance
      have : 0 ≤ ((l.map g.nobs).map fun (n : Nat) => sigma ^ 2 / (n : Rat) + noise * (s2 ^ 2 / (n : Rat))).sum := by
        apply List.sum_nonneg
        intro x hx
        obtain ⟨n, -, rfl⟩ := List.mem_map.1 hx
        positivity
      simp only
      positivity
    have hvar : 0 < sigma ^ 2 + s1 ^ 2 + noise * s2 ^ 2 + neighbourVariance sigma noise s2 s3 (l.map g.nobs) := by
      have : 0 < sigma ^ 2 := by positivity
      have : 0 ≤ noise * s2 ^ 2 := by positivity
      have : 0 ≤ s1 ^ 2 := by positivity
      linarith
    rw [if_neg (by linarith)]
    exact ⟨_, rfl, Real.sqrt_pos.2 (by exact_mod_cast hvar)⟩
  · exact ⟨_, rfl, by norm_num⟩

/-- The check completes when the reports that pass the filter have a place on the globe, a date and an anomaly within
the limit for anomalies, the parameters are in range and the fields can be read. -/
theorem C56_bayes_completes (span : Int → Nat → Int) (d : Deck) (v : String) (f1 f2 f3 : StdevField) (P : BayesParams)
    (hv : v ∈ ["SST", "AT"]) (hp0 : 0 ≤ P.p0 ∧ P.p0 ≤ 1) (hq : 0 < P.q) (hR : 0 < P.rHi) (hs : P.sigmaM ≠ 0)
    (hn : 0 ≤ P.noise) (hl : P.limits.length = 3) (h1 : Spec.Readable f1) (h2 : Spec.Readable f2) (h3 : Spec.Readable f3)
    (hr : ∀ r ∈ d.reps, Passes d.filter r → (∃ c, FallsIn c (obsOf v r)) ∧ ∃ a, r.getanom v = some a ∧ |a| ≤ P.rHi) :
    ∃ d', bayesianBuddyCheck erf span d v f1 f2 f3 P = .ok d' := by
  have hall : v ∈ specialQcTypes ∨ v ∈ VARLIST := by
    simp only [List.mem_cons, List.not_mem_nil, or_false] at hv
    rcases hv with rfl | rfl <;> decide
  unfold bayesianBuddyCheck
  rw [pyAssert_bind, if_pos (by simpa using hv)]
  obtain ⟨g, hg⟩ := gridReports_ok (q := d.filter) (v := v) (reps := d.reps) (by
    intro o ho
    obtain ⟨r, h1, h2, rfl⟩ := keptObs_mem ho
    exact (hr r h1 h2).1)
  rw [hg, except_bind_ok]
  obtain ⟨lim, hlim⟩ := limitsOf_ok (g := g) (f := newLimits span g f1 f2 f3 P.limits P.sigmaM P.noise) (by
    intro c hc
    obtain ⟨r, hr, -⟩ := newLimits_ok (span := span) (g := g) hc hl hs hn h1 h2 h3
    exact ⟨r, hr⟩)
  rw [hlim, except_bind_ok]
  obtain ⟨reps, hreps⟩ := mapM_exists (l := d.reps) (f := bayesBuddyFlag erf d.filter v P lim) (by
    intro r hrr
    unfold bayesBuddyFlag
    rw [testReport_eq]
    by_cases hp : Passes d.filter r
    · rw [if_pos hp, if_pos rfl]
      obtain ⟨⟨c, hc⟩, a, ha, hab⟩ := hr r hrr hp
      rw [show limitsAt lim r.lat r.lon (r.getint "MO") (r.getint "DY") = .ok (lim c) from limitsAt_ok lim hc,
        except_bind_ok, ha]
      simp only
      have hmem := mem_keptObs (v := v) hrr hp
      have hno := occupied (gridReports_spec hg).1 hmem hc (x := a) ha
      have hl1 := limitsOf_spec hlim c (fallsIn_valid hc) hno
      obtain ⟨r2, hr2, hpos⟩ := newLimits_ok (span := span) (g := g) (c := c) (fallsIn_valid hc) hl hs hn h1 h2 h3
      rw [hl1, Except.ok.injEq] at hr2
      rw [← hr2] at hpos
      rw [abs_le] at hab
      have hab1 : (-P.rHi : ℝ) ≤ (a : ℝ) := by exact_mod_cast hab.1
      have hab2 : (a : ℝ) ≤ (P.rHi : ℝ) := by exact_mod_cast hab.2
      have hR' : (0 : ℝ) < P.rHi := by exact_mod_cast hR
      obtain ⟨p, e, q1, q2⟩ := C28_p_gross_erf P.p0 P.q P.rHi (-P.rHi) a (lim c).1 (lim c).2
        (by exact_mod_cast hp0.1) (by exact_mod_cast hp0.2) (by exact_mod_cast hq) hpos (by linarith) hab1 hab2
      rw [neg_one_mul, e, except_bind_ok]
      obtain ⟨b1, b2, -⟩ := bayesFlag_spec p q1 q2
      exact ⟨_, setQc_ok hall b1 b2⟩
    · rw [if_neg hp, if_neg (by norm_num)]
      exact ⟨_, setQc_ok hall (by norm_num) (by norm_num)⟩)
  rw [hreps]
  exact ⟨_, rfl⟩

/-- A report of 3 January at the given place with the given anomaly, for examples. -/
def buddyReport (lat lon a : Rat) : Report :=
  { sampleRep "SHIP" [("YR", 2000), ("MO", 1), ("DY", 3), ("HR", 1), ("LAT", lat), ("LON", lon), ("SST", 10 + a)] with
    clim := fun v => if v = "SST" then some ⟨some 10, none⟩ else none
    qc := fun k => if k = "POSdate" then some 0 else none }

/-- A deck of two reports that pass its filter and one that does not. -/
def buddyDeck : Deck where
  reps := [buddyReport (99 / 2) (7 / 2) 2, buddyReport (99 / 2) (9 / 2) 1, sampleRep "SHIP" []]
  idtracker := []
  filter := [("POS", "date", 0)]

/-- Non-vacuity: the hypotheses of the completion theorems hold for this deck. -/
theorem buddyDeck_reports : ∀ r ∈ buddyDeck.reps, Passes buddyDeck.filter r →
    (∃ c, FallsIn c (obsOf "SST" r)) ∧ ∃ a, r.getanom "SST" = some a ∧ |a| ≤ 8 := by
  intro r hr hp
  simp only [buddyDeck, List.mem_cons, List.not_mem_nil, or_false] at hr
  rcases hr with rfl | rfl | rfl
  · refine ⟨⟨(183, 40, 0), 99 / 2, 7 / 2, 1, 3, rfl, by decide +kernel, by decide +kernel, by decide +kernel,
      by norm_num [InColumn], by norm_num [InRow], Or.inl ⟨2, by norm_num, by decide +kernel, rfl⟩⟩, 2,
      by decide +kernel, by norm_num⟩
  · refine ⟨⟨(184, 40, 0), 99 / 2, 9 / 2, 1, 3, rfl, by decide +kernel, by decide +kernel, by decide +kernel,
      by norm_num [InColumn], by norm_num [InRow], Or.inl ⟨2, by norm_num, by decide +kernel, rfl⟩⟩, 1,
      by decide +kernel, by norm_num⟩
  · have := hp "POS" "date" 0 (by simp [buddyDeck])
    simp [Report.getQc, sampleRep, Report.empty] at this

example : (∃ d', mdsBuddyCheck fullXspan buddyDeck "SST" (fun _ _ _ _ => .ok (some (1 / 2))) fixedParams = .ok d')
    ∧ ∃ d', bayesianBuddyCheck erf fullXspan buddyDeck "SST" (fun _ _ _ _ => .ok none) (fun _ _ _ _ => .ok none)
      (fun _ _ _ _ => .ok none) ⟨1 / 20, 1 / 10, 1, 8, [2, 2, 4], 3⟩ = .ok d' := by
  constructor
  · refine C56_mds_completes _ _ _ _ _ (by simp) fixedParams_usable (fun _ _ _ _ _ _ _ _ _ => ⟨_, rfl⟩) fun r hr hp => ?_
    obtain ⟨h1, a, h2, -⟩ := buddyDeck_reports r hr hp
    exact ⟨h1, by rw [h2]; simp⟩
  · exact C56_bayes_completes _ _ _ _ _ _ _ (by simp) (by norm_num) (by norm_num) (by norm_num) (by norm_num)
      (by norm_num) rfl (fun _ _ _ _ _ _ _ _ _ => ⟨_, rfl⟩) (fun _ _ _ _ _ _ _ _ _ => ⟨_, rfl⟩) (fun _ _ _ _ _ _ _ _ _ => ⟨_, rfl⟩)
      buddyDeck_reports

/-- The filter is met by two of the reports. -/
example : buddyDeck.reps.map buddyDeck.filter.testReport = [0, 0, 1] := by decide +kernel

end MarineQC
