import Verif.Buoy.TailProps

/-!
# C53: the bias and noise check of drifter temperatures
-/

namespace MarineQC

namespace Spec

/-- The parameters of the bias and noise check are admissible. -/
def BiasParamsOk (P : BiasParams) : Prop :=
  0 < P.nEval ∧ 0 ≤ P.biasLim ∧ 0 ≤ P.intra ∧ 0 ≤ P.inter ∧ 0 ≤ P.stdN ∧ 1 ≤ P.nBad ∧ 0 ≤ P.errLim

/-- The background error variance is above the limit. -/
def MaskedVariance (errLim : Rat) (r : Report) : Prop := ∃ q, r.getext "BGVAR" = .ok (some q) ∧ errLim < q

/-- A record long enough to evaluate whose mean difference is beyond the limit. -/
def Biased (P : BiasParams) (obs : List SstObs) : Prop :=
  obs ≠ [] ∧ P.nEval ≤ obs.length ∧ ∃ m, m * obs.length = (obs.map (·.anom)).sum ∧ |m| > P.biasLim

/-- A record long enough to evaluate with more spread than expected. -/
def Noisy (P : BiasParams) (obs : List SstObs) : Prop :=
  obs ≠ [] ∧ P.nEval ≤ obs.length ∧ ∃ var, MeanSquare (obs.map (·.anom)) var
    ∧ (var : ℝ) > (P.intra : ℝ) ^ 2 + (obs.map fun o => (o.bgvar : ℝ)).sum / obs.length

/-- A short record with too many large differences, where no background error variance of the whole record `v` is
masked. -/
def ShortBad (P : BiasParams) (v : List Report) (obs : List SstObs) : Prop :=
  obs ≠ [] ∧ obs.length < P.nEval ∧ (∀ r ∈ v, ¬ MaskedVariance P.errLim r)
    ∧ P.nBad ≤ exceedances P.stdN P.inter P.intra obs

end Spec

open Spec

theorem biasAssert_ok (P : BiasParams) : biasAssert P = .ok () ↔ BiasParamsOk P := by
  unfold biasAssert BiasParamsOk
  simp only [assert_bind_ok, assert_ok, decide_eq_true_eq, ge_iff_le, gt_iff_lt]

theorem biasAssert_error {P : BiasParams} (h : ¬ BiasParamsOk P) : biasAssert P = .error .assertion := by
  have : biasAssert P = .ok () ∨ biasAssert P = .error .assertion := by
    unfold biasAssert
    repeat' first
      | exact assert_cases _
      | apply assert_bind_cases
  exact this.resolve_left fun c => h ((biasAssert_ok P).1 c)

theorem flagAll_spec (v : List Report) (b : Bool) {p : Prop} (h : b = true ↔ p) :
    (flagAll v b).length = v.length ∧ ∀ k, k < v.length →
      ∃ x : Int, (flagAll v b)[k]? = some x ∧ (x = 0 ∨ x = 1) ∧ (x = 1 ↔ p) := by
  unfold flagAll
  refine ⟨by simp, fun k hk => ⟨if b = true then 1 else 0, by simp [hk], ?_, ?_⟩⟩
  · split <;> simp
  · rw [← h]; cases b <;> simp

theorem biasFlags_spec {P : BiasParams} {v : List Report} {obs : List SstObs} {masked : Bool}
    (hm : masked = true ↔ ∃ r ∈ v, MaskedVariance P.errLim r) (hq : ∀ o ∈ obs, 0 ≤ o.bgvar) :
    ((biasFlags (biasTests P) P.nEval masked obs).1 = true ↔ Biased P obs)
      ∧ ((biasFlags (biasTests P) P.nEval masked obs).2.1 = true ↔ Noisy P obs)
      ∧ ((biasFlags (biasTests P) P.nEval masked obs).2.2 = true ↔ ShortBad P v obs) := by
  unfold biasFlags
  by_cases h0 : obs = []
  · subst h0
    simp [Biased, Noisy, ShortBad]
  have hl := List.length_pos_of_ne_nil h0
  rw [if_neg (by omega)]
  by_cases hn : (obs.length : Int) < P.nEval
  · rw [if_pos hn]
    have b1 : ¬ Biased P obs := fun h => by have := h.2.1; omega
    have b2 : ¬ Noisy P obs := fun h => by have := h.2.1; omega
    cases masked with
    | true =>
      have b3 : ¬ ShortBad P v obs := fun h => by
        obtain ⟨r, hr, h'⟩ := hm.1 rfl
        exact h.2.2.1 r hr h'
      simp [b1, b2, b3]
    | false =>
      have hno : ∀ r ∈ v, ¬ MaskedVariance P.errLim r := fun r hr h' => by
        have := hm.2 ⟨r, hr, h'⟩
        simp at this
      simp only [Bool.false_eq_true, if_false, b1, b2, true_and]
      show shortRecordBad P obs = true ↔ _
      unfold shortRecordBad ShortBad
      rw [decide_eq_true_eq, countP_exceeds hq]
      exact ⟨fun h => ⟨h0, hn, hno, h⟩, fun h => h.2.2.2⟩
  · rw [if_neg hn]
    have b3 : ¬ ShortBad P v obs := fun h => hn h.2.1
    have hne : (obs.length : Rat) ≠ 0 := by simpa using h0
    refine ⟨?_, ?_, by simp [b3]⟩
    · show biasedRecord P obs = true ↔ _
      unfold biasedRecord Biased npMean
      rw [if_neg (by simpa using h0)]
      simp only [decide_eq_true_eq, List.length_map]
      constructor
      · intro h
        exact ⟨h0, by omega, _, div_mul_cancel₀ _ hne, h⟩
      · rintro ⟨-, -, m, hm1, hm2⟩
        rwa [← hm1, mul_div_cancel_right₀ _ hne]
    · show noisyRecord P obs = true ↔ _
      unfold noisyRecord Noisy
      cases h1 : npVar (obs.map (·.anom)) with
      | none =>
        simp only [Bool.false_eq_true, false_iff]
        rintro ⟨-, -, var, h2, -⟩
        rw [(npVar_iff _ _).2 h2] at h1
        simp at h1
      | some var =>
        simp only [decide_eq_true_eq, rms_eq hq, sqrt_spread (average_nonneg hq)]
        constructor
        · intro h
          exact ⟨h0, by omega, var, (npVar_iff _ _).1 h1, h⟩
        · rintro ⟨-, -, var', h2, h3⟩
          rw [(npVar_iff _ _).2 h2] at h1
          simp only [Option.some.injEq] at h1
          rwa [← h1]

/-- C53. When `sst_biased_noisy_check` completes, all reports get the same three flags, each 0 or 1, and nothing else
changes.  Assessed are the night reports away from ice that have a background value and a background error variance
within the limit.  The bias flag is 1 exactly if there are enough of them and the mean difference is beyond the limit;
the noise flag exactly if there are enough and the spread exceeds the expected one; the flag for short records exactly
if there are some but not enough, no variance of the record is above the limit, and at least `nBad` differences are
too large. -/
theorem C53_bias (elev : Int → Int → Rat → Rat → Rat → Rat → ℝ) (P : BiasParams) (v v' : List Report)
    (h : sstBiasedNoisyCheck elev P v = .ok v') :
    v'.length = v.length ∧ ∃ obs, AssessedObs (daylight elev) (varianceMasked P.errLim) v obs
      ∧ ∀ (k : Nat) (r r' : Report), v[k]? = some r → v'[k]? = some r' →
        (r'.getQc "SST" "drf_bias" = 0 ∨ r'.getQc "SST" "drf_bias" = 1)
        ∧ (r'.getQc "SST" "drf_bias" = 1 ↔ Biased P obs)
        ∧ (r'.getQc "SST" "drf_noise" = 0 ∨ r'.getQc "SST" "drf_noise" = 1)
        ∧ (r'.getQc "SST" "drf_noise" = 1 ↔ Noisy P obs)
        ∧ (r'.getQc "SST" "drf_short" = 0 ∨ r'.getQc "SST" "drf_short" = 1)
        ∧ (r'.getQc "SST" "drf_short" = 1 ↔ ShortBad P v obs)
        ∧ r' = { r with qc := r'.qc }
        ∧ ∀ key, key ≠ "SSTdrf_bias" → key ≠ "SSTdrf_noise" → key ≠ "SSTdrf_short" → r'.qc key = r.qc key := by
  unfold sstBiasedNoisyCheck biasCheck at h
  by_cases hP : BiasParamsOk P
  · rw [(biasAssert_ok P).2 hP, except_bind_ok] at h
    cases h1 : sstFilter (reportDaytime elev (-5 / 2)) (varianceMasked P.errLim) v with
    | error x => rw [h1] at h; simp at h
    | ok f =>
      rw [h1, except_bind_ok] at h
      obtain ⟨hA, hM⟩ := sstFilter_spec h1
      have hM' : f.1 = true ↔ ∃ r ∈ v, MaskedVariance P.errLim r := by
        rw [hM]
        refine exists_congr fun r => and_congr Iff.rfl ?_
        unfold MaskedVariance varianceMasked
        constructor
        · rintro ⟨q, q1, q2⟩
          cases q with
          | none => simp at q2
          | some q => exact ⟨q, q1, by simpa using q2⟩
        · rintro ⟨q, q1, q2⟩
          exact ⟨some q, q1, by simpa using q2⟩
      obtain ⟨s1, s2, s3⟩ := biasFlags_spec hM' hA.bgvar_nonneg
      simp only at h
      cases h2 : writeFlags v "SST" "drf_bias" (flagAll v (biasFlags (biasTests P) P.nEval f.1 f.2).1) with
      | error x => rw [h2] at h; simp at h
      | ok w =>
        rw [h2, except_bind_ok] at h
        cases h3 : writeFlags w "SST" "drf_noise" (flagAll w (biasFlags (biasTests P) P.nEval f.1 f.2).2.1) with
        | error x => rw [h3] at h; simp at h
        | ok u =>
          rw [h3, except_bind_ok] at h
          obtain ⟨w1, w2⟩ := writeFlags_flags (flagAll_spec v _ s1).1 h2 _ (flagAll_spec v _ s1).2
          obtain ⟨x1, x2⟩ := writeFlags_flags (flagAll_spec w _ s2).1 h3 _ (flagAll_spec w _ s2).2
          obtain ⟨y1, y2⟩ := writeFlags_flags (flagAll_spec u _ s3).1 h _ (flagAll_spec u _ s3).2
          refine ⟨by omega, f.2, hA, fun k r r' hr hr' => ?_⟩
          have hk := lt_of_get hr
          have hw : w[k]? = some w[k] := List.getElem?_eq_getElem (by omega)
          have hu : u[k]? = some u[k] := List.getElem?_eq_getElem (by omega)
          obtain ⟨a1, a2, a3, a4⟩ := w2 k r _ hr hw
          obtain ⟨b1, b2, b3, b4⟩ := x2 k _ _ hw hu
          obtain ⟨c1, c2, c3, c4⟩ := y2 k _ r' hu hr'
          have hq : r'.getQc "SST" "drf_bias" = (w[k]).getQc "SST" "drf_bias" := by
            unfold Report.getQc
            rw [c4 _ (by decide), b4 _ (by decide)]
          have hq' : r'.getQc "SST" "drf_noise" = (u[k]).getQc "SST" "drf_noise" := by
            unfold Report.getQc
            rw [c4 _ (by decide)]
          rw [hq, hq']
          refine ⟨a1, a2, b1, b2, c1, c2, ?_, fun key k1 k2 k3 => ?_⟩
          · rw [c3, b3, a3]
          · rw [c4 key k3, b4 key k2, a4 key k1]
  · rw [biasAssert_error hP] at h
    simp at h

/-- C53: the flag for short records excludes the other two, and a record without assessed reports gets only zeros. -/
theorem C53_exclusive (elev : Int → Int → Rat → Rat → Rat → Rat → ℝ) (P : BiasParams) (v v' : List Report)
    (h : sstBiasedNoisyCheck elev P v = .ok v') :
    (∀ r' ∈ v', r'.getQc "SST" "drf_short" = 1 → r'.getQc "SST" "drf_bias" = 0 ∧ r'.getQc "SST" "drf_noise" = 0)
    ∧ (∀ a ∈ v', ∀ b ∈ v', a.getQc "SST" "drf_bias" = b.getQc "SST" "drf_bias"
        ∧ a.getQc "SST" "drf_noise" = b.getQc "SST" "drf_noise"
        ∧ a.getQc "SST" "drf_short" = b.getQc "SST" "drf_short")
    ∧ ((∀ r ∈ v, ¬ Assessed (daylight elev) (varianceMasked P.errLim) r) → ∀ r' ∈ v',
        r'.getQc "SST" "drf_bias" = 0 ∧ r'.getQc "SST" "drf_noise" = 0 ∧ r'.getQc "SST" "drf_short" = 0) := by
  obtain ⟨hl, obs, hA, hf⟩ := C53_bias elev P v v' h
  have get : ∀ r' ∈ v', ∃ (k : Nat) (r : Report), v[k]? = some r ∧ v'[k]? = some r' := by
    intro r' hr'
    obtain ⟨k, hk⟩ := List.mem_iff_getElem?.1 hr'
    have := lt_of_get hk
    exact ⟨k, _, List.getElem?_eq_getElem (by omega), hk⟩
  have bit : ∀ x y : Int, (x = 0 ∨ x = 1) → (y = 0 ∨ y = 1) → (x = 1 ↔ y = 1) → x = y := by
    intro x y h1 h2 h3
    omega
  refine ⟨?_, ?_, ?_⟩
  · intro r' hr' hs
    obtain ⟨k, r, hr, hk⟩ := get r' hr'
    obtain ⟨a1, a2, b1, b2, c1, c2, -⟩ := hf k r r' hr hk
    have hS := c2.1 hs
    have hlt := hS.2.1
    refine ⟨a1.resolve_right fun c => ?_, b1.resolve_right fun c => ?_⟩
    · have := (a2.1 c).2.1; omega
    · have := (b2.1 c).2.1; omega
  · intro a ha b hb
    obtain ⟨i, r, hr, hi⟩ := get a ha
    obtain ⟨j, q, hq, hj⟩ := get b hb
    obtain ⟨a1, a2, a3, a4, a5, a6, -⟩ := hf i r a hr hi
    obtain ⟨b1, b2, b3, b4, b5, b6, -⟩ := hf j q b hq hj
    exact ⟨bit _ _ a1 b1 (a2.trans b2.symm), bit _ _ a3 b3 (a4.trans b4.symm), bit _ _ a5 b5 (a6.trans b6.symm)⟩
  · intro hno r' hr'
    have he : obs = [] := by
      by_contra hne
      obtain ⟨o, t, rfl⟩ := List.exists_cons_of_ne_nil hne
      obtain ⟨r, hr, -⟩ := hA.2.2 o (List.mem_cons_self ..)
      exact hno r (List.mem_of_getElem? hr) ((hA.2.1 o.ind r hr).2 ⟨o, List.mem_cons_self .., rfl⟩)
    obtain ⟨k, r, hr, hk⟩ := get r' hr'
    obtain ⟨a1, a2, b1, b2, c1, c2, -⟩ := hf k r r' hr hk
    exact ⟨a1.resolve_right fun c => (a2.1 c).1 he, b1.resolve_right fun c => (b2.1 c).1 he,
      c1.resolve_right fun c => (c2.1 c).1 he⟩

/-- C53: inadmissible parameters are rejected; with admissible ones the check completes on every record whose reports
have been matched with a background. -/
theorem C53_completes (elev : Int → Int → Rat → Rat → Rat → Rat → ℝ) (P : BiasParams) (v : List Report) :
    (¬ BiasParamsOk P → sstBiasedNoisyCheck elev P v = .error .assertion)
    ∧ (BiasParamsOk P →
        (∀ (k : Nat) (r : Report), v[k]? = some r → Matched (daylight elev) (varianceMasked P.errLim) r k) →
        ∃ v', sstBiasedNoisyCheck elev P v = .ok v') := by
  unfold sstBiasedNoisyCheck biasCheck
  constructor
  · intro hP
    rw [biasAssert_error hP]
    rfl
  · intro hP hm
    obtain ⟨f, hf⟩ := sstFilter_completes (day := reportDaytime elev (-5 / 2)) hm
    have dig : ∀ (v : List Report) (b : Bool), ∀ x ∈ flagAll v b, 0 ≤ x ∧ x ≤ 9 := by
      intro v b x hx
      have := List.eq_of_mem_replicate hx
      subst this
      cases b <;> simp
    obtain ⟨w, hw⟩ := writeFlags_ok (v := v) (t := "SST") (f := "drf_bias") (.inr (by decide))
      (dig v (biasFlags (biasTests P) P.nEval f.1 f.2).1)
    obtain ⟨u, hu⟩ := writeFlags_ok (v := w) (t := "SST") (f := "drf_noise") (.inr (by decide))
      (dig w (biasFlags (biasTests P) P.nEval f.1 f.2).2.1)
    obtain ⟨v', hv'⟩ := writeFlags_ok (v := u) (t := "SST") (f := "drf_short") (.inr (by decide))
      (dig u (biasFlags (biasTests P) P.nEval f.1 f.2).2.2)
    refine ⟨v', ?_⟩
    rw [(biasAssert_ok P).2 hP, except_bind_ok, hf, except_bind_ok]
    simp only
    rw [hw, except_bind_ok, hu, except_bind_ok, hv']

/-- Parameters, for examples. -/
def exampleBias : BiasParams where
  nEval := 3
  biasLim := 1
  intra := 3 / 10
  inter := 3 / 10
  stdN := 3
  nBad := 2
  errLim := 3 / 10

/-- Non-vacuity: the check completes on a record of two reports, whatever their temperatures. -/
example (elev : Int → Int → Rat → Rat → Rat → Rat → ℝ) (x y : Rat) :
    ∃ v', sstBiasedNoisyCheck elev exampleBias [sstReport x none, sstReport y (some 1)] = .ok v' := by
  refine (C53_completes elev exampleBias _).2 (by unfold BiasParamsOk exampleBias; norm_num) fun k r hr => ?_
  match k, hr with
  | 0, hr =>
    simp only [List.getElem?_cons_zero, Option.some.injEq] at hr
    subst hr
    exact sstReport_matched elev _ x none 0 _ (by simp)
  | 1, hr =>
    simp only [List.getElem?_cons_zero, List.getElem?_cons_succ, Option.some.injEq] at hr
    subst hr
    exact sstReport_matched elev _ y _ 1 _ fun _ => ⟨1, rfl, by norm_num⟩
  | k + 2, hr => simp at hr

/-- Non-vacuity: two observations 5 degrees from a background with small variance are a bad short record; four such
observations are biased but not noisy. -/
example : ShortBad exampleBias [] [⟨0, 5, 0⟩, ⟨1, 5, 0⟩]
    ∧ Biased exampleBias [⟨0, 5, 0⟩, ⟨1, 5, 0⟩, ⟨2, 5, 0⟩, ⟨3, 5, 0⟩] := by
  have hx : ∀ i, Exceeds 3 (3 / 10) (3 / 10) ⟨i, 5, 0⟩ := by
    intro i
    unfold Exceeds
    have : Real.sqrt (((0 : Rat) : ℝ) + ((3 / 10 : Rat) : ℝ) ^ 2 + ((3 / 10 : Rat) : ℝ) ^ 2) ≤ 1 := by
      rw [Real.sqrt_le_left (by norm_num)]
      norm_num
    have h5 : |(((5 : Rat)) : ℝ)| = 5 := by norm_num
    show |(((5 : Rat)) : ℝ)| > _
    rw [h5]
    push_cast at this ⊢
    linarith
  refine ⟨⟨by simp, by decide, by simp, ?_⟩, by simp, by decide, 5, by norm_num, by norm_num [exampleBias]⟩
  unfold exceedances
  simp only [exampleBias, List.filter_cons, hx, decide_true, if_true, List.filter_nil, List.length_cons,
    List.length_nil]
  norm_num

end MarineQC
