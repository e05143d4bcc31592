import Verif.Buoy.Windows
import Verif.Conform.Tools

/-!
# Deciding the temperature checks of drifting buoys on the records of the tests

The model of these checks takes square roots in the real numbers, so that it cannot be run.  Where all variances of the
background error within the limit are the same, as in the tests of test_trackqc.py, comparing squares decides the same
thing.  The lemmas here say so; the tests use them.
-/

namespace MarineQC.Conform

/-- The tests of a window in terms of squares, where `c` is the variance of the background error. -/
def squareTests (P : TailParams) (c : Rat) : TailTests where
  unreliable w := w.any fun o => decide (o.bgvar > P.errLim)
  longBad w :=
    match npMean (w.map (·.anom)), npVar (w.map (·.anom)) with
    | some avg, some var =>
      decide (avg ^ 2 > P.longStdN ^ 2 * (P.inter ^ 2 + c)) || decide (var > P.intra ^ 2 + c)
    | _, _ => false
  shortBad w :=
    decide (((w.countP fun o => decide (o.anom ^ 2 > P.shortStdN ^ 2 * (o.bgvar + P.inter ^ 2 + P.intra ^ 2)) : Nat) :
      Int) ≥ P.shortBad)

/-- The same for the check of the whole record. -/
def squareBias (P : BiasParams) (c : Rat) : BiasTests where
  biased := biasedRecord P
  noisy w :=
    match npVar (w.map (·.anom)) with
    | some var => decide (var > P.intra ^ 2 + c)
    | _ => false
  short w :=
    decide (((w.countP fun o => decide (o.anom ^ 2 > P.stdN ^ 2 * (o.bgvar + P.inter ^ 2 + P.intra ^ 2)) : Nat) :
      Int) ≥ P.nBad)

theorem lt_sqrt_iff {k s x : Rat} (hk : 0 ≤ k) (hs : 0 ≤ s) :
    |(x : ℝ)| > (k : ℝ) * Real.sqrt (s : ℝ) ↔ x ^ 2 > k ^ 2 * s := by
  have hk' : (0 : ℝ) ≤ k := by exact_mod_cast hk
  have hs' : (0 : ℝ) ≤ s := by exact_mod_cast hs
  have h0 : (0 : ℝ) ≤ (k : ℝ) * Real.sqrt (s : ℝ) := by positivity
  rw [gt_iff_lt, ← abs_of_nonneg h0, ← sq_lt_sq, mul_pow, Real.sq_sqrt hs']
  exact_mod_cast Iff.rfl

theorem exceeds_square {k inter intra : Rat} (hk : 0 ≤ k) {o : SstObs} (h : 0 ≤ o.bgvar) :
    exceedsLimit k inter intra o = decide (o.anom ^ 2 > k ^ 2 * (o.bgvar + inter ^ 2 + intra ^ 2)) := by
  rw [Bool.eq_iff_iff, exceedsLimit_iff h, decide_eq_true_eq, ← lt_sqrt_iff hk (by positivity)]
  unfold Spec.Exceeds
  push_cast
  exact Iff.rfl

theorem slice_whole (l : List Rat) : slice l 0 (l.length - 0) = l := by simp [slice]

theorem npMean_of_perm {l l' : List Rat} (h : l.Perm l') : npMean l = npMean l' := by
  unfold npMean
  rw [h.sum_eq, h.length_eq]
  have : l = [] ↔ l' = [] := by rw [← List.length_eq_zero_iff, ← List.length_eq_zero_iff, h.length_eq]
  simp only [this]

theorem npVar_of_perm {l l' : List Rat} (h : l.Perm l') : npVar l = npVar l' := by
  unfold npVar
  rw [npMean_of_perm h]
  cases npMean l' with
  | none => rfl
  | some m => exact npMean_of_perm (h.map _)

theorem trimmedMean_small {l : List Rat} (h : l.length < 100) : trimmedMean l 100 = npMean l := by
  unfold trimmedMean
  simp only [OfNat.ofNat_ne_zero, if_false, Nat.div_eq_of_lt h]
  rw [← pySort_length l, slice_whole]
  exact npMean_of_perm (pySort_perm l)

theorem trimVar_small {l : List Rat} (h : l.length < 100) : trimVar l 100 = npVar l := by
  unfold trimVar
  simp only [OfNat.ofNat_ne_zero, if_false, Nat.div_eq_of_lt h]
  rw [← pySort_length l, slice_whole]
  exact npVar_of_perm (pySort_perm l)

/-- The same number `n` times has that number as its mean. -/
theorem mean_same {w : List SstObs} (hw : w ≠ []) {f : SstObs → ℝ} {c : ℝ} (h : ∀ o ∈ w, f o = c) :
    (w.map f).sum / w.length = c := by
  have e : w.map f = List.replicate w.length c := by
    rw [List.eq_replicate_iff]
    refine ⟨List.length_map _, ?_⟩
    intro x hx
    obtain ⟨o, ho, rfl⟩ := List.mem_map.1 hx
    exact h o ho
  rw [e, List.sum_replicate, nsmul_eq_mul]
  have : (w.length : ℝ) ≠ 0 := by simpa using hw
  field_simp

theorem noisy_square {intra c var : Rat} (hc : 0 ≤ c) {w : List SstObs} (hw : w ≠ [])
    (hv : ∀ o ∈ w, o.bgvar = c) :
    Real.sqrt (var : ℝ) > Real.sqrt ((intra : ℝ) ^ 2
      + Real.sqrt (realMean (w.map fun o => o.bgerr ^ 2)) ^ 2) ↔ var > intra ^ 2 + c := by
  have hn : ∀ o ∈ w, 0 ≤ o.bgvar := fun o ho => by rw [hv o ho]; exact hc
  rw [rms_eq hn, sqrt_spread (average_nonneg hn), mean_same hw (c := (c : ℝ)) fun o ho => by rw [hv o ho]]
  exact_mod_cast Iff.rfl

theorem long_square {P : TailParams} {c : Rat} (hP : 0 ≤ P.longStdN) (hc : 0 ≤ c) {w : List SstObs}
    (hl : w.length < 100) (hv : ∀ o ∈ w, o.bgvar = c) :
    longWindowBad P w = (squareTests P c).longBad w := by
  unfold longWindowBad squareTests
  dsimp only
  rw [trimmedMean_small (by simpa using hl), trimVar_small (by simpa using hl)]
  by_cases hw : w = []
  · subst hw; rfl
  cases npMean (w.map (·.anom)) with
  | none => rfl
  | some avg =>
    cases npVar (w.map (·.anom)) with
    | none => rfl
    | some var =>
      dsimp only
      have e : realMean (w.map (·.bgerr)) = Real.sqrt (c : ℝ) := by
        unfold realMean
        rw [List.length_map]
        exact mean_same hw fun o ho => by unfold SstObs.bgerr; rw [hv o ho]
      rw [Bool.eq_iff_iff, Bool.or_eq_true, Bool.or_eq_true, decide_eq_true_eq, decide_eq_true_eq, decide_eq_true_eq,
        decide_eq_true_eq, noisy_square hc hw hv, e, Real.sq_sqrt (by exact_mod_cast hc),
        ← lt_sqrt_iff (x := avg) hP (by positivity : 0 ≤ P.inter ^ 2 + c)]
      push_cast
      exact Iff.rfl

theorem short_square {P : TailParams} {c : Rat} (hP : 0 ≤ P.shortStdN) {w : List SstObs}
    (hv : ∀ o ∈ w, 0 ≤ o.bgvar) : shortWindowBad P w = (squareTests P c).shortBad w := by
  unfold shortWindowBad squareTests
  dsimp only
  rw [List.countP_congr fun o ho => by rw [exceeds_square hP (hv o ho)]]

theorem unreliable_square {P : TailParams} {c : Rat} (hP : 0 ≤ P.errLim) (w : List SstObs) :
    unreliableWindow P w = (squareTests P c).unreliable w := by
  rw [← Bool.not_inj_iff, Bool.eq_iff_iff, Bool.not_eq_true', unreliableWindow_iff hP, Bool.not_eq_true']
  unfold squareTests
  simp only [List.any_eq_false, decide_eq_true_eq, gt_iff_lt, not_lt]

/-- The observations of a test: less than a hundred, no negative variance, all variances within the limit are `c`. -/
def steady (errLim c : Rat) (obs : List SstObs) : Bool :=
  decide (0 ≤ c) && decide (obs.length < 100)
    && obs.all fun o => decide (0 ≤ o.bgvar) && (decide (o.bgvar > errLim) || decide (o.bgvar = c))

theorem steady_iff {errLim c : Rat} {obs : List SstObs} : steady errLim c obs = true ↔
    0 ≤ c ∧ obs.length < 100 ∧ ∀ o ∈ obs, 0 ≤ o.bgvar ∧ (o.bgvar > errLim ∨ o.bgvar = c) := by
  simp [steady, and_assoc]

theorem steady_sub {errLim c : Rat} {obs w : List SstObs} (h : steady errLim c obs = true) (hw : w ⊆ obs)
    (hl : w.length ≤ obs.length) : steady errLim c w = true := by
  rw [steady_iff] at *
  exact ⟨h.1, by omega, fun o ho => h.2.2 o (hw ho)⟩

section
variable {P : TailParams} {c : Rat}

theorem long_agrees (h1 : 0 ≤ P.longStdN) (h3 : 0 ≤ P.errLim) (len : Nat) {temp : List SstObs}
    (ht : steady P.errLim c temp = true) (set : Nat → Int) (l : List Nat) (cur : Int) :
    longLoop (tailTests P) len temp set l cur = longLoop (squareTests P c) len temp set l cur := by
  induction l generalizing cur with
  | nil => rfl
  | cons ix l ih =>
    have hs : steady P.errLim c ((temp.drop ix).take len) = true :=
      steady_sub ht (fun o ho => List.mem_of_mem_drop (List.mem_of_mem_take ho)) (by simp)
    rw [steady_iff] at hs
    unfold longLoop
    dsimp only
    have hu : (tailTests P).unreliable ((temp.drop ix).take len)
        = (squareTests P c).unreliable ((temp.drop ix).take len) := unreliable_square h3 _
    rw [hu, ih]
    cases hq : (squareTests P c).unreliable ((temp.drop ix).take len) with
    | true => rfl
    | false =>
      have hr := (unreliableWindow_iff h3 _).1 (hu.trans hq)
      have hb : (tailTests P).longBad ((temp.drop ix).take len) = (squareTests P c).longBad ((temp.drop ix).take len) :=
        long_square h1 hs.1 hs.2.1 fun o ho => by
          rcases (hs.2.2 o ho).2 with h | h
          · exact absurd (hr o ho) (not_le.2 h)
          · exact h
      rw [hb]

theorem short_agrees (h2 : 0 ≤ P.shortStdN) (h3 : 0 ≤ P.errLim) (len : Nat) {temp : List SstObs}
    (ht : steady P.errLim c temp = true) (step : Nat → Int) (l : List Nat) (cur : Int) :
    shortLoop (tailTests P) len temp step l cur = shortLoop (squareTests P c) len temp step l cur := by
  induction l generalizing cur with
  | nil => rfl
  | cons ix l ih =>
    have hs : steady P.errLim c ((temp.drop ix).take len) = true :=
      steady_sub ht (fun o ho => List.mem_of_mem_drop (List.mem_of_mem_take ho)) (by simp)
    rw [steady_iff] at hs
    unfold shortLoop
    dsimp only
    have hu : (tailTests P).unreliable ((temp.drop ix).take len)
        = (squareTests P c).unreliable ((temp.drop ix).take len) := unreliable_square h3 _
    have hb : (tailTests P).shortBad ((temp.drop ix).take len)
        = (squareTests P c).shortBad ((temp.drop ix).take len) :=
      short_square h2 fun o ho => (hs.2.2 o ho).1
    rw [hu, ih, hb]

theorem flags_agree (h1 : 0 ≤ P.longStdN) (h2 : 0 ≤ P.shortStdN) (h3 : 0 ≤ P.errLim) (longLen shortLen n : Nat)
    {obs : List SstObs} (ho : steady P.errLim c obs = true) :
    tailFlags (tailTests P) longLen shortLen n obs = tailFlags (squareTests P c) longLen shortLen n obs := by
  have hr : steady P.errLim c obs.reverse = true := steady_sub ho (fun o h => List.mem_reverse.1 h) (by simp)
  have hl : longTails (tailTests P) longLen obs = longTails (squareTests P c) longLen obs := by
    unfold longTails
    dsimp only
    rw [long_agrees h1 h3 longLen ho, long_agrees h1 h3 longLen hr]
  have hs : ∀ p, shortTails (tailTests P) shortLen obs p = shortTails (squareTests P c) shortLen obs p := by
    intro p
    have ht : steady P.errLim c ((obs.take (p.2 - 1 + 1).toNat).drop (p.1 + 1).toNat) = true :=
      steady_sub ho (fun o h => List.mem_of_mem_take (List.mem_of_mem_drop h)) (by simp)
    have ht' : steady P.errLim c ((obs.take (p.2 - 1 + 1).toNat).drop (p.1 + 1).toNat).reverse = true :=
      steady_sub ht (fun o h => List.mem_reverse.1 h) (by simp)
    unfold shortTails
    dsimp only
    rw [short_agrees h2 h3 shortLen ht, short_agrees h2 h3 shortLen ht']
  unfold tailFlags
  simp only [hl, hs]

end

/-- The elevation of the sun at the place of the tests: up from 6 to 18 hours. -/
def testSun (_ _ : Int) (hour _ _ _ : Rat) : Rat := if 6 ≤ hour ∧ hour ≤ 18 then 60 else -60

/-- The same as a real number. -/
noncomputable def testSunReal (y d : Int) (hour minute lat lon : Rat) : ℝ := (testSun y d hour minute lat lon : Rat)

theorem testSun_day (r : Report) : reportDaytime testSunReal (-5 / 2) r = reportDaytime testSun (-5 / 2) r := by
  have key : ∀ y d (h m a b : Rat), decide (testSunReal y d h m a b > -5 / 2) = decide (testSun y d h m a b > -5 / 2) := by
    intro y d h m a b
    rw [decide_eq_decide]
    unfold testSunReal
    rw [gt_iff_lt, gt_iff_lt, ← Rat.cast_lt (K := ℝ)]
    norm_num
  unfold reportDaytime trackDayTest
  simp only [key]

/-- The observations that the check assesses are as in `steady`. -/
def steadyRecord (errLim c : Rat) (mask : Option Rat → Bool) (v : Except Err (List Report)) : Bool :=
  match v with
  | .ok v =>
    match sstFilter (reportDaytime testSun (-5 / 2)) mask v with
    | .ok f => steady errLim c f.2
    | .error _ => true
  | .error _ => true

/-- The tail check of the model, decided by squares. -/
theorem tail_decided {v : Except Err (List Report)} {P : TailParams} (c : Rat) {α : Type} {f : List Report → α}
    {out : Except Err α} (h1 : 0 ≤ P.longStdN) (h2 : 0 ≤ P.shortStdN) (h3 : 0 ≤ P.errLim)
    (hs : steadyRecord P.errLim c (fun _ => false) v = true)
    (h : (v.bind (tailCheck (squareTests P c) (reportDaytime testSun (-5 / 2)) P)).map f = out) :
    (v.bind (sstTailCheck testSunReal P)).map f = out := by
  rw [← h]
  cases v with
  | error e => rfl
  | ok v =>
    have hd : reportDaytime testSunReal (-5 / 2) = reportDaytime testSun (-5 / 2) := funext testSun_day
    change Except.map f (sstTailCheck testSunReal P v) = Except.map f (tailCheck _ _ P v)
    unfold sstTailCheck tailCheck
    rw [hd]
    unfold steadyRecord at hs
    dsimp only at hs
    cases tailAssert P with
    | error e => rfl
    | ok _ =>
      rw [except_bind_ok, except_bind_ok]
      cases hf : sstFilter (reportDaytime testSun (-5 / 2)) (fun _ => false) v with
      | error e => rfl
      | ok p =>
        rw [hf] at hs
        rw [except_bind_ok, except_bind_ok, flags_agree h1 h2 h3 _ _ _ hs]

/-- The check for bias and noise of the model, decided by squares. -/
theorem bias_decided {v : Except Err (List Report)} {P : BiasParams} (c : Rat) {α : Type} {f : List Report → α}
    {out : Except Err α} (h1 : 0 ≤ P.stdN)
    (hs : steadyRecord 10 c (varianceMasked P.errLim) v = true)
    (h : (v.bind (biasCheck (squareBias P c) (reportDaytime testSun (-5 / 2)) P)).map f = out) :
    (v.bind (sstBiasedNoisyCheck testSunReal P)).map f = out := by
  rw [← h]
  cases v with
  | error e => rfl
  | ok v =>
    have hd : reportDaytime testSunReal (-5 / 2) = reportDaytime testSun (-5 / 2) := funext testSun_day
    change Except.map f (sstBiasedNoisyCheck testSunReal P v) = Except.map f (biasCheck _ _ P v)
    unfold sstBiasedNoisyCheck biasCheck
    rw [hd]
    unfold steadyRecord at hs
    dsimp only at hs
    cases biasAssert P with
    | error e => rfl
    | ok _ =>
      rw [except_bind_ok, except_bind_ok]
      cases hf : sstFilter (reportDaytime testSun (-5 / 2)) (varianceMasked P.errLim) v with
      | error e => rfl
      | ok p =>
        rw [hf] at hs
        have hobs := (sstFilter_spec hf).1
        rw [steady_iff] at hs
        have hc : ∀ o ∈ p.2, o.bgvar = c := by
          intro o ho
          obtain ⟨r, -, x, b, -, -, -, -, -, -, -, h10⟩ := hobs.2.2 o ho
          rcases (hs.2.2 o ho).2 with h' | h'
          · exact absurd h10 (not_le.2 h')
          · exact h'
        have e : biasFlags (biasTests P) P.nEval p.1 p.2 = biasFlags (squareBias P c) P.nEval p.1 p.2 := by
          by_cases hw : p.2 = []
          · rw [hw]; rfl
          have hn : (biasTests P).noisy p.2 = (squareBias P c).noisy p.2 := by
            unfold biasTests squareBias noisyRecord
            dsimp only
            cases npVar (p.2.map (·.anom)) with
            | none => rfl
            | some var =>
              dsimp only
              rw [Bool.eq_iff_iff, decide_eq_true_eq, decide_eq_true_eq, noisy_square hs.1 hw hc]
          have ht : (biasTests P).short p.2 = (squareBias P c).short p.2 := by
            unfold biasTests squareBias shortRecordBad
            dsimp only
            rw [List.countP_congr fun o ho => by rw [exceeds_square h1 (hs.2.2 o ho).1]]
          have hb : (biasTests P).biased p.2 = (squareBias P c).biased p.2 := rfl
          unfold biasFlags
          rw [hn, ht, hb]
        rw [except_bind_ok, except_bind_ok, e]

end MarineQC.Conform
