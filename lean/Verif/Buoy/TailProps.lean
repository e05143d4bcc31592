import Verif.Buoy.Windows

/-!
# C52: the tail check of drifter temperatures
-/

namespace MarineQC

namespace Spec

/-- The first `s` observations are the start tail: report `k` is not after the last of them. -/
def InStartTail (obs : List SstObs) (s k : Nat) : Prop := ∃ (j : Nat) (o : SstObs), j < s ∧ obs[j]? = some o ∧ k ≤ o.ind

/-- The last `e` observations are the end tail: report `k` is not before the first of them. -/
def InEndTail (obs : List SstObs) (e k : Nat) : Prop :=
  ∃ (j : Nat) (o : SstObs), obs.length ≤ j + e ∧ obs[j]? = some o ∧ o.ind ≤ k

/-- The parameters of the tail check are admissible. -/
def TailParamsOk (P : TailParams) : Prop :=
  1 ≤ P.longLen ∧ P.longLen % 2 = 1 ∧ 0 ≤ P.longStdN ∧ 1 ≤ P.shortLen ∧ 0 ≤ P.shortStdN ∧ 1 ≤ P.shortBad
    ∧ 0 ≤ P.inter ∧ 0 ≤ P.intra ∧ 0 ≤ P.errLim

/-- The tails of the assessed observations: none if there are no observations. -/
def TailsOf (P : TailParams) (obs : List SstObs) (s e : Nat) : Prop :=
  (obs = [] ∧ s = 0 ∧ e = 0)
    ∨ (obs ≠ [] ∧ s + e < obs.length
      ∧ TailLengths obs.length P.longLen.toNat P.shortLen.toNat
          (fun i => LongFails P ((obs.drop i).take P.longLen.toNat))
          (fun i => ShortFails P ((obs.drop i).take P.shortLen.toNat)) s e)

end Spec

open Spec

theorem assert_bind_ok {α : Type} (b : Bool) (f : Unit → Except Err α) (x : α) :
    (pyAssert b >>= f) = .ok x ↔ b = true ∧ f () = .ok x := by
  cases b <;> simp [pyAssert]

theorem assert_ok (b : Bool) : pyAssert b = .ok () ↔ b = true := by cases b <;> simp [pyAssert]

/-- A sequence of assertions either succeeds or raises an assertion error. -/
theorem assert_bind_cases (b : Bool) (f : Unit → Except Err Unit) (h : f () = .ok () ∨ f () = .error .assertion) :
    (pyAssert b >>= f) = .ok () ∨ (pyAssert b >>= f) = .error .assertion := by
  cases b
  · exact .inr rfl
  · exact h

theorem assert_cases (b : Bool) : pyAssert b = .ok () ∨ pyAssert b = .error .assertion := by
  cases b
  · exact .inr rfl
  · exact .inl rfl

theorem tailAssert_ok (P : TailParams) : tailAssert P = .ok () ↔ TailParamsOk P := by
  have hmod : (P.longLen % 2 ≠ 0) ↔ P.longLen % 2 = 1 := by omega
  unfold tailAssert TailParamsOk
  simp only [assert_bind_ok, assert_ok, decide_eq_true_eq, ge_iff_le, hmod]

theorem tailAssert_error {P : TailParams} (h : ¬ TailParamsOk P) : tailAssert P = .error .assertion := by
  have : tailAssert P = .ok () ∨ tailAssert P = .error .assertion := by
    unfold tailAssert
    repeat' first
      | exact assert_cases _
      | apply assert_bind_cases
  exact this.resolve_left fun c => h ((tailAssert_ok P).1 c)

theorem sorted_ind {obs : List SstObs} (h : obs.Pairwise fun o o' => o.ind < o'.ind) {i j : Nat} {o o' : SstObs}
    (hi : obs[i]? = some o) (hj : obs[j]? = some o') (hij : i ≤ j) : o.ind ≤ o'.ind := by
  obtain ⟨i1, rfl⟩ := List.getElem?_eq_some_iff.1 hi
  obtain ⟨j1, rfl⟩ := List.getElem?_eq_some_iff.1 hj
  rcases Nat.lt_or_eq_of_le hij with h1 | h1
  · exact (List.pairwise_iff_getElem.1 h i j i1 j1 h1).le
  · subst h1; exact le_refl _

theorem startFlags_spec {n s : Nat} {obs : List SstObs} (hp : obs.Pairwise fun o o' => o.ind < o'.ind)
    (hs : s ≤ obs.length) :
    ∃ fl, startFlags n obs ((s : Int) - 1) = .ok fl ∧ fl.length = n
      ∧ ∀ k, k < n → ∃ x : Int, fl[k]? = some x ∧ (x = 0 ∨ x = 1) ∧ (x = 1 ↔ InStartTail obs s k) := by
  unfold startFlags
  by_cases h0 : s = 0
  · subst h0
    refine ⟨List.replicate n 0, by simp, by simp, fun k hk => ⟨0, by simp [hk], .inl rfl, ?_⟩⟩
    simp [InStartTail]
  · have hb : s - 1 < obs.length := by omega
    have ho : obs[s - 1]? = some obs[s - 1] := List.getElem?_eq_getElem hb
    have hi : pyIndex obs ((s : Int) - 1) = .ok obs[s - 1] := by
      rw [show (s : Int) - 1 = ((s - 1 : Nat) : Int) by omega]
      exact pyIndex_get ho
    rw [if_neg (by omega), hi]
    refine ⟨_, rfl, by simp, fun k hk => ⟨if k ≤ obs[s - 1].ind then 1 else 0, by simp [hk], ?_, ?_⟩⟩
    · split <;> simp
    · unfold InStartTail
      constructor
      · intro h
        refine ⟨s - 1, _, by omega, ho, ?_⟩
        by_contra hc
        simp [hc] at h
      · rintro ⟨j, o, j1, j2, j3⟩
        have := sorted_ind hp j2 ho (by omega)
        rw [if_pos (by omega)]

theorem endFlags_spec {n e : Nat} {obs : List SstObs} (hp : obs.Pairwise fun o o' => o.ind < o'.ind)
    (he : e ≤ obs.length) :
    ∃ fl, endFlags n obs ((obs.length : Int) - e) = .ok fl ∧ fl.length = n
      ∧ ∀ k, k < n → ∃ x : Int, fl[k]? = some x ∧ (x = 0 ∨ x = 1) ∧ (x = 1 ↔ InEndTail obs e k) := by
  unfold endFlags
  by_cases h0 : e = 0
  · subst h0
    refine ⟨List.replicate n 0, by simp, by simp, fun k hk => ⟨0, by simp [hk], .inl rfl, ?_⟩⟩
    simp only [InEndTail, zero_ne_one, false_iff]
    rintro ⟨j, o, j1, j2, -⟩
    have := lt_of_get j2
    omega
  · have hb : obs.length - e < obs.length := by omega
    have ho : obs[obs.length - e]? = some obs[obs.length - e] := List.getElem?_eq_getElem hb
    have hi : pyIndex obs ((obs.length : Int) - e) = .ok obs[obs.length - e] := by
      rw [show (obs.length : Int) - e = ((obs.length - e : Nat) : Int) by omega]
      exact pyIndex_get ho
    rw [if_neg (by omega), hi]
    refine ⟨_, rfl, by simp, fun k hk => ⟨if k ≥ obs[obs.length - e].ind then 1 else 0, by simp [hk], ?_, ?_⟩⟩
    · split <;> simp
    · unfold InEndTail
      constructor
      · intro h
        refine ⟨obs.length - e, _, by omega, ho, ?_⟩
        by_contra hc
        simp [hc] at h
      · rintro ⟨j, o, j1, j2, j3⟩
        have := sorted_ind hp ho j2 (by omega)
        rw [if_pos (by omega)]

/-- The flags of the tail check, for assessed observations in order. -/
theorem tailFlags_spec {P : TailParams} (hP : TailParamsOk P) (n : Nat) {obs : List SstObs}
    (hp : obs.Pairwise fun o o' => o.ind < o'.ind) (hq : ∀ o ∈ obs, 0 ≤ o.bgvar) :
    ∃ s e fl, TailsOf P obs s e ∧ tailFlags (tailTests P) P.longLen.toNat P.shortLen.toNat n obs = .ok fl
      ∧ fl.1.length = n ∧ fl.2.length = n
      ∧ (∀ k, k < n → ∃ x : Int, fl.1[k]? = some x ∧ (x = 0 ∨ x = 1) ∧ (x = 1 ↔ InStartTail obs s k))
      ∧ ∀ k, k < n → ∃ x : Int, fl.2[k]? = some x ∧ (x = 0 ∨ x = 1) ∧ (x = 1 ↔ InEndTail obs e k) := by
  obtain ⟨p1, p2, p3, p4, p5, p6, p7, p8, p9⟩ := hP
  unfold tailFlags
  by_cases h0 : obs = []
  · subst h0
    refine ⟨0, 0, _, .inl ⟨rfl, rfl, rfl⟩, rfl, by simp, by simp, fun k hk => ⟨0, by simp [hk], .inl rfl, ?_⟩,
      fun k hk => ⟨0, by simp [hk], .inl rfl, ?_⟩⟩
    · simp [InStartTail]
    · simp [InEndTail]
  · have hl := List.length_pos_of_ne_nil h0
    obtain ⟨s, e, p, t1, t2, t3⟩ := tails_spec (tailTests_symmetric P) (L := P.longLen.toNat) (S := P.shortLen.toNat)
      (by omega) (by omega) obs hl
    have hlt := tailLengths_lt (by omega) (by omega) hl t3
    have hsub : ∀ i len, ∀ o ∈ (obs.drop i).take len, 0 ≤ o.bgvar := fun i len o ho =>
      hq o (List.mem_of_mem_drop (List.mem_of_mem_take ho))
    have eL : (tailTests P).Long P.longLen.toNat obs = fun i => LongFails P ((obs.drop i).take P.longLen.toNat) :=
      funext fun i => propext (longWindow_iff p9 (hsub i _))
    have eS : (tailTests P).Short P.shortLen.toNat obs = fun i => ShortFails P ((obs.drop i).take P.shortLen.toNat) :=
      funext fun i => propext (shortWindow_iff p9 (hsub i _))
    rw [eL, eS] at t3
    obtain ⟨a, a1, a2, a3⟩ := startFlags_spec (n := n) (s := s) hp (by omega)
    obtain ⟨b, b1, b2, b3⟩ := endFlags_spec (n := n) (e := e) hp (by omega)
    refine ⟨s, e, (a, b), .inr ⟨h0, hlt, t3⟩, ?_, a2, b2, a3, b3⟩
    rw [if_neg (by omega), t1, except_bind_ok]
    simp only [t2]
    rw [a1, except_bind_ok, b1, except_bind_ok, except_pure]

theorem Spec.AssessedObs.bgvar_nonneg {day : Report → Except Err Bool} {mask : Option Rat → Bool} {v : List Report}
    {obs : List SstObs} (h : AssessedObs day mask v obs) : ∀ o ∈ obs, 0 ≤ o.bgvar := by
  intro o ho
  obtain ⟨r, -, x, b, -, -, -, -, -, -, h1, -⟩ := h.2.2 o ho
  exact h1

/-- The day test of the temperature checks: whether the sun is up. -/
noncomputable abbrev daylight (elev : Int → Int → Rat → Rat → Rat → Rat → ℝ) (r : Report) : Except Err Bool :=
  trackDayTest elev (r.getint "YR") (r.getint "MO") (r.getint "DY") (r.getvar "HR") (r.getvar "LAT") (r.getvar "LON")
    (-5 / 2)

/-- C52. When `sst_tail_check` completes, every report has the flags `drf_tail1` and `drf_tail2`, each 0 or 1, and
nothing else changes.  There are numbers `s` and `e` of the observations at the start and the end of the assessed
observations that make up the tails, and together they never are all of them.  `drf_tail1` is 1 exactly for the
reports up to the last one of the start tail, `drf_tail2` exactly for those from the first one of the end tail on. -/
theorem C52_tails (elev : Int → Int → Rat → Rat → Rat → Rat → ℝ) (P : TailParams) (v v' : List Report)
    (h : sstTailCheck elev P v = .ok v') :
    v'.length = v.length ∧ ∃ obs s e, AssessedObs (daylight elev) (fun _ => false) v obs ∧ TailsOf P obs s e
      ∧ ∀ (k : Nat) (r r' : Report), v[k]? = some r → v'[k]? = some r' →
        (r'.getQc "SST" "drf_tail1" = 0 ∨ r'.getQc "SST" "drf_tail1" = 1)
        ∧ (r'.getQc "SST" "drf_tail1" = 1 ↔ InStartTail obs s k)
        ∧ (r'.getQc "SST" "drf_tail2" = 0 ∨ r'.getQc "SST" "drf_tail2" = 1)
        ∧ (r'.getQc "SST" "drf_tail2" = 1 ↔ InEndTail obs e k)
        ∧ r' = { r with qc := r'.qc }
        ∧ ∀ key, key ≠ "SSTdrf_tail1" → key ≠ "SSTdrf_tail2" → r'.qc key = r.qc key := by
  unfold sstTailCheck tailCheck at h
  by_cases hP : TailParamsOk P
  · rw [(tailAssert_ok P).2 hP, except_bind_ok] at h
    cases h1 : sstFilter (reportDaytime elev (-5 / 2)) (fun _ => false) v with
    | error x => rw [h1] at h; simp at h
    | ok f =>
      rw [h1, except_bind_ok] at h
      have hA := (sstFilter_spec h1).1
      obtain ⟨s, e, fl, t1, t2, t3, t4, t5, t6⟩ := tailFlags_spec hP v.length hA.1 hA.bgvar_nonneg
      rw [t2, except_bind_ok] at h
      cases h2 : writeFlags v "SST" "drf_tail1" fl.1 with
      | error x => rw [h2] at h; simp at h
      | ok w =>
        rw [h2, except_bind_ok] at h
        obtain ⟨w1, w2⟩ := writeFlags_flags t3 h2 _ t5
        obtain ⟨x1, x2⟩ := writeFlags_flags (by omega) h _ (fun k hk => t6 k (by omega))
        refine ⟨by omega, f.2, s, e, hA, t1, fun k r r' hr hr' => ?_⟩
        have hk := lt_of_get hr
        have hw : w[k]? = some w[k] := List.getElem?_eq_getElem (by omega)
        obtain ⟨a1, a2, a3, a4⟩ := w2 k r _ hr hw
        obtain ⟨b1, b2, b3, b4⟩ := x2 k _ r' hw hr'
        have hq : r'.getQc "SST" "drf_tail1" = (w[k]).getQc "SST" "drf_tail1" := by
          unfold Report.getQc
          rw [b4 _ (by decide)]
        rw [hq]
        refine ⟨a1, a2, b1, b2, ?_, fun key k1 k2 => ?_⟩
        · rw [b3, a3]
        · rw [b4 key k2, a4 key k1]
  · rw [tailAssert_error hP] at h
    simp at h

/-- C52: the start tail is a prefix and the end tail a suffix of the record, a record without assessed reports has
no tail, and if any report is assessed then some assessed report is in neither tail. -/
theorem C52_shape (elev : Int → Int → Rat → Rat → Rat → Rat → ℝ) (P : TailParams) (v v' : List Report)
    (h : sstTailCheck elev P v = .ok v') :
    (∀ (j k : Nat) (a b : Report), j ≤ k → v'[j]? = some a → v'[k]? = some b →
        (b.getQc "SST" "drf_tail1" = 1 → a.getQc "SST" "drf_tail1" = 1)
        ∧ (a.getQc "SST" "drf_tail2" = 1 → b.getQc "SST" "drf_tail2" = 1))
      ∧ ((∀ r ∈ v, ¬ Assessed (daylight elev) (fun _ => false) r) →
          ∀ r' ∈ v', r'.getQc "SST" "drf_tail1" = 0 ∧ r'.getQc "SST" "drf_tail2" = 0)
      ∧ ((∃ r ∈ v, Assessed (daylight elev) (fun _ => false) r) → ∃ (k : Nat) (r r' : Report), v[k]? = some r
          ∧ v'[k]? = some r' ∧ Assessed (daylight elev) (fun _ => false) r
          ∧ r'.getQc "SST" "drf_tail1" = 0 ∧ r'.getQc "SST" "drf_tail2" = 0) := by
  obtain ⟨hl, obs, s, e, hA, hT, hf⟩ := C52_tails elev P v v' h
  have get : ∀ (k : Nat) (r' : Report), v'[k]? = some r' → ∃ r, v[k]? = some r := by
    intro k r' hr'
    have := lt_of_get hr'
    exact ⟨_, List.getElem?_eq_getElem (by omega)⟩
  refine ⟨?_, ?_, ?_⟩
  · intro j k a b hjk ha hb
    obtain ⟨a0, ha0⟩ := get j a ha
    obtain ⟨b0, hb0⟩ := get k b hb
    obtain ⟨-, a2, -, a4, -⟩ := hf j a0 a ha0 ha
    obtain ⟨-, b2, -, b4, -⟩ := hf k b0 b hb0 hb
    rw [a2, a4, b2, b4]
    constructor
    · rintro ⟨i, o, i1, i2, i3⟩
      exact ⟨i, o, i1, i2, by omega⟩
    · rintro ⟨i, o, i1, i2, i3⟩
      exact ⟨i, o, i1, i2, by omega⟩
  · intro hno
    have he : obs = [] := by
      by_contra hne
      obtain ⟨o, t, rfl⟩ := List.exists_cons_of_ne_nil hne
      obtain ⟨r, hr, -⟩ := hA.2.2 o (List.mem_cons_self ..)
      exact hno r (List.mem_of_getElem? hr) ((hA.2.1 o.ind r hr).2 ⟨o, List.mem_cons_self .., rfl⟩)
    subst he
    intro r' hr'
    obtain ⟨k, hk, rfl⟩ := List.mem_iff_getElem.1 hr'
    have hk' := List.getElem?_eq_getElem hk
    obtain ⟨r, hr⟩ := get k _ hk'
    obtain ⟨a1, a2, a3, a4, -⟩ := hf k r _ hr hk'
    refine ⟨a1.resolve_right fun c => ?_, a3.resolve_right fun c => ?_⟩
    · obtain ⟨i, o, -, i2, -⟩ := a2.1 c
      simp at i2
    · obtain ⟨i, o, -, i2, -⟩ := a4.1 c
      simp at i2
  · rintro ⟨r, hr, hass⟩
    obtain ⟨k, hk⟩ := List.mem_iff_getElem?.1 hr
    obtain ⟨o, ho, -⟩ := (hA.2.1 k r hk).1 hass
    rcases hT with ⟨rfl, -⟩ | ⟨h0, hlt, -⟩
    · simp at ho
    · have hs : obs[s]? = some obs[s] := List.getElem?_eq_getElem (by omega)
      obtain ⟨x, hx, -⟩ := hA.2.2 _ (List.mem_of_getElem? hs)
      have hk := lt_of_get hx
      have hx' : v'[obs[s].ind]? = some v'[obs[s].ind] := List.getElem?_eq_getElem (by omega)
      obtain ⟨a1, a2, a3, a4, -⟩ := hf _ x _ hx hx'
      refine ⟨_, x, _, hx, hx', (hA.2.1 _ x hx).2 ⟨_, List.mem_of_getElem? hs, rfl⟩, a1.resolve_right fun c => ?_,
        a3.resolve_right fun c => ?_⟩
      · obtain ⟨i, o, i1, i2, i3⟩ := a2.1 c
        have hlen := lt_of_get i2
        have := List.pairwise_iff_getElem.1 hA.1 i s hlen (by omega) i1
        obtain ⟨_, e2⟩ := List.getElem?_eq_some_iff.1 i2
        rw [e2] at this
        omega
      · obtain ⟨i, o, i1, i2, i3⟩ := a4.1 c
        have hlen := lt_of_get i2
        have := List.pairwise_iff_getElem.1 hA.1 s i (by omega) hlen (by omega)
        obtain ⟨_, e2⟩ := List.getElem?_eq_some_iff.1 i2
        rw [e2] at this
        omega

/-- C52: inadmissible parameters are rejected; with admissible ones the check completes on every record whose reports
have been matched with a background, so that the assertion about `npass` never fails. -/
theorem C52_completes (elev : Int → Int → Rat → Rat → Rat → Rat → ℝ) (P : TailParams) (v : List Report) :
    (¬ TailParamsOk P → sstTailCheck elev P v = .error .assertion)
    ∧ (TailParamsOk P → (∀ (k : Nat) (r : Report), v[k]? = some r → Matched (daylight elev) (fun _ => false) r k) →
        ∃ v', sstTailCheck elev P v = .ok v') := by
  unfold sstTailCheck tailCheck
  constructor
  · intro hP
    rw [tailAssert_error hP]
    rfl
  · intro hP hm
    obtain ⟨f, hf⟩ := sstFilter_completes (day := reportDaytime elev (-5 / 2)) hm
    have hA := (sstFilter_spec hf).1
    obtain ⟨s, e, fl, -, t2, t3, t4, t5, t6⟩ := tailFlags_spec hP v.length hA.1 hA.bgvar_nonneg
    obtain ⟨w, hw⟩ := writeFlags_ok (v := v) (t := "SST") (f := "drf_tail1") (fl := fl.1) (.inr (by decide))
      (flags_digits t3 t5)
    obtain ⟨w', hw'⟩ := writeFlags_ok (v := w) (t := "SST") (f := "drf_tail2") (fl := fl.2) (.inr (by decide))
      (flags_digits t4 t6)
    refine ⟨w', ?_⟩
    rw [(tailAssert_ok P).2 hP, except_bind_ok, hf, except_bind_ok, t2, except_bind_ok, hw, except_bind_ok, hw']

/-- A night report with a temperature `x`, a background of 10, no ice and a background error variance of 1/100, for
examples. -/
def sstReport (x : Rat) (t : Option Rat) : Report :=
  ((((sampleRep "BUOY" [("YR", 2000), ("MO", 1), ("DY", 1), ("HR", 1), ("LAT", 50), ("LON", 10), ("SST", x)]).setext
    "OSTIA" (some 10)).setext "ICE" none).setext "BGVAR" (some (1 / 100))).setext "time_diff" t

/-- The sun is down, for examples. -/
def polarNight : Int → Int → Rat → Rat → Rat → Rat → Rat := fun _ _ _ _ _ _ => -10

/-- Tests of a window that can be evaluated, for examples. -/
def exampleTests : TailTests where
  unreliable _ := false
  longBad w := w.all fun o => decide (|o.anom| > 1)
  shortBad w := w.any fun o => decide (|o.anom| > 1)

/-- Parameters, for examples. -/
def exampleTail : TailParams where
  longLen := 3
  longStdN := 3
  shortLen := 2
  shortStdN := 3
  shortBad := 1
  inter := 3 / 10
  intra := 3 / 10
  errLim := 3 / 10

example : TailParamsOk exampleTail := by
  unfold TailParamsOk exampleTail
  norm_num

/-- Non-vacuity: nine reports, the first four and the last too warm, assessed at night.  The first two windows of three
fail the long check, which makes the first three reports a tail; the short check with windows of two adds the fourth
report and the two windows at the end with the last report. -/
example : (tailCheck exampleTests (reportDaytime polarNight (-5 / 2)) exampleTail
    [sstReport 15 none, sstReport 15 (some 1), sstReport 15 (some 1), sstReport 15 (some 1), sstReport 10 (some 1),
     sstReport 10 (some 1), sstReport 10 (some 1), sstReport 10 (some 1), sstReport 14 (some 1)]).map
      (fun v => v.map fun r => (r.getQc "SST" "drf_tail1", r.getQc "SST" "drf_tail2"))
    = .ok [(1, 0), (1, 0), (1, 0), (1, 0), (0, 0), (0, 0), (0, 0), (0, 0), (0, 1)] := by
  decide +kernel

theorem sstReport_matched {F : Type} [LinearOrder F] (elev : Int → Int → Rat → Rat → Rat → Rat → F) (lim : F) (x : Rat) (t : Option Rat)
    (k : Nat) (mask : Option Rat → Bool) (ht : k ≠ 0 → ∃ y, t = some y ∧ 0 ≤ y) :
    Matched (reportDaytime elev lim) mask (sstReport x t) k := by
  refine ⟨⟨_, rfl⟩, ⟨none, rfl, by norm_num, by norm_num⟩, ⟨_, rfl⟩, ?_, ?_, fun _ => ⟨x - 10, 1 / 100, x, 10, ?_, rfl, rfl, rfl, ?_⟩⟩
  · have e1 : (sstReport x t).getint "YR" = some 2000 := rfl
    have e2 : (sstReport x t).getint "MO" = some 1 := rfl
    have e3 : (sstReport x t).getint "DY" = some 1 := rfl
    have e4 : (sstReport x t).getvar "HR" = some 1 := rfl
    have e5 : (sstReport x t).getvar "LAT" = some 50 := rfl
    have e6 : (sstReport x t).getvar "LON" = some 10 := rfl
    have e7 : dayinyear 2000 1 1 = .ok 1 := by decide +kernel
    have e8 : sunangleGuard 1 ((⌊(1 : Rat)⌋ : Int) : Rat) ((1 - ((⌊(1 : Rat)⌋ : Int) : Rat)) * 60)
        (if (50 : Rat) = 0 then 1 / 10000 else 50) = .ok () := by decide +kernel
    unfold reportDaytime trackDayTest
    rw [e1, e2, e3, e4, e5, e6]
    simp only
    rw [pyAssert_bind, if_pos (by norm_num), pyAssert_bind, if_pos (by norm_num), pyAssert_bind, if_pos (by norm_num),
      pyAssert_bind, if_pos (by norm_num), e7, except_bind_ok, e8, except_bind_ok]
    exact ⟨_, rfl⟩
  · intro hk
    obtain ⟨y, rfl, hy⟩ := ht hk
    exact ⟨y, rfl, hy⟩
  · rfl
  · norm_num

/-- Non-vacuity: the check completes on a record of three reports, whatever their temperatures. -/
example (elev : Int → Int → Rat → Rat → Rat → Rat → ℝ) (x y z : Rat) :
    ∃ v', sstTailCheck elev exampleTail [sstReport x none, sstReport y (some 1), sstReport z (some 2)] = .ok v' := by
  refine (C52_completes elev exampleTail _).2 (by unfold TailParamsOk exampleTail; norm_num) fun k r hr => ?_
  match k, hr with
  | 0, hr =>
    simp only [List.getElem?_cons_zero, Option.some.injEq] at hr
    subst hr
    exact sstReport_matched elev _ x none 0 _ (by simp)
  | 1, hr =>
    simp only [List.getElem?_cons_zero, List.getElem?_cons_succ, Option.some.injEq] at hr
    subst hr
    exact sstReport_matched elev _ y _ 1 _ fun _ => ⟨1, rfl, by norm_num⟩
  | 2, hr =>
    simp only [List.getElem?_cons_zero, List.getElem?_cons_succ, Option.some.injEq] at hr
    subst hr
    exact sstReport_matched elev _ z _ 2 _ fun _ => ⟨2, rfl, by norm_num⟩
  | k + 3, hr => simp at hr

/-- Non-vacuity: such a report is assessed at night. -/
example (x : Rat) (t : Option Rat) : Assessed (reportDaytime polarNight (-5 / 2)) (fun _ => false) (sstReport x t)
    ∧ Compared (sstReport x t) (x - 10) (1 / 100) := by
  obtain ⟨-, -, -, -, -, h⟩ := sstReport_matched polarNight (-5 / 2) x t 0 (fun _ => false) (by simp)
  have : Assessed (reportDaytime polarNight (-5 / 2)) (fun _ => false) (sstReport x t) := by
    refine ⟨?_, ⟨_, rfl⟩, ⟨none, rfl, by norm_num⟩, ⟨_, rfl, rfl⟩⟩
    exact (by decide +kernel : reportDaytime polarNight (-5 / 2) (sstReport 0 none) = .ok false)
  exact ⟨this, x, 10, rfl, rfl, rfl, rfl, by norm_num, by norm_num, by norm_num, by norm_num⟩

/-- Non-vacuity of the lengths of tails: of nine observations with windows of three and two, where the windows from 0
and 1 fail the long check and those from 0 to 3 and 7 the short one, the tails are four and one observations. -/
example : TailLengths 9 3 2 (fun i => i < 2) (fun i => i < 4 ∨ i = 7) 4 1 := by
  refine ⟨2, 0, ⟨by omega, by omega, by omega⟩, ⟨by omega, by omega, by omega⟩, ?_⟩
  rw [if_neg (by omega)]
  refine ⟨3, 0, 6, 1, 1, rfl, rfl, rfl, ⟨by omega, by omega, by omega⟩, ⟨by omega, by omega, by omega⟩, ?_⟩
  rw [if_neg (by omega)]
  exact ⟨rfl, rfl⟩

end MarineQC
