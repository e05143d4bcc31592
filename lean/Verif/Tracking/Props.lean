import Verif.Tracking.Pass
import Verif.Buoy.Aground
import Verif.Buoy.Speed
import Verif.Buoy.TailProps
import Verif.Buoy.Bias

/-!
# C93, C94, C95: the four checks of the tracking program
-/

namespace MarineQC

open Spec

namespace Spec

/-- A check gave one of the flags 0 and 1. -/
def Decided (r : Report) (t f : String) : Prop := r.getQc t f = 0 ∨ r.getQc t f = 1

/-- The flags that the tracking program sets. -/
def trackingFlags : List (String × String) :=
  [("POS", "drf_agr"), ("POS", "drf_spd"), ("SST", "drf_tail1"), ("SST", "drf_tail2"), ("SST", "drf_bias"),
    ("SST", "drf_noise"), ("SST", "drf_short")]

/-- The names under which flags are stored. -/
def stored (flags : List (String × String)) : List String := flags.map fun p => p.1 ++ p.2

/-- The check leaves alone what is no track of a drifter (platform type 7); otherwise `check` accepts the track. -/
def OfDrifter (check : List Report → Except Err (List Report)) (v v' : List Report) : Prop :=
  match v with
  | [] => v' = []
  | r :: _ => if r.getvar "PT" = some 7 then check v = .ok v' else v' = v

/-- One check of the tracking program: the chosen reports, in time order and with the differences between neighbours, are
checked, and the checked reports take their places; the other reports are untouched. -/
def Pass (G : Geo) (chosen : Report → Prop) (check : List Report → Except Err (List Report)) (reps reps' : List Report) :
    Prop :=
  ∃ order v v', Chooses chosen reps order ∧ InTime reps order ∧ VoyageOf G reps order v ∧ OfDrifter check v v' ∧
    Replaced reps reps' order v'

end Spec

/-! ## What a check changes -/

/-- The check changes only these flags. -/
def CheckOnly (flags : List (String × String)) (check : List Report → Except Err (List Report)) : Prop :=
  ∀ v v', check v = .ok v' → v'.length = v.length ∧
    ∀ (k : Nat) (r r' : Report), v[k]? = some r → v'[k]? = some r' → OnlyFlags (stored flags) r r'

/-- The check sets all these flags. -/
def CheckSets (flags : List (String × String)) (check : List Report → Except Err (List Report)) : Prop :=
  ∀ v v', check v = .ok v' → ∀ (k : Nat) (r r' : Report), v[k]? = some r → v'[k]? = some r' →
    ∀ p ∈ flags, Decided r' p.1 p.2

theorem onlyFlags_of_eq {flags : List (String × String)} {r r' : Report} (h : r' = { r with qc := r'.qc })
    (hk : ∀ key, key ∉ stored flags → r'.qc key = r.qc key) : OnlyFlags (stored flags) r r' := by
  refine ⟨?_, ?_, ?_, ?_, ?_, ?_, hk⟩ <;> rw [h]
  intros; rfl

theorem aground_only (G : Geo) (win minP : Int) :
    CheckOnly [("POS", "drf_agr")] (newAgroundCheck G win minP) ∧ CheckSets [("POS", "drf_agr")] (newAgroundCheck G win minP) := by
  refine ⟨fun v v' h => ?_, fun v v' h => ?_⟩
  · obtain ⟨h1, F, h2, -⟩ := C49_new_aground G win minP v v' h
    refine ⟨h1, fun k r r' hr hr' => ?_⟩
    obtain ⟨-, -, a, b⟩ := h2 k r r' hr hr'
    exact onlyFlags_of_eq a (fun key hk => b key (by rintro rfl; exact hk (by decide)))
  · obtain ⟨h1, F, h2, -⟩ := C49_new_aground G win minP v v' h
    intro k r r' hr hr' p hp
    simp only [List.mem_singleton] at hp
    subst hp
    exact (h2 k r r' hr hr').1

theorem speed_only (G : Geo) (P : IquamParams) (limit minP : Rat) (hp : 0 < minP) :
    CheckOnly [("POS", "drf_spd")] (newSpeedCheck G P limit minP) ∧
      CheckSets [("POS", "drf_spd")] (newSpeedCheck G P limit minP) := by
  refine ⟨fun v v' h => ?_, fun v v' h => ?_⟩
  · obtain ⟨h1, F, h2, -⟩ := C51_new_speed G P limit minP hp v v' h
    refine ⟨h1, fun k r r' hr hr' => ?_⟩
    obtain ⟨-, -, a, b, -⟩ := h2 k r r' hr hr'
    exact onlyFlags_of_eq a (fun key hk => b key (by rintro rfl; exact hk (by decide)))
  · obtain ⟨h1, F, h2, -⟩ := C51_new_speed G P limit minP hp v v' h
    intro k r r' hr hr' p hp
    simp only [List.mem_singleton] at hp
    subst hp
    exact (h2 k r r' hr hr').1

theorem tail_only (elev : Int → Int → Rat → Rat → Rat → Rat → ℝ) (P : TailParams) :
    CheckOnly [("SST", "drf_tail1"), ("SST", "drf_tail2")] (sstTailCheck elev P) ∧
      CheckSets [("SST", "drf_tail1"), ("SST", "drf_tail2")] (sstTailCheck elev P) := by
  refine ⟨fun v v' h => ?_, fun v v' h => ?_⟩
  · obtain ⟨h1, _, _, _, -, -, h2⟩ := C52_tails elev P v v' h
    refine ⟨h1, fun k r r' hr hr' => ?_⟩
    obtain ⟨-, -, -, -, a, b⟩ := h2 k r r' hr hr'
    exact onlyFlags_of_eq a (fun key hk => b key (by rintro rfl; exact hk (by decide)) (by rintro rfl; exact hk (by decide)))
  · obtain ⟨h1, _, _, _, -, -, h2⟩ := C52_tails elev P v v' h
    intro k r r' hr hr' p hp
    obtain ⟨a, -, b, -⟩ := h2 k r r' hr hr'
    simp only [List.mem_cons, List.not_mem_nil, or_false] at hp
    rcases hp with rfl | rfl
    exacts [a, b]

theorem bias_only (elev : Int → Int → Rat → Rat → Rat → Rat → ℝ) (P : BiasParams) :
    CheckOnly [("SST", "drf_bias"), ("SST", "drf_noise"), ("SST", "drf_short")] (sstBiasedNoisyCheck elev P) ∧
      CheckSets [("SST", "drf_bias"), ("SST", "drf_noise"), ("SST", "drf_short")] (sstBiasedNoisyCheck elev P) := by
  refine ⟨fun v v' h => ?_, fun v v' h => ?_⟩
  · obtain ⟨h1, _, -, h2⟩ := C53_bias elev P v v' h
    refine ⟨h1, fun k r r' hr hr' => ?_⟩
    obtain ⟨-, -, -, -, -, -, a, b⟩ := h2 k r r' hr hr'
    exact onlyFlags_of_eq a (fun key hk => b key (by rintro rfl; exact hk (by decide)) (by rintro rfl; exact hk (by decide))
      (by rintro rfl; exact hk (by decide)))
  · obtain ⟨h1, _, -, h2⟩ := C53_bias elev P v v' h
    intro k r r' hr hr' p hp
    obtain ⟨a, -, b, -, c, -⟩ := h2 k r r' hr hr'
    simp only [List.mem_cons, List.not_mem_nil, or_false] at hp
    rcases hp with rfl | rfl | rfl
    exacts [a, b, c]

/-- The guard of the buoy checks. -/
theorem buoyGuard_iff (G : Geo) (check : List Report → Except Err (List Report)) (v v' : List Report) :
    buoyGuard G check false v = .ok v' ↔ OfDrifter check v v' := by
  unfold buoyGuard OfDrifter
  cases v with
  | nil => simp [eq_comm]
  | cons r l =>
    simp only [sortIf, Bool.false_eq_true, if_false, except_bind_ok]
    by_cases h : r.getvar "PT" = some 7
    · simp [h]
    · simp [h, eq_comm]

theorem ofDrifter_only {flags : List (String × String)} {check : List Report → Except Err (List Report)}
    (hc : CheckOnly flags check) {v v' : List Report} (h : OfDrifter check v v') :
    v'.length = v.length ∧ ∀ (k : Nat) (r r' : Report), v[k]? = some r → v'[k]? = some r' → OnlyFlags (stored flags) r r' := by
  have same : v' = v → v'.length = v.length ∧
      ∀ (k : Nat) (r r' : Report), v[k]? = some r → v'[k]? = some r' → OnlyFlags (stored flags) r r' := by
    rintro rfl
    refine ⟨rfl, fun k r r' hr hr' => ?_⟩
    rw [hr] at hr'
    injection hr' with hr'
    subst hr'
    exact onlyFlags_refl _ _
  cases v with
  | nil => exact same h
  | cons r l =>
    unfold OfDrifter at h
    by_cases hp : r.getvar "PT" = some 7
    · simp only [hp, if_true] at h
      exact hc _ _ h
    · simp only [hp, if_false] at h
      exact same h

theorem pt_of_only {flags : List String} {r r' : Report} (h : OnlyFlags flags r r') : r'.getvar "PT" = r.getvar "PT" :=
  getvar_data_eq h.data (by decide)

theorem getQc_of_only {flags : List String} {r r' : Report} (h : OnlyFlags flags r r') {t f : String}
    (hk : t ++ f ∉ flags) : r'.getQc t f = r.getQc t f := by
  unfold Report.getQc
  rw [h.flags _ hk]

/-- What one pass does to each report. -/
theorem trackPass_step {G : Geo} {keep : Report → Bool} {check : List Report → Except Err (List Report)}
    {flags : List (String × String)} (hc : CheckOnly flags check) (hs : CheckSets flags check) {reps reps' : List Report}
    (h : trackPass G keep (buoyGuard G check false) reps = .ok reps') :
    reps'.length = reps.length ∧ ∀ (k : Nat) (r : Report), reps[k]? = some r → ∃ r', reps'[k]? = some r' ∧
      OnlyFlags (stored flags) r r' ∧ (keep r = false → r' = r) ∧
      ((∀ a ∈ reps, a.getvar "PT" = some 7) → keep r = true → ∀ p ∈ flags, Decided r' p.1 p.2) := by
  obtain ⟨order, v, v', ⟨-, c2⟩, ⟨o1, -, o2⟩, h1, ⟨p1, p2, p3, p4⟩, -⟩ := trackPass_chosen G keep _
    (fun v v' h => (ofDrifter_only hc ((buoyGuard_iff G check v v').mp h)).1) reps reps' h
  rw [buoyGuard_iff] at h1
  obtain ⟨-, e2⟩ := ofDrifter_only hc h1
  refine ⟨p1, fun k r hr => ?_⟩
  by_cases hk : k ∈ order
  · obtain ⟨n, hn⟩ := List.mem_iff_getElem?.mp hk
    obtain ⟨r0, s, q1, q2, q3⟩ := o2 n k hn
    rw [hr] at q1
    injection q1 with q1
    subst q1
    have hlt : n < v'.length := by rw [p2]; exact (List.getElem?_eq_some_iff.mp hn).1
    have hv' : v'[n]? = some v'[n] := List.getElem?_eq_getElem hlt
    refine ⟨v'[n], by rw [p3 n k hn, hv'], onlyFlags_mono (onlyFlags_trans q3 (e2 n s _ q2 hv')) (by simp), ?_, ?_⟩
    · intro hkeep
      obtain ⟨r1, a1, a2⟩ := (c2 k).mp hk
      rw [hr] at a1
      injection a1 with a1
      subst a1
      rw [hkeep] at a2
      cases a2
    · intro hpt _
      refine hs v v' ?_ n s _ q2 hv'
      cases hv : v with
      | nil => rw [hv] at q2; simp at q2
      | cons s0 l =>
        rw [hv] at h1
        unfold OfDrifter at h1
        have h0 : 0 < order.length := by rw [← o1, hv]; simp
        obtain ⟨r2, s2, b1, b2, b3⟩ := o2 0 _ (List.getElem?_eq_getElem h0)
        rw [hv, List.getElem?_cons_zero, Option.some.injEq] at b2
        subst b2
        have := pt_of_only b3
        rw [hpt r2 (List.mem_of_getElem? b1)] at this
        simpa [this] using h1
  · refine ⟨r, by rw [p4 k hk, hr], onlyFlags_refl _ _, fun _ => rfl, fun _ hkeep => ?_⟩
    exact absurd ((c2 k).mpr ⟨r, hr, hkeep⟩) hk

/-- One pass meets `Pass`. -/
theorem trackPass_pass {G : Geo} {keep : Report → Bool} {check : List Report → Except Err (List Report)}
    {flags : List (String × String)} (hc : CheckOnly flags check) {reps reps' : List Report}
    (h : trackPass G keep (buoyGuard G check false) reps = .ok reps') (chosen : Report → Prop)
    (hk : ∀ r, keep r = true ↔ chosen r) (hdt : ∀ r ∈ reps, r.dt ≠ none) (hid : ∀ a ∈ reps, ∀ b ∈ reps, a.id = b.id) :
    Pass G chosen check reps reps' := by
  obtain ⟨order, v, v', h0, h1, h2, h3, h4⟩ := trackPass_chosen G keep _
    (fun v v' h => (ofDrifter_only hc ((buoyGuard_iff G check v v').mp h)).1) reps reps' h
  refine ⟨order, v, v', ?_, h4 (fun r hr _ => hdt r hr) hid, h1, (buoyGuard_iff G check v v').mp h2, h3⟩
  simpa only [hk] using h0

/-! ## Which reports are chosen -/

theorem positionKept_iff (r : Report) : positionKept r = true ↔ GoodPosition r := by
  unfold positionKept
  rw [decide_eq_true_eq, (C37_test_report _ r).1]
  simp only [positionFilter, QcFilter.add, GoodPosition, List.nil_append, List.cons_append, List.mem_cons, List.not_mem_nil, or_false, Prod.mk.injEq]
  constructor
  · intro h
    exact ⟨h _ _ _ (by simp), h _ _ _ (by simp), h _ _ _ (by simp), h _ _ _ (by simp), h _ _ _ (by simp)⟩
  · rintro ⟨h1, h2, h3, h4, h5⟩ t f v
    rintro (⟨rfl, rfl, rfl⟩ | ⟨rfl, rfl, rfl⟩ | ⟨rfl, rfl, rfl⟩ | ⟨rfl, rfl, rfl⟩ | ⟨rfl, rfl, rfl⟩) <;> assumption

theorem tailKept_iff (r : Report) : tailKept r = true ↔ GoodPosition r ∧ GoodTemperature r ∧ Drifting r := by
  unfold tailKept
  rw [Bool.and_eq_true, decide_eq_true_eq, (C37_test_report _ r).1, decide_eq_true_eq]
  simp only [tailFilter, positionFilter, QcFilter.add,
    GoodPosition, GoodTemperature, Drifting, List.nil_append, List.cons_append, List.mem_cons, List.not_mem_nil, or_false,
    Prod.mk.injEq]
  constructor
  · rintro ⟨h, hb⟩
    exact ⟨⟨h _ _ _ (by simp), h _ _ _ (by simp), h _ _ _ (by simp), h _ _ _ (by simp), h _ _ _ (by simp)⟩,
      ⟨h _ _ _ (by simp), h _ _ _ (by simp), h _ _ _ (by simp), h _ _ _ (by simp), h _ _ _ (by simp), h _ _ _ (by simp), hb⟩,
      h _ _ _ (by simp), h _ _ _ (by simp)⟩
  · rintro ⟨⟨h1, h2, h3, h4, h5⟩, ⟨h6, h7, h8, h9, h10, h11, hb⟩, h12, h13⟩
    refine ⟨fun t f v => ?_, hb⟩
    rintro (⟨rfl, rfl, rfl⟩ | ⟨rfl, rfl, rfl⟩ | ⟨rfl, rfl, rfl⟩ | ⟨rfl, rfl, rfl⟩ | ⟨rfl, rfl, rfl⟩ | ⟨rfl, rfl, rfl⟩ |
      ⟨rfl, rfl, rfl⟩ | ⟨rfl, rfl, rfl⟩ | ⟨rfl, rfl, rfl⟩ | ⟨rfl, rfl, rfl⟩ | ⟨rfl, rfl, rfl⟩ | ⟨rfl, rfl, rfl⟩ |
      ⟨rfl, rfl, rfl⟩) <;> assumption

theorem biasKept_iff (r : Report) :
    biasKept r = true ↔ GoodPosition r ∧ GoodTemperature r ∧ Drifting r ∧ OutsideTails r := by
  have h1 : biasKept r = true ↔ tailKept r = true ∧ OutsideTails r := by
    unfold biasKept tailKept
    rw [Bool.and_eq_true, decide_eq_true_eq, (C37_test_report _ r).1, Bool.and_eq_true, decide_eq_true_eq, decide_eq_true_eq,
      (C37_test_report _ r).1]
    simp only [biasFilter, OutsideTails]
    constructor
    · rintro ⟨h, hb⟩
      exact ⟨⟨fun t f v hm => h t f v (by simp [QcFilter.add, hm]), hb⟩, h _ _ _ (by simp [QcFilter.add]),
        h _ _ _ (by simp [QcFilter.add])⟩
    · rintro ⟨⟨h, hb⟩, h1, h2⟩
      refine ⟨fun t f v hm => ?_, hb⟩
      simp only [QcFilter.add, List.append_assoc, List.mem_append, List.mem_singleton, Prod.mk.injEq] at hm
      rcases hm with hm | ⟨rfl, rfl, rfl⟩ | ⟨rfl, rfl, rfl⟩
      exacts [h t f v hm, h1, h2]
  rw [h1, tailKept_iff]
  tauto

theorem goodPosition_only {flags : List (String × String)} {r r' : Report} (h : OnlyFlags (stored flags) r r')
    (hs : flags ⊆ trackingFlags) : GoodPosition r' ↔ GoodPosition r := by
  have key : ∀ t f : String, t ++ f ∉ stored trackingFlags → r'.getQc t f = r.getQc t f :=
    fun t f hk => getQc_of_only h (fun hm => hk (List.map_subset _ hs hm))
  unfold GoodPosition
  rw [key "POS" "isbuoy" (by decide), key "POS" "date" (by decide), key "POS" "time" (by decide),
    key "POS" "pos" (by decide), key "POS" "blklst" (by decide)]

theorem goodTemperature_only {flags : List (String × String)} {r r' : Report} (h : OnlyFlags (stored flags) r r')
    (hs : flags ⊆ trackingFlags) : GoodTemperature r' ↔ GoodTemperature r := by
  have key : ∀ t f : String, t ++ f ∉ stored trackingFlags → r'.getQc t f = r.getQc t f :=
    fun t f hk => getQc_of_only h (fun hm => hk (List.map_subset _ hs hm))
  unfold GoodTemperature
  rw [key "SST" "clim" (by decide), key "SST" "nonorm" (by decide), key "SST" "freez" (by decide),
    key "SST" "noval" (by decide), key "SST" "rep" (by decide), key "SST" "hardlimit" (by decide),
    key "SST" "bbud" (by decide)]

/-- The four passes taken apart. -/
theorem trackingChecks_ok {G : Geo} {elev : Int → Int → Rat → Rat → Rat → Rat → ℝ} {P : DriftParams} {reps reps' : List Report} :
    trackingChecks G elev P reps = .ok reps' ↔ ∃ r1 r2 r3,
      trackPass G positionKept (buoyGuard G (newAgroundCheck G P.win P.groundPeriod) false) reps = .ok r1 ∧
      trackPass G positionKept (buoyGuard G (newSpeedCheck G P.iquam P.speedLimit P.speedPeriod) false) r1 = .ok r2 ∧
      trackPass G tailKept (buoyGuard G (sstTailCheck elev P.tail) false) r2 = .ok r3 ∧
      trackPass G biasKept (buoyGuard G (sstBiasedNoisyCheck elev P.bias) false) r3 = .ok reps' := by
  have e1 : newBuoyAgroundCheck G P.win P.groundPeriod false = buoyGuard G (newAgroundCheck G P.win P.groundPeriod) false := rfl
  have e2 : newBuoySpeedCheck G P.iquam P.speedLimit P.speedPeriod false =
    buoyGuard G (newSpeedCheck G P.iquam P.speedLimit P.speedPeriod) false := rfl
  have e3 : buoyTailCheck G elev P.tail false = buoyGuard G (sstTailCheck elev P.tail) false := rfl
  have e4 : buoyBiasNoiseCheck G elev P.bias false = buoyGuard G (sstBiasedNoisyCheck elev P.bias) false := rfl
  unfold trackingChecks
  rw [e1, e2, e3, e4]
  constructor
  · intro h
    cases h1 : trackPass G positionKept (buoyGuard G (newAgroundCheck G P.win P.groundPeriod) false) reps with
    | error e => rw [h1] at h; simp at h
    | ok a =>
      rw [h1, except_bind_ok] at h
      cases h2 : trackPass G positionKept (buoyGuard G (newSpeedCheck G P.iquam P.speedLimit P.speedPeriod) false) a with
      | error e => rw [h2] at h; simp at h
      | ok b =>
        rw [h2, except_bind_ok] at h
        cases h3 : trackPass G tailKept (buoyGuard G (sstTailCheck elev P.tail) false) b with
        | error e => rw [h3] at h; simp at h
        | ok c =>
          rw [h3, except_bind_ok] at h
          exact ⟨a, b, c, rfl, h2, h3, h⟩
  · rintro ⟨a, b, c, h1, h2, h3, h4⟩
    rw [h1, except_bind_ok, h2, except_bind_ok, h3, except_bind_ok, h4]

/-! ## The properties -/

/-- **C93.**  The checks of the tracking program keep every report at its place and change nothing of it but the seven
drifter flags (and the differences to the report before). -/
theorem C93_only_flags (G : Geo) (elev : Int → Int → Rat → Rat → Rat → Rat → ℝ) (P : DriftParams) (hP : 0 < P.speedPeriod)
    (reps reps' : List Report) (h : trackingChecks G elev P reps = .ok reps') :
    reps'.length = reps.length ∧ ∀ (k : Nat) (r r' : Report), reps[k]? = some r → reps'[k]? = some r' →
      OnlyFlags ["POSdrf_agr", "POSdrf_spd", "SSTdrf_tail1", "SSTdrf_tail2", "SSTdrf_bias", "SSTdrf_noise", "SSTdrf_short"]
        r r' := by
  obtain ⟨a, b, c, h1, h2, h3, h4⟩ := trackingChecks_ok.mp h
  obtain ⟨l1, s1⟩ := trackPass_step (aground_only ..).1 (aground_only ..).2 h1
  obtain ⟨l2, s2⟩ := trackPass_step (speed_only _ _ _ _ hP).1 (speed_only _ _ _ _ hP).2 h2
  obtain ⟨l3, s3⟩ := trackPass_step (tail_only ..).1 (tail_only ..).2 h3
  obtain ⟨l4, s4⟩ := trackPass_step (bias_only ..).1 (bias_only ..).2 h4
  refine ⟨by omega, fun k r r' hr hr' => ?_⟩
  obtain ⟨ra, ha, oa, -⟩ := s1 k r hr
  obtain ⟨rb, hb, ob, -⟩ := s2 k ra ha
  obtain ⟨rc, hc, oc, -⟩ := s3 k rb hb
  obtain ⟨rd, hd, od, -⟩ := s4 k rc hc
  rw [hr'] at hd
  injection hd with hd
  subst hd
  exact onlyFlags_mono (onlyFlags_trans oa (onlyFlags_trans ob (onlyFlags_trans oc od))) (by decide)

/-- **C94.**  Which of a drifter's reports get which flags. -/
theorem C94_eligible (G : Geo) (elev : Int → Int → Rat → Rat → Rat → Rat → ℝ) (P : DriftParams) (hP : 0 < P.speedPeriod)
    (reps reps' : List Report) (hpt : ∀ r ∈ reps, r.getvar "PT" = some 7)
    (h : trackingChecks G elev P reps = .ok reps') (k : Nat) (r r' : Report) (hr : reps[k]? = some r)
    (hr' : reps'[k]? = some r') :
    (GoodPosition r → Decided r' "POS" "drf_agr" ∧ Decided r' "POS" "drf_spd") ∧
    (¬ GoodPosition r → r' = r) ∧
    (GoodPosition r ∧ GoodTemperature r ∧ Drifting r' → Decided r' "SST" "drf_tail1" ∧ Decided r' "SST" "drf_tail2") ∧
    (¬ (GoodPosition r ∧ GoodTemperature r ∧ Drifting r') →
      r'.getQc "SST" "drf_tail1" = r.getQc "SST" "drf_tail1" ∧ r'.getQc "SST" "drf_tail2" = r.getQc "SST" "drf_tail2") ∧
    (GoodPosition r ∧ GoodTemperature r ∧ Drifting r' ∧ OutsideTails r' →
      Decided r' "SST" "drf_bias" ∧ Decided r' "SST" "drf_noise" ∧ Decided r' "SST" "drf_short") ∧
    (¬ (GoodPosition r ∧ GoodTemperature r ∧ Drifting r' ∧ OutsideTails r') →
      r'.getQc "SST" "drf_bias" = r.getQc "SST" "drf_bias" ∧ r'.getQc "SST" "drf_noise" = r.getQc "SST" "drf_noise" ∧
      r'.getQc "SST" "drf_short" = r.getQc "SST" "drf_short") := by
  obtain ⟨a, b, c, h1, h2, h3, h4⟩ := trackingChecks_ok.mp h
  obtain ⟨l1, s1⟩ := trackPass_step (aground_only ..).1 (aground_only ..).2 h1
  obtain ⟨l2, s2⟩ := trackPass_step (speed_only _ _ _ _ hP).1 (speed_only _ _ _ _ hP).2 h2
  obtain ⟨l3, s3⟩ := trackPass_step (tail_only ..).1 (tail_only ..).2 h3
  obtain ⟨l4, s4⟩ := trackPass_step (bias_only ..).1 (bias_only ..).2 h4
  have next : ∀ {x y : List Report} {flags : List String}, y.length = x.length →
      (∀ (k : Nat) (r : Report), x[k]? = some r → ∃ r', y[k]? = some r' ∧ OnlyFlags flags r r') →
      (∀ r ∈ x, r.getvar "PT" = some 7) → ∀ r ∈ y, r.getvar "PT" = some 7 := by
    intro x y flags hl hs hx r hr
    obtain ⟨n, hn⟩ := List.mem_iff_getElem?.mp hr
    have hlt : n < x.length := by rw [← hl]; exact (List.getElem?_eq_some_iff.mp hn).1
    obtain ⟨r', e1, e2⟩ := hs n x[n] (List.getElem?_eq_getElem hlt)
    rw [hn] at e1
    injection e1 with e1
    subst e1
    rw [pt_of_only e2]
    exact hx _ (List.getElem_mem hlt)
  have hpa := next l1 (fun k r hr => let ⟨r', e1, e2, _⟩ := s1 k r hr; ⟨r', e1, e2⟩) hpt
  have hpb := next l2 (fun k r hr => let ⟨r', e1, e2, _⟩ := s2 k r hr; ⟨r', e1, e2⟩) hpa
  have hpc := next l3 (fun k r hr => let ⟨r', e1, e2, _⟩ := s3 k r hr; ⟨r', e1, e2⟩) hpb
  obtain ⟨ra, ha, oa, ua, da⟩ := s1 k r hr
  obtain ⟨rb, hb, ob, ub, db⟩ := s2 k ra ha
  obtain ⟨rc, hc, oc, uc, dc⟩ := s3 k rb hb
  obtain ⟨rd, hd, od, ud, dd⟩ := s4 k rc hc
  rw [hr'] at hd
  injection hd with hd
  subst hd
  have ga := goodPosition_only oa (by decide)
  have gb := goodPosition_only ob (by decide)
  have gc := goodPosition_only oc (by decide)
  have ta := goodTemperature_only oa (by decide)
  have tb := goodTemperature_only ob (by decide)
  have tc := goodTemperature_only oc (by decide)
  have no : ∀ {b : Bool} {p : Prop}, (b = true ↔ p) → ¬ p → b = false := fun h hp => by
    rw [Bool.eq_false_iff]
    exact fun hb => hp (h.mp hb)
  -- the flags that a later pass leaves alone
  have ea : ∀ f : String, f = "drf_agr" ∨ f = "drf_spd" → r'.getQc "POS" f = rb.getQc "POS" f := by
    intro f hf
    rcases hf with rfl | rfl <;>
      rw [getQc_of_only od (by decide), getQc_of_only oc (by decide)]
  have et : ∀ f : String, f = "drf_tail1" ∨ f = "drf_tail2" → r'.getQc "SST" f = rc.getQc "SST" f ∧
      rb.getQc "SST" f = r.getQc "SST" f := by
    intro f hf
    rcases hf with rfl | rfl <;>
      exact ⟨getQc_of_only od (by decide), by rw [getQc_of_only ob (by decide), getQc_of_only oa (by decide)]⟩
  have eb : ∀ f : String, f = "drf_bias" ∨ f = "drf_noise" ∨ f = "drf_short" →
      rc.getQc "SST" f = r.getQc "SST" f := by
    intro f hf
    rcases hf with rfl | rfl | rfl <;>
      rw [getQc_of_only oc (by decide), getQc_of_only ob (by decide), getQc_of_only oa (by decide)]
  have drb : Drifting r' ↔ Drifting rb := by
    unfold Drifting; rw [ea _ (.inl rfl), ea _ (.inr rfl)]
  have drc : Drifting rc ↔ Drifting rb := by
    unfold Drifting; rw [getQc_of_only oc (by decide), getQc_of_only oc (by decide)]
  have otc : OutsideTails r' ↔ OutsideTails rc := by
    unfold OutsideTails; rw [(et _ (.inl rfl)).1, (et _ (.inr rfl)).1]
  have kt : tailKept rb = true ↔ GoodPosition r ∧ GoodTemperature r ∧ Drifting r' := by
    rw [tailKept_iff, gb, ga, tb, ta, drb]
  have kb : biasKept rc = true ↔ GoodPosition r ∧ GoodTemperature r ∧ Drifting r' ∧ OutsideTails r' := by
    rw [biasKept_iff, gc, gb, ga, tc, tb, ta, drc, drb, otc]
  refine ⟨fun hg => ?_, fun hg => ?_, fun hg => ?_, fun hg => ?_, fun hg => ?_, fun hg => ?_⟩
  · have d1 := da hpt ((positionKept_iff r).mpr hg) ("POS", "drf_agr") (by simp)
    have d2 := db hpa ((positionKept_iff ra).mpr (ga.mpr hg)) ("POS", "drf_spd") (by simp)
    unfold Decided at d1 d2 ⊢
    rw [ea _ (.inl rfl), ea _ (.inr rfl), getQc_of_only ob (t := "POS") (f := "drf_agr") (by decide)]
    exact ⟨d1, d2⟩
  · rw [ud (no kb (fun h => hg h.1)), uc (no kt (fun h => hg h.1)),
      ub (no (positionKept_iff ra) (fun h => hg (ga.mp h))), ua (no (positionKept_iff r) hg)]
  · have d1 := dc hpb (kt.mpr hg) ("SST", "drf_tail1") (by simp)
    have d2 := dc hpb (kt.mpr hg) ("SST", "drf_tail2") (by simp)
    unfold Decided at d1 d2 ⊢
    rw [(et _ (.inl rfl)).1, (et _ (.inr rfl)).1]
    exact ⟨d1, d2⟩
  · rw [(et _ (.inl rfl)).1, (et _ (.inr rfl)).1, uc (no kt hg)]
    exact ⟨(et _ (.inl rfl)).2, (et _ (.inr rfl)).2⟩
  · exact ⟨dd hpc (kb.mpr hg) ("SST", "drf_bias") (by simp), dd hpc (kb.mpr hg) ("SST", "drf_noise") (by simp),
      dd hpc (kb.mpr hg) ("SST", "drf_short") (by simp)⟩
  · rw [ud (no kb hg)]
    exact ⟨eb _ (.inl rfl), eb _ (.inr (.inl rfl)), eb _ (.inr (.inr rfl))⟩

/-- **C95.**  Each check sees the chosen reports in time order, whatever their order in the list, with the differences
between neighbours, and its flags reach the reports it was given. -/
theorem C95_passes (G : Geo) (elev : Int → Int → Rat → Rat → Rat → Rat → ℝ) (P : DriftParams) (hP : 0 < P.speedPeriod)
    (reps reps' : List Report) (hdt : ∀ r ∈ reps, r.dt ≠ none) (hid : ∀ a ∈ reps, ∀ b ∈ reps, a.id = b.id)
    (h : trackingChecks G elev P reps = .ok reps') :
    ∃ r1 r2 r3, Pass G GoodPosition (newAgroundCheck G P.win P.groundPeriod) reps r1 ∧
      Pass G GoodPosition (newSpeedCheck G P.iquam P.speedLimit P.speedPeriod) r1 r2 ∧
      Pass G (fun r => GoodPosition r ∧ GoodTemperature r ∧ Drifting r) (sstTailCheck elev P.tail) r2 r3 ∧
      Pass G (fun r => GoodPosition r ∧ GoodTemperature r ∧ Drifting r ∧ OutsideTails r) (sstBiasedNoisyCheck elev P.bias)
        r3 reps' := by
  obtain ⟨a, b, c, h1, h2, h3, h4⟩ := trackingChecks_ok.mp h
  have next : ∀ {x y : List Report} {flags : List String}, (y.length = x.length ∧
      ∀ (k : Nat) (r : Report), x[k]? = some r → ∃ r', y[k]? = some r' ∧ OnlyFlags flags r r' ∧ (True)) →
      (∀ r ∈ x, r.dt ≠ none) ∧ (∀ a ∈ x, ∀ b ∈ x, a.id = b.id) →
      (∀ r ∈ y, r.dt ≠ none) ∧ (∀ a ∈ y, ∀ b ∈ y, a.id = b.id) := by
    intro x y flags ⟨hl, hs⟩ ⟨hd, hi⟩
    have back : ∀ r ∈ y, ∃ r0 ∈ x, OnlyFlags flags r0 r := by
      intro r hr
      obtain ⟨n, hn⟩ := List.mem_iff_getElem?.mp hr
      have hlt : n < x.length := by rw [← hl]; exact (List.getElem?_eq_some_iff.mp hn).1
      obtain ⟨r', e1, e2, -⟩ := hs n x[n] (List.getElem?_eq_getElem hlt)
      rw [hn] at e1
      injection e1 with e1
      subst e1
      exact ⟨_, List.getElem_mem hlt, e2⟩
    refine ⟨fun r hr => ?_, fun p hp q hq => ?_⟩
    · obtain ⟨r0, h0, h0'⟩ := back r hr
      rw [h0'.dt]; exact hd _ h0
    · obtain ⟨p0, a1, a2⟩ := back p hp
      obtain ⟨q0, b1, b2⟩ := back q hq
      rw [a2.id, b2.id]; exact hi _ a1 _ b1
  obtain ⟨l1, s1⟩ := trackPass_step (aground_only ..).1 (aground_only ..).2 h1
  obtain ⟨l2, s2⟩ := trackPass_step (speed_only _ _ _ _ hP).1 (speed_only _ _ _ _ hP).2 h2
  obtain ⟨l3, s3⟩ := trackPass_step (tail_only ..).1 (tail_only ..).2 h3
  have na := next ⟨l1, fun k r hr => let ⟨r', e1, e2, _⟩ := s1 k r hr; ⟨r', e1, e2, trivial⟩⟩ ⟨hdt, hid⟩
  have nb := next ⟨l2, fun k r hr => let ⟨r', e1, e2, _⟩ := s2 k r hr; ⟨r', e1, e2, trivial⟩⟩ na
  have nc := next ⟨l3, fun k r hr => let ⟨r', e1, e2, _⟩ := s3 k r hr; ⟨r', e1, e2, trivial⟩⟩ nb
  exact ⟨a, b, c, trackPass_pass (aground_only ..).1 h1 _ positionKept_iff hdt hid,
    trackPass_pass (speed_only _ _ _ _ hP).1 h2 _ positionKept_iff na.1 na.2,
    trackPass_pass (tail_only ..).1 h3 _ tailKept_iff nb.1 nb.2,
    trackPass_pass (bias_only ..).1 h4 _ biasKept_iff nc.1 nc.2⟩

end MarineQC
