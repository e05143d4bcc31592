import Verif.Tracking.FormerModel
import Verif.Tracking.Order

/-!
# C154, C155: the tracking program with the original aground and speed checks
-/

namespace MarineQC

open Spec

namespace Spec

/-- The track of the report has passed the track check for drifters and ships that uses the speeds between neighbours. -/
def Screened (r : Report) : Prop := r.getQc "POS" "iquam_track" = 0

end Spec

/-! ## What the original checks change -/

theorem formerAground_only (G : Geo) (win minP maxP : Int) :
    CheckOnly [("POS", "drf_agr")] (agroundCheck G win minP maxP) ∧
      CheckSets [("POS", "drf_agr")] (agroundCheck G win minP maxP) := by
  refine ⟨fun v v' h => ?_, fun v v' h => ?_⟩
  · obtain ⟨h1, F, h2, -⟩ := C49_aground G win minP maxP v v' h
    refine ⟨h1, fun k r r' hr hr' => ?_⟩
    obtain ⟨-, -, a, b⟩ := h2 k r r' hr hr'
    exact onlyFlags_of_eq a (fun key hk => b key (by rintro rfl; exact hk (by decide)))
  · obtain ⟨h1, F, h2, -⟩ := C49_aground G win minP maxP v v' h
    intro k r r' hr hr' p hp
    simp only [List.mem_singleton] at hp
    subst hp
    exact (h2 k r r' hr hr').1

theorem formerSpeed_only (G : Geo) (limit minP maxP : Rat) (hp : 0 < minP) :
    CheckOnly [("POS", "drf_spd")] (speedCheck G limit minP maxP) ∧
      CheckSets [("POS", "drf_spd")] (speedCheck G limit minP maxP) := by
  refine ⟨fun v v' h => ?_, fun v v' h => ?_⟩
  · obtain ⟨h1, F, h2, -⟩ := C50_speed G limit minP maxP hp v v' h
    refine ⟨h1, fun k r r' hr hr' => ?_⟩
    obtain ⟨-, -, a, b⟩ := h2 k r r' hr hr'
    exact onlyFlags_of_eq a (fun key hk => b key (by rintro rfl; exact hk (by decide)))
  · obtain ⟨h1, F, h2, -⟩ := C50_speed G limit minP maxP hp v v' h
    intro k r r' hr hr' p hp
    simp only [List.mem_singleton] at hp
    subst hp
    exact (h2 k r r' hr hr').1

theorem formerKept_iff (r : Report) : formerKept r = true ↔ GoodPosition r ∧ Screened r := by
  have h1 : formerKept r = true ↔ positionKept r = true ∧ Screened r := by
    unfold formerKept positionKept
    rw [decide_eq_true_eq, (C37_test_report _ r).1, decide_eq_true_eq, (C37_test_report _ r).1]
    simp only [formerFilter, Screened]
    constructor
    · intro h
      exact ⟨fun t f v hm => h t f v (by simp [QcFilter.add, hm]), h _ _ _ (by simp [QcFilter.add])⟩
    · rintro ⟨h, h1⟩ t f v hm
      simp only [QcFilter.add, List.mem_append, List.mem_singleton, Prod.mk.injEq] at hm
      rcases hm with hm | ⟨rfl, rfl, rfl⟩
      exacts [h t f v hm, h1]
  rw [h1, positionKept_iff]

theorem formerChecks_ok {G : Geo} {elev : Int → Int → Rat → Rat → Rat → Rat → ℝ} {P : FormerParams}
    {reps reps' : List Report} :
    formerChecks G elev P reps = .ok reps' ↔ ∃ r1 r2 r3,
      trackPass G positionKept (buoyGuard G (agroundCheck G P.win P.groundMin P.groundMax) false) reps = .ok r1 ∧
      trackPass G formerKept (buoyGuard G (speedCheck G P.speedLimit P.speedMin P.speedMax) false) r1 = .ok r2 ∧
      trackPass G tailKept (buoyGuard G (sstTailCheck elev P.tail) false) r2 = .ok r3 ∧
      trackPass G biasKept (buoyGuard G (sstBiasedNoisyCheck elev P.bias) false) r3 = .ok reps' := by
  constructor
  · intro h
    unfold formerChecks at h
    obtain ⟨a, h1, h⟩ := bind_ok_iff.mp h
    obtain ⟨b, h2, h⟩ := bind_ok_iff.mp h
    obtain ⟨c, h3, h⟩ := bind_ok_iff.mp h
    exact ⟨a, b, c, h1, h2, h3, h⟩
  · rintro ⟨a, b, c, h1, h2, h3, h4⟩
    unfold formerChecks
    exact bind_ok_iff.mpr ⟨a, h1, bind_ok_iff.mpr ⟨b, h2, bind_ok_iff.mpr ⟨c, h3, h4⟩⟩⟩

theorem screened_only {flags : List (String × String)} {r r' : Report} (h : OnlyFlags (stored flags) r r')
    (hs : flags ⊆ trackingFlags) : Screened r' ↔ Screened r := by
  unfold Screened
  have hk : "POS" ++ "iquam_track" ∉ stored trackingFlags := by decide
  rw [getQc_of_only h (fun hm => hk (List.map_subset _ hs hm))]

/-- C154: with the original checks too the tracking program keeps every report at its place and changes nothing of it but
the seven drifter flags (and the differences to the report before). -/
theorem C154_only_flags (G : Geo) (elev : Int → Int → Rat → Rat → Rat → Rat → ℝ) (P : FormerParams) (hP : 0 < P.speedMin)
    (reps reps' : List Report) (h : formerChecks G elev P reps = .ok reps') :
    reps'.length = reps.length ∧ ∀ (k : Nat) (r r' : Report), reps[k]? = some r → reps'[k]? = some r' →
      OnlyFlags ["POSdrf_agr", "POSdrf_spd", "SSTdrf_tail1", "SSTdrf_tail2", "SSTdrf_bias", "SSTdrf_noise", "SSTdrf_short"]
        r r' := by
  obtain ⟨a, b, c, h1, h2, h3, h4⟩ := formerChecks_ok.mp h
  obtain ⟨l1, s1⟩ := trackPass_step (formerAground_only ..).1 (formerAground_only ..).2 h1
  obtain ⟨l2, s2⟩ := trackPass_step (formerSpeed_only _ _ _ _ hP).1 (formerSpeed_only _ _ _ _ hP).2 h2
  obtain ⟨l3, s3⟩ := trackPass_step (tail_only ..).1 (tail_only ..).2 h3
  obtain ⟨l4, s4⟩ := trackPass_step (bias_only ..).1 (bias_only ..).2 h4
  refine ⟨by omega, fun k r r' hr hr' => ?_⟩
  obtain ⟨ra, ha, oa, -⟩ := s1 k r hr
  obtain ⟨rb, hb, ob, -⟩ := s2 k ra ha
  obtain ⟨rc, hc, oc, -⟩ := s3 k rb hb
  obtain ⟨rd, hd, od, -⟩ := s4 k rc hc
  rw [hr'] at hd
  injection hd with hd
  subst hd
  exact onlyFlags_mono (onlyFlags_trans oa (onlyFlags_trans ob (onlyFlags_trans oc od))) (by decide)

/-- C154: which of a drifter's reports get which flags with the original checks.  A report that has not passed the ship
track check keeps its speed flag, and unless that flag was 0 before, the temperature checks leave it alone. -/
theorem C154_eligible (G : Geo) (elev : Int → Int → Rat → Rat → Rat → Rat → ℝ) (P : FormerParams) (hP : 0 < P.speedMin)
    (reps reps' : List Report) (hpt : ∀ r ∈ reps, r.getvar "PT" = some 7)
    (h : formerChecks G elev P reps = .ok reps') (k : Nat) (r r' : Report) (hr : reps[k]? = some r)
    (hr' : reps'[k]? = some r') :
    (GoodPosition r → Decided r' "POS" "drf_agr") ∧
    (GoodPosition r ∧ Screened r → Decided r' "POS" "drf_spd") ∧
    (¬ (GoodPosition r ∧ Screened r) → r'.getQc "POS" "drf_spd" = r.getQc "POS" "drf_spd") ∧
    (¬ GoodPosition r → r' = r) ∧
    (GoodPosition r ∧ GoodTemperature r ∧ Drifting r' → Decided r' "SST" "drf_tail1" ∧ Decided r' "SST" "drf_tail2") ∧
    (¬ (GoodPosition r ∧ GoodTemperature r ∧ Drifting r') →
      r'.getQc "SST" "drf_tail1" = r.getQc "SST" "drf_tail1" ∧ r'.getQc "SST" "drf_tail2" = r.getQc "SST" "drf_tail2") ∧
    (GoodPosition r ∧ GoodTemperature r ∧ Drifting r' ∧ OutsideTails r' →
      Decided r' "SST" "drf_bias" ∧ Decided r' "SST" "drf_noise" ∧ Decided r' "SST" "drf_short") ∧
    (¬ (GoodPosition r ∧ GoodTemperature r ∧ Drifting r' ∧ OutsideTails r') →
      r'.getQc "SST" "drf_bias" = r.getQc "SST" "drf_bias" ∧ r'.getQc "SST" "drf_noise" = r.getQc "SST" "drf_noise" ∧
      r'.getQc "SST" "drf_short" = r.getQc "SST" "drf_short") := by
  obtain ⟨a, b, c, h1, h2, h3, h4⟩ := formerChecks_ok.mp h
  obtain ⟨l1, s1⟩ := trackPass_step (formerAground_only ..).1 (formerAground_only ..).2 h1
  obtain ⟨l2, s2⟩ := trackPass_step (formerSpeed_only _ _ _ _ hP).1 (formerSpeed_only _ _ _ _ hP).2 h2
  obtain ⟨l3, s3⟩ := trackPass_step (tail_only ..).1 (tail_only ..).2 h3
  obtain ⟨l4, s4⟩ := trackPass_step (bias_only ..).1 (bias_only ..).2 h4
  have next : ∀ {x y : List Report} {flags : List String}, y.length = x.length →
      (∀ (k : Nat) (r : Report), x[k]? = some r → ∃ r', y[k]? = some r' ∧ OnlyFlags flags r r') →
      (∀ r ∈ x, r.getvar "PT" = some 7) → ∀ r ∈ y, r.getvar "PT" = some 7 := by
    intro x y flags hl hs hx r hr
    obtain ⟨n, hn⟩ := List.mem_iff_getElem?.mp hr
    have hlt : n < x.length := by rw [← hl]; exact (List.getElem?_eq_some_iff.mp hn).1
    obtain ⟨r', e1, e2⟩ := hs n x[n] (List.getElem?_eq_getElem hlt)
    rw [hn] at e1
    injection e1 with e1
    subst e1
    rw [pt_of_only e2]
    exact hx _ (List.getElem_mem hlt)
  have hpa := next l1 (fun k r hr => let ⟨r', e1, e2, _⟩ := s1 k r hr; ⟨r', e1, e2⟩) hpt
  have hpb := next l2 (fun k r hr => let ⟨r', e1, e2, _⟩ := s2 k r hr; ⟨r', e1, e2⟩) hpa
  have hpc := next l3 (fun k r hr => let ⟨r', e1, e2, _⟩ := s3 k r hr; ⟨r', e1, e2⟩) hpb
  obtain ⟨ra, ha, oa, ua, da⟩ := s1 k r hr
  obtain ⟨rb, hb, ob, ub, db⟩ := s2 k ra ha
  obtain ⟨rc, hc, oc, uc, dc⟩ := s3 k rb hb
  obtain ⟨rd, hd, od, ud, dd⟩ := s4 k rc hc
  rw [hr'] at hd
  injection hd with hd
  subst hd
  have ga := goodPosition_only oa (by decide)
  have gb := goodPosition_only ob (by decide)
  have gc := goodPosition_only oc (by decide)
  have ta := goodTemperature_only oa (by decide)
  have tb := goodTemperature_only ob (by decide)
  have tc := goodTemperature_only oc (by decide)
  have sa := screened_only oa (by decide)
  have no : ∀ {b : Bool} {p : Prop}, (b = true ↔ p) → ¬ p → b = false := fun h hp => by
    rw [Bool.eq_false_iff]
    exact fun hb => hp (h.mp hb)
  have ea : ∀ f : String, f = "drf_agr" ∨ f = "drf_spd" → r'.getQc "POS" f = rb.getQc "POS" f := by
    intro f hf
    rcases hf with rfl | rfl <;>
      rw [getQc_of_only od (by decide), getQc_of_only oc (by decide)]
  have et : ∀ f : String, f = "drf_tail1" ∨ f = "drf_tail2" → r'.getQc "SST" f = rc.getQc "SST" f ∧
      rb.getQc "SST" f = r.getQc "SST" f := by
    intro f hf
    rcases hf with rfl | rfl <;>
      exact ⟨getQc_of_only od (by decide), by rw [getQc_of_only ob (by decide), getQc_of_only oa (by decide)]⟩
  have eb : ∀ f : String, f = "drf_bias" ∨ f = "drf_noise" ∨ f = "drf_short" →
      rc.getQc "SST" f = r.getQc "SST" f := by
    intro f hf
    rcases hf with rfl | rfl | rfl <;>
      rw [getQc_of_only oc (by decide), getQc_of_only ob (by decide), getQc_of_only oa (by decide)]
  have drb : Drifting r' ↔ Drifting rb := by
    unfold Drifting; rw [ea _ (.inl rfl), ea _ (.inr rfl)]
  have drc : Drifting rc ↔ Drifting rb := by
    unfold Drifting; rw [getQc_of_only oc (by decide), getQc_of_only oc (by decide)]
  have otc : OutsideTails r' ↔ OutsideTails rc := by
    unfold OutsideTails; rw [(et _ (.inl rfl)).1, (et _ (.inr rfl)).1]
  have kf : formerKept ra = true ↔ GoodPosition r ∧ Screened r := by rw [formerKept_iff, ga, sa]
  have kt : tailKept rb = true ↔ GoodPosition r ∧ GoodTemperature r ∧ Drifting r' := by
    rw [tailKept_iff, gb, ga, tb, ta, drb]
  have kb : biasKept rc = true ↔ GoodPosition r ∧ GoodTemperature r ∧ Drifting r' ∧ OutsideTails r' := by
    rw [biasKept_iff, gc, gb, ga, tc, tb, ta, drc, drb, otc]
  refine ⟨fun hg => ?_, fun hg => ?_, fun hg => ?_, fun hg => ?_, fun hg => ?_, fun hg => ?_, fun hg => ?_, fun hg => ?_⟩
  · have d1 := da hpt ((positionKept_iff r).mpr hg) ("POS", "drf_agr") (by simp)
    unfold Decided at d1 ⊢
    rw [ea _ (.inl rfl), getQc_of_only ob (t := "POS") (f := "drf_agr") (by decide)]
    exact d1
  · have d2 := db hpa (kf.mpr hg) ("POS", "drf_spd") (by simp)
    unfold Decided at d2 ⊢
    rw [ea _ (.inr rfl)]
    exact d2
  · rw [ea _ (.inr rfl), ub (no kf hg), getQc_of_only oa (by decide)]
  · rw [ud (no kb (fun h => hg h.1)), uc (no kt (fun h => hg h.1)),
      ub (no kf (fun h => hg h.1)), ua (no (positionKept_iff r) hg)]
  · have d1 := dc hpb (kt.mpr hg) ("SST", "drf_tail1") (by simp)
    have d2 := dc hpb (kt.mpr hg) ("SST", "drf_tail2") (by simp)
    unfold Decided at d1 d2 ⊢
    rw [(et _ (.inl rfl)).1, (et _ (.inr rfl)).1]
    exact ⟨d1, d2⟩
  · rw [(et _ (.inl rfl)).1, (et _ (.inr rfl)).1, uc (no kt hg)]
    exact ⟨(et _ (.inl rfl)).2, (et _ (.inr rfl)).2⟩
  · exact ⟨dd hpc (kb.mpr hg) ("SST", "drf_bias") (by simp), dd hpc (kb.mpr hg) ("SST", "drf_noise") (by simp),
      dd hpc (kb.mpr hg) ("SST", "drf_short") (by simp)⟩
  · rw [ud (no kb hg)]
    exact ⟨eb _ (.inl rfl), eb _ (.inr (.inl rfl)), eb _ (.inr (.inr rfl))⟩

/-- C154: with the original checks too each check sees the chosen reports in time order with the differences between
neighbours, and its flags reach the reports it was given. -/
theorem C154_passes (G : Geo) (elev : Int → Int → Rat → Rat → Rat → Rat → ℝ) (P : FormerParams) (hP : 0 < P.speedMin)
    (reps reps' : List Report) (hdt : ∀ r ∈ reps, r.dt ≠ none) (hid : ∀ a ∈ reps, ∀ b ∈ reps, a.id = b.id)
    (h : formerChecks G elev P reps = .ok reps') :
    ∃ r1 r2 r3, Pass G GoodPosition (agroundCheck G P.win P.groundMin P.groundMax) reps r1 ∧
      Pass G (fun r => GoodPosition r ∧ Screened r) (speedCheck G P.speedLimit P.speedMin P.speedMax) r1 r2 ∧
      Pass G (fun r => GoodPosition r ∧ GoodTemperature r ∧ Drifting r) (sstTailCheck elev P.tail) r2 r3 ∧
      Pass G (fun r => GoodPosition r ∧ GoodTemperature r ∧ Drifting r ∧ OutsideTails r) (sstBiasedNoisyCheck elev P.bias)
        r3 reps' := by
  obtain ⟨a, b, c, h1, h2, h3, h4⟩ := formerChecks_ok.mp h
  have next : ∀ {x y : List Report} {flags : List String}, (y.length = x.length ∧
      ∀ (k : Nat) (r : Report), x[k]? = some r → ∃ r', y[k]? = some r' ∧ OnlyFlags flags r r' ∧ (True)) →
      (∀ r ∈ x, r.dt ≠ none) ∧ (∀ a ∈ x, ∀ b ∈ x, a.id = b.id) →
      (∀ r ∈ y, r.dt ≠ none) ∧ (∀ a ∈ y, ∀ b ∈ y, a.id = b.id) := by
    intro x y flags ⟨hl, hs⟩ ⟨hd, hi⟩
    have back : ∀ r ∈ y, ∃ r0 ∈ x, OnlyFlags flags r0 r := by
      intro r hr
      obtain ⟨n, hn⟩ := List.mem_iff_getElem?.mp hr
      have hlt : n < x.length := by rw [← hl]; exact (List.getElem?_eq_some_iff.mp hn).1
      obtain ⟨r', e1, e2, -⟩ := hs n x[n] (List.getElem?_eq_getElem hlt)
      rw [hn] at e1
      injection e1 with e1
      subst e1
      exact ⟨_, List.getElem_mem hlt, e2⟩
    refine ⟨fun r hr => ?_, fun p hp q hq => ?_⟩
    · obtain ⟨r0, h0, h0'⟩ := back r hr
      rw [h0'.dt]; exact hd _ h0
    · obtain ⟨p0, a1, a2⟩ := back p hp
      obtain ⟨q0, b1, b2⟩ := back q hq
      rw [a2.id, b2.id]; exact hi _ a1 _ b1
  obtain ⟨l1, s1⟩ := trackPass_step (formerAground_only ..).1 (formerAground_only ..).2 h1
  obtain ⟨l2, s2⟩ := trackPass_step (formerSpeed_only _ _ _ _ hP).1 (formerSpeed_only _ _ _ _ hP).2 h2
  obtain ⟨l3, s3⟩ := trackPass_step (tail_only ..).1 (tail_only ..).2 h3
  have na := next ⟨l1, fun k r hr => let ⟨r', e1, e2, _⟩ := s1 k r hr; ⟨r', e1, e2, trivial⟩⟩ ⟨hdt, hid⟩
  have nb := next ⟨l2, fun k r hr => let ⟨r', e1, e2, _⟩ := s2 k r hr; ⟨r', e1, e2, trivial⟩⟩ na
  have nc := next ⟨l3, fun k r hr => let ⟨r', e1, e2, _⟩ := s3 k r hr; ⟨r', e1, e2, trivial⟩⟩ nb
  exact ⟨a, b, c, trackPass_pass (formerAground_only ..).1 h1 _ positionKept_iff hdt hid,
    trackPass_pass (formerSpeed_only _ _ _ _ hP).1 h2 _ formerKept_iff na.1 na.2,
    trackPass_pass (tail_only ..).1 h3 _ tailKept_iff nb.1 nb.2,
    trackPass_pass (bias_only ..).1 h4 _ biasKept_iff nc.1 nc.2⟩

namespace Spec

/-- Parameters the original checks accept. -/
structure FormerParamsOk (P : FormerParams) : Prop where
  win : 1 ≤ P.win ∧ P.win % 2 ≠ 0
  ground : 1 ≤ P.groundMin ∧ P.groundMin ≤ P.groundMax
  speed : 0 ≤ P.speedLimit ∧ 0 < P.speedMin ∧ P.speedMin ≤ P.speedMax
  tail : TailParamsOk P.tail
  bias : BiasParamsOk P.bias

end Spec

/-- C154: with valid parameters the original checks complete on the records of C96. -/
theorem C154_completes (G : Geo) (elev : Int → Int → Rat → Rat → Rat → Rat → ℝ) (P : FormerParams)
    (hP : FormerParamsOk P) (reps : List Report) (hr : Trackable reps) :
    ∃ reps' v, formerChecks G elev P reps = .ok reps' ∧ wholeVoyage G reps' = .ok v := by
  obtain ⟨x1, h1⟩ := trackPass_completes G positionKept GoodPosition positionKept_iff (fun _ h => h)
    (agroundCheck G P.win P.groundMin P.groundMax) reps hr (by
      intro v _ _ ht _
      exact (C49_completes G P.win P.groundMin P.groundMax hP.win.1 hP.win.2 hP.ground.1 hP.ground.2 v (.inr ht)).1)
  obtain ⟨l1, s1⟩ := trackPass_step (formerAground_only ..).1 (formerAground_only ..).2 h1
  have hr1 := trackable_step (by decide) l1 (fun k r hr => let ⟨r', e1, e2, _⟩ := s1 k r hr; ⟨r', e1, e2⟩) hr
  obtain ⟨x2, h2⟩ := trackPass_completes G formerKept _ formerKept_iff (fun _ h => h.1)
    (speedCheck G P.speedLimit P.speedMin P.speedMax) x1 hr1 (by
      intro v _ _ ht _
      exact (C50_completes G P.speedLimit P.speedMin P.speedMax v).1 hP.speed.1 hP.speed.2.1 hP.speed.2.2 (.inr ht))
  obtain ⟨l2, s2⟩ := trackPass_step (formerSpeed_only _ _ _ _ hP.speed.2.1).1 (formerSpeed_only _ _ _ _ hP.speed.2.1).2 h2
  have hr2 := trackable_step (by decide) l2 (fun k r hr => let ⟨r', e1, e2, _⟩ := s2 k r hr; ⟨r', e1, e2⟩) hr1
  obtain ⟨x3, h3⟩ := trackPass_completes G tailKept _ tailKept_iff (fun _ h => h.1) (sstTailCheck elev P.tail) x2 hr2 (by
      intro v _ _ _ hm
      refine (C52_completes elev P.tail v).2 hP.tail fun k s hs => ?_
      obtain ⟨⟨r, m1, m2, m3⟩, m4⟩ := hm k s hs
      exact matched_of_background elev _ (observed_data m3.data m3.dt (hr2.observed r m1 m2.1))
        ((hasBackground_only m3).mpr (hr2.background r m1 m2.1 m2.2.1)) m4)
  obtain ⟨l3, s3⟩ := trackPass_step (tail_only ..).1 (tail_only ..).2 h3
  have hr3 := trackable_step (by decide) l3 (fun k r hr => let ⟨r', e1, e2, _⟩ := s3 k r hr; ⟨r', e1, e2⟩) hr2
  obtain ⟨x4, h4⟩ := trackPass_completes G biasKept _ biasKept_iff (fun _ h => h.1) (sstBiasedNoisyCheck elev P.bias) x3 hr3 (by
      intro v _ _ _ hm
      refine (C53_completes elev P.bias v).2 hP.bias fun k s hs => ?_
      obtain ⟨⟨r, m1, m2, m3⟩, m4⟩ := hm k s hs
      exact matched_of_background elev _ (observed_data m3.data m3.dt (hr3.observed r m1 m2.1))
        ((hasBackground_only m3).mpr (hr3.background r m1 m2.1 m2.2.1)) m4)
  obtain ⟨l4, s4⟩ := trackPass_step (bias_only ..).1 (bias_only ..).2 h4
  have hr4 := trackable_step (by decide) l4 (fun k r hr => let ⟨r', e1, e2, _⟩ := s4 k r hr; ⟨r', e1, e2⟩) hr3
  obtain ⟨v, hv⟩ := passVoyage_completes G (fun _ => true) x4 hr4.placed
  refine ⟨x4, v.map (·.1), formerChecks_ok.mpr ⟨x1, x2, x3, h1, h2, h3, h4⟩, ?_⟩
  unfold wholeVoyage
  rw [hv]
  rfl

/-- C154: for a drifter whose reports can be tracked the program completes with the original checks: the results are in
one file in each wanted directory, in time order, and the names of these files carry the mark `oldqc`. -/
theorem C154_main (fmt : Rat → List Char) (hf : ∀ x, Plain (fmt x)) (hfe : ∀ x, NoBlankEnd (fmt x) ∧ fmt x ≠ [])
    (num : List Char → Option Rat) (ord : List (List Char) → List (List Char)) (G : Geo)
    (elev : Int → Int → Rat → Rat → Rat → Rat → ℝ) (P : FormerParams) (hP : FormerParamsOk P)
    (out trackOut runid arg runmonthid : List Char) (months : List (Int × Int)) (year month : Int) (edge : List String)
    (hid : '/' ∉ runid) (hrm : '/' ∉ runmonthid) (hb : IsBase trackOut) (fs : FileSys) (reps : List Report)
    (hread : readChunk num ord fs out runid arg months = .ok reps) (hne : reps ≠ [])
    (hr : Trackable reps) (hdt : ∀ r ∈ reps, r.dt ≠ none) (ident : String) (hi : ∀ r ∈ reps, r.id = some ident)
    (hw : ∀ r ∈ reps, Writable r) (hd : fs.dir trackOut = true)
    (hc : ∀ a ∈ trackingDirs trackOut year month runmonthid, fs.file a = none)
    (hfree : ∀ a ∈ trackingDirs trackOut year month runmonthid, fs.dir
      (voyagePath (runid ++ "oldqc".toList) a year month "Tracking_".toList (safeFilename ident.toList)) = false) :
    ∃ fs' reps' order v, formerMain fmt num ord G elev P out trackOut runid arg runmonthid months year month edge fs =
        (fs', none) ∧
      formerChecks G elev P reps = .ok reps' ∧ order.Perm (List.range reps.length) ∧ InTime reps' order ∧
      VoyageOf G reps' order v ∧
      (∀ D, Wanted trackOut year month edge runmonthid D → HoldsTable fs'
        (voyagePath (runid ++ "oldqc".toList) D year month "Tracking_".toList (safeFilename ident.toList))
        (trackingTable fmt v)) ∧
      (∀ p, (∀ D, Wanted trackOut year month edge runmonthid D →
          p ≠ voyagePath (runid ++ "oldqc".toList) D year month "Tracking_".toList (safeFilename ident.toList)) →
        fs'.file p = fs.file p) ∧
      (∀ q, fs'.dir q = true → q ∈ trackingDirs trackOut year month runmonthid ∨ fs.dir q = true) ∧ fs'.dir trackOut = true := by
  obtain ⟨reps', v, h1, h2⟩ := C154_completes G elev P hP reps hr
  obtain ⟨l1, l2⟩ := C154_only_flags G elev P hP.speed.2.1 reps reps' h1
  have back : ∀ r ∈ reps', ∃ r0 ∈ reps, OnlyFlags
      ["POSdrf_agr", "POSdrf_spd", "SSTdrf_tail1", "SSTdrf_tail2", "SSTdrf_bias", "SSTdrf_noise", "SSTdrf_short"] r0 r := by
    intro r hr
    obtain ⟨n, hn⟩ := List.mem_iff_getElem?.mp hr
    have hlt : n < reps.length := by rw [← l1]; exact (List.getElem?_eq_some_iff.mp hn).1
    exact ⟨_, List.getElem_mem hlt, l2 n _ _ (List.getElem?_eq_getElem hlt) hn⟩
  obtain ⟨order, o1, o2, o3⟩ := C97_whole G reps' v
    (by
      intro r hr
      obtain ⟨r0, a1, a2⟩ := back r hr
      rw [a2.dt]; exact hdt r0 a1)
    (by
      intro a ha b hb
      obtain ⟨a0, a1, a2⟩ := back a ha
      obtain ⟨b0, b1, b2⟩ := back b hb
      rw [a2.id, b2.id, hi _ a1, hi _ b1]) h2
  have vback : ∀ s ∈ v, s.id = some ident ∧ Writable s := by
    intro s hs
    obtain ⟨n, hn⟩ := List.mem_iff_getElem?.mp hs
    have hlt : n < order.length := by rw [← o3.1]; exact (List.getElem?_eq_some_iff.mp hn).1
    obtain ⟨r, s', a1, a2, a3⟩ := o3.2.2 n _ (List.getElem?_eq_getElem hlt)
    rw [hn] at a2
    injection a2 with a2
    subst a2
    obtain ⟨r0, b1, b2⟩ := back r (List.mem_of_getElem? a1)
    exact ⟨by rw [a3.id, b2.id, hi _ b1], writable_only a3 (writable_only b2 (hw _ b1))⟩
  cases v with
  | nil =>
    exfalso
    apply hne
    have := o3.1
    rw [o1.length_eq, List.length_range, l1] at this
    exact List.length_eq_zero_iff.mp this.symm
  | cons s l =>
    have hid' : '/' ∉ runid ++ "oldqc".toList := by
      rw [List.mem_append, not_or]
      exact ⟨hid, by decide⟩
    obtain ⟨fs', e1, e2, e3, e4⟩ := C97_output fmt hf hfe (runid ++ "oldqc".toList) trackOut runmonthid hid' hrm hb year month
      edge s l ident (vback s (by simp)).1 (fun q hq => (vback q hq).2) fs hd hc hfree
    refine ⟨fs', reps', order, s :: l, ?_, h1, by rw [← l1]; exact o1, o2, o3, e2, e3, e4⟩
    unfold formerMain
    simp only [hread, h1, h2, except_bind_ok]
    exact e1

/-- C154: a report that has not passed the ship track check and had no speed flag gets no temperature flag from the
original checks, good as its temperature may be. -/
theorem C154_unscreened (G : Geo) (elev : Int → Int → Rat → Rat → Rat → Rat → ℝ) (P : FormerParams) (hP : 0 < P.speedMin)
    (reps reps' : List Report) (hpt : ∀ r ∈ reps, r.getvar "PT" = some 7)
    (h : formerChecks G elev P reps = .ok reps') (k : Nat) (r r' : Report) (hr : reps[k]? = some r)
    (hr' : reps'[k]? = some r') (hs : ¬ Screened r) (h0 : r.getQc "POS" "drf_spd" ≠ 0) :
    ∀ f ∈ ["drf_tail1", "drf_tail2", "drf_bias", "drf_noise", "drf_short"], r'.getQc "SST" f = r.getQc "SST" f := by
  obtain ⟨-, -, e1, -, -, e2, -, e3⟩ := C154_eligible G elev P hP reps reps' hpt h k r r' hr hr'
  have e := e1 fun hc => hs hc.2
  have nd : ¬ Drifting r' := fun hc => h0 (by rw [← e]; exact hc.2)
  have a := e2 fun hc => nd hc.2.2
  have b := e3 fun hc => nd hc.2.2.1
  intro f hf
  simp only [List.mem_cons, List.not_mem_nil, or_false] at hf
  rcases hf with rfl | rfl | rfl | rfl | rfl
  exacts [a.1, a.2, b.1, b.2.1, b.2.2]

/-! ## C155: repeating, and the order of the reports -/

theorem formerKept_same {r s : Report} (h : ∀ f ∉ driftKeys, s.qc f = r.qc f) : formerKept s = formerKept r := by
  rw [Bool.eq_iff_iff, formerKept_iff, formerKept_iff, (position_same h).1]
  unfold Screened
  rw [getQc_flag (h ("POS" ++ "iquam_track") (by decide))]

theorem former_position (r : Report) (h : positionKept r = false) : formerKept r = false := by
  rw [← Bool.not_eq_true, formerKept_iff]
  rw [← Bool.not_eq_true, positionKept_iff] at h
  exact fun hc => h hc.1

theorem passStep_weaken {keep keep' : Report → Bool} {F : List String} {a b : List Report} (h : PassStep keep F a b)
    (hk : ∀ r, keep' r = false → keep r = false) : PassStep keep' F a b :=
  ⟨h.1, fun k r r' hr hr' => let ⟨x1, x2, x3⟩ := h.2 k r r' hr hr'; ⟨x1, x2, fun hc => x3 (hk r hc)⟩⟩

/-- C155: what the original checks end with stays as it is when they are run on it again. -/
theorem C155_twice (G : Geo) (elev : Int → Int → Rat → Rat → Rat → Rat → ℝ) (P : FormerParams)
    (reps reps' : List Report) (h : formerChecks G elev P reps = .ok reps') :
    formerChecks G elev P reps' = .ok reps' := by
  obtain ⟨a, b, c, h1, h2, h3, h4⟩ := formerChecks_ok.mp h
  have k1 := drifter_blind G elev (.aground P.win P.groundMin P.groundMax)
  have k2 := drifter_blind G elev (.speed P.speedLimit P.speedMin P.speedMax)
  have k3 := drifter_blind G elev (.tail P.tail)
  have k4 := drifter_blind G elev (.bias P.bias)
  have d4 : PassStep biasKept (driftKeys.drop 4) c reps' := pass_step G _ _ _ k4 _ _ h4
  have d3 : PassStep tailKept (driftKeys.drop 2) b reps' :=
    pass_steps (pass_step G _ _ _ k3 _ _ h3) d4 (by simp [drifterFlags, driftKeys]) (by decide) bias_tail
  have d2 : PassStep positionKept (driftKeys.drop 1) a reps' :=
    pass_steps (passStep_weaken (pass_step G _ _ _ k2 _ _ h2) former_position) d3 (by simp [drifterFlags, driftKeys])
      (by decide) tail_position
  have d1 : PassStep positionKept driftKeys reps reps' :=
    pass_steps (pass_step G _ _ _ k1 _ _ h1) d2 (by simp [drifterFlags, driftKeys]) (by decide) (fun _ h => h)
  obtain ⟨l1, d1⟩ := d1
  obtain ⟨l2, d2⟩ := d2
  obtain ⟨l3, d3⟩ := d3
  obtain ⟨l4, d4⟩ := d4
  have ex : ∀ (l : List Report) (k : Nat), k < l.length → ∃ r, l[k]? = some r :=
    fun l k hk => ⟨l[k], List.getElem?_eq_getElem hk⟩
  have outside : ∀ {F : List String} (K : List String), (∀ f ∈ F, f ∉ K) → ∀ f ∈ F, f ∉ K := fun _ h => h
  obtain ⟨a2, p1, m1, t1⟩ := pass_again G _ _ _ k1 reps a reps' reps' h1 (by omega) (by omega)
    (by
      intro k r q s hr hq hs
      rw [hq] at hs
      injection hs with hs
      subst hs
      obtain ⟨g1, g2, g3⟩ := d1 k r q hr hq
      refine ⟨rfl, g1, positionKept_same g2, fun hk => ?_⟩
      have := g3 hk
      subst this
      rfl)
    (by
      intro k r' q hr' hq f hf
      exact ((d2 k r' q hr' hq).2.1 f (outside _ (by simp [drifterFlags, driftKeys]) f hf)).symm)
  obtain ⟨b2, p2, m2, t2⟩ := pass_again G _ _ _ k2 a b a2 reps' h2 m1 (by omega)
    (by
      intro k r q s hr hq hs
      have := t1 k r q s hr hq hs
      subst this
      refine ⟨rfl, rfl, formerKept_same fun f hf => ?_, fun _ => rfl⟩
      exact (d2 k r q hr hq).2.1 f fun hm => hf (List.mem_of_mem_drop hm))
    (by
      intro k r' q hr' hq f hf
      exact ((d3 k r' q hr' hq).2.1 f (outside _ (by simp [drifterFlags, driftKeys]) f hf)).symm)
  obtain ⟨c2, p3, m3, t3⟩ := pass_again G _ _ _ k3 b c b2 reps' h3 m2 (by omega)
    (by
      intro k r q s hr hq hs
      have := t2 k r q s hr hq hs
      subst this
      exact ⟨rfl, rfl, tailKept_same fun f hf => (d3 k r q hr hq).2.1 f hf, fun _ => rfl⟩)
    (by
      intro k r' q hr' hq f hf
      exact ((d4 k r' q hr' hq).2.1 f (outside _ (by simp [drifterFlags, driftKeys]) f hf)).symm)
  obtain ⟨z, p4, m4, t4⟩ := pass_again G _ _ _ k4 c reps' c2 reps' h4 m3 (by omega)
    (by
      intro k r q s hr hq hs
      have := t3 k r q s hr hq hs
      subst this
      exact ⟨rfl, rfl, biasKept_same fun f hf => (d4 k r q hr hq).2.1 f hf, fun _ => rfl⟩)
    (by
      intro k r' q hr' hq f hf
      rw [hr'] at hq
      injection hq with hq
      rw [hq])
  have ez : z = reps' := by
    apply List.ext_getElem?
    intro k
    by_cases hk : k < reps'.length
    · obtain ⟨q, hq⟩ := ex reps' k hk
      obtain ⟨s, hs⟩ := ex z k (by omega)
      have := t4 k q q s hq hq hs
      rw [hs, hq, this]
    · rw [List.getElem?_eq_none (by omega), List.getElem?_eq_none (by omega)]
  rw [ez] at p4
  exact formerChecks_ok.mpr ⟨a2, b2, c2, p1, p2, p3, p4⟩

/-- C155: if the times of the reports differ, the result of the original checks does not depend on the order in which the
reports are read, but for the differences stored. -/
theorem C155_order (G : Geo) (elev : Int → Int → Rat → Rat → Rat → Rat → ℝ) (P : FormerParams)
    (reps₁ reps₂ out₁ out₂ : List Report) (hp : reps₁.Perm reps₂) (hid : ∀ a ∈ reps₁, ∀ b ∈ reps₁, a.id = b.id)
    (hdt : ∀ r ∈ reps₁, r.dt ≠ none) (ht : reps₁.Pairwise fun a b => a.dt ≠ b.dt)
    (h1 : formerChecks G elev P reps₁ = .ok out₁) (h2 : formerChecks G elev P reps₂ = .ok out₂) :
    (out₁.map unlinked).Perm (out₂.map unlinked) := by
  obtain ⟨a1, a2, a3, x1, x2, x3, x4⟩ := formerChecks_ok.mp h1
  obtain ⟨b1, b2, b3, y1, y2, y3, y4⟩ := formerChecks_ok.mp h2
  have s0 : Shuffled reps₁ reps₂ := by
    refine ⟨hp.map _, ?_, ?_, ?_⟩
    · intro x hx y hy
      obtain ⟨r, hr, rfl⟩ := List.mem_map.mp hx
      obtain ⟨s, hs, rfl⟩ := List.mem_map.mp hy
      exact hid r hr s hs
    · intro x hx
      obtain ⟨r, hr, rfl⟩ := List.mem_map.mp hx
      exact hdt r hr
    · rw [List.map_map]
      exact List.pairwise_map.mpr ht
  have s1 := pass_shuffled G elev (.aground P.win P.groundMin P.groundMax) _ (fun r => (kept_unlinked r).1) _ _ _ _ s0 x1 y1
  have s2 := pass_shuffled G elev (.speed P.speedLimit P.speedMin P.speedMax) _
    (fun r => formerKept_same (fun _ _ => rfl)) _ _ _ _ s1 x2 y2
  have s3 := pass_shuffled G elev (.tail P.tail) _ (fun r => (kept_unlinked r).2.1) _ _ _ _ s2 x3 y3
  exact (pass_shuffled G elev (.bias P.bias) _ (fun r => (kept_unlinked r).2.2) _ _ _ _ s3 x4 y4).perm

/-! ## A concrete case -/

/-- The report after it has passed the ship track check. -/
def withTrackFlag (r : Report) : Report := { r with qc := fun k => if k = "POSiquam_track" then some 0 else r.qc k }

def formerParams : FormerParams where
  win := 3
  groundMin := 8
  groundMax := 10
  speedLimit := 3
  speedMin := 1
  speedMax := 2
  tail := exampleTail
  bias := exampleBias

theorem formerParams_ok : FormerParamsOk formerParams :=
  ⟨by decide, by decide, by norm_num [formerParams], driftParams_ok.tail, driftParams_ok.bias⟩

/-- Of the three reports, all but the last have passed the ship track check. -/
def formerReps : List Report :=
  [withTrackFlag (driftReport "A1" 12 10 20 11), withTrackFlag (driftReport "A2" 10 10 19 10),
    driftReport "A3" (23 / 2) 10 (39 / 2) 10]

theorem withTrackFlag_getQc (r : Report) (t f : String) (h : t ++ f ≠ "POSiquam_track") :
    (withTrackFlag r).getQc t f = r.getQc t f := by
  unfold Report.getQc withTrackFlag
  simp only [if_neg h]

theorem withTrackFlag_good (r : Report) (h : GoodPosition r) : GoodPosition (withTrackFlag r) := by
  unfold GoodPosition at h ⊢
  repeat rw [withTrackFlag_getQc r _ _ (by decide)]
  exact h

theorem withTrackFlag_screened (r : Report) : Screened (withTrackFlag r) := rfl

theorem formerReps_trackable : Trackable formerReps := by
  have back : ∀ r ∈ formerReps, ∃ s ∈ driftReps, r = { s with qc := r.qc } := by
    intro r hr
    simp only [formerReps, List.mem_cons, List.not_mem_nil, or_false] at hr
    rcases hr with rfl | rfl | rfl
    · exact ⟨driftReport "A1" 12 10 20 11, by simp [driftReps], rfl⟩
    · exact ⟨driftReport "A2" 10 10 19 10, by simp [driftReps], rfl⟩
    · exact ⟨driftReport "A3" (23 / 2) 10 (39 / 2) 10, by simp [driftReps], rfl⟩
  have good : ∀ s ∈ driftReps, GoodPosition s ∧ GoodTemperature s := by
    intro s hs
    simp only [driftReps, List.mem_cons, List.not_mem_nil, or_false] at hs
    rcases hs with rfl | rfl | rfl <;> exact ⟨driftReport_good .., driftReport_temperature ..⟩
  have T := driftReps_trackable
  refine ⟨fun r hr => ?_, fun r hr _ => ?_, fun r hr _ _ => ?_, fun a ha b hb => ?_, fun a ha b hb _ _ hd => ?_⟩
  · obtain ⟨s, hs, e⟩ := back r hr
    rw [e]
    exact T.placed s hs
  · obtain ⟨s, hs, e⟩ := back r hr
    rw [e]
    exact T.observed s hs (good s hs).1
  · obtain ⟨s, hs, e⟩ := back r hr
    rw [e]
    exact T.background s hs (good s hs).1 (good s hs).2
  · obtain ⟨s, hs, e⟩ := back a ha
    obtain ⟨t, ht, e'⟩ := back b hb
    rw [e, e']
    exact T.same s hs t ht
  · obtain ⟨s, hs, e⟩ := back a ha
    obtain ⟨t, ht, e'⟩ := back b hb
    rw [e, e'] at hd ⊢
    exact T.minutes s hs t ht (good s hs).1 (good t ht).1 hd

/-- Non-vacuity of C154 and C155: the original checks on three reports, of which the last has not passed the ship track
check.  The first two get a speed flag; the last gets none and no temperature flag either. -/
example (elev : Int → Int → Rat → Rat → Rat → Rat → ℝ) :
    FormerParamsOk formerParams ∧ Trackable formerReps ∧
    ∃ a b c : Report, formerChecks blockGeo elev formerParams formerReps = .ok [a, b, c] ∧
      Decided a "POS" "drf_agr" ∧ Decided b "POS" "drf_agr" ∧ Decided c "POS" "drf_agr" ∧
      Decided a "POS" "drf_spd" ∧ Decided b "POS" "drf_spd" ∧ ¬ Decided c "POS" "drf_spd" ∧
      ¬ Decided c "SST" "drf_tail1" := by
  refine ⟨formerParams_ok, formerReps_trackable, ?_⟩
  obtain ⟨reps', v, h1, -⟩ := C154_completes blockGeo elev formerParams formerParams_ok formerReps formerReps_trackable
  have hp : (0 : Rat) < formerParams.speedMin := formerParams_ok.speed.2.1
  have l := (C154_only_flags blockGeo elev formerParams hp formerReps reps' h1).1
  have pt : ∀ r ∈ formerReps, r.getvar "PT" = some 7 := by
    intro r hr
    simp only [formerReps, List.mem_cons, List.not_mem_nil, or_false] at hr
    rcases hr with rfl | rfl | rfl <;> decide +kernel
  match reps', l with
  | [a, b, c], _ =>
    have ea := C154_eligible blockGeo elev formerParams hp formerReps _ pt h1 0 _ a rfl rfl
    have eb := C154_eligible blockGeo elev formerParams hp formerReps _ pt h1 1 _ b rfl rfl
    have ec := C154_eligible blockGeo elev formerParams hp formerReps _ pt h1 2 _ c rfl rfl
    have ns : ¬ Screened (driftReport "A3" (23 / 2) 10 (39 / 2) 10) := by
      unfold Screened
      decide
    have uc := C154_unscreened blockGeo elev formerParams hp formerReps _ pt h1 2 _ c rfl rfl ns (by decide)
    have ga : GoodPosition (withTrackFlag (driftReport "A1" 12 10 20 11)) := withTrackFlag_good _ (driftReport_good ..)
    have gb : GoodPosition (withTrackFlag (driftReport "A2" 10 10 19 10)) := withTrackFlag_good _ (driftReport_good ..)
    refine ⟨a, b, c, h1, ea.1 ga, eb.1 gb, ec.1 (driftReport_good ..), ea.2.1 ⟨ga, withTrackFlag_screened _⟩,
      eb.2.1 ⟨gb, withTrackFlag_screened _⟩, ?_, ?_⟩
    · unfold Decided
      rw [ec.2.2.1 (fun hc => ns hc.2)]
      decide
    · unfold Decided
      rw [uc "drf_tail1" (by simp)]
      decide

/-- Non-vacuity of C155: the same reports with the first one last. -/
example : (∀ r ∈ formerReps, r.dt ≠ none) ∧ (formerReps.Pairwise fun a b => a.dt ≠ b.dt) ∧
    ∃ reps₂ : List Report, formerReps.Perm reps₂ ∧ reps₂.map (fun r => r.dt) ≠ formerReps.map fun r => r.dt := by
  refine ⟨?_, ?_, formerReps.drop 1 ++ formerReps.take 1, ?_, ?_⟩
  · intro r hr
    simp only [formerReps, List.mem_cons, List.not_mem_nil, or_false] at hr
    rcases hr with rfl | rfl | rfl <;> simp [driftReport, withTrackFlag]
  · have : (formerReps.map fun r => r.dt).Nodup := by decide +kernel
    exact List.pairwise_map.mp this
  · have := (List.perm_append_comm (l₁ := formerReps.take 1) (l₂ := formerReps.drop 1))
    rwa [List.take_append_drop] at this
  · decide +kernel

end MarineQC
