import Verif.Buoy.Speed

/-!
# C51: the screening of the new speed check, and its completion
-/

namespace MarineQC

open Spec

theorem asShip_getvar {c r : Report} (h : AsShip c r) {v : String} (hv : v ∈ VARLIST) (hp : v ≠ "PT") :
    c.getvar v = r.getvar v := by
  simp [Report.getvar, hv, h.2, hp]

theorem asShip_getint {c r : Report} (h : AsShip c r) {v : String} (hp : v ≠ "PT") : c.getint v = r.getint v := by
  simp [Report.getint, h.2, hp]

theorem asShip_timeTo {a b a' b' : Report} (ha : AsShip a a') (hb : AsShip b b') : a.timeTo b = a'.timeTo b' := by
  unfold Report.timeTo
  rw [asShip_getvar ha (by decide) (by decide), asShip_getvar hb (by decide) (by decide),
    asShip_getint ha (by decide), asShip_getint hb (by decide), asShip_getint ha (v := "MO") (by decide),
    asShip_getint hb (v := "MO") (by decide), asShip_getint ha (v := "DY") (by decide),
    asShip_getint hb (v := "DY") (by decide)]

theorem asShip_lat {c r : Report} (h : AsShip c r) : c.lat = r.lat := by
  unfold Report.lat; rw [asShip_getvar h (by decide) (by decide)]

theorem asShip_lon {c r : Report} (h : AsShip c r) : c.lon = r.lon := by
  unfold Report.lon; rw [asShip_getvar h (by decide) (by decide)]

theorem asShip_tooFast {G : Geo} {P : IquamParams} {limit : Rat} {a b a' b' : Report} (ha : AsShip a a')
    (hb : AsShip b b') : TooFast G P limit a b ↔ TooFast G P limit a' b' := by
  unfold TooFast Apart
  rw [asShip_lat ha, asShip_lon ha, asShip_lat hb, asShip_lon hb, asShip_timeTo ha hb]

theorem asShip_placed {c r : Report} (h : AsShip c r) (hr : r.Placed) : c.Placed := by
  unfold Report.Placed at *
  rw [asShip_lat h, asShip_lon h, asShip_getint h (by decide), asShip_getint h (v := "MO") (by decide),
    asShip_getint h (v := "DY") (by decide), asShip_getvar h (by decide) (by decide)]
  exact hr

theorem forall₂_get {α β : Type} {R : α → β → Prop} {l : List α} {m : List β} (h : List.Forall₂ R l m) (i : Nat) :
    (∀ x, l[i]? = some x → ∃ y, m[i]? = some y ∧ R x y) ∧ (∀ y, m[i]? = some y → ∃ x, l[i]? = some x ∧ R x y) := by
  induction h generalizing i with
  | nil => simp
  | cons h hs ih =>
    cases i with
    | zero => simpa using h
    | succ i => simpa using ih i

theorem asShip_pairs {G : Geo} {P : IquamParams} {limit : Rat} {w v : List Report} (h : List.Forall₂ AsShip w v) :
    PairOf w P.neighbours (TooFast G P limit) = PairOf v P.neighbours (TooFast G P limit) := by
  funext i j
  apply propext
  unfold PairOf
  refine and_congr Iff.rfl ⟨?_, ?_⟩
  · rintro ⟨a, b, ha, hb, hf⟩
    obtain ⟨a', ha', ra⟩ := (forall₂_get h i).1 a ha
    obtain ⟨b', hb', rb⟩ := (forall₂_get h j).1 b hb
    exact ⟨a', b', ha', hb', (asShip_tooFast ra rb).1 hf⟩
  · rintro ⟨a, b, ha, hb, hf⟩
    obtain ⟨a', ha', ra⟩ := (forall₂_get h i).2 a ha
    obtain ⟨b', hb', rb⟩ := (forall₂_get h j).2 b hb
    exact ⟨a', b', ha', hb', (asShip_tooFast ra rb).2 hf⟩

/-- A voyage with a generic identifier gets only flags 0. -/
theorem iquam_generic (G : Geo) (P : IquamParams) (r0 : Report) (l : List Report)
    (hg : idIsGeneric r0.id (r0.getint "YR") = true) :
    ∃ v', iquamTrackCheck G P (r0 :: l) = .ok v' ∧ v'.length = (r0 :: l).length
      ∧ ∀ (k : Nat) (r : Report), v'[k]? = some r → r.getQc "POS" "iquam_track" = 0 := by
  have hf : iquamFlags G P (r0 :: l) = .ok (List.replicate (r0 :: l).length 0) := by
    unfold iquamFlags
    simp only [List.head?_cons, hg, if_true]
    rw [set_all_zero _ _ (by simp [readFlags])]
  unfold iquamTrackCheck
  rw [hf, except_bind_ok]
  obtain ⟨v', hv⟩ := writeFlags_ok (v := r0 :: l) (t := "POS") (f := "iquam_track")
    (fl := List.replicate (r0 :: l).length 0) (.inl (by decide)) (flags_digits (by simp) (zeros_flags _))
  obtain ⟨w1, w2⟩ := writeFlags_flags (by simp) hv _ (zeros_flags _)
  refine ⟨v', hv, w1, fun k r hr => ?_⟩
  have hk := lt_of_get hr
  obtain ⟨a1, a2, -⟩ := w2 k _ r (List.getElem?_eq_getElem (by omega)) hr
  exact a1.resolve_right fun h => a2.1 h

open Classical in
/-- What is screened out: the reports that have to be removed, the worst first, so that no two reports left that are
at most `number_of_neighbours` apart break the ship speed limit; nothing if the identifier is generic. -/
theorem shipScreen_removed (G : Geo) (hG : IsDistance G) (P : IquamParams) (hT : 0 < P.deltaT) (hD : 0 ≤ P.deltaD)
    (hL : 0 ≤ P.shipSpeedLimit) (r0 : Report) (l : List Report) (hv : ∀ r ∈ r0 :: l, r.Placed) :
    ∃ screen removed, shipScreen G P (r0 :: l) = .ok screen
      ∧ (if idIsGeneric r0.id (r0.getint "YR") = true then removed = []
        else Finished (r0 :: l).length (PairOf (r0 :: l) P.neighbours (TooFast G P P.shipSpeedLimit)) removed)
      ∧ ∀ k, k < (r0 :: l).length → (screen.getD k 0 = 0 ↔ k ∉ removed) := by
  obtain ⟨cs, c1, c2⟩ := shipCopies (r0 :: l)
  have hcs : ∀ c ∈ cs, c.Placed := by
    intro c hc
    obtain ⟨i, hi⟩ := List.mem_iff_getElem?.1 hc
    obtain ⟨r, hr, hcr⟩ := (forall₂_get c2 i).1 c hi
    exact asShip_placed hcr (hv r (List.mem_of_getElem? hr))
  obtain ⟨w, hw⟩ := C40_add_report_completes G cs hcs
  obtain ⟨a1, -, -⟩ := C40_add_report G cs w hw
  have hws := asShip_trans a1 c2
  obtain ⟨w0, w1, rfl⟩ : ∃ w0 w1, w = w0 :: w1 := by
    cases hws with
    | cons _ _ => exact ⟨_, _, rfl⟩
  have hlen := hws.length_eq
  have hw0 : AsShip w0 r0 := by cases hws with | cons h _ => exact h
  have hpl : ∀ c ∈ w0 :: w1, c.Placed := by
    intro c hc
    obtain ⟨i, hi⟩ := List.mem_iff_getElem?.1 hc
    obtain ⟨r, hr, hcr⟩ := (forall₂_get hws i).1 c hi
    exact asShip_placed hcr (hv r (List.mem_of_getElem? hr))
  have hgen : idIsGeneric w0.id (w0.getint "YR") = idIsGeneric r0.id (r0.getint "YR") := by
    rw [hw0.1, asShip_getint hw0 (by decide)]
  have fin : ∀ w', iquamTrackCheck G P (w0 :: w1) = .ok w' →
      shipScreen G P (r0 :: l) = .ok (readFlags w' "POS" "iquam_track") := by
    intro w' h
    unfold shipScreen
    rw [c1, except_bind_ok, hw, except_bind_ok, h, except_bind_ok, except_pure]
  have hget : ∀ (w' : List Report) (k : Nat) (r : Report), w'[k]? = some r →
      (readFlags w' "POS" "iquam_track").getD k 0 = r.getQc "POS" "iquam_track" := by
    intro w' k r hr
    simp only [readFlags, List.getD_eq_getElem?_getD, List.getElem?_map, hr]
    rfl
  by_cases hg : idIsGeneric r0.id (r0.getint "YR") = true
  · obtain ⟨w', b1, b2, b3⟩ := iquam_generic G P w0 w1 (hgen.trans hg)
    refine ⟨_, [], fin w' b1, by rw [if_pos hg], fun k hk => ?_⟩
    have : w'[k]? = some w'[k] := List.getElem?_eq_getElem (by omega)
    rw [hget w' k _ this, b3 k _ this]
    simp
  · have hlim : P.shipSpeedLimit = if PlatformIsBuoy w0 then P.buoySpeedLimit else P.shipSpeedLimit := by
      rw [if_neg]
      unfold PlatformIsBuoy Report.getint
      rw [hw0.2 "PT", if_pos rfl]
      decide +kernel
    obtain ⟨R, w', b1, b2, b3, b4⟩ := C43_iquam G hG P hT hD w0 w1 hpl (hgen.trans (by simpa using hg)) _ hlim hL
    refine ⟨_, R, fin w' b1, ?_, fun k hk => ?_⟩
    · rw [if_neg hg, ← asShip_pairs hws, ← hlen]
      exact b2
    · have h1 : w'[k]? = some w'[k] := List.getElem?_eq_getElem (by omega)
      obtain ⟨h2, -⟩ := b4 k _ _ (List.getElem?_eq_getElem (by omega)) h1
      rw [hget w' k _ h1, h2]
      split <;> rename_i hR
      · exact ⟨fun h => absurd h one_ne_zero, fun h => absurd hR h⟩
      · exact ⟨fun _ => hR, fun _ => rfl⟩

open Classical in
/-- C51. For a record of at least two reports with position and time that is a track in time order, with a
non-negative limit and a positive period, `new_speed_check` completes, and the flags are the ones described, with the
screened-out reports those that have to be removed, the worst first, until no two reports left that are at most
`number_of_neighbours` apart break the iQuam ship speed limit (none if the identifier is generic). -/
theorem C51_completes (G : Geo) (hG : IsDistance G) (P : IquamParams) (hT : 0 < P.deltaT) (hD : 0 ≤ P.deltaD)
    (hL : 0 ≤ P.shipSpeedLimit) (limit minP : Rat) (h0 : 0 ≤ limit) (h1 : 0 < minP)
    (r0 : Report) (l : List Report) (hl : l ≠ []) (hv : ∀ r ∈ r0 :: l, r.Placed)
    (lat lon hrs : Nat → Rat) (ht : IsTrack (r0 :: l) lat lon hrs) :
    ∃ v' removed, newSpeedCheck G P limit minP (r0 :: l) = .ok v' ∧ v'.length = (r0 :: l).length
      ∧ (if idIsGeneric r0.id (r0.getint "YR") = true then removed = []
        else Finished (r0 :: l).length (PairOf (r0 :: l) P.neighbours (TooFast G P P.shipSpeedLimit)) removed)
      ∧ ∀ (k : Nat) (r' : Report), v'[k]? = some r' →
        (r'.getQc "POS" "drf_spd" = 1 ↔ InFastWindow
            (KeptWindow (r0 :: l).length hrs (minP * 24) fun k => k ∉ removed) (FasterThan G limit lat lon hrs) k) := by
  obtain ⟨screen, removed, s1, s2, s3⟩ := shipScreen_removed G hG P hT hD hL r0 l hv
  have hlen : 1 < (r0 :: l).length := by
    have := List.length_pos_of_ne_nil hl
    simp only [List.length_cons]
    omega
  obtain ⟨fl, f1, f2, f3⟩ := newSpeedFlags_long G P h0 h1 hlen ht s1
  obtain ⟨v', hw⟩ := writeFlags_ok (v := r0 :: l) (t := "POS") (f := "drf_spd") (fl := fl) (.inl (by decide))
    (flags_digits f2 f3)
  obtain ⟨w1, w2⟩ := writeFlags_flags f2 hw _ f3
  refine ⟨v', removed, ?_, w1, s2, fun k r' hr' => ?_⟩
  · unfold newSpeedCheck
    rw [f1, except_bind_ok]
    exact hw
  · have hk := lt_of_get hr'
    obtain ⟨-, a2, -⟩ := w2 k _ r' (List.getElem?_eq_getElem (by omega)) hr'
    rw [a2]
    refine inFastWindow_congr (fun i j => ?_) k
    unfold KeptWindow
    constructor
    · rintro ⟨b1, b2, b3, b4, b5, b6⟩
      exact ⟨b1, b2, (s3 i b1).1 b3, (s3 j b2).1 b4, b5, fun k c1 c2 => b6 k c1 ((s3 k (by omega)).2 c2)⟩
    · rintro ⟨b1, b2, b3, b4, b5, b6⟩
      exact ⟨b1, b2, (s3 i b1).2 b3, (s3 j b2).2 b4, b5, fun k c1 c2 => b6 k c1 ((s3 k (by omega)).1 c2)⟩

/-- C51: a negative limit or period is rejected; a record of at most one report completes; a period of zero is
accepted, but then every longer record that gets as far as the loop makes the check raise. -/
theorem C51_params (G : Geo) (P : IquamParams) (limit minP : Rat) (v : List Report) :
    (¬ (0 ≤ limit ∧ 0 ≤ minP) → newSpeedCheck G P limit minP v = .error .assertion)
    ∧ (0 ≤ limit → 0 ≤ minP → v.length ≤ 1 → ∃ v', newSpeedCheck G P limit minP v = .ok v') := by
  obtain ⟨p1, p2, -⟩ := newSpeedFlags_params (G := G) (P := P) (limit := limit) (minP := minP) (v := v)
  unfold newSpeedCheck
  constructor
  · intro h
    rw [p1 h]
    rfl
  · intro h0 h1 hl
    rw [p2 ⟨h0, h1⟩ hl, except_bind_ok]
    exact writeFlags_ok (.inl (by decide)) (flags_digits (by simp) (zeros_flags _))

/-- The zero period of `new_speed_check`. -/
theorem C51_zero_period_violation (G : Geo) (P : IquamParams) (limit : Rat) (h0 : 0 ≤ limit) (v : List Report)
    (hl : 1 < v.length) (lat lon hrs : Nat → Rat) (ht : IsTrack v lat lon hrs) (v' : List Report) :
    newSpeedCheck G P limit 0 v ≠ .ok v' := by
  intro h
  unfold newSpeedCheck at h
  cases h1 : newSpeedFlags G P limit 0 v with
  | error e => rw [h1] at h; simp at h
  | ok fl =>
    obtain ⟨l, screen, hd, hs⟩ := newSpeedFlags_params.2.2 fl h1 hl
    obtain ⟨s1, -, -⟩ := shipScreen_spec hs
    unfold newSpeedFlags at h1
    rw [pyAssert_bind, if_pos (by simpa using h0), pyAssert_bind, if_pos (by simp), if_neg (by omega),
      driftFixes_of_track ht, except_bind_ok, hs, except_bind_ok, zero_mul, speedLoop_zero] at h1
    · simp at h1
    · intro hc
      have : ((List.range v.length).map fun i => (⟨lat i, lon i, hrs i⟩ : Fix)).length = v.length := by simp
      rw [hc] at this
      simp at this
      omega
    · intro e x he hx
      rw [List.getLast?_eq_getElem?, List.length_map, List.length_range, List.getElem?_map,
        List.getElem?_range (by omega)] at he
      simp only [Option.map_some, Option.some.injEq] at he
      subst he
      simp only [List.mem_map, List.mem_range] at hx
      obtain ⟨i, hi, rfl⟩ := hx
      exact track_mono ht (by omega) (by omega)
    · intro i a ha
      have hi := lt_of_get ha
      simp only [List.length_map, List.length_range] at hi
      unfold newSpeedWindow
      have hg : screen[i]? = some screen[i] := List.getElem?_eq_getElem (by omega)
      rw [pyIndex_eq_ok hg, except_bind_ok]
      split
      · exact ⟨_, rfl⟩
      · exact ⟨_, rfl⟩
    · omega
    · simp

/-- Parameters for examples. -/
def driftIquam : IquamParams := ⟨5, 15, 5, 1, 2⟩

/-- Five reports; the third is far off. -/
def driftTrack : List Report :=
  [sampleAt 0 0 0, sampleAt 5 0 10, sampleAt 10 0 150, sampleAt 15 0 30, sampleAt 20 0 100].zipWith
    (fun r t => r.setext "time_diff" t) [none, some 5, some 5, some 5, some 5]

/-- Non-vacuity: the third report breaks the ship speed limit and is screened out, so that only the fast last leg is
flagged. -/
example : (newSpeedCheck flatGeo driftIquam 3 (1/5) driftTrack).map (fun v => v.map fun r => r.getQc "POS" "drf_spd")
    = .ok [0, 0, 0, 1, 1] := by
  decide +kernel

example : ∀ r ∈ driftTrack, r.Placed := by
  have key : ∀ (h lat lon : Rat) (t : Option Rat), 0 ≤ h → h < 24 → lon ≤ 180 → ((sampleAt h lat lon).setext "time_diff" t).Placed :=
    fun h lat lon t h0 h1 h2 => placed_of_data (b := sampleAt h lat lon) rfl (sampleAt_placed h lat lon h0 h1 h2)
  intro r hr
  simp only [driftTrack, List.zipWith_cons_cons, List.zipWith_nil_left, List.mem_cons, List.not_mem_nil, or_false] at hr
  rcases hr with rfl | rfl | rfl | rfl | rfl <;> exact key _ _ _ _ (by norm_num) (by norm_num) (by norm_num)

end MarineQC
