import Verif.Base.ShipFlags

/-!
# C99-C101: the checks of ships in the main program
-/

namespace MarineQC

open Spec

/-! ## Pairs of reports before and after -/

theorem zip_filter_id (i : Option String) : ∀ a b : List Report, b.map Report.id = a.map Report.id →
    (a.zip b).filter (fun p => ofId i p.1) = (a.filter (ofId i)).zip (b.filter (ofId i)) := by
  intro a
  induction a with
  | nil => intro b _; simp
  | cons r a ih =>
    intro b h
    cases b with
    | nil => simp at h
    | cons s b =>
      simp only [List.map_cons, List.cons.injEq] at h
      rw [List.zip_cons_cons]
      by_cases hr : ofId i r = true
      · have hs : ofId i s = true := by unfold ofId at *; rw [h.1]; exact hr
        rw [List.filter_cons_of_pos (by simpa using hr), List.filter_cons_of_pos hr, List.filter_cons_of_pos hs,
          List.zip_cons_cons, ih b h.2]
      · have hs : ¬ ofId i s = true := by unfold ofId at *; rw [h.1]; exact hr
        rw [List.filter_cons_of_neg (by simpa using hr), List.filter_cons_of_neg hr, List.filter_cons_of_neg hs, ih b h.2]

theorem chosenPairs_of {q : QcFilter} {i : Option String} {a b : List Report} (h : b.map Report.id = a.map Report.id) :
    chosenPairs q i a b = ((a.filter (ofId i)).zip (b.filter (ofId i))).filter fun p => chosenFor q i p.1 := by
  rw [← zip_filter_id i a b h, List.filter_filter]
  unfold chosenPairs
  congr 1
  funext p
  unfold chosenFor ofId
  by_cases h1 : p.1.id = i <;> simp [h1]

theorem refill_pairs (keep : Report → Bool) : ∀ reps w : List Report, w.length = (reps.filter keep).length →
    (reps.zip (refill keep reps w)).filter (fun p => keep p.1) = (reps.filter keep).zip w ∧
    ∀ p ∈ reps.zip (refill keep reps w), ¬ keep p.1 = true → p.2 = p.1 := by
  intro reps
  induction reps with
  | nil => intro w _; simp [refill]
  | cons r reps ih =>
    intro w hw
    by_cases hk : keep r = true
    · rw [List.filter_cons_of_pos hk] at hw ⊢
      cases w with
      | nil => simp at hw
      | cons x w =>
        obtain ⟨i1, i2⟩ := ih w (by simpa using hw)
        rw [refill_keep hk, List.zip_cons_cons, List.filter_cons_of_pos (by simpa using hk), List.zip_cons_cons, i1]
        refine ⟨rfl, fun p hp hn => ?_⟩
        rcases List.mem_cons.mp hp with rfl | hp
        · exact absurd hk hn
        · exact i2 p hp hn
    · rw [List.filter_cons_of_neg hk] at hw ⊢
      obtain ⟨i1, i2⟩ := ih w hw
      rw [refill_skip hk, List.zip_cons_cons, List.filter_cons_of_neg (by simpa using hk), i1]
      refine ⟨rfl, fun p hp hn => ?_⟩
      rcases List.mem_cons.mp hp with rfl | hp
      · rfl
      · exact i2 p hp hn

/-- What a completed loop over the platforms does, for any check that keeps the identifiers. -/
theorem shipPass_pairs {G : Geo} {check : List Report → Except Err (List Report)} (hc : KeepsIds check) {l : List Report}
    {q : QcFilter} {d' : Deck} (h : shipPass G check ((Deck.empty.ofReports l).addFilter q) = .ok d') :
    d'.reps.map Report.id = l.map Report.id ∧
    (∀ p ∈ l.zip d'.reps, ¬ Passes q p.1 → p.2 = p.1) ∧
    ∀ i ∈ l.map Report.id, ∃ v, ((chosenPairs q i l d'.reps).map (·.1)).foldlM (addReport G) [] = .ok v ∧
      check v = .ok ((chosenPairs q i l d'.reps).map (·.2)) := by
  have hi := ofReports_indexed l q
  have hreps : ((Deck.empty.ofReports l).addFilter q).reps = l := by
    show (Deck.empty.ofReports l).reps = l
    rw [ofReports_reps]; rfl
  rw [shipPass_eq G check hc _ hi, hreps] at h
  cases h1 : shipRuns G check q (((Deck.empty.ofReports l).addFilter q).idtracker.map (·.1)) l with
  | error e =>
    change (shipRuns G check q (((Deck.empty.ofReports l).addFilter q).idtracker.map (·.1)) l).map _ = _ at h
    rw [h1] at h; simp [Except.map] at h
  | ok reps =>
    change (shipRuns G check q (((Deck.empty.ofReports l).addFilter q).idtracker.map (·.1)) l).map _ = _ at h
    rw [h1] at h
    simp only [Except.map, Except.ok.injEq] at h
    subst h
    obtain ⟨b1, b2, -⟩ := (shipRuns_alone G check hc q _ hi.1 l).1 reps h1
    have key : ∀ i ∈ l.map Report.id, ∃ v w, (l.filter (chosenFor q i)).foldlM (addReport G) [] = .ok v ∧ check v = .ok w ∧
        reps.filter (ofId i) = refill (chosenFor q i) (l.filter (ofId i)) w ∧ w.length = (l.filter (chosenFor q i)).length := by
      intro i hin
      have hin' : i ∈ ((Deck.empty.ofReports l).addFilter q).idtracker.map (·.1) := by
        rw [hi.2.1 i, hreps]
        obtain ⟨r, hr, e⟩ := List.mem_map.mp hin
        exact ⟨r, hr, e⟩
      obtain ⟨v, w, c1, c2, c3⟩ := shipRun_ok (b2 i hin')
      have hf : (l.filter (ofId i)).filter (chosenFor q i) = l.filter (chosenFor q i) := by
        rw [List.filter_filter]
        congr 1
        funext r
        by_cases h : chosenFor q i r = true
        · rw [h, Bool.true_and]; exact decide_eq_true (chosenFor_id h)
        · simp [Bool.eq_false_iff.mpr h]
      rw [hf] at c1
      refine ⟨v, w, c1, c2, c3, ?_⟩
      have e1 := congrArg List.length (hc v w c2)
      have e2 := (build_only G _ _ c1).length_eq
      simp only [List.length_map] at e1
      omega
    have hff : ∀ i, (l.filter (ofId i)).filter (chosenFor q i) = l.filter (chosenFor q i) := by
      intro i
      rw [List.filter_filter]
      congr 1
      funext r
      by_cases h : chosenFor q i r = true
      · rw [h, Bool.true_and]; exact decide_eq_true (chosenFor_id h)
      · simp [Bool.eq_false_iff.mpr h]
    refine ⟨b1, ?_, ?_⟩
    · intro p hp hn
      have hin : p.1.id ∈ l.map Report.id := List.mem_map_of_mem (List.of_mem_zip hp).1
      obtain ⟨v, w, c1, c2, c3, c4⟩ := key _ hin
      have hmem : p ∈ (l.zip reps).filter fun x => ofId p.1.id x.1 := List.mem_filter.mpr ⟨hp, by simp [ofId]⟩
      rw [zip_filter_id _ _ _ b1, c3] at hmem
      refine (refill_pairs (chosenFor q p.1.id) _ w (by rw [hff]; exact c4)).2 p hmem ?_
      unfold chosenFor
      simp [hn]
    · intro i hin
      obtain ⟨v, w, c1, c2, c3, c4⟩ := key i hin
      have : chosenPairs q i l reps = (l.filter (chosenFor q i)).zip w := by
        rw [chosenPairs_of b1, c3, (refill_pairs _ _ w (by rw [hff]; exact c4)).1, hff]
      show ∃ v, ((chosenPairs q i l reps).map (·.1)).foldlM (addReport G) [] = .ok v ∧
        check v = .ok ((chosenPairs q i l reps).map (·.2))
      rw [this, List.map_fst_zip (by omega), List.map_snd_zip (by omega)]
      exact ⟨v, c1, c2⟩

/-! ## The properties -/

/-- **C99.**  Every ship is checked on its own: what the program makes of the reports of a platform is what it makes of them
when there are no other reports; and the checks complete for all platforms together when they complete for each. -/
theorem C99_platform_alone (G : Geo) (rnd : Rat → Rat) (P : ShipParams) (l : List Report) (q : QcFilter) :
    (∀ d', shipPass G (shipChecks G rnd P) ((Deck.empty.ofReports l).addFilter q) = .ok d' →
      d'.filter = q ∧ d'.idtracker = (Deck.empty.ofReports l).idtracker ∧ d'.reps.map Report.id = l.map Report.id ∧
      ∀ i, ∃ d'', shipPass G (shipChecks G rnd P)
          ((Deck.empty.ofReports (l.filter fun r => decide (r.id = i))).addFilter q) = .ok d'' ∧
        d''.reps = d'.reps.filter fun r => decide (r.id = i)) ∧
    ((∀ i, ∃ d'', shipPass G (shipChecks G rnd P)
        ((Deck.empty.ofReports (l.filter fun r => decide (r.id = i))).addFilter q) = .ok d'') →
      ∃ d', shipPass G (shipChecks G rnd P) ((Deck.empty.ofReports l).addFilter q) = .ok d') :=
  shipPass_alone G _ (shipChecks_keepsIds G rnd P) l q

/-- **C100.**  The checks of ships leave reports that do not pass the filter as they were; those of a platform that do get
the flags of the specification, and nothing else of them changes. -/
theorem C100_ship_flags (G : Geo) (hG : IsDistance G) (rnd : Rat → Rat) (P : ShipParams) (hP : GoodShipParams P)
    (l : List Report) (q : QcFilter) (hp : ∀ r ∈ l, Passes q r → r.Placed) (d' : Deck)
    (h : shipPass G (shipChecks G rnd P) ((Deck.empty.ofReports l).addFilter q) = .ok d') :
    d'.reps.length = l.length ∧
    (∀ (k : Nat) (r r' : Report), l[k]? = some r → d'.reps[k]? = some r' → ¬ Passes q r → r' = r) ∧
    ∀ r ∈ l, ShipFlags G rnd P ((chosenPairs q r.id l d'.reps).map (·.1)) ((chosenPairs q r.id l d'.reps).map (·.2)) := by
  obtain ⟨h1, h2, h3⟩ := shipPass_pairs (shipChecks_keepsIds G rnd P) h
  refine ⟨by simpa using congrArg List.length h1, ?_, ?_⟩
  · intro k r r' hr hr' hn
    exact h2 (r, r') (List.mem_of_getElem? (i := k) (by rw [List.getElem?_zip_eq_some]; exact ⟨hr, hr'⟩)) hn
  · intro r hr
    obtain ⟨v, c1, c2⟩ := h3 r.id (List.mem_map_of_mem hr)
    refine shipChecks_flags hG hP ?_ c1 c2
    intro s hs
    obtain ⟨p, hp1, rfl⟩ := List.mem_map.mp hs
    unfold chosenPairs at hp1
    rw [List.mem_filter, decide_eq_true_eq] at hp1
    exact hp p.1 (List.of_mem_zip hp1.1).1 hp1.2.2

/-! ## Completion -/

theorem iquam_completes (G : Geo) (hG : IsDistance G) {P : IquamParams} (hT : 0 < P.deltaT) (hD : 0 ≤ P.deltaD)
    (hb : 0 ≤ P.buoySpeedLimit) (hsh : 0 ≤ P.shipSpeedLimit) {v : List Report} (hp : ∀ r ∈ v, r.Placed) :
    ∃ v', iquamTrackCheck G P v = .ok v' := by
  classical
  cases v with
  | nil => exact ⟨[], rfl⟩
  | cons r0 v =>
    by_cases hgen : idIsGeneric r0.id (r0.getint "YR") = true
    · have hf : iquamFlags G P (r0 :: v) = .ok (List.replicate (r0 :: v).length 0) := by
        unfold iquamFlags
        simp only [List.head?_cons, hgen, if_true]
        rw [set_all_zero _ _ (by simp [readFlags])]
      unfold iquamTrackCheck
      rw [hf, except_bind_ok]
      refine writeFlags_ok (Or.inl (by decide)) ?_
      intro x hx
      have := List.eq_of_mem_replicate hx
      omega
    · obtain ⟨R, w, h1, -⟩ := C43_iquam G hG P hT hD r0 v hp (by simpa using hgen) _ rfl (by split <;> assumption)
      exact ⟨w, h1⟩

theorem spike_completes (G : Geo) (hG : IsDistance G) {P : SpikeParams} {v : List Report} (hp : ∀ r ∈ v, r.Placed) :
    ∃ v', spikeCheck G P "SST" v = .ok v' := by
  cases v with
  | nil => exact ⟨[], rfl⟩
  | cons r0 v =>
    obtain ⟨R, w, h1, -⟩ := C44_spike G hG P "SST" (.inr (by decide)) r0 v hp _ rfl
    exact ⟨w, h1⟩

theorem repeated_completes (rnd : Rat → Rat) (minCount : Int) (threshold : Rat) (t : String) (v : List Report)
    (ht : t ∈ ["SST", "AT", "AT2", "DPT", "SLP"]) (h0 : 0 ≤ threshold) (h1 : threshold ≤ 1) :
    ∃ v', findRepeated rnd minCount threshold t v = .ok v' := by
  have htype : t ∈ specialQcTypes ∨ t ∈ VARLIST := by
    simp only [List.mem_cons, List.not_mem_nil, or_false] at ht
    rcases ht with rfl | rfl | rfl | rfl | rfl <;> decide
  have : ∃ fl, repeatedFlags rnd minCount threshold t v = .ok fl := by
    unfold repeatedFlags
    rw [pyAssert_bind, pyAssert_bind, if_pos (by simpa using ht), if_pos (by simp [h0, h1])]
    simp only [except_pure]
    split <;> exact ⟨_, rfl⟩
  obtain ⟨fl, hfl⟩ := this
  obtain ⟨g1, g2⟩ := repeatedFlags_spec hfl
  unfold findRepeated
  rw [hfl, except_bind_ok]
  refine writeFlags_ok htype ?_
  intro x hx
  obtain ⟨j, hj, rfl⟩ := List.mem_iff_getElem.1 hx
  have hr : v[j]? = some (v[j]'(by omega)) := List.getElem?_eq_getElem (by omega)
  rcases (g2 j _ hr).1 with h | h <;>
  · rw [List.getElem?_eq_getElem hj, Option.some.injEq] at h
    omega

theorem repeatedChecks_completes (rnd : Rat → Rat) (P : ShipParams) (h0 : 0 ≤ P.repShare) (h1 : P.repShare ≤ 1) :
    ∀ (ts : List String) (v : List Report), (∀ t ∈ ts, t ∈ ["SST", "AT", "AT2", "DPT", "SLP"]) →
    ∃ v', repeatedChecks rnd P ts v = .ok v' := by
  intro ts
  induction ts with
  | nil => intro v _; exact ⟨v, rfl⟩
  | cons t ts ih =>
    intro v hts
    obtain ⟨v1, hv1⟩ := repeated_completes rnd P.repCount P.repShare t v (hts t (by simp)) h0 h1
    rw [repeatedChecks, hv1, except_bind_ok]
    exact ih v1 fun t ht => hts t (by simp [ht])

/-- What the checks of ships accept. -/
structure SoundShipParams (P : ShipParams) : Prop extends GoodShipParams P where
  satRun : 0 ≤ P.satRun
  roundCount : 0 ≤ P.roundCount
  roundShare : 0 ≤ P.roundShare ∧ P.roundShare ≤ 1
  repShare : 0 ≤ P.repShare ∧ P.repShare ≤ 1

theorem shipChecks_completes (G : Geo) (hG : IsDistance G) (rnd : Rat → Rat) {P : ShipParams} (hP : SoundShipParams P)
    {l : List Report} (hp : ∀ r ∈ l, r.Placed) (hd : ∀ r ∈ l, r.getvar "dsi" ∈ dsConvert) (ho : InTimeOrder l) :
    ∃ v w, l.foldlM (addReport G) [] = .ok v ∧ shipChecks G rnd P v = .ok w := by
  have placed : ∀ x : List Report, Alike l x → ∀ r ∈ x, r.Placed := by
    intro x hx r hr
    obtain ⟨n, hn⟩ := List.mem_iff_getElem?.mp hr
    obtain ⟨s, hs, -, e⟩ := alike_get (alike_symm hx) hn
    exact placed_of_data e.symm (hp s (List.mem_of_getElem? hs))
  obtain ⟨v, a, hv, ha⟩ := C45_completes G P.track l hp hd ho
  have lv := alike_of_build hv
  have la := alike_trans lv (alike_of_step (track_step lv ha).1)
  obtain ⟨b, hb⟩ := iquam_completes G hG hP.deltaT hP.deltaD hP.buoy hP.ship (placed a la)
  have lb := alike_trans la (alike_of_step (iquam_keeps hb))
  obtain ⟨c, hc⟩ := spike_completes G hG (P := P.spike) (placed b lb)
  have lc := alike_trans lb (alike_of_step (spike_keeps hc))
  obtain ⟨d, hd'⟩ := C41_completes G P.satTime P.satRun hP.satRun c (placed c lc)
  obtain ⟨e, he⟩ := (C42_completes rnd P.roundCount P.roundShare "DPT" d (by decide) hP.roundShare.1 hP.roundShare.2
    hP.roundCount).2
  obtain ⟨w, hw⟩ := repeatedChecks_completes rnd P hP.repShare.1 hP.repShare.2 ["SST", "AT", "AT2", "DPT", "SLP"] e
    (fun t ht => ht)
  exact ⟨v, w, hv, shipChecks_ok.mpr ⟨a, b, c, d, e, ha, hb, hc, hd', he, hw⟩⟩

/-- **C101 (in part).**  The checks of ships complete when the reports that pass the filter have a position and a time, and
those of each platform come in time order.  (Missing: files whose reports are not in time order for each platform.) -/
theorem C101_completes_partial (G : Geo) (hG : IsDistance G) (rnd : Rat → Rat) (P : ShipParams) (hP : SoundShipParams P)
    (l : List Report) (q : QcFilter) (hp : ∀ r ∈ l, Passes q r → r.Placed ∧ r.getvar "dsi" ∈ dsConvert)
    (ho : ∀ i, InTimeOrder (l.filter fun r => decide (r.id = i ∧ Passes q r))) :
    ∃ d', shipPass G (shipChecks G rnd P) ((Deck.empty.ofReports l).addFilter q) = .ok d' := by
  have hc := shipChecks_keepsIds G rnd P
  apply (shipPass_alone G _ hc l q).2
  intro i
  by_cases hne : l.filter (ofId i) = []
  · rw [hne]; exact ⟨_, rfl⟩
  · rw [shipPass_single G _ hc q i _ (by
      intro r hr
      exact of_decide_eq_true (List.mem_filter.mp hr).2) hne]
    have hf : (l.filter (ofId i)).filter (chosenFor q i) = l.filter (chosenFor q i) := by
      rw [List.filter_filter]
      congr 1
      funext r
      by_cases h : chosenFor q i r = true
      · rw [h, Bool.true_and]; exact decide_eq_true (chosenFor_id h)
      · simp [Bool.eq_false_iff.mpr h]
    have hm : ∀ r ∈ l.filter (chosenFor q i), r.Placed ∧ r.getvar "dsi" ∈ dsConvert := by
      intro r hr
      rw [List.mem_filter] at hr
      exact hp r hr.1 (of_decide_eq_true hr.2).2
    obtain ⟨v, w, h1, h2⟩ := shipChecks_completes G hG rnd hP (fun r hr => (hm r hr).1) (fun r hr => (hm r hr).2) (ho i)
    rw [shipRun_of (by rw [hf]; exact h1) h2]
    exact ⟨_, rfl⟩

/-! ## Examples -/

/-- Parameters of the checks of ships, for examples. -/
def sampleShipParams : ShipParams where
  track := sampleTrackParams
  iquam := ⟨15, 60, 11, 1 / 100, 5⟩
  spike := ⟨1 / 2, 1, 1, 1, 5⟩
  satTime := 48
  satRun := 4
  roundCount := 20
  roundShare := 1 / 2
  repCount := 2
  repShare := 7 / 10

theorem sampleShipParams_sound : SoundShipParams sampleShipParams := by
  refine ⟨⟨?_, ?_, ?_, ?_⟩, ?_, ?_, ⟨?_, ?_⟩, ?_, ?_⟩ <;> norm_num [sampleShipParams]

/-- A report of a ship with a temperature, for examples. -/
def sampleShipAt (i : String) (h lon sst : Rat) : Report :=
  { sampleRep i [("YR", 2000), ("MO", 1), ("DY", 1), ("HR", h), ("LAT", 0), ("LON", lon), ("SST", sst)] with
    qc := fun k => if k ∈ ["POSdate", "POStime", "POSpos", "POSblklst"] then some 0 else none }

/-- The reports of two ships, in turn; one of them has failed the time check. -/
def sampleFleet : List Report :=
  [sampleShipAt "SHIPA" 0 0 10, sampleShipAt "SHIPB" 0 50 20, sampleShipAt "SHIPA" 6 100 10,
    sampleShipAt "SHIPB" 1 50 21, { sampleShipAt "SHIPA" 7 1 10 with qc := fun k => if k = "POStime" then some 1 else none },
    sampleShipAt "SHIPA" 12 2 10, sampleShipAt "SHIPB" 2 50 50, sampleShipAt "SHIPB" 3 50 22]

/-- Non-vacuity: the report of the first ship off its track, the jump in temperature of the second and the repeated
temperature of the first are found; the report that failed the time check is left alone. -/
example : (shipPass planeGeo (shipChecks planeGeo id sampleShipParams)
      ((Deck.empty.ofReports sampleFleet).addFilter shipFilter)).map
      (fun d => d.reps.map fun r => (r.getQc "POS" "trk", r.getQc "POS" "iquam_track", r.getQc "SST" "spike", r.getQc "SST" "rep"))
    = .ok [(0, 0, 0, 1), (0, 0, 0, 0), (1, 1, 0, 1), (0, 0, 0, 0), (9, 9, 9, 9), (0, 0, 0, 1), (0, 0, 1, 0),
        (0, 0, 0, 0)] := by
  decide +kernel

theorem planeGeo_isDistance : IsDistance planeGeo := by
  constructor
  · intro a b c d
    simp only [planeGeo]
    rw [abs_sub_comm a c, abs_sub_comm b d]
  · intro a b; simp [planeGeo]

theorem sampleShipAt_placed (i : String) (h lon sst : Rat) (h0 : 0 ≤ h) (h1 : h < 24) (hlon : lon ≤ 180) :
    (sampleShipAt i h lon sst).Placed := by
  refine ⟨?_, ?_, 2000, 1, 1, h, ?_, ?_, ?_, ?_, h0, h1, by omega, by omega, by omega, by omega⟩
  · simp [Report.lat, Report.getvar, VARLIST, sampleShipAt, sampleRep, dictGet, intVars]
  · have : ¬ lon > 180 := not_lt.2 hlon
    simp [Report.lon, Report.getvar, VARLIST, sampleShipAt, sampleRep, dictGet, intVars, if_neg this]
  all_goals simp [Report.getint, Report.getvar, VARLIST, sampleShipAt, sampleRep, dictGet, intVars, pyInt]

/-- Non-vacuity of the hypotheses of C100 and C101. -/
example : (∀ r ∈ sampleFleet, Passes shipFilter r → r.Placed ∧ r.getvar "dsi" ∈ dsConvert) ∧
    ∀ i, InTimeOrder (sampleFleet.filter fun r => decide (r.id = i ∧ Passes shipFilter r)) := by
  constructor
  · intro r hr hq
    have hd : ∀ r ∈ sampleFleet, r.getvar "dsi" ∈ dsConvert := by decide +kernel
    refine ⟨?_, hd r hr⟩
    unfold sampleFleet at hr
    simp only [List.mem_cons, List.not_mem_nil, or_false] at hr
    rcases hr with rfl | rfl | rfl | rfl | rfl | rfl | rfl | rfl
    all_goals first
      | exact sampleShipAt_placed _ _ _ _ (by norm_num) (by norm_num) (by norm_num)
      | exact absurd (hq "POS" "time" 0 (by decide)) (by decide)
  · intro i
    have hall : (sampleFleet.filter fun r => decide (Passes shipFilter r)).Pairwise fun a b => a.id = b.id →
        (match a.timeTo b with | .ok (some t) => decide (0 ≤ t) | _ => false) = true := by decide +kernel
    have hsub : List.Sublist (sampleFleet.filter fun r => decide (r.id = i ∧ Passes shipFilter r))
        (sampleFleet.filter fun r => decide (Passes shipFilter r)) := by
      have : (fun r : Report => decide (r.id = i ∧ Passes shipFilter r))
          = fun r => decide (r.id = i) && decide (Passes shipFilter r) := by funext r; rw [Bool.decide_and]
      rw [this, ← List.filter_filter]
      exact List.filter_sublist
    unfold InTimeOrder
    have hin : ∀ a ∈ sampleFleet.filter fun r => decide (r.id = i ∧ Passes shipFilter r), a.id = i := by
      intro a ha
      rw [List.mem_filter, decide_eq_true_eq] at ha
      exact ha.2.1
    refine List.Pairwise.imp_of_mem ?_ (hall.sublist hsub)
    intro a b ha hb h
    have h := h ((hin a ha).trans (hin b hb).symm)
    split at h
    · next t ht => exact ⟨t, ht, of_decide_eq_true h⟩
    · simp at h

/-- C101. Reports of one ship that are out of time order stop the whole program, even when the checks complete for every
other ship. -/
theorem C101_unordered_violation : ∃ l : List Report, (∀ r ∈ l, r.Placed ∧ r.getvar "dsi" ∈ dsConvert) ∧
    (∃ d', shipPass planeGeo (shipChecks planeGeo id sampleShipParams) ((Deck.empty.ofReports
      (l.filter fun r => decide (r.id ≠ some "SHIPB"))).addFilter shipFilter) = .ok d') ∧
    (∃ r ∈ l, r.id ≠ some "SHIPB") ∧
    shipPass planeGeo (shipChecks planeGeo id sampleShipParams) ((Deck.empty.ofReports l).addFilter shipFilter)
      = .error .assertion := by
  refine ⟨[sampleShipAt "SHIPA" 0 0 10, sampleShipAt "SHIPA" 1 (1 / 10) 10, sampleShipAt "SHIPB" 2 0 10,
    sampleShipAt "SHIPB" 1 1 10, sampleShipAt "SHIPB" (3 / 2) 2 10], ?_, ?_, ?_, ?_⟩
  · intro r hr
    have hd : ∀ r ∈ [sampleShipAt "SHIPA" 0 0 10, sampleShipAt "SHIPA" 1 (1 / 10) 10, sampleShipAt "SHIPB" 2 0 10,
        sampleShipAt "SHIPB" 1 1 10, sampleShipAt "SHIPB" (3 / 2) 2 10], r.getvar "dsi" ∈ dsConvert := by decide +kernel
    refine ⟨?_, hd r hr⟩
    simp only [List.mem_cons, List.not_mem_nil, or_false] at hr
    rcases hr with rfl | rfl | rfl | rfl | rfl <;>
      exact sampleShipAt_placed _ _ _ _ (by norm_num) (by norm_num) (by norm_num)
  · have h : ((shipPass planeGeo (shipChecks planeGeo id sampleShipParams) ((Deck.empty.ofReports
        ([sampleShipAt "SHIPA" 0 0 10, sampleShipAt "SHIPA" 1 (1 / 10) 10, sampleShipAt "SHIPB" 2 0 10,
          sampleShipAt "SHIPB" 1 1 10, sampleShipAt "SHIPB" (3 / 2) 2 10].filter
          fun r => decide (r.id ≠ some "SHIPB"))).addFilter shipFilter)).map fun _ => ()) = .ok () := by decide +kernel
    cases e : shipPass planeGeo (shipChecks planeGeo id sampleShipParams) ((Deck.empty.ofReports
        ([sampleShipAt "SHIPA" 0 0 10, sampleShipAt "SHIPA" 1 (1 / 10) 10, sampleShipAt "SHIPB" 2 0 10,
          sampleShipAt "SHIPB" 1 1 10, sampleShipAt "SHIPB" (3 / 2) 2 10].filter
          fun r => decide (r.id ≠ some "SHIPB"))).addFilter shipFilter) with
    | ok d => exact ⟨d, rfl⟩
    | error x => rw [e] at h; simp [Except.map] at h
  · exact ⟨_, List.mem_cons_self, by decide⟩
  · have h : ((shipPass planeGeo (shipChecks planeGeo id sampleShipParams) ((Deck.empty.ofReports
        [sampleShipAt "SHIPA" 0 0 10, sampleShipAt "SHIPA" 1 (1 / 10) 10, sampleShipAt "SHIPB" 2 0 10,
          sampleShipAt "SHIPB" 1 1 10, sampleShipAt "SHIPB" (3 / 2) 2 10]).addFilter shipFilter)).map fun _ => ())
        = .error .assertion := by decide +kernel
    cases e : shipPass planeGeo (shipChecks planeGeo id sampleShipParams) ((Deck.empty.ofReports
        [sampleShipAt "SHIPA" 0 0 10, sampleShipAt "SHIPA" 1 (1 / 10) 10, sampleShipAt "SHIPB" 2 0 10,
          sampleShipAt "SHIPB" 1 1 10, sampleShipAt "SHIPB" (3 / 2) 2 10]).addFilter shipFilter) with
    | ok d => rw [e] at h; simp [Except.map] at h
    | error x => rw [e] at h; simpa [Except.map] using h

end MarineQC
