import Verif.TrackOnly.Shadow
import Verif.Voyage.Sat
import Verif.Voyage.Values

/-!
# The checks of ships on reports with the same shadow
-/

namespace MarineQC

open Spec

/-! ## Voyages -/

theorem shadow_setDiff (r : Report) (d : Diff) : shadow (r.setDiff d) = (shadow r).setDiff d := rfl

theorem shadow_setAlt (r : Report) (d : Option Diff) : shadow (r.setAlt d) = (shadow r).setAlt d := rfl

theorem addReport_shadow (G : Geo) (v : List Report) (r : Report) :
    addReport G (v.map shadow) (shadow r) = (addReport G v r).map (List.map shadow) := by
  unfold addReport
  rw [List.getLast?_map]
  cases v.getLast? with
  | none => rfl
  | some p =>
    simp only [Option.map_some, exMap_bind, shadow_sub]
    congr 1
    funext d
    show Except.ok _ = Except.ok _
    rw [List.map_append]
    rfl

theorem build_shadow (G : Geo) (l v : List Report) :
    (l.map shadow).foldlM (addReport G) (v.map shadow) = (l.foldlM (addReport G) v).map (List.map shadow) := by
  induction l generalizing v with
  | nil => rfl
  | cons r l ih =>
    rw [List.map_cons, List.foldlM_cons, List.foldlM_cons, addReport_shadow, exBind_map, exMap_bind]
    congr 1
    funext a
    exact ih a

theorem calcAlternate_shadow (G : Geo) (v : List Report) :
    calcAlternate G (v.map shadow) = (calcAlternate G v).map (List.map shadow) := by
  unfold calcAlternate
  rw [mapM_then_map, List.length_map]
  congr 1
  funext i
  unfold alternateAt
  simp only [pyIndex_map, exBind_map, exMap_bind, List.length_map]
  congr 1
  funext r
  split_ifs
  · simp only [exMap_bind, shadow_sub]
    rfl
  · rfl

theorem getSpeed_shadow (v : List Report) : getSpeed (v.map shadow) = getSpeed v := by
  unfold getSpeed
  rw [map_then_mapM]
  rfl

theorem writeFlags_shadow (v : List Report) {t : String} (ht : KeptType t) (f : String) (fl : List Int) :
    writeFlags (v.map shadow) t f fl = (writeFlags v t f fl).map (List.map shadow) := by
  unfold writeFlags
  have e : (v.map shadow).zip fl = (v.zip fl).map fun p => (shadow p.1, p.2) := by
    rw [List.zip_map_left]
    rfl
  rw [mapM_then_map, e, map_then_mapM]
  congr 1
  funext p
  exact setQc_shadow p.1 ht f p.2

theorem readFlags_shadow (v : List Report) {t : String} (ht : KeptType t) (f : String) :
    readFlags (v.map shadow) t f = readFlags v t f := by
  unfold readFlags
  rw [List.map_map]
  congr 1
  funext r
  exact shadow_getQc r ht f

/-! ## Track check -/

theorem distr1At_shadow (G : Geo) (v : List Report) (i : Nat) : distr1At G (v.map shadow) i = distr1At G v i := by
  unfold distr1At distrAt
  simp only [pyIndex_map, exBind_map, shadow_getvar _ (show "vsi" ∉ mainOnly by decide),
    shadow_getvar _ (show "dsi" ∉ mainOnly by decide), shadow_getvar _ (show "LAT" ∉ mainOnly by decide),
    shadow_getvar _ (show "LON" ∉ mainOnly by decide), shadow_getvar _ (show "time_diff" ∉ mainOnly by decide)]

theorem distr2At_shadow (G : Geo) (v : List Report) (i : Nat) : distr2At G (v.map shadow) i = distr2At G v i := by
  unfold distr2At distrAt
  simp only [pyIndex_map, exBind_map, shadow_getvar _ (show "vsi" ∉ mainOnly by decide),
    shadow_getvar _ (show "dsi" ∉ mainOnly by decide), shadow_getvar _ (show "LAT" ∉ mainOnly by decide),
    shadow_getvar _ (show "LON" ∉ mainOnly by decide), shadow_getvar _ (show "time_diff" ∉ mainOnly by decide)]

theorem midptOf_shadow (G : Geo) (v : List Report) (i : Nat) : midptOf G (v.map shadow) i = midptOf G v i := by
  unfold midptOf midptAt
  simp only [pyIndex_map, exBind_map, shadow_getvar _ (show "LAT" ∉ mainOnly by decide),
    shadow_getvar _ (show "LON" ∉ mainOnly by decide), shadow_getvar _ (show "time_diff" ∉ mainOnly by decide)]

theorem trackFlag_shadow (P : TrackParams) (amax : Rat) (v : List Report) (fwd rev mid : List (Option Rat)) (i : Nat) :
    trackFlag P amax (v.map shadow) fwd rev mid i = trackFlag P amax v fwd rev mid i := by
  unfold trackFlag speedTest otherTests
  simp only [pyIndex_map, exBind_map, shadow_getvar _ (show "vsi" ∉ mainOnly by decide),
    shadow_getvar _ (show "dsi" ∉ mainOnly by decide), shadow_getvar _ (show "speed" ∉ mainOnly by decide),
    shadow_getvar _ (show "alt_speed" ∉ mainOnly by decide), shadow_getvar _ (show "course" ∉ mainOnly by decide),
    shadow_getvar _ (show "time_diff" ∉ mainOnly by decide)]

theorem trackFlags_shadow (G : Geo) (P : TrackParams) (v : List Report) :
    trackFlags G P (v.map shadow) = trackFlags G P v := by
  have e1 : meansp (v.map shadow) = meansp v := by unfold meansp; rw [getSpeed_shadow]
  have e2 : distr1 G (v.map shadow) = distr1 G v := by
    unfold distr1
    rw [List.length_map]
    congr 2
    funext i
    exact distr1At_shadow G v i
  have e3 : distr2 G (v.map shadow) = distr2 G v := by
    unfold distr2
    rw [List.length_map]
    congr 2
    funext i
    exact distr2At_shadow G v i
  have e4 : midpt G (v.map shadow) = midpt G v := by
    unfold midpt
    rw [List.length_map]
    congr 2
    funext i
    exact midptOf_shadow G v i
  unfold trackFlags
  rw [e1, getSpeed_shadow, e2, e3, e4, List.length_map]
  have e5 : ∀ amax fwd rev mid, trackFlag P amax (v.map shadow) fwd rev mid = trackFlag P amax v fwd rev mid :=
    fun _ _ _ _ => funext fun i => trackFlag_shadow P _ v _ _ _ i
  simp only [e5]

theorem writeBoth_shadow (v : List Report) (f g : String) (fl gl : List Int) :
    writeBoth (v.map shadow) f g fl gl = (writeBoth v f g fl gl).map (List.map shadow) := by
  unfold writeBoth
  rw [writeFlags_shadow v (.inl rfl), exBind_map, exMap_bind]
  congr 1
  funext a
  exact writeFlags_shadow a (.inl rfl) g gl

theorem constant_shadow (v : List Report) (x : Int) : ((v.map shadow).map fun _ => x) = v.map fun _ => x := by
  rw [List.map_map]
  rfl

theorem earlyDeck720_shadow (r : Report) : earlyDeck720 (shadow r) = earlyDeck720 r := by
  unfold earlyDeck720
  rw [shadow_getint _ (show "YR" ∉ mainOnly by decide), shadow_getint _ (show "DCK" ∉ mainOnly by decide)]

theorem trackCheck_shadow (G : Geo) (P : TrackParams) (v : List Report) :
    trackCheck G P (v.map shadow) = (trackCheck G P v).map (List.map shadow) := by
  unfold trackCheck
  rw [List.head?_map]
  cases v.head? with
  | none => rfl
  | some r =>
    simp only [Option.map_some, shadow_id, shadow_getint _ (show "YR" ∉ mainOnly by decide),
      shadow_getint _ (show "PT" ∉ mainOnly by decide), List.length_map, constant_shadow, earlyDeck720_shadow]
    split_ifs
    · exact writeBoth_shadow ..
    · exact writeBoth_shadow ..
    · exact writeBoth_shadow ..
    · rw [calcAlternate_shadow, exBind_map, exMap_bind]
      congr 1
      funext a
      rw [trackFlags_shadow, exMap_bind]
      congr 1
      funext fl
      rw [constant_shadow]
      exact writeBoth_shadow ..

/-! ## Speed and spikes -/

theorem iquam_shadow (G : Geo) (P : IquamParams) (v : List Report) :
    iquamTrackCheck G P (v.map shadow) = (iquamTrackCheck G P v).map (List.map shadow) := by
  have e : iquamFlags G P (v.map shadow) = iquamFlags G P v := by
    have eb : ∀ lim, iquamBad G P lim (v.map shadow) = iquamBad G P lim v := by
      intro lim
      funext t1 t2
      unfold iquamBad
      simp only [pyIndex_map, exBind_map, shadow_sub]
    unfold iquamFlags
    rw [List.head?_map]
    cases v.head? with
    | none => rfl
    | some r =>
      simp only [Option.map_some, shadow_id, shadow_getint _ (show "YR" ∉ mainOnly by decide),
        shadow_getint _ (show "PT" ∉ mainOnly by decide), List.length_map, eb, readFlags_shadow v (.inl rfl)]
  unfold iquamTrackCheck
  rw [e, exMap_bind]
  congr 1
  funext fl
  exact writeFlags_shadow v (.inl rfl) _ fl

theorem spike_shadow (G : Geo) (P : SpikeParams) (v : List Report) :
    spikeCheck G P "SST" (v.map shadow) = (spikeCheck G P "SST" v).map (List.map shadow) := by
  have e : spikeFlags G P "SST" (v.map shadow) = spikeFlags G P "SST" v := by
    have eb : ∀ lim, spikeBad G P lim "SST" (v.map shadow) = spikeBad G P lim "SST" v := by
      intro lim
      funext t1 t2
      unfold spikeBad
      simp only [pyIndex_map, exBind_map, shadow_sub, shadow_getvar _ (show "SST" ∉ mainOnly by decide)]
    unfold spikeFlags
    rw [List.head?_map]
    cases v.head? with
    | none => rfl
    | some r =>
      simp only [Option.map_some, shadow_getint _ (show "PT" ∉ mainOnly by decide), List.length_map, eb,
        readFlags_shadow v (.inr rfl)]
  unfold spikeCheck
  rw [e, exMap_bind]
  congr 1
  funext fl
  exact writeFlags_shadow v (.inr rfl) _ fl

/-! ## Values -/

theorem valueIndex_shadow (rnd : Rat → Rat) (v : List Report) {t : String} (ht : t ∉ mainOnly) :
    valueIndex rnd (v.map shadow) t = valueIndex rnd v t := by
  unfold valueIndex
  rw [List.zipIdx_map, List.foldl_map]
  simp only [Prod.map_fst, Prod.map_snd, shadow_getvar _ ht, id_eq]

theorem allCount_shadow (v : List Report) {t : String} (ht : t ∉ mainOnly) : allCount (v.map shadow) t = allCount v t := by
  unfold allCount
  rw [List.foldl_map]
  simp only [shadow_getvar _ ht]

theorem zeros_shadow (v : List Report) (t f : String) :
    ((readFlags (v.map shadow) t f).map fun _ => (0 : Int)) = (readFlags v t f).map fun _ => 0 := by
  unfold readFlags
  simp only [List.map_map]
  rfl

theorem repeatedFlags_shadow (rnd : Rat → Rat) (n : Int) (x : Rat) (v : List Report) {t : String} (ht : t ∉ mainOnly) :
    repeatedFlags rnd n x t (v.map shadow) = repeatedFlags rnd n x t v := by
  unfold repeatedFlags
  rw [valueIndex_shadow rnd v ht, allCount_shadow v ht, zeros_shadow]

theorem roundedFlags_shadow (rnd : Rat → Rat) (n : Int) (x : Rat) (v : List Report) {t : String} (ht : t ∉ mainOnly) :
    roundedFlags rnd n x t (v.map shadow) = roundedFlags rnd n x t v := by
  unfold roundedFlags
  rw [valueIndex_shadow rnd v ht, allCount_shadow v ht, zeros_shadow]

theorem repeated_shadow (rnd : Rat → Rat) (n : Int) (x : Rat) (v : List Report) :
    findRepeated rnd n x "SST" (v.map shadow) = (findRepeated rnd n x "SST" v).map (List.map shadow) := by
  unfold findRepeated
  rw [repeatedFlags_shadow rnd n x v (by decide), exMap_bind]
  congr 1
  funext fl
  exact writeFlags_shadow v (.inr rfl) _ fl

/-! ## Flags that are not kept -/

theorem writeFlags_drop {v w : List Report} {t : String} (ht : t ∈ ["AT", "AT2", "DPT", "SLP", "W", "D"]) {f : String}
    {fl : List Int} (hl : v.length ≤ fl.length) (h : writeFlags v t f fl = .ok w) : w.map shadow = v.map shadow := by
  unfold writeFlags at h
  induction v generalizing fl w with
  | nil => cases h; rfl
  | cons a v ih =>
    cases fl with
    | nil => simp at hl
    | cons x fl =>
      rw [List.zip_cons_cons, List.mapM_cons] at h
      simp only [bind_ok_iff, except_pure, Except.ok.injEq] at h
      obtain ⟨a', h1, w', h2, rfl⟩ := h
      rw [List.map_cons, List.map_cons, ih (by simpa using hl) h2, (setQc_drop ht h1).1]

theorem writeFlags_again {v v' w : List Report} {t f : String} {fl : List Int} (hl : v'.length = v.length)
    (h : writeFlags v t f fl = .ok w) : ∃ w', writeFlags v' t f fl = .ok w' := by
  unfold writeFlags at h ⊢
  induction v generalizing fl w v' with
  | nil =>
    rw [List.length_nil, List.length_eq_zero_iff] at hl
    subst hl
    exact ⟨_, rfl⟩
  | cons a v ih =>
    cases v' with
    | nil => simp at hl
    | cons a' v' =>
      cases fl with
      | nil => exact ⟨_, rfl⟩
      | cons x fl =>
        rw [List.zip_cons_cons, List.mapM_cons] at h
        simp only [bind_ok_iff, except_pure, Except.ok.injEq] at h
        obtain ⟨b, h1, u, h2, rfl⟩ := h
        obtain ⟨u', h3⟩ := ih (v' := v') (by simpa using hl) h2
        have h4 : ∃ b', a'.setQc t f x = .ok b' := by
          unfold Report.setQc at h1 ⊢
          simp only [pyAssert_bind] at h1 ⊢
          split_ifs at h1 ⊢
          exact ⟨_, rfl⟩
        obtain ⟨b', h4⟩ := h4
        refine ⟨b' :: u', ?_⟩
        rw [List.zip_cons_cons, List.mapM_cons, h4, h3]
        rfl

theorem closeRun_shadow (G : Geo) (t : Rat) (n : Int) (v : List Report) (sat : List Nat) (fl : List Int) :
    closeRun G t n (v.map shadow) sat fl = closeRun G t n v sat fl := by
  unfold closeRun
  simp only [pyIndex_map, exBind_map, shadow_sub]

theorem closeRun_again {G : Geo} {t : Rat} {n : Int} {v : List Report} {sat : List Nat} {fl a : List Int}
    (h : closeRun G t n v sat fl = .ok a) (fl' : List Int) : ∃ a', closeRun G t n v sat fl' = .ok a' := by
  unfold closeRun at h ⊢
  split_ifs at h ⊢ with c
  · split at h
    · simp only [bind_ok_iff] at h
      obtain ⟨ra, h1, rb, h2, d, h3, -⟩ := h
      simp only [h1, h2, h3, except_bind_ok]
      exact ⟨_, rfl⟩
    · simp at h
  · exact ⟨_, rfl⟩

theorem satStep_shadow (G : Geo) (t : Rat) (n : Int) (v : List Report) (s : List Nat × List Int) (p : Report × Nat) :
    satStep G t n (v.map shadow) s (shadow p.1, p.2) = satStep G t n v s p := by
  have e : (shadow p.1).saturated = p.1.saturated := by
    unfold Report.saturated
    simp only [shadow_getvar _ (show "DPT" ∉ mainOnly by decide), shadow_getvar _ (show "AT" ∉ mainOnly by decide)]
  unfold satStep
  simp only [e, closeRun_shadow]

theorem satStep_again {G : Geo} {t : Rat} {n : Int} {v : List Report} {s a : List Nat × List Int} {p : Report × Nat}
    (h : satStep G t n v s p = .ok a) (fl' : List Int) : ∃ f', satStep G t n v (s.1, fl') p = .ok (a.1, f') := by
  unfold satStep at h ⊢
  split_ifs at h ⊢ with c
  · cases h
    exact ⟨_, rfl⟩
  · simp only [bind_ok_iff, except_pure, Except.ok.injEq] at h
    obtain ⟨x, h1, rfl⟩ := h
    obtain ⟨x', h2⟩ := closeRun_again h1 (fl'.set p.2 0)
    refine ⟨x', ?_⟩
    simp only [h2, except_bind_ok]
    rfl

theorem satFold_again {G : Geo} {t : Rat} {n : Int} {v : List Report} (l : List (Report × Nat)) : ∀ {s a : List Nat × List Int},
    l.foldlM (satStep G t n v) s = .ok a → ∀ fl', ∃ f', l.foldlM (satStep G t n v) (s.1, fl') = .ok (a.1, f') := by
  induction l with
  | nil => intro s a h fl'; cases h; exact ⟨fl', rfl⟩
  | cons p l ih =>
    intro s a h fl'
    rw [List.foldlM_cons] at h ⊢
    simp only [bind_ok_iff] at h
    obtain ⟨b, h1, h2⟩ := h
    obtain ⟨f1, h3⟩ := satStep_again h1 fl'
    obtain ⟨f2, h4⟩ := ih h2 f1
    exact ⟨f2, by rw [h3, except_bind_ok]; exact h4⟩

theorem satFold_shadow (G : Geo) (t : Rat) (n : Int) (v : List Report) (s : List Nat × List Int) :
    (v.map shadow).zipIdx.foldlM (satStep G t n (v.map shadow)) s = v.zipIdx.foldlM (satStep G t n v) s := by
  rw [List.zipIdx_map, List.foldlM_map]
  congr 1
  funext s p
  exact satStep_shadow G t n v s p

theorem saturatedFlags_again {G : Geo} {t : Rat} {n : Int} {v v' : List Report} {fl : List Int}
    (hv : v.map shadow = v'.map shadow) (h : saturatedFlags G t n v = .ok fl) : ∃ fl', saturatedFlags G t n v' = .ok fl' := by
  unfold saturatedFlags at h ⊢
  simp only [bind_ok_iff] at h
  obtain ⟨s, h1, h2⟩ := h
  rw [← satFold_shadow, hv, satFold_shadow] at h1
  obtain ⟨f', h3⟩ := satFold_again _ h1 (readFlags v' "DPT" "repsat")
  rw [← closeRun_shadow, hv, closeRun_shadow] at h2
  obtain ⟨a', h4⟩ := closeRun_again h2 f'
  exact ⟨a', by rw [h3, except_bind_ok]; exact h4⟩

/-! ## The checks of one ship -/

/-- What one program does to reports the other does to reports with the same shadows, as far as these are concerned. -/
def Follows (f g : List Report → Except Err (List Report)) : Prop :=
  ∀ v v' w, v.map shadow = v'.map shadow → f v = .ok w → ∃ w', g v' = .ok w' ∧ w.map shadow = w'.map shadow

theorem follows_of_shadow {f : List Report → Except Err (List Report)}
    (h : ∀ v, f (v.map shadow) = (f v).map (List.map shadow)) : Follows f f := by
  intro v v' w hv hw
  have e := h v
  rw [hv, h v', hw] at e
  exact (exMap_ok_iff.mp e).imp fun _ x => ⟨x.1, x.2.symm⟩

theorem length_of_shadow {v v' : List Report} (h : v.map shadow = v'.map shadow) : v'.length = v.length := by
  have := congrArg List.length h
  simpa using this.symm

theorem repeated_drop {rnd : Rat → Rat} {n : Int} {x : Rat} {t : String} (ht : t ∈ ["AT", "AT2", "DPT", "SLP", "W", "D"])
    {v w : List Report} (h : findRepeated rnd n x t v = .ok w) : w.map shadow = v.map shadow := by
  unfold findRepeated at h
  simp only [bind_ok_iff] at h
  obtain ⟨fl, h1, h2⟩ := h
  exact writeFlags_drop ht (repeatedFlags_spec h1).1.ge h2

theorem saturated_follows (G : Geo) (t : Rat) (n : Int) : Follows (findSaturatedRuns G t n) (findSaturatedRuns G t n) := by
  intro v v' w hv h
  unfold findSaturatedRuns at h ⊢
  simp only [bind_ok_iff] at h
  obtain ⟨fl, h1, h2⟩ := h
  obtain ⟨fl', h3⟩ := saturatedFlags_again hv h1
  obtain ⟨s1, s2⟩ := saturatedFlags_spec h3
  obtain ⟨w', h4⟩ := writeFlags_ok (v := v') (t := "DPT") (f := "repsat") (fl := fl') (by decide) (by
    intro x hx
    obtain ⟨j, hj⟩ := List.mem_iff_getElem?.mp hx
    have hlt : j < v'.length := by
      rw [← s1]
      exact (List.getElem?_eq_some_iff.mp hj).1
    rcases (s2 j hlt).1 with c | c <;> rw [c] at hj <;> cases hj <;> decide)
  refine ⟨w', by rw [h3, except_bind_ok]; exact h4, ?_⟩
  rw [writeFlags_drop (by decide) (saturatedFlags_spec h1).1.ge h2, hv, writeFlags_drop (by decide) s1.ge h4]

theorem rounded_follows (rnd : Rat → Rat) (n : Int) (x : Rat) :
    Follows (findMultipleRounded rnd n x "DPT") (findMultipleRounded rnd n x "DPT") := by
  intro v v' w hv h
  unfold findMultipleRounded at h ⊢
  simp only [bind_ok_iff] at h
  obtain ⟨fl, h1, h2⟩ := h
  have h3 := h1
  rw [← roundedFlags_shadow rnd n x v (by decide), hv, roundedFlags_shadow rnd n x v' (by decide)] at h3
  obtain ⟨w', h4⟩ := writeFlags_again (length_of_shadow hv) h2
  refine ⟨w', by rw [h3, except_bind_ok]; exact h4, ?_⟩
  rw [writeFlags_drop (by decide) (roundedFlags_spec h1).1.ge h2, hv, writeFlags_drop (by decide) (roundedFlags_spec h3).1.ge h4]

theorem repeatedChecks_drop {rnd : Rat → Rat} {P : ShipParams} (ts : List String)
    (hts : ∀ t ∈ ts, t ∈ ["AT", "AT2", "DPT", "SLP", "W", "D"]) : ∀ {v w : List Report}, repeatedChecks rnd P ts v = .ok w →
    w.map shadow = v.map shadow := by
  induction ts with
  | nil => intro v w h; cases h; rfl
  | cons t ts ih =>
    intro v w h
    simp only [repeatedChecks, bind_ok_iff] at h
    obtain ⟨u, h1, h2⟩ := h
    rw [ih (fun t ht => hts t (by simp [ht])) h2, repeated_drop (hts t (by simp)) h1]

theorem follows_then {f g f' g' : List Report → Except Err (List Report)} (h : Follows f g) (h' : Follows f' g') :
    Follows (fun v => f v >>= f') (fun v => g v >>= g') := by
  intro v v' w hv hw
  simp only [bind_ok_iff] at hw
  obtain ⟨u, h1, h2⟩ := hw
  obtain ⟨u', h3, e⟩ := h v v' u hv h1
  obtain ⟨w', h4, e'⟩ := h' u u' w e h2
  exact ⟨w', by simp only [h3, except_bind_ok, h4], e'⟩

theorem repeatedChecks_follows (rnd : Rat → Rat) (P : ShipParams) :
    Follows (repeatedChecks rnd P ["SST", "AT", "AT2", "DPT", "SLP"]) (repeatedChecks rnd P ["SST"]) := by
  intro v v' w hv h
  rw [repeatedChecks] at h
  simp only [bind_ok_iff] at h
  obtain ⟨u, h1, h2⟩ := h
  obtain ⟨u', h3, e⟩ := follows_of_shadow (repeated_shadow rnd P.repCount P.repShare) v v' u hv h1
  refine ⟨u', ?_, ?_⟩
  · rw [repeatedChecks, h3]
    rfl
  · rw [repeatedChecks_drop _ (by decide) h2, e]

theorem ship_follows (G : Geo) (rnd : Rat → Rat) (P : ShipParams) : Follows (shipChecks G rnd P) (trackOnlyShip G rnd P) :=
  follows_then (follows_of_shadow (trackCheck_shadow G P.track)) <|
    follows_then (follows_of_shadow (iquam_shadow G P.iquam)) <|
    follows_then (follows_of_shadow (spike_shadow G P.spike)) <|
    follows_then (saturated_follows G P.satTime P.satRun) <|
    follows_then (rounded_follows rnd P.roundCount P.roundShare) (repeatedChecks_follows rnd P)

end MarineQC
