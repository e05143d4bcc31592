import Verif.Alone.Veil

/-!
# The checks of ships on reports without their background values
-/

namespace MarineQC

open Spec

/-! ## Voyages -/

theorem veil_setDiff (r : Report) (d : Diff) : veil (r.setDiff d) = (veil r).setDiff d := by
  unfold Report.setDiff
  rw [veil_setext _ (by decide), veil_setext _ (by decide), veil_setext _ (by decide), veil_setext _ (by decide)]

theorem veil_clearDiff (r : Report) : veil r.clearDiff = (veil r).clearDiff := by
  unfold Report.clearDiff
  rw [veil_setext _ (by decide), veil_setext _ (by decide), veil_setext _ (by decide), veil_setext _ (by decide)]

theorem veil_setAlt (r : Report) (d : Option Diff) : veil (r.setAlt d) = (veil r).setAlt d := by
  unfold Report.setAlt
  rw [veil_setext _ (by decide), veil_setext _ (by decide), veil_setext _ (by decide), veil_setext _ (by decide)]

theorem addReport_veil (G : Geo) (v : List Report) (r : Report) :
    addReport G (v.map veil) (veil r) = (addReport G v r).map (List.map veil) := by
  unfold addReport
  rw [List.getLast?_map]
  cases v.getLast? with
  | none =>
    show Except.ok _ = Except.ok _
    rw [List.map_singleton, veil_clearDiff]
  | some p =>
    simp only [Option.map_some, exMap_bind, veil_sub]
    congr 1
    funext d
    show Except.ok _ = Except.ok _
    rw [List.map_append, List.map_singleton, veil_setDiff]

theorem build_veil (G : Geo) (l v : List Report) :
    (l.map veil).foldlM (addReport G) (v.map veil) = (l.foldlM (addReport G) v).map (List.map veil) := by
  induction l generalizing v with
  | nil => rfl
  | cons r l ih =>
    rw [List.map_cons, List.foldlM_cons, List.foldlM_cons, addReport_veil, exBind_map, exMap_bind]
    congr 1
    funext a
    exact ih a

theorem calcAlternate_veil (G : Geo) (v : List Report) :
    calcAlternate G (v.map veil) = (calcAlternate G v).map (List.map veil) := by
  unfold calcAlternate
  rw [mapM_then_map, List.length_map]
  congr 1
  funext i
  unfold alternateAt
  simp only [pyIndex_map, exBind_map, exMap_bind, List.length_map]
  congr 1
  funext r
  split_ifs
  · simp only [exMap_bind, veil_sub, except_pure, exMap_ok, veil_setAlt]
  · simp only [except_pure, exMap_ok, veil_setAlt]

theorem getSpeed_veil (v : List Report) : getSpeed (v.map veil) = getSpeed v := by
  unfold getSpeed
  rw [map_then_mapM]
  rfl

theorem writeFlags_veil (v : List Report) (t f : String) (fl : List Int) :
    writeFlags (v.map veil) t f fl = (writeFlags v t f fl).map (List.map veil) := by
  unfold writeFlags
  have e : (v.map veil).zip fl = (v.zip fl).map fun p => (veil p.1, p.2) := by
    rw [List.zip_map_left]
    rfl
  rw [mapM_then_map, e, map_then_mapM]
  congr 1
  funext p
  exact setQc_veil p.1 t f p.2

theorem readFlags_veil (v : List Report) (t f : String) :
    readFlags (v.map veil) t f = readFlags v t f := by
  unfold readFlags
  rw [List.map_map]
  rfl

/-! ## Track check -/

theorem distr1At_veil (G : Geo) (v : List Report) (i : Nat) : distr1At G (v.map veil) i = distr1At G v i := by
  unfold distr1At distrAt
  simp only [pyIndex_map, exBind_map, veil_getvar _ (show "vsi" ∉ backNames by decide),
    veil_getvar _ (show "dsi" ∉ backNames by decide), veil_getvar _ (show "LAT" ∉ backNames by decide),
    veil_getvar _ (show "LON" ∉ backNames by decide), veil_getvar _ (show "time_diff" ∉ backNames by decide)]

theorem distr2At_veil (G : Geo) (v : List Report) (i : Nat) : distr2At G (v.map veil) i = distr2At G v i := by
  unfold distr2At distrAt
  simp only [pyIndex_map, exBind_map, veil_getvar _ (show "vsi" ∉ backNames by decide),
    veil_getvar _ (show "dsi" ∉ backNames by decide), veil_getvar _ (show "LAT" ∉ backNames by decide),
    veil_getvar _ (show "LON" ∉ backNames by decide), veil_getvar _ (show "time_diff" ∉ backNames by decide)]

theorem midptOf_veil (G : Geo) (v : List Report) (i : Nat) : midptOf G (v.map veil) i = midptOf G v i := by
  unfold midptOf midptAt
  simp only [pyIndex_map, exBind_map, veil_getvar _ (show "LAT" ∉ backNames by decide),
    veil_getvar _ (show "LON" ∉ backNames by decide), veil_getvar _ (show "time_diff" ∉ backNames by decide)]

theorem trackFlag_veil (P : TrackParams) (amax : Rat) (v : List Report) (fwd rev mid : List (Option Rat)) (i : Nat) :
    trackFlag P amax (v.map veil) fwd rev mid i = trackFlag P amax v fwd rev mid i := by
  unfold trackFlag speedTest otherTests
  simp only [pyIndex_map, exBind_map, veil_getvar _ (show "vsi" ∉ backNames by decide),
    veil_getvar _ (show "dsi" ∉ backNames by decide), veil_getvar _ (show "speed" ∉ backNames by decide),
    veil_getvar _ (show "alt_speed" ∉ backNames by decide), veil_getvar _ (show "course" ∉ backNames by decide),
    veil_getvar _ (show "time_diff" ∉ backNames by decide)]

theorem trackFlags_veil (G : Geo) (P : TrackParams) (v : List Report) :
    trackFlags G P (v.map veil) = trackFlags G P v := by
  have e1 : meansp (v.map veil) = meansp v := by unfold meansp; rw [getSpeed_veil]
  have e2 : distr1 G (v.map veil) = distr1 G v := by
    unfold distr1
    rw [List.length_map]
    congr 2
    funext i
    exact distr1At_veil G v i
  have e3 : distr2 G (v.map veil) = distr2 G v := by
    unfold distr2
    rw [List.length_map]
    congr 2
    funext i
    exact distr2At_veil G v i
  have e4 : midpt G (v.map veil) = midpt G v := by
    unfold midpt
    rw [List.length_map]
    congr 2
    funext i
    exact midptOf_veil G v i
  unfold trackFlags
  rw [e1, getSpeed_veil, e2, e3, e4, List.length_map]
  have e5 : ∀ amax fwd rev mid, trackFlag P amax (v.map veil) fwd rev mid = trackFlag P amax v fwd rev mid :=
    fun _ _ _ _ => funext fun i => trackFlag_veil P _ v _ _ _ i
  simp only [e5]

theorem writeBoth_veil (v : List Report) (f g : String) (fl gl : List Int) :
    writeBoth (v.map veil) f g fl gl = (writeBoth v f g fl gl).map (List.map veil) := by
  unfold writeBoth
  rw [writeFlags_veil v _ , exBind_map, exMap_bind]
  congr 1
  funext a
  exact writeFlags_veil a _ g gl

theorem constant_veil (v : List Report) (x : Int) : ((v.map veil).map fun _ => x) = v.map fun _ => x := by
  rw [List.map_map]
  rfl

theorem earlyDeck720_veil (r : Report) : earlyDeck720 (veil r) = earlyDeck720 r := by
  unfold earlyDeck720
  rw [veil_getint, veil_getint]

theorem trackCheck_veil (G : Geo) (P : TrackParams) (v : List Report) :
    trackCheck G P (v.map veil) = (trackCheck G P v).map (List.map veil) := by
  unfold trackCheck
  rw [List.head?_map]
  cases v.head? with
  | none => rfl
  | some r =>
    simp only [Option.map_some, veil_id, veil_getint,
      veil_getint, List.length_map, constant_veil, earlyDeck720_veil]
    split_ifs
    · exact writeBoth_veil ..
    · exact writeBoth_veil ..
    · exact writeBoth_veil ..
    · rw [calcAlternate_veil, exBind_map, exMap_bind]
      congr 1
      funext a
      rw [trackFlags_veil, exMap_bind]
      congr 1
      funext fl
      rw [constant_veil]
      exact writeBoth_veil ..

/-! ## Speed and spikes -/

theorem iquam_veil (G : Geo) (P : IquamParams) (v : List Report) :
    iquamTrackCheck G P (v.map veil) = (iquamTrackCheck G P v).map (List.map veil) := by
  have e : iquamFlags G P (v.map veil) = iquamFlags G P v := by
    have eb : ∀ lim, iquamBad G P lim (v.map veil) = iquamBad G P lim v := by
      intro lim
      funext t1 t2
      unfold iquamBad
      simp only [pyIndex_map, exBind_map, veil_sub]
    unfold iquamFlags
    rw [List.head?_map]
    cases v.head? with
    | none => rfl
    | some r =>
      simp only [Option.map_some, veil_id, veil_getint,
        veil_getint, List.length_map, eb, readFlags_veil v]
  unfold iquamTrackCheck
  rw [e, exMap_bind]
  congr 1
  funext fl
  exact writeFlags_veil v _ _ fl

theorem spike_veil (G : Geo) (P : SpikeParams) (v : List Report) :
    spikeCheck G P "SST" (v.map veil) = (spikeCheck G P "SST" v).map (List.map veil) := by
  have e : spikeFlags G P "SST" (v.map veil) = spikeFlags G P "SST" v := by
    have eb : ∀ lim, spikeBad G P lim "SST" (v.map veil) = spikeBad G P lim "SST" v := by
      intro lim
      funext t1 t2
      unfold spikeBad
      simp only [pyIndex_map, exBind_map, veil_sub, veil_getvar _ (show "SST" ∉ backNames by decide)]
    unfold spikeFlags
    rw [List.head?_map]
    cases v.head? with
    | none => rfl
    | some r =>
      simp only [Option.map_some, veil_getint, List.length_map, eb,
        readFlags_veil v]
  unfold spikeCheck
  rw [e, exMap_bind]
  congr 1
  funext fl
  exact writeFlags_veil v _ _ fl

/-! ## Values -/

theorem valueIndex_veil (rnd : Rat → Rat) (v : List Report) {t : String} (ht : t ∉ backNames) :
    valueIndex rnd (v.map veil) t = valueIndex rnd v t := by
  unfold valueIndex
  rw [List.zipIdx_map, List.foldl_map]
  simp only [Prod.map_fst, Prod.map_snd, veil_getvar _ ht, id_eq]

theorem allCount_veil (v : List Report) {t : String} (ht : t ∉ backNames) : allCount (v.map veil) t = allCount v t := by
  unfold allCount
  rw [List.foldl_map]
  simp only [veil_getvar _ ht]

theorem zeros_veil (v : List Report) (t f : String) :
    ((readFlags (v.map veil) t f).map fun _ => (0 : Int)) = (readFlags v t f).map fun _ => 0 := by
  unfold readFlags
  simp only [List.map_map]
  rfl

theorem repeatedFlags_veil (rnd : Rat → Rat) (n : Int) (x : Rat) (v : List Report) {t : String} (ht : t ∉ backNames) :
    repeatedFlags rnd n x t (v.map veil) = repeatedFlags rnd n x t v := by
  unfold repeatedFlags
  rw [valueIndex_veil rnd v ht, allCount_veil v ht, zeros_veil]

theorem roundedFlags_veil (rnd : Rat → Rat) (n : Int) (x : Rat) (v : List Report) {t : String} (ht : t ∉ backNames) :
    roundedFlags rnd n x t (v.map veil) = roundedFlags rnd n x t v := by
  unfold roundedFlags
  rw [valueIndex_veil rnd v ht, allCount_veil v ht, zeros_veil]

theorem repeated_veil (rnd : Rat → Rat) (n : Int) (x : Rat) (v : List Report) {t : String} (ht : t ∉ backNames) :
    findRepeated rnd n x t (v.map veil) = (findRepeated rnd n x t v).map (List.map veil) := by
  unfold findRepeated
  rw [repeatedFlags_veil rnd n x v ht, exMap_bind]
  congr 1
  funext fl
  exact writeFlags_veil v _ _ fl

theorem rounded_veil (rnd : Rat → Rat) (n : Int) (x : Rat) (v : List Report) {t : String} (ht : t ∉ backNames) :
    findMultipleRounded rnd n x t (v.map veil) = (findMultipleRounded rnd n x t v).map (List.map veil) := by
  unfold findMultipleRounded
  rw [roundedFlags_veil rnd n x v ht, exMap_bind]
  congr 1
  funext fl
  exact writeFlags_veil v _ _ fl

/-! ## Saturation -/

theorem closeRun_veil (G : Geo) (t : Rat) (n : Int) (v : List Report) (sat : List Nat) (fl : List Int) :
    closeRun G t n (v.map veil) sat fl = closeRun G t n v sat fl := by
  unfold closeRun
  simp only [pyIndex_map, exBind_map, veil_sub]

theorem satStep_veil (G : Geo) (t : Rat) (n : Int) (v : List Report) (s : List Nat × List Int) (p : Report × Nat) :
    satStep G t n (v.map veil) s (veil p.1, p.2) = satStep G t n v s p := by
  have e : (veil p.1).saturated = p.1.saturated := by
    unfold Report.saturated
    simp only [veil_getvar _ (show "DPT" ∉ backNames by decide), veil_getvar _ (show "AT" ∉ backNames by decide)]
  unfold satStep
  simp only [e, closeRun_veil]

theorem satFold_veil (G : Geo) (t : Rat) (n : Int) (v : List Report) (s : List Nat × List Int) :
    (v.map veil).zipIdx.foldlM (satStep G t n (v.map veil)) s = v.zipIdx.foldlM (satStep G t n v) s := by
  rw [List.zipIdx_map, List.foldlM_map]
  congr 1
  funext s p
  exact satStep_veil G t n v s p


theorem saturated_veil (G : Geo) (t : Rat) (n : Int) (v : List Report) :
    findSaturatedRuns G t n (v.map veil) = (findSaturatedRuns G t n v).map (List.map veil) := by
  have e : saturatedFlags G t n (v.map veil) = saturatedFlags G t n v := by
    unfold saturatedFlags
    rw [satFold_veil, readFlags_veil]
    congr 1
    funext s
    exact closeRun_veil ..
  unfold findSaturatedRuns
  rw [e, exMap_bind]
  congr 1
  funext fl
  exact writeFlags_veil v _ _ fl

/-! ## The checks of one ship -/

/-- The checks do not look at the background values. -/
def BlindAll (f : List Report → Except Err (List Report)) : Prop := ∀ v, f (v.map veil) = (f v).map (List.map veil)

theorem blindAll_then {f g : List Report → Except Err (List Report)} (hf : BlindAll f) (hg : BlindAll g) :
    BlindAll fun v => f v >>= g := by
  intro v
  show f (v.map veil) >>= g = Except.map (List.map veil) (f v >>= g)
  rw [hf v, exBind_map, exMap_bind]
  congr 1
  funext a
  exact hg a

theorem repeatedChecks_blind (rnd : Rat → Rat) (P : ShipParams) (ts : List String) (hts : ∀ t ∈ ts, t ∉ backNames) :
    BlindAll (repeatedChecks rnd P ts) := by
  induction ts with
  | nil => exact fun _ => rfl
  | cons t ts ih =>
    exact blindAll_then (fun v => repeated_veil rnd P.repCount P.repShare v (hts t (by simp))) (ih fun t ht => hts t (by simp [ht]))

theorem shipChecks_blind (G : Geo) (rnd : Rat → Rat) (P : ShipParams) : BlindAll (shipChecks G rnd P) :=
  blindAll_then (trackCheck_veil G P.track) <| blindAll_then (iquam_veil G P.iquam) <| blindAll_then (spike_veil G P.spike) <|
    blindAll_then (saturated_veil G P.satTime P.satRun) <|
    blindAll_then (fun v => rounded_veil rnd P.roundCount P.roundShare v (by decide)) (repeatedChecks_blind rnd P _ (by decide))

end MarineQC
