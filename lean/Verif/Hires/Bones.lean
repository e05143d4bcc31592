import Verif.Hires.Spec
import Verif.TrackOnly.Shadow

/-!
# The part of a report that does not depend on the climatology

`bones r` is `r` without the rest, for the comparison of the program for high resolution with the main program.
-/

namespace MarineQC

open Spec

/-- The names of values that only the main program has. -/
def hiddenNames : List String := mainOnly ++ ["OSTIA", "ICE", "BGVAR"]

/-- The keys of the flags in question. -/
def boneKeys : List String := climateFree.map fun p => p.1 ++ p.2

/-- The report without what depends on the climatology or is computed by the main program only. -/
def bones (r : Report) : Report :=
  { r with
    data := fun k => if k ∈ hiddenNames then none else r.data k
    clim := fun _ => none
    ext := fun k => if k ∈ hiddenNames then none else r.ext k
    qc := fun k => if k ∈ boneKeys then r.qc k else none }

theorem data_bones {r s : Report} (h : bones r = bones s) {k : String} (hk : k ∉ hiddenNames) : s.data k = r.data k := by
  have := congrFun (congrArg Report.data h) k
  simpa [bones, hk] using this.symm

theorem flag_bones {r s : Report} (h : bones r = bones s) {k : String} (hk : k ∈ boneKeys) : s.qc k = r.qc k := by
  have := congrFun (congrArg Report.qc h) k
  simpa [bones, hk] using this.symm

theorem bones_congr {r s : Report} (h1 : s.id = r.id) (h2 : s.uid = r.uid) (h3 : s.dt = r.dt)
    (h4 : ∀ k, k ∉ hiddenNames → s.ext k = r.ext k) (h5 : ∀ k ∈ boneKeys, s.qc k = r.qc k)
    (h6 : ∀ k, k ∉ hiddenNames → s.data k = r.data k) : bones r = bones s := by
  unfold bones
  simp only [Report.mk.injEq, true_and]
  refine ⟨h1.symm, h2.symm, ?_, ?_, ?_, h3.symm⟩ <;> funext k <;> split_ifs with c
  · rfl
  · exact (h6 k c).symm
  · exact (h5 k c).symm
  · rfl
  · rfl
  · exact (h4 k c).symm

/-! ## What is read from a report -/

theorem bones_id (r : Report) : (bones r).id = r.id := rfl

theorem bones_data (r : Report) {k : String} (h : k ∉ hiddenNames) : (bones r).data k = r.data k := if_neg h

theorem bones_ext (r : Report) {k : String} (h : k ∉ hiddenNames) : (bones r).ext k = r.ext k := if_neg h

theorem bones_getvar (r : Report) {k : String} (h : k ∉ hiddenNames) : (bones r).getvar k = r.getvar k := by
  unfold Report.getvar
  rw [bones_data r h, bones_ext r h]

theorem bones_getint (r : Report) {k : String} (h : k ∉ hiddenNames) : (bones r).getint k = r.getint k := by
  unfold Report.getint
  rw [bones_data r h]

theorem bones_lat (r : Report) : (bones r).lat = r.lat := bones_getvar r (by decide)

theorem bones_lon (r : Report) : (bones r).lon = r.lon := by
  unfold Report.lon
  rw [bones_getvar r (by decide)]

theorem bones_qc (r : Report) {k : String} (h : k ∈ boneKeys) : (bones r).qc k = r.qc k := if_pos h

theorem bones_getQc (r : Report) {t f : String} (h : t ++ f ∈ boneKeys) : (bones r).getQc t f = r.getQc t f := by
  unfold Report.getQc
  rw [bones_qc r h]

theorem bones_timeTo (a b : Report) : (bones b).timeTo (bones a) = b.timeTo a := by
  unfold Report.timeTo
  simp only [bones_getvar _ (show "HR" ∉ hiddenNames by decide), bones_getint _ (show "YR" ∉ hiddenNames by decide),
    bones_getint _ (show "MO" ∉ hiddenNames by decide), bones_getint _ (show "DY" ∉ hiddenNames by decide)]

theorem bones_sub (G : Geo) (a b : Report) : (bones a).sub G (bones b) = a.sub G b := by
  unfold Report.sub
  simp only [bones_lat, bones_lon, bones_timeTo]

/-! ## What is stored in a report -/

theorem bones_setext (r : Report) {k : String} (h : k ∉ hiddenNames) (x : Option Rat) :
    bones (r.setext k x) = (bones r).setext k x := by
  unfold bones Report.setext
  simp only [Report.mk.injEq, true_and, and_true]
  funext j
  by_cases hj : j = k
  · subst hj
    simp [h]
  · simp [hj]

theorem bones_setext_hidden (r : Report) {k : String} (h : k ∈ hiddenNames) (x : Option Rat) : bones (r.setext k x) = bones r := by
  refine Eq.symm (bones_congr (r := r) rfl rfl rfl (fun j hj => ?_) (fun _ _ => rfl) (fun _ _ => rfl))
  show (if j = k then _ else r.ext j) = r.ext j
  rw [if_neg]
  rintro rfl
  exact hj h

theorem setQc_bones (r : Report) {t f : String} (h : t ++ f ∈ boneKeys) (v : Int) :
    (bones r).setQc t f v = (r.setQc t f v).map bones := by
  unfold Report.setQc
  simp only [pyAssert_bind]
  split_ifs
  · show Except.ok _ = Except.ok _
    congr 1
    unfold bones
    simp only [Report.mk.injEq, true_and, and_true]
    funext k
    split_ifs with c1 c2 c3
    · rfl
    · exact absurd (c1 ▸ h) c2
    · rfl
    · rfl
  · rfl
  · rfl

theorem setQc_lost {r r' : Report} {t f : String} (ht : t ++ f ∉ boneKeys) {v : Int} (h : r.setQc t f v = .ok r') :
    bones r' = bones r := by
  unfold Report.setQc at h
  simp only [pyAssert_bind] at h
  split_ifs at h
  cases h
  refine Eq.symm (bones_congr (r := r) rfl rfl rfl (fun _ _ => rfl) (fun k hk => ?_) (fun _ _ => rfl))
  show (if k = t ++ f then _ else r.qc k) = r.qc k
  rw [if_neg]
  rintro rfl
  exact ht hk

/-! ## Voyages -/

theorem bones_setDiff (r : Report) (d : Diff) : bones (r.setDiff d) = (bones r).setDiff d := by
  unfold Report.setDiff
  rw [bones_setext _ (by decide), bones_setext _ (by decide), bones_setext _ (by decide), bones_setext _ (by decide)]

theorem bones_clearDiff (r : Report) : bones r.clearDiff = (bones r).clearDiff := by
  unfold Report.clearDiff
  rw [bones_setext _ (by decide), bones_setext _ (by decide), bones_setext _ (by decide), bones_setext _ (by decide)]

theorem bones_setAlt (r : Report) (d : Option Diff) : bones (r.setAlt d) = (bones r).setAlt d := by
  unfold Report.setAlt
  rw [bones_setext _ (by decide), bones_setext _ (by decide), bones_setext _ (by decide), bones_setext _ (by decide)]

theorem addReport_bones (G : Geo) (v : List Report) (r : Report) :
    addReport G (v.map bones) (bones r) = (addReport G v r).map (List.map bones) := by
  unfold addReport
  rw [List.getLast?_map]
  cases v.getLast? with
  | none =>
    show Except.ok _ = Except.ok _
    rw [List.map_singleton, bones_clearDiff]
  | some p =>
    simp only [Option.map_some, exMap_bind, bones_sub]
    congr 1
    funext d
    show Except.ok _ = Except.ok _
    rw [List.map_append, List.map_singleton, bones_setDiff]

theorem build_bones (G : Geo) (l v : List Report) :
    (l.map bones).foldlM (addReport G) (v.map bones) = (l.foldlM (addReport G) v).map (List.map bones) := by
  induction l generalizing v with
  | nil => rfl
  | cons r l ih =>
    rw [List.map_cons, List.foldlM_cons, List.foldlM_cons, addReport_bones, exBind_map, exMap_bind]
    congr 1
    funext a
    exact ih a

theorem calcAlternate_bones (G : Geo) (v : List Report) :
    calcAlternate G (v.map bones) = (calcAlternate G v).map (List.map bones) := by
  unfold calcAlternate
  rw [mapM_then_map, List.length_map]
  congr 1
  funext i
  unfold alternateAt
  simp only [pyIndex_map, exBind_map, exMap_bind, List.length_map]
  congr 1
  funext r
  split_ifs
  · simp only [exMap_bind, bones_sub, except_pure, exMap_ok, bones_setAlt]
  · simp only [except_pure, exMap_ok, bones_setAlt]

theorem getSpeed_bones (v : List Report) : getSpeed (v.map bones) = getSpeed v := by
  unfold getSpeed
  rw [map_then_mapM]
  rfl

theorem writeFlags_bones (v : List Report) {t f : String} (ht : t ++ f ∈ boneKeys) (fl : List Int) :
    writeFlags (v.map bones) t f fl = (writeFlags v t f fl).map (List.map bones) := by
  unfold writeFlags
  have e : (v.map bones).zip fl = (v.zip fl).map fun p => (bones p.1, p.2) := by
    rw [List.zip_map_left]
    rfl
  rw [mapM_then_map, e, map_then_mapM]
  congr 1
  funext p
  exact setQc_bones p.1 ht p.2

theorem readFlags_bones (v : List Report) {t f : String} (ht : t ++ f ∈ boneKeys) :
    readFlags (v.map bones) t f = readFlags v t f := by
  unfold readFlags
  rw [List.map_map]
  congr 1
  funext r
  exact bones_getQc r ht

/-! ## Track check -/

theorem distr1At_bones (G : Geo) (v : List Report) (i : Nat) : distr1At G (v.map bones) i = distr1At G v i := by
  unfold distr1At distrAt
  simp only [pyIndex_map, exBind_map, bones_getvar _ (show "vsi" ∉ hiddenNames by decide),
    bones_getvar _ (show "dsi" ∉ hiddenNames by decide), bones_getvar _ (show "LAT" ∉ hiddenNames by decide),
    bones_getvar _ (show "LON" ∉ hiddenNames by decide), bones_getvar _ (show "time_diff" ∉ hiddenNames by decide)]

theorem distr2At_bones (G : Geo) (v : List Report) (i : Nat) : distr2At G (v.map bones) i = distr2At G v i := by
  unfold distr2At distrAt
  simp only [pyIndex_map, exBind_map, bones_getvar _ (show "vsi" ∉ hiddenNames by decide),
    bones_getvar _ (show "dsi" ∉ hiddenNames by decide), bones_getvar _ (show "LAT" ∉ hiddenNames by decide),
    bones_getvar _ (show "LON" ∉ hiddenNames by decide), bones_getvar _ (show "time_diff" ∉ hiddenNames by decide)]

theorem midptOf_bones (G : Geo) (v : List Report) (i : Nat) : midptOf G (v.map bones) i = midptOf G v i := by
  unfold midptOf midptAt
  simp only [pyIndex_map, exBind_map, bones_getvar _ (show "LAT" ∉ hiddenNames by decide),
    bones_getvar _ (show "LON" ∉ hiddenNames by decide), bones_getvar _ (show "time_diff" ∉ hiddenNames by decide)]

theorem trackFlag_bones (P : TrackParams) (amax : Rat) (v : List Report) (fwd rev mid : List (Option Rat)) (i : Nat) :
    trackFlag P amax (v.map bones) fwd rev mid i = trackFlag P amax v fwd rev mid i := by
  unfold trackFlag speedTest otherTests
  simp only [pyIndex_map, exBind_map, bones_getvar _ (show "vsi" ∉ hiddenNames by decide),
    bones_getvar _ (show "dsi" ∉ hiddenNames by decide), bones_getvar _ (show "speed" ∉ hiddenNames by decide),
    bones_getvar _ (show "alt_speed" ∉ hiddenNames by decide), bones_getvar _ (show "course" ∉ hiddenNames by decide),
    bones_getvar _ (show "time_diff" ∉ hiddenNames by decide)]

theorem trackFlags_bones (G : Geo) (P : TrackParams) (v : List Report) :
    trackFlags G P (v.map bones) = trackFlags G P v := by
  have e1 : meansp (v.map bones) = meansp v := by unfold meansp; rw [getSpeed_bones]
  have e2 : distr1 G (v.map bones) = distr1 G v := by
    unfold distr1
    rw [List.length_map]
    congr 2
    funext i
    exact distr1At_bones G v i
  have e3 : distr2 G (v.map bones) = distr2 G v := by
    unfold distr2
    rw [List.length_map]
    congr 2
    funext i
    exact distr2At_bones G v i
  have e4 : midpt G (v.map bones) = midpt G v := by
    unfold midpt
    rw [List.length_map]
    congr 2
    funext i
    exact midptOf_bones G v i
  unfold trackFlags
  rw [e1, getSpeed_bones, e2, e3, e4, List.length_map]
  have e5 : ∀ amax fwd rev mid, trackFlag P amax (v.map bones) fwd rev mid = trackFlag P amax v fwd rev mid :=
    fun _ _ _ _ => funext fun i => trackFlag_bones P _ v _ _ _ i
  simp only [e5]

theorem writeBoth_bones (v : List Report) (fl gl : List Int) :
    writeBoth (v.map bones) "trk" "few" fl gl = (writeBoth v "trk" "few" fl gl).map (List.map bones) := by
  unfold writeBoth
  rw [writeFlags_bones v (by decide), exBind_map, exMap_bind]
  congr 1
  funext a
  exact writeFlags_bones a (by decide) gl

theorem constant_bones (v : List Report) (x : Int) : ((v.map bones).map fun _ => x) = v.map fun _ => x := by
  rw [List.map_map]
  rfl

theorem earlyDeck720_bones (r : Report) : earlyDeck720 (bones r) = earlyDeck720 r := by
  unfold earlyDeck720
  rw [bones_getint _ (show "YR" ∉ hiddenNames by decide), bones_getint _ (show "DCK" ∉ hiddenNames by decide)]

theorem trackCheck_bones (G : Geo) (P : TrackParams) (v : List Report) :
    trackCheck G P (v.map bones) = (trackCheck G P v).map (List.map bones) := by
  unfold trackCheck
  rw [List.head?_map]
  cases v.head? with
  | none => rfl
  | some r =>
    simp only [Option.map_some, bones_id, bones_getint _ (show "YR" ∉ hiddenNames by decide),
      bones_getint _ (show "PT" ∉ hiddenNames by decide), List.length_map, constant_bones, earlyDeck720_bones]
    split_ifs
    · exact writeBoth_bones ..
    · exact writeBoth_bones ..
    · exact writeBoth_bones ..
    · rw [calcAlternate_bones, exBind_map, exMap_bind]
      congr 1
      funext a
      rw [trackFlags_bones, exMap_bind]
      congr 1
      funext fl
      rw [constant_bones]
      exact writeBoth_bones ..

/-! ## Values -/

theorem valueIndex_bones (rnd : Rat → Rat) (v : List Report) {t : String} (ht : t ∉ hiddenNames) :
    valueIndex rnd (v.map bones) t = valueIndex rnd v t := by
  unfold valueIndex
  rw [List.zipIdx_map, List.foldl_map]
  simp only [Prod.map_fst, Prod.map_snd, bones_getvar _ ht, id_eq]

theorem allCount_bones (v : List Report) {t : String} (ht : t ∉ hiddenNames) : allCount (v.map bones) t = allCount v t := by
  unfold allCount
  rw [List.foldl_map]
  simp only [bones_getvar _ ht]

theorem zeros_bones (v : List Report) (t f : String) :
    ((readFlags (v.map bones) t f).map fun _ => (0 : Int)) = (readFlags v t f).map fun _ => 0 := by
  unfold readFlags
  simp only [List.map_map]
  rfl

theorem repeatedFlags_bones (rnd : Rat → Rat) (n : Int) (x : Rat) (v : List Report) {t : String} (ht : t ∉ hiddenNames) :
    repeatedFlags rnd n x t (v.map bones) = repeatedFlags rnd n x t v := by
  unfold repeatedFlags
  rw [valueIndex_bones rnd v ht, allCount_bones v ht, zeros_bones]

theorem roundedFlags_bones (rnd : Rat → Rat) (n : Int) (x : Rat) (v : List Report) {t : String} (ht : t ∉ hiddenNames) :
    roundedFlags rnd n x t (v.map bones) = roundedFlags rnd n x t v := by
  unfold roundedFlags
  rw [valueIndex_bones rnd v ht, allCount_bones v ht, zeros_bones]

theorem repeated_bones (rnd : Rat → Rat) (n : Int) (x : Rat) (v : List Report) :
    findRepeated rnd n x "SST" (v.map bones) = (findRepeated rnd n x "SST" v).map (List.map bones) := by
  unfold findRepeated
  rw [repeatedFlags_bones rnd n x v (by decide), exMap_bind]
  congr 1
  funext fl
  exact writeFlags_bones v (by decide) fl

end MarineQC
