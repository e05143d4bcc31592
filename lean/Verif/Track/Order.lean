import Verif.Track.Again

/-!
# C149: the track check and the other checks of a voyage may be run in either order
-/

namespace MarineQC

open Spec

namespace Spec

/-- The check is not asked to look at the alternate differences as if they were a variable. -/
def LooksElsewhere : VoyageCall → Prop
  | .rounded _ _ t => t ∉ altNames
  | .repeated _ _ t => t ∉ altNames
  | .spike _ t => t ∉ altNames
  | _ => True

end Spec

theorem iquamBad_plain (G : Geo) (P : IquamParams) (limit : Rat) (v : List Report) :
    iquamBad G P limit (v.map unmarkedReport) = iquamBad G P limit v := by
  funext i j
  unfold iquamBad
  simp only [pyIndex_through, except_bind_assoc, except_bind_ok, sub_plain]

theorem spikeBad_plain (G : Geo) (P : SpikeParams) (delta : Rat) (t : String) (ht : t ∉ altNames) (v : List Report) :
    spikeBad G P delta t (v.map unmarkedReport) = spikeBad G P delta t v := by
  funext i j
  unfold spikeBad
  simp only [pyIndex_through, except_bind_assoc, except_bind_ok, sub_plain, getvar_plain _ t ht]

theorem spikeFlags_plain (G : Geo) (P : SpikeParams) (t : String) (ht : t ∉ altNames) (v : List Report) :
    spikeFlags G P t (v.map unmarkedReport) = spikeFlags G P t v := by
  cases v with
  | nil => rfl
  | cons r l =>
    have h := spikeBad_plain G P (if r.getint "PT" = some 6 ∨ r.getint "PT" = some 7 then P.buoyDelta else P.shipDelta)
      t ht (r :: l)
    unfold spikeFlags
    simp only [List.map_cons, List.head?_cons] at h ⊢
    rw [List.length_cons, List.length_cons, List.length_map]
    have hl : (readFlags (unmarkedReport r :: l.map unmarkedReport) t "spike").length = l.length + 1 := by
      simp [readFlags_length]
    have hl' : (readFlags (r :: l) t "spike").length = l.length + 1 := by
      simp [readFlags_length]
    refine Eq.trans ?_ (eliminate_flags _ _ _ _ _ hl hl')
    exact congrArg (fun b => eliminate _ _ b _) h

theorem iquamFlags_plain (G : Geo) (P : IquamParams) (v : List Report) :
    iquamFlags G P (v.map unmarkedReport) = iquamFlags G P v := by
  cases v with
  | nil => rfl
  | cons r l =>
    have h := iquamBad_plain G P (if r.getint "PT" = some 6 ∨ r.getint "PT" = some 7 then P.buoySpeedLimit
      else P.shipSpeedLimit) (r :: l)
    have hl : (readFlags (unmarkedReport r :: l.map unmarkedReport) "POS" "iquam_track").length = l.length + 1 := by
      simp [readFlags_length]
    have hl' : (readFlags (r :: l) "POS" "iquam_track").length = l.length + 1 := by
      simp [readFlags_length]
    unfold iquamFlags
    simp only [List.map_cons, List.head?_cons] at h ⊢
    rw [List.length_cons, List.length_cons, List.length_map]
    by_cases hg : idIsGeneric r.id (r.getint "YR") = true
    · refine (if_pos hg).trans (Eq.trans ?_ (if_pos hg).symm)
      rw [set_all _ _ hl, set_all _ _ hl']
    · refine (if_neg hg).trans (Eq.trans ?_ (if_neg hg).symm)
      refine Eq.trans ?_ (eliminate_flags _ _ _ _ _ hl hl')
      exact congrArg (fun b => eliminate _ _ b _) h

theorem allCount_plain (v : List Report) (t : String) (ht : t ∉ altNames) : allCount (v.map unmarkedReport) t = allCount v t := by
  unfold allCount
  rw [List.foldl_map]
  simp only [getvar_plain _ t ht]

theorem valueIndex_plain (rnd : Rat → Rat) (v : List Report) (t : String) (ht : t ∉ altNames) :
    valueIndex rnd (v.map unmarkedReport) t = valueIndex rnd v t := by
  unfold valueIndex
  rw [List.zipIdx_map, List.foldl_map]
  simp only [Prod.map_fst, Prod.map_snd, id_eq, getvar_plain _ t ht]

theorem zeros_plain (v : List Report) (t f : String) :
    (readFlags (v.map unmarkedReport) t f).map (fun _ => (0 : Int)) = (readFlags v t f).map fun _ => (0 : Int) := by
  unfold readFlags
  simp

theorem roundedFlags_plain (rnd : Rat → Rat) (c : Int) (th : Rat) (t : String) (ht : t ∉ altNames)
    (v : List Report) :
    roundedFlags rnd c th t (v.map unmarkedReport) = roundedFlags rnd c th t v := by
  unfold roundedFlags
  simp only [allCount_plain v t ht, valueIndex_plain rnd v t ht, zeros_plain]

theorem repeatedFlags_plain (rnd : Rat → Rat) (c : Int) (th : Rat) (t : String) (ht : t ∉ altNames)
    (v : List Report) :
    repeatedFlags rnd c th t (v.map unmarkedReport) = repeatedFlags rnd c th t v := by
  unfold repeatedFlags
  simp only [allCount_plain v t ht, valueIndex_plain rnd v t ht, zeros_plain]

theorem closeRun_plain (G : Geo) (m : Rat) (n : Int) (v : List Report) (sat : List Nat) (fl : List Int) :
    closeRun G m n (v.map unmarkedReport) sat fl = closeRun G m n v sat fl := by
  unfold closeRun
  simp only [pyIndex_through, except_bind_assoc, except_bind_ok, sub_plain]

theorem satFold_plain (G : Geo) (m : Rat) (n : Int) (v l : List Report) (N k : Nat) (sat : List Nat) (a b : List Int)
    (h : AgreeTo N k a b) :
    AgreeEx N (k + l.length) (((l.map unmarkedReport).zipIdx k).foldlM (satStep G m n (v.map unmarkedReport)) (sat, a))
      ((l.zipIdx k).foldlM (satStep G m n v) (sat, b)) := by
  induction l generalizing k sat a b with
  | nil => exact Or.inr ⟨sat, a, b, rfl, rfl, h⟩
  | cons r l ih =>
    rw [List.map_cons, List.zipIdx_cons, List.zipIdx_cons, List.foldlM_cons, List.foldlM_cons]
    have hk : k + (r :: l).length = k + 1 + l.length := by simp; omega
    rw [hk]
    unfold satStep
    simp only
    have hs : (unmarkedReport r).saturated = r.saturated := by
      unfold Report.saturated
      rw [getvar_plain r "DPT" (by decide), getvar_plain r "AT" (by decide)]
    rw [hs]
    by_cases hc : r.saturated = true
    · simp only [if_pos hc, except_bind_ok]
      exact ih (k + 1) _ _ _ (h.set_next 0)
    · simp only [if_neg hc]
      rw [closeRun_plain]
      rcases closeRun_agree G m n v sat (h.set_next 0) with ⟨e, h1, h2⟩ | ⟨a', b', h1, h2, h3⟩
      · rw [h1, h2]
        exact Or.inl ⟨e, rfl, rfl⟩
      · rw [h1, h2]
        exact ih (k + 1) _ _ _ h3

theorem saturatedFlags_plain (G : Geo) (m : Rat) (n : Int) (v : List Report) :
    saturatedFlags G m n (v.map unmarkedReport) = saturatedFlags G m n v := by
  unfold saturatedFlags
  have h0 : AgreeTo v.length 0 (readFlags (v.map unmarkedReport) "DPT" "repsat") (readFlags v "DPT" "repsat") :=
    ⟨by simp [readFlags], by simp [readFlags], fun i hi => by omega⟩
  rcases satFold_plain G m n v v v.length 0 [] _ _ h0 with ⟨e, h1, h2⟩ | ⟨c, a, b, h1, h2, h3⟩
  · rw [h1, h2]; rfl
  · rw [h1, h2]
    simp only [except_bind_ok]
    rw [closeRun_plain]
    have e : a = b := by
      apply List.ext_getElem?
      intro i
      by_cases hi : i < v.length
      · exact h3.2.2 i (by omega)
      · rw [List.getElem?_eq_none (by rw [h3.1]; omega), List.getElem?_eq_none (by rw [h3.2.1]; omega)]
    rw [e]

theorem flags_plain (G : Geo) (rnd : Rat → Rat) (c : VoyageCall) (hc : LooksElsewhere c) (v : List Report) :
    c.flags G rnd (v.map unmarkedReport) = c.flags G rnd v := by
  cases c with
  | saturated m s => exact saturatedFlags_plain G m s v
  | rounded c th t => exact roundedFlags_plain rnd c th t hc v
  | repeated c th t => exact repeatedFlags_plain rnd c th t hc v
  | iquam P => exact iquamFlags_plain G P v
  | spike P t => exact spikeFlags_plain G P t hc v

/-- What a call does to the reports, and that it does the same to the same reports with other flags and alternate
differences. -/
theorem voyage_sets_plain (G : Geo) (rnd : Rat → Rat) (c : VoyageCall) (hc : LooksElsewhere c) (v e : List Report)
    (h : c.perform G rnd v = .ok e) :
    ∃ xs : List Int, xs.length = v.length ∧ e = List.zipWith (putFlag (voyageFlag c)) v xs ∧
      ∀ v', v'.map unmarkedReport = v.map unmarkedReport →
        c.perform G rnd v' = .ok (List.zipWith (putFlag (voyageFlag c)) v' xs) := by
  rw [voyage_perform_eq] at h
  obtain ⟨fl, h1, h⟩ := bind_ok_iff.mp h
  have hl := flags_length G rnd c v fl h1
  obtain ⟨e1, hw⟩ := writeFlags_put _ _ fl v e hl h
  rw [← voyageFlag_place] at e1 hw
  refine ⟨fl, hl, e1, fun v' hv => ?_⟩
  rw [voyage_perform_eq, ← flags_plain G rnd c hc, hv, flags_plain G rnd c hc]
  exact bind_ok_iff.mpr ⟨fl, h1, hw v' (by simpa using congrArg List.length hv)⟩

theorem voyageFlag_other (c : VoyageCall) : voyageFlag c ≠ "POStrk" ∧ voyageFlag c ≠ "POSfew" := by
  have key : ∀ (t s u : String) (x y : Char), s.toList.getLast? = some x → u.toList.getLast? = some y → x ≠ y →
      t ++ s ≠ u := by
    intro t s u x y hs hu hxy h
    have h1 : (t.toList ++ s.toList).getLast? = u.toList.getLast? := by rw [← String.toList_append, h]
    rw [List.getLast?_append, hs, hu] at h1
    simp at h1
    exact hxy h1
  cases c with
  | saturated m s => exact ⟨(by decide : "DPTrepsat" ≠ "POStrk"), (by decide : "DPTrepsat" ≠ "POSfew")⟩
  | rounded c th t => exact ⟨key t "round" _ 'd' 'k' rfl rfl (by decide), key t "round" _ 'd' 'w' rfl rfl (by decide)⟩
  | repeated c th t => exact ⟨key t "rep" _ 'p' 'k' rfl rfl (by decide), key t "rep" _ 'p' 'w' rfl rfl (by decide)⟩
  | iquam P => exact ⟨(by decide : "POSiquam_track" ≠ "POStrk"), (by decide : "POSiquam_track" ≠ "POSfew")⟩
  | spike P t => exact ⟨key t "spike" _ 'e' 'k' rfl rfl (by decide), key t "spike" _ 'e' 'w' rfl rfl (by decide)⟩

theorem alternate_put {G : Geo} {v w w' : List Report} {key : String} {xs : List Int} (hx : xs.length = v.length)
    (h : calcAlternate G v = .ok w) (h' : calcAlternate G (List.zipWith (putFlag key) v xs) = .ok w')
    (hb : w'.map bareReport = w.map bareReport) : w' = List.zipWith (putFlag key) w xs := by
  obtain ⟨l, hg⟩ := calcAlternate_spec h
  obtain ⟨l', hg'⟩ := calcAlternate_spec h'
  have lz : (List.zipWith (putFlag key) v xs).length = v.length := by simp [hx]
  apply List.ext_getElem?
  intro j
  cases hv : v[j]? with
  | none =>
    rw [List.getElem?_eq_none_iff] at hv
    rw [List.getElem?_eq_none (by omega), List.getElem?_eq_none (by simp; omega)]
  | some r =>
    have hj := lt_of_get hv
    have hxj : xs[j]? = some xs[j] := List.getElem?_eq_getElem (by omega)
    have hz : (List.zipWith (putFlag key) v xs)[j]? = some (putFlag key r xs[j]) := by
      rw [List.getElem?_zipWith, hv, hxj]
    obtain ⟨o, ho, -⟩ := hg j r hv
    obtain ⟨o', ho', -⟩ := hg' j _ hz
    have hbj : (w'.map bareReport)[j]? = (w.map bareReport)[j]? := by rw [hb]
    rw [List.getElem?_map, List.getElem?_map, ho, ho'] at hbj
    rw [ho', List.getElem?_zipWith, ho, hxj]
    simp only [Option.map_some, Option.some.injEq] at hbj ⊢
    exact eq_of_bare hbj rfl

theorem put_past_both {k a b : String} (ha : k ≠ a) (hb : k ≠ b) (w : List Report) (xs fl gl : List Int) :
    List.zipWith (putFlag b) (List.zipWith (putFlag a) (List.zipWith (putFlag k) w xs) fl) gl =
      List.zipWith (putFlag k) (List.zipWith (putFlag b) (List.zipWith (putFlag a) w fl) gl) xs := by
  rw [putFlags_comm ha.symm, putFlags_comm hb.symm]

/-- C149: a check of the voyage made after the track check may be made before it. -/
theorem C149_order_before (G : Geo) (P : TrackParams) (rnd : Rat → Rat) (c : VoyageCall) (v e f : List Report)
    (hc : LooksElsewhere c) (h1 : trackCheck G P v = .ok e) (h2 : c.perform G rnd e = .ok f) :
    ∃ g, c.perform G rnd v = .ok g ∧ trackCheck G P g = .ok f := by
  obtain ⟨w, fl, gl, lw, lf, lg, hw, hcase⟩ := trackCheck_form h1
  obtain ⟨e1, k1⟩ := writeBoth_put (by omega) (by omega) hw
  obtain ⟨xs, lx, f1, hs⟩ := voyage_sets_plain G rnd c hc e f h2
  obtain ⟨n1, n2⟩ := voyageFlag_other c
  have l1 : gl.length = (List.zipWith (putFlag ("POS" ++ "trk")) w fl).length := by simp; omega
  have hp : e.map unmarkedReport = w.map unmarkedReport := by
    rw [e1, plain_put _ _ _ l1, plain_put _ _ _ (by omega)]
  have hvw : w.map unmarkedReport = v.map unmarkedReport := by
    rcases hcase with ⟨rfl, -⟩ | ⟨h, -⟩
    · rfl
    · exact plain_alternate h
  have le : e.length = w.length := by simpa using congrArg List.length hp
  have hg := plain_put (voyageFlag c) v xs (by omega)
  refine ⟨_, hs v (hp.trans hvw).symm, ?_⟩
  rcases hcase with ⟨rfl, hcase⟩ | ⟨h, hcase⟩
  · rw [hcase _ hg, k1 _ (by simp; omega), f1, e1]
    exact congrArg _ (put_past_both n1 n2 _ _ _ _)
  · obtain ⟨w', a1, a2, a3⟩ := hcase _ hg
    have hw' := alternate_put (by omega) h a1 a2
    rw [a3, hw', k1 _ (by simp; omega), f1, e1]
    exact congrArg _ (put_past_both n1 n2 _ _ _ _)

/-- C149: a check of the voyage made before the track check may be made after it. -/
theorem C149_order_after (G : Geo) (P : TrackParams) (rnd : Rat → Rat) (c : VoyageCall) (v e f : List Report)
    (hc : LooksElsewhere c) (h1 : c.perform G rnd v = .ok e) (h2 : trackCheck G P e = .ok f) :
    ∃ g, trackCheck G P v = .ok g ∧ c.perform G rnd g = .ok f := by
  obtain ⟨xs, lx, e1, hs⟩ := voyage_sets_plain G rnd c hc v e h1
  obtain ⟨w, fl, gl, lw, lf, lg, hw, hcase⟩ := trackCheck_form h2
  obtain ⟨f1, k1⟩ := writeBoth_put (by omega) (by omega) hw
  obtain ⟨n1, n2⟩ := voyageFlag_other c
  have hg : v.map unmarkedReport = e.map unmarkedReport := by rw [e1, plain_put _ _ _ lx]
  have le : e.length = v.length := by simpa using (congrArg List.length hg).symm
  have done : ∀ u : List Report, u.map unmarkedReport = v.map unmarkedReport →
      w = List.zipWith (putFlag (voyageFlag c)) u xs → trackCheck G P v = writeBoth u "trk" "few" fl gl →
      ∃ g, trackCheck G P v = .ok g ∧ c.perform G rnd g = .ok f := by
    intro u hu hwu ht
    have lu : u.length = v.length := by simpa using congrArg List.length hu
    rw [k1 u (by omega)] at ht
    refine ⟨_, ht, ?_⟩
    rw [hs _ (by rw [plain_put _ _ _ (by simp; omega), plain_put _ _ _ (by omega), hu]), f1, hwu]
    exact congrArg _ (put_past_both n1 n2 _ _ _ _).symm
  rcases hcase with ⟨h, hcase⟩ | ⟨h, hcase⟩
  · exact done v rfl (by rw [h, e1]) (hcase v hg)
  · obtain ⟨w', a1, a2, a3⟩ := hcase v hg
    rw [e1] at h
    exact done w' (plain_alternate a1) (alternate_put lx a1 h a2.symm) a3

/-- Non-vacuity of C149: the track check of a voyage of three reports completes and flags the middle one, 100 degrees
off the track; the iQuam track check completes after it and before it. -/
example : ∃ v e f g : List Report,
    [sampleAt 0 0 0, sampleAt 6 0 100, sampleAt 12 0 2].foldlM (addReport planeGeo) [] = .ok v ∧
    trackCheck planeGeo sampleTrackParams v = .ok e ∧ (e.map fun r => r.getQc "POS" "trk") = [0, 1, 0] ∧
    (VoyageCall.iquam ⟨15, 60, 0, 1 / 100, 3⟩).perform planeGeo id e = .ok f ∧
    (VoyageCall.iquam ⟨15, 60, 0, 1 / 100, 3⟩).perform planeGeo id v = .ok g ∧
    (g.map fun r => r.getQc "POS" "iquam_track") = [0, 1, 0] := by
  have h1 : (([sampleAt 0 0 0, sampleAt 6 0 100, sampleAt 12 0 2].foldlM (addReport planeGeo) []).bind
      (trackCheck planeGeo sampleTrackParams)).map (fun v => v.map fun r => r.getQc "POS" "trk") = .ok [0, 1, 0] := by
    decide +kernel
  have h2 : ((([sampleAt 0 0 0, sampleAt 6 0 100, sampleAt 12 0 2].foldlM (addReport planeGeo) []).bind
      (trackCheck planeGeo sampleTrackParams)).bind
      ((VoyageCall.iquam ⟨15, 60, 0, 1 / 100, 3⟩).perform planeGeo id)).map
        (fun v => v.map fun r => r.getQc "POS" "iquam_track") = .ok [0, 1, 0] := by
    decide +kernel
  have h3 : (([sampleAt 0 0 0, sampleAt 6 0 100, sampleAt 12 0 2].foldlM (addReport planeGeo) []).bind
      ((VoyageCall.iquam ⟨15, 60, 0, 1 / 100, 3⟩).perform planeGeo id)).map
        (fun v => v.map fun r => r.getQc "POS" "iquam_track") = .ok [0, 1, 0] := by
    decide +kernel
  cases hv : [sampleAt 0 0 0, sampleAt 6 0 100, sampleAt 12 0 2].foldlM (addReport planeGeo) [] with
  | error x => rw [hv] at h1; cases h1
  | ok v =>
    rw [hv] at h1 h2 h3
    change (trackCheck planeGeo sampleTrackParams v).map _ = _ at h1
    change ((trackCheck planeGeo sampleTrackParams v).bind _).map _ = _ at h2
    change ((VoyageCall.iquam ⟨15, 60, 0, 1 / 100, 3⟩).perform planeGeo id v).map _ = _ at h3
    cases he : trackCheck planeGeo sampleTrackParams v with
    | error x => rw [he] at h1; cases h1
    | ok e =>
      rw [he] at h1 h2
      change ((VoyageCall.iquam ⟨15, 60, 0, 1 / 100, 3⟩).perform planeGeo id e).map _ = _ at h2
      cases hf : (VoyageCall.iquam ⟨15, 60, 0, 1 / 100, 3⟩).perform planeGeo id e with
      | error x => rw [hf] at h2; cases h2
      | ok f =>
        cases hg : (VoyageCall.iquam ⟨15, 60, 0, 1 / 100, 3⟩).perform planeGeo id v with
        | error x => rw [hg] at h3; cases h3
        | ok g =>
          rw [hg] at h3
          injection h1 with h1
          injection h3 with h3
          exact ⟨v, e, f, g, rfl, he, h1, hf, hg, h3⟩

end MarineQC
