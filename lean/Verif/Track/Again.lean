import Verif.Track.Full
import Verif.Voyage.Again

/-!
# C149: the track check may be repeated
-/

namespace MarineQC

open Spec

namespace Spec

/-- The same reports, but for their flags and the alternate differences left by an earlier track check. -/
def SameTrack (v v' : List Report) : Prop :=
  List.Forall₂ (fun r r' : Report => r' = { r with qc := r'.qc, ext := r'.ext }
    ∧ ∀ k, k ∉ altNames → r'.ext k = r.ext k) v v'

end Spec

/-- A report without its flags and without alternate differences. -/
def unmarkedReport (r : Report) : Report := bareReport (r.setAlt none)

theorem setAlt_again (r : Report) (d d' : Option Diff) : (r.setAlt d).setAlt d' = r.setAlt d' := by
  unfold Report.setAlt Report.setext
  congr 1
  funext k
  simp only
  by_cases h1 : k = "alt_time_diff"
  · simp [h1]
  by_cases h2 : k = "alt_distance"
  · simp [h2]
  by_cases h3 : k = "alt_course"
  · simp [h3]
  by_cases h4 : k = "alt_speed"
  · simp [h4]
  simp [h1, h2, h3, h4]

theorem setAlt_bare (r : Report) (d : Option Diff) : (bareReport r).setAlt d = bareReport (r.setAlt d) := rfl

theorem plain_setAlt (r : Report) (d : Option Diff) : (unmarkedReport r).setAlt d = bareReport (r.setAlt d) := by
  unfold unmarkedReport
  rw [setAlt_bare, setAlt_again]

theorem getvar_plain (r : Report) (k : String) (hk : k ∉ altNames) : (unmarkedReport r).getvar k = r.getvar k := by
  unfold unmarkedReport
  rw [getvar_bare]
  have he : (r.setAlt none).ext k = r.ext k := (setAlt_same r none).2.2.2.2.2.1 k hk
  unfold Report.getvar
  rw [he]
  rfl

theorem sub_plain (G : Geo) (a b : Report) : (unmarkedReport a).sub G (unmarkedReport b) = a.sub G b := by
  have h : ∀ k, k ∉ altNames → ∀ r, (unmarkedReport r).getvar k = r.getvar k := fun k hk r => getvar_plain r k hk
  have hi : ∀ k r, (unmarkedReport r).getint k = r.getint k := fun _ _ => rfl
  unfold Report.sub Report.lat Report.lon Report.timeTo
  simp only [h "LAT" (by decide), h "LON" (by decide), h "HR" (by decide), hi]

theorem pyIndex_through {α β : Type} (f : α → β) (v : List α) (i : Int) :
    pyIndex (v.map f) i = (pyIndex v i >>= fun r => .ok (f r)) := by
  unfold pyIndex
  simp only [List.length_map, List.getElem?_map]
  generalize (if i < 0 then i + (v.length : Int) else i) = j
  by_cases hj : j < 0
  · simp only [if_pos hj]; rfl
  · simp only [if_neg hj]
    cases v[j.toNat]? <;> rfl

theorem mapM_bareReport {α : Type} (f : α → Except Err Report) (l : List α) :
    l.mapM (fun i => f i >>= fun r => .ok (bareReport r)) = (l.mapM f >>= fun m => .ok (m.map bareReport)) := by
  induction l with
  | nil => rfl
  | cons a l ih =>
    rw [List.mapM_cons, List.mapM_cons, ih]
    cases f a with
    | error e => rfl
    | ok r =>
      simp only [except_bind_ok]
      cases l.mapM f <;> rfl

theorem alternateAt_plain (G : Geo) (v : List Report) (i : Nat) :
    alternateAt G (v.map unmarkedReport) i = (alternateAt G v i >>= fun r => .ok (bareReport r)) := by
  unfold alternateAt
  simp only [pyIndex_through, except_bind_assoc, except_bind_ok, List.length_map, sub_plain, plain_setAlt]
  cases pyIndex v (i : Int) with
  | error e => rfl
  | ok r =>
    simp only [except_bind_ok]
    split
    · cases pyIndex v ((i : Int) + 1) with
      | error e => rfl
      | ok a => cases pyIndex v ((i : Int) - 1) with
        | error e => rfl
        | ok b =>
          simp only [except_bind_ok]
          cases a.sub G b <;> rfl
    · rfl

theorem calcAlternate_plain (G : Geo) (v : List Report) :
    calcAlternate G (v.map unmarkedReport) = (calcAlternate G v >>= fun w => .ok (w.map bareReport)) := by
  unfold calcAlternate
  rw [List.length_map, ← mapM_bareReport]
  congr 1
  funext i
  exact alternateAt_plain G v i

theorem getSpeed_bare (v : List Report) : getSpeed (v.map bareReport) = getSpeed v := by
  unfold getSpeed
  induction v with
  | nil => rfl
  | cons r v ih => rw [List.map_cons, List.mapM_cons, List.mapM_cons, ih]; rfl

theorem meansp_bare (v : List Report) : meansp (v.map bareReport) = meansp v := by
  unfold meansp
  simp only [getSpeed_bare]

theorem distr1_bare (G : Geo) (v : List Report) : distr1 G (v.map bareReport) = distr1 G v := by
  have h : distr1At G (v.map bareReport) = distr1At G v := by
    funext i
    unfold distr1At
    simp only [pyIndex_bare, except_bind_assoc, except_bind_ok]
    rfl
  unfold distr1
  rw [h, List.length_map]

theorem distr2_bare (G : Geo) (v : List Report) : distr2 G (v.map bareReport) = distr2 G v := by
  have h : distr2At G (v.map bareReport) = distr2At G v := by
    funext i
    unfold distr2At
    simp only [pyIndex_bare, except_bind_assoc, except_bind_ok]
    rfl
  unfold distr2
  rw [h, List.length_map]

theorem midpt_bare (G : Geo) (v : List Report) : midpt G (v.map bareReport) = midpt G v := by
  have h : midptOf G (v.map bareReport) = midptOf G v := by
    funext i
    unfold midptOf
    simp only [pyIndex_bare, except_bind_assoc, except_bind_ok]
    rfl
  unfold midpt
  rw [h, List.length_map]

theorem trackFlags_bare (G : Geo) (P : TrackParams) (v : List Report) :
    trackFlags G P (v.map bareReport) = trackFlags G P v := by
  have h : ∀ amax fwd rev mid, trackFlag P amax (v.map bareReport) fwd rev mid = trackFlag P amax v fwd rev mid := by
    intro amax fwd rev mid
    funext i
    unfold trackFlag
    simp only [pyIndex_bare, except_bind_assoc, except_bind_ok]
    rfl
  unfold trackFlags
  simp only [getSpeed_bare, meansp_bare, distr1_bare, distr2_bare, midpt_bare, h, List.length_map]

theorem plain_eq {v v' : List Report} (h : SameTrack v v') : v'.map unmarkedReport = v.map unmarkedReport := by
  induction h with
  | nil => rfl
  | @cons r r' l l' h _ ih =>
    rw [List.map_cons, List.map_cons, ih]
    congr 1
    obtain ⟨h1, h2⟩ := h
    rw [h1]
    unfold unmarkedReport bareReport Report.setAlt Report.setext
    simp only [Report.mk.injEq, true_and]
    refine ⟨?_, trivial⟩
    funext k
    by_cases hk : k ∈ altNames
    · simp only [altNames, List.mem_cons, List.not_mem_nil, or_false] at hk
      rcases hk with rfl | rfl | rfl | rfl <;> simp
    · rw [h2 k hk]

/-- The flags two voyages get, and what their reports then hold, agree when they are the same but for flags and
alternate differences. -/
theorem calcAlternate_same {G : Geo} {v v' w : List Report} (h : v'.map unmarkedReport = v.map unmarkedReport)
    (hw : calcAlternate G v = .ok w) :
    ∃ w', calcAlternate G v' = .ok w' ∧ w'.map bareReport = w.map bareReport := by
  have h1 := calcAlternate_plain G v'
  rw [h, calcAlternate_plain G v, hw] at h1
  obtain ⟨w', h2, h3⟩ := bind_ok_iff.mp h1.symm
  injection h3 with h3
  exact ⟨w', h2, h3⟩

theorem plain_head {v v' : List Report} (h : v'.map unmarkedReport = v.map unmarkedReport) {r : Report}
    (hr : v.head? = some r) : ∃ r', v'.head? = some r' ∧ r'.id = r.id ∧ r'.getint = r.getint := by
  cases v with
  | nil => cases hr
  | cons a l =>
    cases v' with
    | nil => cases h
    | cons b m =>
      injection hr with hr
      rw [List.map_cons, List.map_cons] at h
      injection h with h1 h2
      subst hr
      refine ⟨b, rfl, ?_, ?_⟩
      · exact (congrArg (fun r : Report => r.id) h1 : (unmarkedReport b).id = (unmarkedReport a).id)
      · exact (congrArg (fun r : Report => r.getint) h1 : (unmarkedReport b).getint = (unmarkedReport a).getint)

/-- What the track check writes, and that it writes the same on the same reports with other flags and alternate
differences. -/
theorem trackCheck_form {G : Geo} {P : TrackParams} {v e : List Report} (h : trackCheck G P v = .ok e) :
    ∃ (w : List Report) (fl gl : List Int), w.length = v.length ∧ fl.length = v.length ∧ gl.length = v.length ∧
      writeBoth w "trk" "few" fl gl = .ok e ∧
      ((w = v ∧ ∀ v', v'.map unmarkedReport = v.map unmarkedReport →
          trackCheck G P v' = writeBoth v' "trk" "few" fl gl) ∨
        (calcAlternate G v = .ok w ∧ ∀ v', v'.map unmarkedReport = v.map unmarkedReport →
          ∃ w', calcAlternate G v' = .ok w' ∧ w'.map bareReport = w.map bareReport ∧
            trackCheck G P v' = writeBoth w' "trk" "few" fl gl)) := by
  have hlen : ∀ {v' : List Report}, v'.map unmarkedReport = v.map unmarkedReport → v'.length = v.length := by
    intro v' h'
    have := congrArg List.length h'
    simpa using this
  cases hr : v.head? with
  | none =>
    rw [List.head?_eq_none_iff] at hr
    subst hr
    injection h with h
    refine ⟨[], [], [], rfl, rfl, rfl, by rw [← h]; rfl, Or.inl ⟨rfl, fun v' h' => ?_⟩⟩
    rw [List.eq_nil_of_length_eq_zero (hlen h')]
    rfl
  | some r =>
    have zl : ∀ (v' : List Report) (x : Int), v'.length = v.length → (v'.map fun _ => x) = v.map fun _ => x := by
      intro v' x hv
      rw [List.map_const', List.map_const', hv]
    have e1 : ∀ v' : List Report, v'.map unmarkedReport = v.map unmarkedReport → ∃ r', v'.head? = some r' ∧
        idIsGeneric r'.id (r'.getint "YR") = idIsGeneric r.id (r.getint "YR") ∧ r'.getint = r.getint ∧
        earlyDeck720 r' = earlyDeck720 r := by
      intro v' h'
      obtain ⟨r', h1, h2, h3⟩ := plain_head h' hr
      exact ⟨r', h1, by rw [h2, h3], h3, by unfold earlyDeck720; rw [h3]⟩
    unfold trackCheck at h
    rw [hr] at h
    simp only at h
    by_cases c1 : (idIsGeneric r.id (r.getint "YR") || decide (r.getint "PT" = some 6)
        || decide (r.getint "PT" = some 7)) = true
    · rw [if_pos c1] at h
      refine ⟨v, _, _, rfl, List.length_map .., List.length_map .., h, Or.inl ⟨rfl, fun v' h' => ?_⟩⟩
      obtain ⟨r', h1, h2, h3, -⟩ := e1 v' h'
      unfold trackCheck
      rw [h1]
      simp only
      rw [h2, h3, if_pos c1, zl v' 0 (hlen h')]
    · rw [if_neg c1] at h
      by_cases c2 : v.length < 3
      · rw [if_pos c2] at h
        by_cases c3 : earlyDeck720 r = true
        · rw [if_pos c3] at h
          refine ⟨v, _, _, rfl, List.length_map .., List.length_map .., h, Or.inl ⟨rfl, fun v' h' => ?_⟩⟩
          obtain ⟨r', h1, h2, h3, h4⟩ := e1 v' h'
          unfold trackCheck
          rw [h1]
          simp only
          rw [h2, h3, if_neg c1, if_pos (by rw [hlen h']; exact c2), h4, if_pos c3, zl v' 0 (hlen h')]
        · rw [if_neg c3] at h
          refine ⟨v, _, _, rfl, List.length_map .., List.length_map .., h, Or.inl ⟨rfl, fun v' h' => ?_⟩⟩
          obtain ⟨r', h1, h2, h3, h4⟩ := e1 v' h'
          unfold trackCheck
          rw [h1]
          simp only
          rw [h2, h3, if_neg c1, if_pos (by rw [hlen h']; exact c2), h4, if_neg c3, zl v' 0 (hlen h'),
            zl v' 1 (hlen h')]
      · rw [if_neg c2] at h
        obtain ⟨w, w1, h⟩ := bind_ok_iff.mp h
        obtain ⟨fl, f1, h⟩ := bind_ok_iff.mp h
        have lw := (calcAlternate_spec w1).1
        have lf : fl.length = w.length := (trackFlags_spec (by omega) f1).1
        refine ⟨w, fl, _, lw, by omega, by rw [List.length_map]; exact lw, h, Or.inr ⟨w1, fun v' h' => ?_⟩⟩
        obtain ⟨r', h1, h2, h3, h4⟩ := e1 v' h'
        obtain ⟨w', a1, a2⟩ := calcAlternate_same h' w1
        refine ⟨w', a1, a2, ?_⟩
        have f2 : trackFlags G P w' = .ok fl := by rw [← trackFlags_bare, a2, trackFlags_bare]; exact f1
        have lw' : w'.length = w.length := by simpa using congrArg List.length a2
        unfold trackCheck
        rw [h1]
        simp only
        rw [h2, h3, if_neg c1, if_neg (by rw [hlen h']; exact c2), a1, except_bind_ok, f2, except_bind_ok,
          List.map_const', List.map_const', lw']

theorem writeBoth_put {w e : List Report} {f g : String} {fl gl : List Int} (hf : fl.length = w.length)
    (hg : gl.length = w.length) (h : writeBoth w f g fl gl = .ok e) :
    e = List.zipWith (putFlag ("POS" ++ g)) (List.zipWith (putFlag ("POS" ++ f)) w fl) gl ∧
      ∀ w', w'.length = w.length → writeBoth w' f g fl gl =
        .ok (List.zipWith (putFlag ("POS" ++ g)) (List.zipWith (putFlag ("POS" ++ f)) w' fl) gl) := by
  unfold writeBoth at h
  obtain ⟨m, h1, h⟩ := bind_ok_iff.mp h
  obtain ⟨e1, k1⟩ := writeFlags_put _ _ _ _ _ hf h1
  have lm : m.length = w.length := by rw [e1]; simp [hf]
  obtain ⟨e2, k2⟩ := writeFlags_put _ _ _ _ _ (by rw [hg, lm]) h
  refine ⟨by rw [e2, e1], fun w' hw => ?_⟩
  unfold writeBoth
  exact bind_ok_iff.mpr ⟨_, k1 w' hw, k2 _ (by simp [hw, hf, lm])⟩

theorem plain_put (key : String) (w : List Report) (xs : List Int) (hx : xs.length = w.length) :
    (List.zipWith (putFlag key) w xs).map unmarkedReport = w.map unmarkedReport := by
  induction w generalizing xs with
  | nil => cases xs <;> rfl
  | cons r w ih =>
    cases xs with
    | nil => cases hx
    | cons x xs =>
      rw [List.zipWith_cons_cons, List.map_cons, List.map_cons, ih xs (by simpa using hx)]
      rfl

theorem bare_put (key : String) (w : List Report) (xs : List Int) (hx : xs.length = w.length) :
    (List.zipWith (putFlag key) w xs).map bareReport = w.map bareReport := by
  induction w generalizing xs with
  | nil => cases xs <;> rfl
  | cons r w ih =>
    cases xs with
    | nil => cases hx
    | cons x xs =>
      rw [List.zipWith_cons_cons, List.map_cons, List.map_cons, ih xs (by simpa using hx)]
      rfl

theorem plain_alternate {G : Geo} {v w : List Report} (h : calcAlternate G v = .ok w) :
    w.map unmarkedReport = v.map unmarkedReport := by
  obtain ⟨l, hg⟩ := calcAlternate_spec h
  apply List.ext_getElem?
  intro j
  rw [List.getElem?_map, List.getElem?_map]
  cases hv : v[j]? with
  | none =>
    rw [List.getElem?_eq_none_iff] at hv
    rw [List.getElem?_eq_none (by omega)]
  | some r =>
    obtain ⟨o, ho, -⟩ := hg j r hv
    rw [ho]
    simp only [Option.map_some]
    unfold unmarkedReport
    rw [setAlt_again]

theorem eq_of_bare {a b : Report} (h : bareReport a = bareReport b) (hq : a.qc = b.qc) : a = b := by
  obtain ⟨h1, h2, h3, h4, h5, h6⟩ : a.id = b.id ∧ a.uid = b.uid ∧ a.data = b.data ∧ a.clim = b.clim ∧ a.ext = b.ext
      ∧ a.dt = b.dt := by
    unfold bareReport at h
    simp only [Report.mk.injEq] at h
    tauto
  cases a; cases b
  simp only at h1 h2 h3 h4 h5 h6 hq
  subst h1 h2 h3 h4 h5 h6 hq
  rfl

/-- Alternate differences that are already there are found again. -/
theorem alternate_again {G : Geo} {v w : List Report} (h : calcAlternate G v = .ok w)
    (hb : w.map bareReport = v.map bareReport) : w = v := by
  obtain ⟨l, hg⟩ := calcAlternate_spec h
  apply List.ext_getElem?
  intro j
  cases hv : v[j]? with
  | none =>
    rw [List.getElem?_eq_none_iff] at hv
    rw [List.getElem?_eq_none (by omega)]
  | some r =>
    obtain ⟨o, ho, -⟩ := hg j r hv
    have hj : (w.map bareReport)[j]? = (v.map bareReport)[j]? := by rw [hb]
    rw [List.getElem?_map, List.getElem?_map, ho, hv] at hj
    rw [ho]
    simp only [Option.map_some, Option.some.injEq] at hj ⊢
    exact eq_of_bare hj rfl

theorem put_both_again (k k' : String) (hk : k' ≠ k) (w : List Report) (fl gl : List Int) :
    List.zipWith (putFlag k') (List.zipWith (putFlag k)
        (List.zipWith (putFlag k') (List.zipWith (putFlag k) w fl) gl) fl) gl =
      List.zipWith (putFlag k') (List.zipWith (putFlag k) w fl) gl := by
  rw [putFlags_comm hk.symm, putFlags_again _ _ _ _ rfl, putFlags_again _ _ _ _ rfl]

/-- C149: repeating the track check changes nothing. -/
theorem C149_twice (G : Geo) (P : TrackParams) (v e : List Report) (h : trackCheck G P v = .ok e) :
    trackCheck G P e = .ok e := by
  obtain ⟨w, fl, gl, lw, lf, lg, hw, hc⟩ := trackCheck_form h
  obtain ⟨e1, k1⟩ := writeBoth_put (by omega) (by omega) hw
  have l1 : gl.length = (List.zipWith (putFlag ("POS" ++ "trk")) w fl).length := by simp; omega
  have hp : e.map unmarkedReport = w.map unmarkedReport := by
    rw [e1, plain_put _ _ _ l1, plain_put _ _ _ (by omega)]
  have hb : e.map bareReport = w.map bareReport := by
    rw [e1, bare_put _ _ _ l1, bare_put _ _ _ (by omega)]
  have le : e.length = w.length := by simpa using congrArg List.length hb
  have again : writeBoth e "trk" "few" fl gl = .ok e := by
    rw [k1 e le]
    congr 1
    conv_lhs => rw [e1]
    rw [put_both_again _ _ (by decide), ← e1]
  rcases hc with ⟨rfl, hc⟩ | ⟨h1, hc⟩
  · rw [hc e hp, again]
  · obtain ⟨w', a1, a2, a3⟩ := hc e (hp.trans (plain_alternate h1))
    rw [a3, alternate_again a1 (a2.trans hb.symm), again]

/-- C149: what the track check finds depends neither on any flags nor on the differences left by an earlier track
check: of two voyages with the same reports but for these, if the first is checked without an error, so is the second,
and every report gets the same two flags and keeps its other flags. -/
theorem C149_blind (G : Geo) (P : TrackParams) (v v' e : List Report) (hv : SameTrack v v')
    (h : trackCheck G P v = .ok e) :
    ∃ e', trackCheck G P v' = .ok e' ∧ e'.length = v'.length ∧
      ∀ (i : Nat) (r s t : Report), e[i]? = some r → v'[i]? = some s → e'[i]? = some t →
        t.qc "POStrk" = r.qc "POStrk" ∧ t.qc "POSfew" = r.qc "POSfew" ∧ SameButTrack ["POStrk", "POSfew"] s t := by
  obtain ⟨w, fl, gl, lw, lf, lg, hw, hc⟩ := trackCheck_form h
  obtain ⟨e1, k1⟩ := writeBoth_put (by omega) (by omega) hw
  have hlen : v'.length = v.length := hv.length_eq.symm
  obtain ⟨w', lw', hs, hk⟩ : ∃ w' : List Report, w'.length = v'.length ∧
      (∀ (i : Nat) (s t : Report), v'[i]? = some s → w'[i]? = some t → SameButTrack [] s t) ∧
      trackCheck G P v' = writeBoth w' "trk" "few" fl gl := by
    rcases hc with ⟨-, hc⟩ | ⟨-, hc⟩
    · refine ⟨v', rfl, ?_, hc v' (plain_eq hv)⟩
      intro i s t h1 h2
      rw [h1] at h2
      injection h2 with h2
      rw [← h2]
      exact ⟨rfl, rfl, rfl, rfl, rfl, fun _ _ => rfl, fun _ _ => rfl⟩
    · obtain ⟨w', a1, a2, a3⟩ := hc v' (plain_eq hv)
      obtain ⟨b1, b2⟩ := calcAlternate_spec a1
      refine ⟨w', b1, ?_, a3⟩
      intro i s t h1 h2
      obtain ⟨o, ho, -⟩ := b2 i s h1
      rw [ho] at h2
      injection h2 with h2
      rw [← h2]
      exact setAlt_same s o
  rw [k1 w' (by omega)] at hk
  refine ⟨_, hk, by simp; omega, ?_⟩
  intro i r s t h3 h4 h5
  rw [e1] at h3
  simp only [List.getElem?_zipWith] at h3 h5
  have hi : i < v'.length := lt_of_get h4
  rw [List.getElem?_eq_getElem (show i < w.length by omega), List.getElem?_eq_getElem (show i < fl.length by omega),
    List.getElem?_eq_getElem (show i < gl.length by omega)] at h3
  rw [List.getElem?_eq_getElem (show i < w'.length by omega), List.getElem?_eq_getElem (show i < fl.length by omega),
    List.getElem?_eq_getElem (show i < gl.length by omega)] at h5
  simp only [Option.some.injEq] at h3 h5
  have hb := hs i s _ h4 (List.getElem?_eq_getElem (show i < w'.length by omega))
  obtain ⟨b1, b2, b3, b4, b5, b6, b7⟩ := hb
  subst h3 h5
  refine ⟨?_, ?_, b1, b2, b3, b4, b5, b6, ?_⟩
  · simp [putFlag]
  · simp [putFlag]
  · intro k hk
    simp only [List.mem_cons, List.not_mem_nil, or_false, not_or] at hk
    rw [← b7 k (by simp)]
    simp [putFlag, hk.1, hk.2]

end MarineQC
