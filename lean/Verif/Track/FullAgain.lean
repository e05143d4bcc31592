import Verif.Track.Order

/-!
# C150: the full track check cannot be repeated
-/

namespace MarineQC

open Spec

/-- A pass over a voyage that flags nothing, followed by setting the flags to 0 once more, can be repeated. -/
theorem mds_again {G : Geo} {v v1 e : List Report} {fl : List Int} (h : mdsTrackCheck G v = .ok (fl, v1))
    (hz : ∀ x ∈ fl, x = 0) (hl : v.length ≤ fl.length)
    (he : writeFlags v1 "POS" "bad_track" (fl.take v1.length) = .ok e) :
    mdsTrackCheck G e = .ok (fl, e) := by
  have zl : ∀ (u : List Report) (x : Int), (u.map fun _ => x) = List.replicate u.length x := by
    intro u x; rw [List.map_const']
  have ftake : ∀ n, n ≤ fl.length → fl.take n = List.replicate n (0 : Int) := by
    intro n hn
    rw [List.eq_replicate_iff]
    exact ⟨by simp [hn], fun x hx => hz x (List.mem_of_mem_take hx)⟩
  have plain_of : ∀ u : List Report, e.map unmarkedReport = u.map unmarkedReport → u.map unmarkedReport = v.map unmarkedReport →
      ∀ r, v.head? = some r → ∃ r', e.head? = some r' ∧
        idIsGeneric r'.id (r'.getint "YR") = idIsGeneric r.id (r.getint "YR") ∧ earlyDeck720 r' = earlyDeck720 r := by
    intro u h1 h2 r hr
    obtain ⟨r', a1, a2, a3⟩ := plain_head (h1.trans h2) hr
    exact ⟨r', a1, by rw [a2, a3], by unfold earlyDeck720; rw [a3]⟩
  have rep : ∀ (u : List Report) (n : Nat) (x : Int), u.length = n → (List.replicate n x).length = u.length := by
    intro u n x hu; simp [hu]
  unfold mdsTrackCheck at h
  cases hr : v.head? with
  | none =>
    rw [List.head?_eq_none_iff] at hr
    subst hr
    simp only [List.head?_nil, Except.ok.injEq, Prod.mk.injEq] at h
    obtain ⟨rfl, rfl⟩ := h
    injection he with he
    rw [← he]
    rfl
  | some r =>
    rw [hr] at h
    simp only at h
    by_cases c1 : idIsGeneric r.id (r.getint "YR") = true
    · rw [if_pos c1] at h
      obtain ⟨v', w1, h⟩ := bind_ok_iff.mp h
      simp only [except_pure, Except.ok.injEq, Prod.mk.injEq] at h
      obtain ⟨h1, rfl⟩ := h
      rw [zl] at w1 h1
      obtain ⟨a1, a2⟩ := writeFlags_put _ _ _ _ _ (rep v _ 0 rfl) w1
      have l1 : v'.length = v.length := by rw [a1]; simp
      rw [ftake _ (by rw [l1]; exact hl), l1] at he
      obtain ⟨b1, b2⟩ := writeFlags_put _ _ _ _ _ (rep v' _ 0 l1) he
      have ee : e = v' := by rw [b1, a1, putFlags_again _ _ _ _ rfl]
      obtain ⟨r', c2, c3, -⟩ := plain_of v' (by rw [ee]) (by rw [a1, plain_put _ _ _ (rep v _ 0 rfl)]) r hr
      unfold mdsTrackCheck
      rw [c2]
      simp only
      rw [c3, if_pos c1, zl, ee, l1, ← ee]
      have again : writeFlags e "POS" "bad_track" (List.replicate v.length 0) = .ok e := by
        rw [a2 e (by rw [ee]; exact l1)]
        conv_lhs => rw [ee, a1, putFlags_again _ _ _ _ rfl, ← a1, ← ee]
      rw [again, except_bind_ok, h1]
      rfl
    · rw [if_neg c1] at h
      by_cases c2 : v.length < 3 ∧ ¬ earlyDeck720 r = true
      · rw [if_pos c2] at h
        obtain ⟨v', w1, h⟩ := bind_ok_iff.mp h
        simp only [except_pure, Except.ok.injEq, Prod.mk.injEq] at h
        obtain ⟨h1, rfl⟩ := h
        rw [zl] at w1 h1
        obtain ⟨a1, a2⟩ := writeFlags_put _ _ _ _ _ (rep v _ 1 rfl) w1
        have l1 : v'.length = v.length := by rw [a1]; simp
        rw [ftake _ (by rw [l1]; exact hl), l1] at he
        obtain ⟨b1, b2⟩ := writeFlags_put _ _ _ _ _ (rep v' _ 0 l1) he
        have le : e.length = v.length := by rw [b1]; simp [l1]
        have hp : e.map unmarkedReport = v'.map unmarkedReport := by rw [b1, plain_put _ _ _ (rep v' _ 0 l1)]
        obtain ⟨r', d2, d3, d4⟩ := plain_of v' hp (by rw [a1, plain_put _ _ _ (rep v _ 1 rfl)]) r hr
        have again : writeFlags e "POS" "fewsome_check" (List.replicate v.length 1) = .ok e := by
          rw [a2 e le]
          conv_lhs => rw [b1, putFlags_comm (by decide), a1, putFlags_again _ _ _ _ rfl, ← a1, ← b1]
        unfold mdsTrackCheck
        rw [d2]
        simp only
        rw [d3, if_neg c1, if_pos (by rw [le, d4]; exact c2), zl, zl, le, again, except_bind_ok, h1]
        rfl
      · rw [if_neg c2] at h
        obtain ⟨w, w1, h⟩ := bind_ok_iff.mp h
        obtain ⟨fl', f1, h⟩ := bind_ok_iff.mp h
        obtain ⟨v', w2, h⟩ := bind_ok_iff.mp h
        simp only [except_pure, Except.ok.injEq, Prod.mk.injEq] at h
        obtain ⟨rfl, rfl⟩ := h
        have lw := (calcAlternate_spec w1).1
        rw [ftake _ (by rw [lw]; exact hl), zl] at w2
        obtain ⟨a1, a2⟩ := writeBoth_put (rep w _ 0 rfl) (rep w _ 0 rfl) w2
        have l1 : v'.length = w.length := by rw [a1]; simp
        rw [ftake _ (by omega), l1] at he
        obtain ⟨b1, b2⟩ := writeFlags_put _ _ _ _ _ (rep v' _ 0 l1) he
        have ee : e = v' := by
          rw [b1, a1, putFlags_comm (by decide), putFlags_again _ _ _ _ rfl]
        have lz : (List.replicate w.length (0 : Int)).length
            = (List.zipWith (putFlag ("POS" ++ "bad_track")) w (List.replicate w.length 0)).length := by simp
        have hp : e.map unmarkedReport = w.map unmarkedReport := by
          rw [ee, a1, plain_put _ _ _ lz, plain_put _ _ _ (rep w _ 0 rfl)]
        have hb : e.map bareReport = w.map bareReport := by
          rw [ee, a1, bare_put _ _ _ lz, bare_put _ _ _ (rep w _ 0 rfl)]
        obtain ⟨r', d2, d3, d4⟩ := plain_of w hp (plain_alternate w1) r hr
        obtain ⟨u, u1, u2⟩ := calcAlternate_same (hp.trans (plain_alternate w1)) w1
        have hu : u = e := alternate_again u1 (u2.trans hb.symm)
        subst hu
        have f2 : trackFlags G mdsParams u = .ok fl' := by rw [← trackFlags_bare, u2, trackFlags_bare]; exact f1
        have lu : u.length = w.length := by rw [ee]; exact l1
        have again : writeBoth u "bad_track" "fewsome_check" (List.replicate w.length 0) (List.replicate w.length 0)
            = .ok u := by
          rw [a2 u lu]
          congr 1
          conv_lhs => rw [ee, a1]
          rw [put_both_again _ _ (by decide), ← a1, ee]
        unfold mdsTrackCheck
        rw [d2]
        simp only
        rw [d3, if_neg c1, if_neg (by rw [lu, lw, d4]; exact c2), u1, except_bind_ok, f2, except_bind_ok,
          ftake _ (by omega), zl, lu, again]
        rfl

/-- C150 (part): a full track check that flags no report may be repeated: nothing changes.  Missing: voyages with
flagged reports (`C150_violation`). -/
theorem C150_twice_partial (G : Geo) (v e : List Report) (h : mdsFullTrackCheck G v = .ok e)
    (hf : ∀ r ∈ e, r.getQc "POS" "bad_track" = 0) : mdsFullTrackCheck G e = .ok e := by
  obtain ⟨le, -, -, -, fl, v1, -, -, -, -, e1, -, -, -, -, hm⟩ := C46_full G v e h
  obtain ⟨p1, p2, -, p4, -⟩ := C46_pass_partial G v v1 fl e1
  have hlen : v.length ≤ fl.length := by
    rcases p1 with h | ⟨h, -, rfl⟩
    · omega
    · simp; omega
  have hz : ∀ x ∈ fl, x = 0 := by
    intro x hx
    by_cases hn : 2 ≤ v.length
    · have hfl : fl.length = v.length := by
        rcases p1 with h | ⟨h, -⟩
        · exact h
        · omega
      rcases p2 x hx with h0 | h0
      · exact h0
      · obtain ⟨j, hj⟩ := List.mem_iff_getElem?.1 hx
        have hjl := lt_of_get hj
        have he : e[j]? = some e[j] := List.getElem?_eq_getElem (by omega)
        have := hm j _ he (by rw [hj, h0])
        rw [hf _ (List.mem_of_getElem? he)] at this
        omega
    · exact (C46_pass_decision G v v1 fl e1).1 (Or.inr (by omega)) x hx
  have loop : ∀ u, fl.length > 0 → fullLoop G 4 u fl fl = .ok (u, fl) := by
    intro u hl
    unfold fullLoop
    rw [if_neg (by rintro rfl; simp at hl), if_neg]
    rw [List.any_eq_true]
    rintro ⟨x, hx, hx'⟩
    rw [hz x hx] at hx'
    simp at hx'
  have full : ∀ u u', mdsTrackCheck G u = .ok (fl, u') →
      mdsFullTrackCheck G u = writeFlags u' "POS" "bad_track" (fl.take u'.length) := by
    intro u u' hu
    unfold mdsFullTrackCheck
    rw [hu, except_bind_ok]
    simp only
    by_cases hl : fl.length > 0
    · rw [if_pos hl, loop _ hl, except_bind_ok]
    · rw [if_neg hl, except_bind_ok]
  rw [full v v1 e1] at h
  have l1 : (fl.take v1.length).length = v1.length := by rw [List.length_take]; omega
  obtain ⟨b1, b2⟩ := writeFlags_put _ _ _ _ _ l1 h
  rw [full e e (mds_again e1 hz hlen h), show e.length = v1.length by omega, b2 e (by omega)]
  congr 1
  conv_lhs => rw [b1, putFlags_again _ _ _ _ rfl, ← b1]

/-- Five reports of a ship that sails east, the second 100 degrees off the track. -/
def strayVoyage : List Report :=
  [sampleAt 0 0 0, sampleAt 3 0 100, sampleAt 6 0 1, sampleAt 9 0 2, sampleAt 12 0 3]

/-- C150 (violation): the full track check of a voyage flags the report off the track; made once more it takes the
flag away. -/
theorem C150_violation : ∃ v e f : List Report, strayVoyage.foldlM (addReport planeGeo) [] = .ok v ∧
    mdsFullTrackCheck planeGeo v = .ok e ∧ (e.map fun r => r.getQc "POS" "bad_track") = [0, 1, 0, 0, 0] ∧
    mdsFullTrackCheck planeGeo e = .ok f ∧ (f.map fun r => r.getQc "POS" "bad_track") = [0, 0, 0, 0, 0] := by
  have h1 : ((strayVoyage.foldlM (addReport planeGeo) []).bind (mdsFullTrackCheck planeGeo)).map
      (fun v => v.map fun r => r.getQc "POS" "bad_track") = .ok [0, 1, 0, 0, 0] := by
    decide +kernel
  have h2 : (((strayVoyage.foldlM (addReport planeGeo) []).bind (mdsFullTrackCheck planeGeo)).bind
      (mdsFullTrackCheck planeGeo)).map (fun v => v.map fun r => r.getQc "POS" "bad_track") = .ok [0, 0, 0, 0, 0] := by
    decide +kernel
  cases hv : strayVoyage.foldlM (addReport planeGeo) [] with
  | error x => rw [hv] at h1; cases h1
  | ok v =>
    rw [hv] at h1 h2
    change (mdsFullTrackCheck planeGeo v).map _ = _ at h1
    change ((mdsFullTrackCheck planeGeo v).bind _).map _ = _ at h2
    cases he : mdsFullTrackCheck planeGeo v with
    | error x => rw [he] at h1; cases h1
    | ok e =>
      rw [he] at h1 h2
      change (mdsFullTrackCheck planeGeo e).map _ = _ at h2
      cases hf : mdsFullTrackCheck planeGeo e with
      | error x => rw [hf] at h2; cases h2
      | ok f =>
        rw [hf] at h2
        injection h1 with h1
        injection h2 with h2
        exact ⟨v, e, f, rfl, he, h1, hf, h2⟩

/-- Non-vacuity of `C150_twice_partial`: the full track check of three reports of a ship on its track completes and
flags nothing. -/
example : (([sampleAt 0 0 0, sampleAt 6 0 1, sampleAt 12 0 2].foldlM (addReport planeGeo) []).bind
      (mdsFullTrackCheck planeGeo)).map (fun v => v.map fun r => r.getQc "POS" "bad_track") = .ok [0, 0, 0] := by
  decide +kernel

end MarineQC
