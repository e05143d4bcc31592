import Verif.Rest.Print
import Verif.Voyage.Links

/-!
# C138: the predicted next place of a voyage
-/

namespace MarineQC

namespace Spec

/-- The place where a platform is expected that was at `(lat1, lon1)` and `hours` later at `(lat2, lon2)`, once `t` more hours
have gone: on the course from the first to the second place, as far from the first as its speed takes it.  When no time went by, or
it is not known how much, the platform is expected where it was last. -/
def expected (G : Geo) (lat1 lon1 lat2 lon2 : Rat) (hours : Option Rat) (t : Rat) : Rat × Rat :=
  match hours with
  | none => (lat2, lon2)
  | some h =>
    if |h| < 1 / 100000 then (lat2, lon2)
    else G.project lat1 lon1 (G.course lat1 lon1 lat2 lon2) (G.dist lat2 lon2 lat1 lon1 / h * (h + t))

end Spec

open Spec

theorem getvar_of_getext {r : Report} {v : String} {x : Option Rat} (hv : v ∉ VARLIST) (h : r.getext v = .ok x) :
    r.getvar v = x := by
  unfold Report.getext at h
  unfold Report.getvar
  cases he : r.ext v with
  | none => rw [he] at h; simp at h
  | some y =>
    rw [he] at h
    simp only [Except.ok.injEq] at h
    simp [hv, h]

/-- **C138.** A voyage whose reports hold their differences, as `add_report` and `sort` leave them, with the two last reports at
known places: the prediction is where the specification says. -/
theorem C138_linked (G : Geo) (w : List Report) (p r : Report) (t : Rat) (h : Option Rat) (plat plon rlat rlon : Rat)
    (hv : Linked G (w ++ [p, r])) (ht : 0 ≤ t) (hh : p.timeTo r = .ok h) (h1 : p.lat = some plat) (h2 : p.lon = some plon)
    (h3 : r.lat = some rlat) (h4 : r.lon = some rlon) :
    predictNext G (w ++ [p, r]) t =
      .ok (some (expected G plat plon rlat rlon h t).1, some (expected G plat plon rlat rlon h t).2) := by
  obtain ⟨d, hd, g1, g2, -, g4⟩ := hv w.length p r (by simp) (by
    rw [List.getElem?_append_right (by omega)]; simp)
  have e1 := getvar_of_getext (by decide) g1
  have e2 := getvar_of_getext (by decide) g2
  have e4 := getvar_of_getext (by decide) g4
  have i1 : pyIndex (w ++ [p, r]) (((w ++ [p, r]).length : Int) - 1) = .ok r := by
    unfold pyIndex
    simp only [List.length_append, List.length_cons, List.length_nil]
    rw [if_neg (by omega), if_neg (by omega)]
    have : ((((w.length + (0 + 1 + 1) : Nat) : Int) - 1).toNat) = w.length + 1 := by omega
    rw [this, List.getElem?_append_right (by omega)]
    simp
  have i2 : pyIndex (w ++ [p, r]) (((w ++ [p, r]).length : Int) - 2) = .ok p := by
    unfold pyIndex
    simp only [List.length_append, List.length_cons, List.length_nil]
    rw [if_neg (by omega), if_neg (by omega)]
    have : ((((w.length + (0 + 1 + 1) : Nat) : Int) - 2).toNat) = w.length := by omega
    rw [this]
    simp
  have hl : ¬ (w ++ [p, r]).length = 1 := by simp
  have hp : decide ((w ++ [p, r]).length > 0) = true := by simp
  simp only [Report.sub, h1, h2, h3, h4, hh, except_bind_ok, except_pure, Except.ok.injEq] at hd
  unfold predictNext
  rw [decide_eq_true (show t ≥ 0 from ht), hp]
  simp only [pyAssert_true, except_bind_ok, if_neg hl, i1, e4, needed]
  cases h with
  | none =>
    have : d.tdiff = 0 := by rw [← hd]
    rw [if_pos (by rw [this, abs_zero]; norm_num)]
    simp [expected, h3, h4]
  | some h =>
    by_cases hz : h = 0
    · have : d.tdiff = 0 := by rw [← hd]; simp [hz]
      rw [if_pos (by rw [this, abs_zero]; norm_num)]
      subst hz
      simp [expected, h3, h4]
    · have ht' : d.tdiff = h := by rw [← hd]; simp [hz]
      have hs : d.speed = G.dist rlat rlon plat plon / h := by rw [← hd]; simp [hz]
      have hc : d.course = G.course plat plon rlat rlon := by rw [← hd]
      by_cases hsmall : |h| < 1 / 100000
      · rw [ht', if_pos hsmall]
        unfold expected
        simp only [if_pos hsmall, h3, h4, except_pure]
      · rw [ht', if_neg hsmall]
        unfold expected
        simp only [if_neg hsmall, e1, e2, i2, h1, h2, hs, hc, except_bind_ok, except_pure]

theorem lat_data_eq {a b : Report} (h : a.data = b.data) : a.lat = b.lat := getvar_data_eq h (by decide)

theorem lon_data_eq {a b : Report} (h : a.data = b.data) : a.lon = b.lon := by
  unfold Report.lon; rw [getvar_data_eq h (by decide)]

theorem hoursBetween_eq {a a' b b' : Report} (ha : a.data = a'.data) (hb : b.data = b'.data) :
    b.timeTo a = b'.timeTo a' := by
  unfold Report.timeTo
  rw [getvar_data_eq ha (show "HR" ∈ VARLIST by decide), getvar_data_eq hb (show "HR" ∈ VARLIST by decide)]
  simp only [getint_data_eq ha, getint_data_eq hb]

/-- **C138.** However many reports were added to a voyage, of which `p` and `r` were the last two. -/
theorem C138_history (G : Geo) (l : List Report) (p r : Report) (v : List Report) (t : Rat) (h : Option Rat)
    (plat plon rlat rlon : Rat) (hv : (l ++ [p, r]).foldlM (addReport G) [] = .ok v) (ht : 0 ≤ t) (hh : p.timeTo r = .ok h)
    (h1 : p.lat = some plat) (h2 : p.lon = some plon) (h3 : r.lat = some rlat) (h4 : r.lon = some rlon) :
    predictNext G v t =
      .ok (some (expected G plat plon rlat rlon h t).1, some (expected G plat plon rlat rlon h t).2) := by
  obtain ⟨hs, -, hl⟩ := C40_add_report G _ v hv
  obtain ⟨w, x, -, hx, rfl⟩ : ∃ w x, List.Forall₂ SameReport w l ∧ List.Forall₂ SameReport x [p, r] ∧ v = w ++ x := by
    refine ⟨v.take l.length, v.drop l.length, ?_, ?_, (List.take_append_drop _ _).symm⟩
    · exact List.forall₂_take_append v l [p, r] hs
    · exact List.forall₂_drop_append v l [p, r] hs
  rcases x with _ | ⟨p', _ | ⟨r', _ | ⟨_, _⟩⟩⟩
  · cases hx
  · cases hx with
    | cons _ h => cases h
  · obtain ⟨hp, hr⟩ : SameReport p' p ∧ SameReport r' r := by
      cases hx with
      | cons a b =>
        cases b with
        | cons c _ => exact ⟨a, c⟩
    refine C138_linked G w p' r' t h plat plon rlat rlon hl ht ?_ ?_ ?_ ?_ ?_
    · rw [hoursBetween_eq hr.2.2.1 hp.2.2.1]; exact hh
    · rw [lat_data_eq hp.2.2.1]; exact h1
    · rw [lon_data_eq hp.2.2.1]; exact h2
    · rw [lat_data_eq hr.2.2.1]; exact h3
    · rw [lon_data_eq hr.2.2.1]; exact h4
  · cases hx with
    | cons _ h =>
      cases h with
      | cons _ h => cases h

/-- **C138.** With a geometry in which going the distance to a place on the course to it leads there, the prediction for now is
the place of the last report. -/
theorem C138_now (G : Geo) (l : List Report) (p r : Report) (v : List Report) (h : Option Rat)
    (plat plon rlat rlon : Rat) (hv : (l ++ [p, r]).foldlM (addReport G) [] = .ok v) (hh : p.timeTo r = .ok h)
    (h1 : p.lat = some plat) (h2 : p.lon = some plon) (h3 : r.lat = some rlat) (h4 : r.lon = some rlon)
    (hG : G.project plat plon (G.course plat plon rlat rlon) (G.dist rlat rlon plat plon) = (rlat, rlon)) :
    predictNext G v 0 = .ok (r.lat, r.lon) := by
  rw [C138_history G l p r v 0 h plat plon rlat rlon hv le_rfl hh h1 h2 h3 h4, h3, h4]
  cases h with
  | none => rfl
  | some h =>
    unfold expected
    by_cases hs : |h| < 1 / 100000
    · simp only [if_pos hs]
    · have : h ≠ 0 := by rintro rfl; exact hs (by norm_num)
      simp only [if_neg hs, add_zero, div_mul_cancel₀ _ this, hG]

/-- **C138.** A voyage of one report is expected to stay where it is; nothing is predicted without a report or for a time
that has gone. -/
theorem C138_edge (G : Geo) (v : List Report) (t : Rat) :
    (t < 0 → predictNext G v t = .error .assertion) ∧ predictNext G [] t = .error .assertion ∧
    ∀ r, 0 ≤ t → predictNext G [r] t = .ok (r.lat, r.lon) := by
  refine ⟨fun h => ?_, ?_, fun r h => ?_⟩
  · unfold predictNext
    rw [decide_eq_false (by simpa using h)]
    rfl
  · unfold predictNext
    cases decide (t ≥ 0) <;> rfl
  · unfold predictNext
    rw [decide_eq_true h]
    simp [pyIndex]

/-- A plane in place of the sphere, for a case: courses 90 and 270, distance along the equator. -/
def lineGeo : Geo where
  dist _ lon1 _ lon2 := |lon1 - lon2|
  course _ lon1 _ lon2 := if lon1 ≤ lon2 then 90 else 270
  project lat lon c d := (lat, if c = 90 then lon + d else lon - d)
  along lat1 lon1 _ _ _ := (lat1, lon1)

/-- A report on the equator. -/
def equatorReport (hour lon : Rat) : Report :=
  { Report.empty (some "A") (some "U1") with
    data := fun k => if k = "YR" then some 2000 else if k = "MO" then some 1 else if k = "DY" then some 1
      else if k = "HR" then some hour else if k = "LAT" then some 0 else if k = "LON" then some lon
      else if k = "DCK" then some 926 else if k = "SST" then some (153 / 10) else none }

/-- Two degrees in two hours: three hours later it is three degrees further. -/
example : ∃ v, ([equatorReport 0 10, equatorReport 2 12] : List Report).foldlM (addReport lineGeo) [] = .ok v ∧
    predictNext lineGeo v 3 = .ok (some 0, some 15) := by
  have hh : (equatorReport 0 10).timeTo (equatorReport 2 12) = .ok (some 2) := by decide +kernel
  have h1 : (equatorReport 0 10).lat = some 0 := by decide +kernel
  have h2 : (equatorReport 0 10).lon = some 10 := by decide +kernel
  have h3 : (equatorReport 2 12).lat = some 0 := by decide +kernel
  have h4 : (equatorReport 2 12).lon = some 12 := by decide +kernel
  have hs : ∃ d, (equatorReport 2 12).sub lineGeo (equatorReport 0 10).clearDiff = .ok d := by
    rw [sub_data_eq lineGeo (a := equatorReport 2 12) (b := (equatorReport 0 10).clearDiff) (a' := equatorReport 2 12) (b' := equatorReport 0 10) rfl rfl]
    unfold Report.sub
    rw [h1, h2, h3, h4]
    simp [hh]
  obtain ⟨d, hd⟩ := hs
  have hv : ([] ++ [equatorReport 0 10, equatorReport 2 12] : List Report).foldlM (addReport lineGeo) [] =
      .ok [(equatorReport 0 10).clearDiff, (equatorReport 2 12).setDiff d] := by
    simp [addReport, hd]
  refine ⟨_, hv, ?_⟩
  rw [C138_history lineGeo [] _ _ _ 3 (some 2) 0 10 0 12 hv (by norm_num) hh h1 h2 h3 h4]
  have : expected lineGeo 0 10 0 12 (some 2) 3 = (0, 15) := by decide +kernel
  rw [this]

end MarineQC
