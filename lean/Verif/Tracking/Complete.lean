import Verif.Tracking.Props
import Verif.Buoy.Screen
import Verif.Voyage.Difference
import Verif.Checks.DayTest

/-!
# C96: when the tracking program completes
-/

namespace MarineQC

open Spec

namespace Spec

/-- The report was made at an existing place and time, and is stamped with that time (to the minute). -/
def Observed (r : Report) : Prop :=
  ∃ lat lon y m d h, MadeAt r lat lon y m d h ∧ -90 ≤ lat ∧ lat ≤ 90 ∧
    r.dt = timestamp (some y) (some m) (some d) (some h)

/-- The report has been matched with valid background values (or there is no background value). -/
def HasBackground (r : Report) : Prop :=
  (r.getext "OSTIA" = .ok none ∨ ∃ x b q, r.getvar "SST" = some x ∧ r.getext "OSTIA" = .ok (some b) ∧
      r.getext "BGVAR" = .ok (some q) ∧ -5 ≤ b ∧ b ≤ 45 ∧ 0 ≤ q ∧ q ≤ 10) ∧
    (∃ x, r.getext "ICE" = .ok x ∧ 0 ≤ x.getD 0 ∧ x.getD 0 ≤ 1) ∧ ∃ q, r.getext "BGVAR" = .ok q

/-- What the tracking program needs of the reports of a drifter. -/
structure Trackable (reps : List Report) : Prop where
  placed : ∀ r ∈ reps, r.Placed
  observed : ∀ r ∈ reps, GoodPosition r → Observed r
  background : ∀ r ∈ reps, GoodPosition r → GoodTemperature r → HasBackground r
  same : ∀ a ∈ reps, ∀ b ∈ reps, a.id = b.id
  minutes : ∀ a ∈ reps, ∀ b ∈ reps, GoodPosition a → GoodPosition b → a.dt = b.dt → a.getvar "HR" = b.getvar "HR"

/-- What it needs of its parameters. -/
structure TrackParamsOk (P : DriftParams) : Prop where
  win : 1 ≤ P.win ∧ P.win % 2 ≠ 0
  groundPeriod : 1 ≤ P.groundPeriod
  iquam : 0 < P.iquam.deltaT ∧ 0 ≤ P.iquam.deltaD ∧ 0 ≤ P.iquam.shipSpeedLimit
  speed : 0 ≤ P.speedLimit ∧ 0 < P.speedPeriod
  tail : TailParamsOk P.tail
  bias : BiasParamsOk P.bias

end Spec

/-- A report that is not stamped later than another was not made later, unless both were made in the same minute. -/
theorem tdiff_nonneg (G : Geo) {a b : Report} (ha : Observed a) (hb : Observed b) (hab : NotLater a b)
    (hm : a.dt = b.dt → a.getvar "HR" = b.getvar "HR") : ∃ d, b.sub G a = .ok d ∧ 0 ≤ d.tdiff := by
  obtain ⟨la, oa, y, m, d, h, ma, -, -, sa⟩ := ha
  obtain ⟨lb, ob, y', m', d', h', mb, -, -, sb⟩ := hb
  have ia : IsDate y m d := ma.2.2.2.2.2.2.1
  have ib : IsDate y' m' d' := mb.2.2.2.2.2.2.1
  have ha1 : a.getvar "HR" = some h := ma.2.2.2.2.2.1
  have hb1 : b.getvar "HR" = some h' := mb.2.2.2.2.2.1
  have ha0 : 0 ≤ h := ma.2.2.2.2.2.2.2.1
  have ha24 : h < 24 := ma.2.2.2.2.2.2.2.2
  have hb0 : 0 ≤ h' := mb.2.2.2.2.2.2.2.1
  have hb24 : h' < 24 := mb.2.2.2.2.2.2.2.2
  obtain ⟨da, db, hda, hdb, hlt⟩ := hab
  rw [ha1, hb1, hda, hdb] at hm
  rw [hda] at sa
  rw [hdb] at sb
  simp only [timestamp, if_pos ia, Option.some.injEq] at sa
  simp only [timestamp, if_pos ib, Option.some.injEq] at sb
  rw [Bool.eq_false_iff, ne_eq, dtLt_iff] at hlt
  rcases before_trichotomy (y, m, d) (y', m', d') with c | c | c
  · obtain ⟨n, hn⟩ := exists_daysLater (a := (y, m, d)) (b := (y', m', d')) ia ib c
    have hn1 : n ≠ 0 := by
      rintro rfl
      simp only [daysLater, Prod.mk.injEq] at hn
      simp only [Before] at c
      omega
    refine ⟨_, (C40_difference G b a n lb ob la oa y' m' d' y m d h' h mb ma hn.symm).1, ?_⟩
    have : (1 : Rat) ≤ n := by exact_mod_cast Nat.one_le_iff_ne_zero.mpr hn1
    show 0 ≤ 24 * (n : Rat) + (h' - h)
    linarith
  · simp only [Prod.mk.injEq] at c
    obtain ⟨rfl, rfl, rfl⟩ := c
    refine ⟨_, (C40_difference G b a 0 lb ob la oa y m d y m d h' h mb ma rfl).1, ?_⟩
    show 0 ≤ 24 * ((0 : Nat) : Rat) + (h' - h)
    suffices h ≤ h' by push_cast; linarith
    by_contra hc
    push_neg at hc
    rw [sa, sb] at hlt
    simp only [lt_self_iff_false, true_and, false_or, not_or, not_and, not_lt] at hlt
    have h1 : ⌊h'⌋ ≤ ⌊h⌋ := Int.floor_le_floor hc.le
    have h2 : ⌊h⌋ = ⌊h'⌋ := le_antisymm hlt.1 h1
    have h3 : ⌊(h' - ⌊h'⌋) * 60⌋ ≤ ⌊(h - ⌊h⌋) * 60⌋ := by
      apply Int.floor_le_floor
      rw [h2]
      linarith
    have h4 : ⌊(h - ⌊h⌋) * 60⌋ = ⌊(h' - ⌊h'⌋) * 60⌋ := le_antisymm (hlt.2 h2.symm) h3
    have := hm (by rw [sa, sb, h4, h2])
    injection this with this
    exact absurd this (ne_of_gt hc)
  · exfalso
    apply hlt
    rw [sa, sb]
    simp only [Before] at c ⊢
    omega

theorem observed_data {a b : Report} (h : a.data = b.data) (hd : a.dt = b.dt) (hb : Observed b) : Observed a := by
  unfold Observed MadeAt Report.lat Report.lon at *
  rw [getvar_data_eq h (by decide), getvar_data_eq h (by decide), getvar_data_eq h (by decide), hd]
  simpa only [getint_data_eq h] using hb

/-- The voyage of a pass over trackable reports is a track. -/
theorem voyage_track (G : Geo) (reps : List Report) (order : List Nat) (v : List Report) (chosen : Report → Prop)
    (hr : Trackable reps) (hgood : ∀ r, chosen r → GoodPosition r) (hc : Chooses chosen reps order)
    (hv : VoyageOf G reps order v) (ht : InTime reps order) :
    (∀ r ∈ v, r.Placed) ∧ (∃ lat lon hrs, IsTrack v lat lon hrs) ∧
    ∀ (k : Nat) (s : Report), v[k]? = some s → (∃ r ∈ reps, chosen r ∧ OnlyFlags [] r s) ∧
      (k ≠ 0 → ∃ t, s.getext "time_diff" = .ok (some t) ∧ 0 ≤ t) := by
  obtain ⟨c1, c2⟩ := hc
  obtain ⟨v1, v2, v3⟩ := hv
  have back : ∀ (k : Nat) (s : Report), v[k]? = some s → ∃ i r, order[k]? = some i ∧ reps[i]? = some r ∧ chosen r ∧
      OnlyFlags [] r s := by
    intro k s hs
    have hk : k < order.length := by rw [← v1]; exact (List.getElem?_eq_some_iff.mp hs).1
    obtain ⟨r, s', a1, a2, a3⟩ := v3 k _ (List.getElem?_eq_getElem hk)
    rw [hs] at a2
    injection a2 with a2
    subst a2
    obtain ⟨r', b1, b2⟩ := (c2 _).mp (List.getElem_mem hk)
    rw [a1] at b1
    injection b1 with b1
    subst b1
    exact ⟨_, r, List.getElem?_eq_getElem hk, a1, b2, a3⟩
  have hpl : ∀ r ∈ v, r.Placed := by
    intro s hs
    obtain ⟨k, hk⟩ := List.mem_iff_getElem?.mp hs
    obtain ⟨i, r, -, h2, -, h4⟩ := back k s hk
    exact placed_of_data h4.data (hr.placed r (List.mem_of_getElem? h2))
  have htd : ∀ (k : Nat) (s : Report), v[k + 1]? = some s → ∃ t, s.getext "time_diff" = .ok (some t) ∧ 0 ≤ t := by
    intro k s hs
    have hk1 : k + 1 < v.length := (List.getElem?_eq_some_iff.mp hs).1
    have hp : v[k]? = some v[k] := List.getElem?_eq_getElem (by omega)
    obtain ⟨d, d1, d2⟩ := v2 k _ s hp hs
    obtain ⟨i, r, p1, p2, p3, p4⟩ := back k _ hp
    obtain ⟨j, q, q1, q2, q3, q4⟩ := back (k + 1) s hs
    have hord := List.pairwise_iff_getElem.mp ht k (k + 1) (by omega) (by omega) (by omega)
    rw [List.getElem?_eq_some_iff] at p1 q1
    obtain ⟨_, p1⟩ := p1
    obtain ⟨_, q1⟩ := q1
    rw [p1, q1] at hord
    have hrm := List.mem_of_getElem? p2
    have hqm := List.mem_of_getElem? q2
    obtain ⟨d', e1, e2⟩ := tdiff_nonneg G (hr.observed r hrm (hgood r p3)) (hr.observed q hqm (hgood q q3))
      (hord r q p2 q2).1 (hr.minutes r hrm q hqm (hgood r p3) (hgood q q3))
    rw [sub_data_eq G q4.data p4.data, e1] at d1
    injection d1 with d1
    subst d1
    exact ⟨_, d2.2.2.2, e2⟩
  refine ⟨hpl, ?_, ?_⟩
  · let td : Nat → Rat := fun k => match v[k]? with
      | some s => (match s.getext "time_diff" with | .ok (some t) => t | _ => 0)
      | none => 0
    let hrs : Nat → Rat := fun k => Nat.rec 0 (fun n acc => acc + td (n + 1)) k
    refine ⟨fun k => ((v[k]?.bind fun r => r.getvar "LAT").getD 0), fun k => ((v[k]?.bind fun r => r.getvar "LON").getD 0), hrs,
      ?_, rfl, ?_, ?_⟩
    · intro i r hi
      obtain ⟨h1, h2, -⟩ := hpl r (List.mem_of_getElem? hi)
      have h2' : r.getvar "LON" ≠ none := by
        intro h
        apply h2
        unfold Report.lon
        rw [h]
      simp only [hi, Option.bind_some]
      obtain ⟨x, hx⟩ := Option.ne_none_iff_exists'.mp (show r.getvar "LAT" ≠ none from h1)
      obtain ⟨y, hy⟩ := Option.ne_none_iff_exists'.mp h2'
      rw [hx, hy]
      exact ⟨rfl, rfl⟩
    · intro i r hi
      obtain ⟨t, t1, -⟩ := htd i r hi
      have : hrs (i + 1) - hrs i = t := by
        show hrs i + td (i + 1) - hrs i = t
        simp only [td, hi, t1]
        ring
      rw [this, t1]
    · intro i hi
      obtain ⟨t, t1, t2⟩ := htd i _ (List.getElem?_eq_getElem hi)
      show hrs i ≤ hrs i + td (i + 1)
      simp only [td, List.getElem?_eq_getElem hi, t1]
      linarith
  · intro k s hs
    obtain ⟨i, r, -, h2, h3, h4⟩ := back k s hs
    refine ⟨⟨r, List.mem_of_getElem? h2, h3, h4⟩, fun hk => ?_⟩
    obtain ⟨k, rfl⟩ := Nat.exists_eq_succ_of_ne_zero hk
    exact htd k s hs

theorem getext_only {keys : List String} {r s : Report} (h : OnlyFlags keys r s) {k : String} (hk : k ∉ linkNames) :
    s.getext k = r.getext k := by
  unfold Report.getext
  rw [h.ext k hk]

theorem hasBackground_only {keys : List String} {r s : Report} (h : OnlyFlags keys r s) : HasBackground s ↔ HasBackground r := by
  unfold HasBackground
  rw [getext_only h (k := "OSTIA") (by decide), getext_only h (k := "ICE") (by decide),
    getext_only h (k := "BGVAR") (by decide), getvar_data_eq h.data (v := "SST") (by decide)]

/-- Trackable reports remain so when only drifter flags change. -/
theorem trackable_step {flags : List (String × String)} {x y : List Report} (hs : flags ⊆ trackingFlags)
    (hl : y.length = x.length)
    (h : ∀ (k : Nat) (r : Report), x[k]? = some r → ∃ r', y[k]? = some r' ∧ OnlyFlags (stored flags) r r')
    (hx : Trackable x) : Trackable y := by
  have back : ∀ r ∈ y, ∃ r0 ∈ x, OnlyFlags (stored flags) r0 r := by
    intro r hr
    obtain ⟨n, hn⟩ := List.mem_iff_getElem?.mp hr
    have hlt : n < x.length := by rw [← hl]; exact (List.getElem?_eq_some_iff.mp hn).1
    obtain ⟨r', e1, e2⟩ := h n x[n] (List.getElem?_eq_getElem hlt)
    rw [hn] at e1
    injection e1 with e1
    subst e1
    exact ⟨_, List.getElem_mem hlt, e2⟩
  refine ⟨?_, ?_, ?_, ?_, ?_⟩
  · intro r hr
    obtain ⟨r0, h0, h1⟩ := back r hr
    exact placed_of_data h1.data (hx.placed r0 h0)
  · intro r hr hg
    obtain ⟨r0, h0, h1⟩ := back r hr
    exact observed_data h1.data h1.dt (hx.observed r0 h0 ((goodPosition_only h1 hs).mp hg))
  · intro r hr hg ht
    obtain ⟨r0, h0, h1⟩ := back r hr
    exact (hasBackground_only h1).mpr (hx.background r0 h0 ((goodPosition_only h1 hs).mp hg) ((goodTemperature_only h1 hs).mp ht))
  · intro a ha b hb
    obtain ⟨a0, a1, a2⟩ := back a ha
    obtain ⟨b0, b1, b2⟩ := back b hb
    rw [a2.id, b2.id]
    exact hx.same _ a1 _ b1
  · intro a ha b hb ga gb hd
    obtain ⟨a0, a1, a2⟩ := back a ha
    obtain ⟨b0, b1, b2⟩ := back b hb
    rw [a2.dt, b2.dt] at hd
    rw [getvar_data_eq a2.data (by decide), getvar_data_eq b2.data (by decide)]
    exact hx.minutes _ a1 _ b1 ((goodPosition_only a2 hs).mp ga) ((goodPosition_only b2 hs).mp gb) hd

theorem passVoyage_completes (G : Geo) (keep : Report → Bool) (reps : List Report) (h : ∀ r ∈ reps, r.Placed) :
    ∃ v, passVoyage G keep reps = .ok v := by
  unfold passVoyage buildTagged
  generalize hF : (reps.zipIdx.filter fun p => keep p.1) = F
  have hpl : ∀ r ∈ F.map (·.1), r.Placed := by
    intro r hr
    obtain ⟨p, hp, rfl⟩ := List.mem_map.mp hr
    rw [← hF, tagged_chosen] at hp
    exact h _ (List.mem_of_getElem? hp.1)
  obtain ⟨u, hu⟩ := C40_add_report_completes G _ hpl
  rw [hu]
  simp only [except_bind_ok, except_pure]
  have hf := build_only G _ _ hu
  have hupl : ∀ r ∈ u, r.Placed := by
    intro s hs
    obtain ⟨n, hn⟩ := List.mem_iff_getElem?.mp hs
    have hlt : n < (F.map (·.1)).length := by rw [hf.length_eq]; exact (List.getElem?_eq_some_iff.mp hn).1
    obtain ⟨s', e1, e2⟩ := forall2_get hf n _ (List.getElem?_eq_getElem hlt)
    rw [hn] at e1
    injection e1 with e1
    subst e1
    exact placed_of_data e2.data (hpl _ (List.getElem_mem hlt))
  have hfst : (u.zip (F.map (·.2))).map (·.1) = u := by
    rw [List.map_fst_zip]
    rw [← hf.length_eq]
    simp
  obtain ⟨w, hw⟩ := C40_sort_completes G u hupl
  unfold sortTagged
  rw [sortVoyage_eq] at hw
  have e : ((u.zip (F.map (·.2))).mergeSort fun a b => !(b.1.lt a.1)).map (·.1) = sortReports u := by
    conv_rhs => rw [← hfst]
    unfold sortReports
    apply List.map_mergeSort
    intros
    rfl
  simp only [e, hw, except_bind_ok, except_pure]
  exact ⟨_, rfl⟩

/-- A pass over trackable reports completes when the check does. -/
theorem trackPass_completes (G : Geo) (keep : Report → Bool) (chosen : Report → Prop) (hk : ∀ r, keep r = true ↔ chosen r)
    (hgood : ∀ r, chosen r → GoodPosition r) (check : List Report → Except Err (List Report)) (reps : List Report)
    (hr : Trackable reps)
    (hc : ∀ v : List Report, v ≠ [] → (∀ r ∈ v, r.Placed) → (∃ lat lon hrs, IsTrack v lat lon hrs) →
      (∀ (k : Nat) (s : Report), v[k]? = some s → (∃ r ∈ reps, chosen r ∧ OnlyFlags [] r s) ∧
        (k ≠ 0 → ∃ t, s.getext "time_diff" = .ok (some t) ∧ 0 ≤ t)) → ∃ v', check v = .ok v') :
    ∃ reps', trackPass G keep (buoyGuard G check false) reps = .ok reps' := by
  obtain ⟨v, hv⟩ := passVoyage_completes G keep reps hr.placed
  obtain ⟨c1, c2, c3⟩ := passVoyage_chosen G keep reps v hv
  have hdt : ∀ r ∈ reps, keep r = true → r.dt ≠ none := by
    intro r hm hkr
    obtain ⟨_, _, y, m, d, h, ma, -, -, e⟩ := hr.observed r hm (hgood r ((hk r).mp hkr))
    have : IsDate y m d := ma.2.2.2.2.2.2.1
    rw [e]
    simp [timestamp, this]
  obtain ⟨t1, t2, t3⟩ := voyage_track G reps _ _ chosen hr hgood (by simpa only [hk] using c1) c2 (c3 hdt hr.same)
  have : ∃ w, buoyGuard G check false (v.map (·.1)) = .ok w := by
    generalize v.map (·.1) = v at t1 t2 t3
    unfold buoyGuard
    cases v with
    | nil => exact ⟨_, rfl⟩
    | cons a l =>
      simp only [sortIf, Bool.false_eq_true, if_false, except_bind_ok]
      split
      · exact ⟨_, rfl⟩
      · exact hc _ (by simp) t1 t2 t3
  obtain ⟨w, hw⟩ := this
  unfold trackPass
  rw [hv, except_bind_ok, hw]
  exact ⟨_, rfl⟩

theorem daylight_observed (elev : Int → Int → Rat → Rat → Rat → Rat → ℝ) {r : Report} (h : Observed r) :
    ∃ b, daylight elev r = .ok b := by
  obtain ⟨lat, lon, y, m, d, hh, ⟨a1, a2, a3, a4, a5, a6, a7, a8, a9⟩, l1, l2, -⟩ := h
  have hlon : ∃ lon', r.getvar "LON" = some lon' := by
    unfold Report.lon at a2
    cases hl : r.getvar "LON" with
    | none => rw [hl] at a2; cases a2
    | some x => exact ⟨x, rfl⟩
  obtain ⟨lon', hlon⟩ := hlon
  obtain ⟨n, h', mi, -, -, -, -, -, e⟩ := C25_track_day_test elev y m d hh lat lon' (-5 / 2) a7 a8 a9 l1 l2
  unfold daylight
  rw [a3, a4, a5, a6, hlon, show r.getvar "LAT" = some lat from a1, e]
  exact ⟨_, rfl⟩

theorem matched_of_background (elev : Int → Int → Rat → Rat → Rat → Rat → ℝ) (mask : Option Rat → Bool) {s : Report} {k : Nat}
    (ho : Observed s) (hb : HasBackground s) (ht : k ≠ 0 → ∃ t, s.getext "time_diff" = .ok (some t) ∧ 0 ≤ t) :
    Matched (daylight elev) mask s k := by
  obtain ⟨h1, h2, h3⟩ := hb
  refine ⟨?_, h2, h3, daylight_observed elev ho, ht, ?_⟩
  · rcases h1 with h | ⟨x, b, q, -, h, -⟩
    exacts [⟨_, h⟩, ⟨_, h⟩]
  · rintro ⟨-, ⟨b', hb'⟩, -, -⟩
    rcases h1 with h | ⟨x, b, q, e1, e2, e3, e4⟩
    · rw [h] at hb'
      cases hb'
    · exact ⟨x - b, q, x, b, e1, e2, e3, rfl, e4⟩

/-- **C96.**  With valid parameters the tracking checks and the final sorting raise no exception for a drifter whose
reports all have a position and a time, if no two reports with good positions were made at different times of the same
minute and the reports to be compared with the background have been matched. -/
theorem C96_completes_partial (G : Geo) (hG : IsDistance G) (elev : Int → Int → Rat → Rat → Rat → Rat → ℝ) (P : DriftParams)
    (hP : TrackParamsOk P) (reps : List Report) (hr : Trackable reps) :
    ∃ reps' v, trackingChecks G elev P reps = .ok reps' ∧ wholeVoyage G reps' = .ok v := by
  have w1 : (1 : Int) ≤ P.win := hP.win.1
  -- aground
  obtain ⟨x1, h1⟩ := trackPass_completes G positionKept GoodPosition positionKept_iff (fun _ h => h)
    (newAgroundCheck G P.win P.groundPeriod) reps hr (by
      intro v _ _ ht _
      exact (C49_completes G P.win P.groundPeriod P.groundPeriod hP.win.1 hP.win.2 hP.groundPeriod le_rfl v (.inr ht)).2)
  obtain ⟨l1, s1⟩ := trackPass_step (aground_only ..).1 (aground_only ..).2 h1
  have hr1 := trackable_step (by decide) l1 (fun k r hr => let ⟨r', e1, e2, _⟩ := s1 k r hr; ⟨r', e1, e2⟩) hr
  -- speed
  obtain ⟨x2, h2⟩ := trackPass_completes G positionKept GoodPosition positionKept_iff (fun _ h => h)
    (newSpeedCheck G P.iquam P.speedLimit P.speedPeriod) x1 hr1 (by
      intro v hv hp ht _
      obtain ⟨lat, lon, hrs, ht⟩ := ht
      match v, hv with
      | [r0], _ =>
        obtain ⟨-, e, -⟩ := newSpeedFlags_params (G := G) (P := P.iquam) (limit := P.speedLimit) (minP := P.speedPeriod)
          (v := [r0])
        unfold newSpeedCheck
        rw [e ⟨hP.speed.1, hP.speed.2.le⟩ (by simp), except_bind_ok]
        exact writeFlags_ok (v := [r0]) (t := "POS") (f := "drf_spd") (.inl (by decide)) (by simp)
      | r0 :: a :: l, _ =>
        obtain ⟨v', -, e, -⟩ := C51_completes G hG P.iquam hP.iquam.1 hP.iquam.2.1 hP.iquam.2.2 P.speedLimit P.speedPeriod
          hP.speed.1 hP.speed.2 r0 (a :: l) (by simp) hp lat lon hrs ht
        exact ⟨v', e⟩)
  obtain ⟨l2, s2⟩ := trackPass_step (speed_only _ _ _ _ hP.speed.2).1 (speed_only _ _ _ _ hP.speed.2).2 h2
  have hr2 := trackable_step (by decide) l2 (fun k r hr => let ⟨r', e1, e2, _⟩ := s2 k r hr; ⟨r', e1, e2⟩) hr1
  -- tails
  obtain ⟨x3, h3⟩ := trackPass_completes G tailKept _ tailKept_iff (fun _ h => h.1) (sstTailCheck elev P.tail) x2 hr2 (by
      intro v _ _ _ hm
      refine (C52_completes elev P.tail v).2 hP.tail fun k s hs => ?_
      obtain ⟨⟨r, m1, m2, m3⟩, m4⟩ := hm k s hs
      exact matched_of_background elev _ (observed_data m3.data m3.dt (hr2.observed r m1 m2.1))
        ((hasBackground_only m3).mpr (hr2.background r m1 m2.1 m2.2.1)) m4)
  obtain ⟨l3, s3⟩ := trackPass_step (tail_only ..).1 (tail_only ..).2 h3
  have hr3 := trackable_step (by decide) l3 (fun k r hr => let ⟨r', e1, e2, _⟩ := s3 k r hr; ⟨r', e1, e2⟩) hr2
  -- bias
  obtain ⟨x4, h4⟩ := trackPass_completes G biasKept _ biasKept_iff (fun _ h => h.1) (sstBiasedNoisyCheck elev P.bias) x3 hr3 (by
      intro v _ _ _ hm
      refine (C53_completes elev P.bias v).2 hP.bias fun k s hs => ?_
      obtain ⟨⟨r, m1, m2, m3⟩, m4⟩ := hm k s hs
      exact matched_of_background elev _ (observed_data m3.data m3.dt (hr3.observed r m1 m2.1))
        ((hasBackground_only m3).mpr (hr3.background r m1 m2.1 m2.2.1)) m4)
  obtain ⟨l4, s4⟩ := trackPass_step (bias_only ..).1 (bias_only ..).2 h4
  have hr4 := trackable_step (by decide) l4 (fun k r hr => let ⟨r', e1, e2, _⟩ := s4 k r hr; ⟨r', e1, e2⟩) hr3
  obtain ⟨v, hv⟩ := passVoyage_completes G (fun _ => true) x4 hr4.placed
  refine ⟨x4, v.map (·.1), trackingChecks_ok.mpr ⟨x1, x2, x3, h1, h2, h3, h4⟩, ?_⟩
  unfold wholeVoyage
  rw [hv]
  rfl

end MarineQC
