import Verif.Track.Props

/-!
# C45: the track check completes on voyages in time order
-/

namespace MarineQC

namespace Spec

/-- The reports are in the order of their times. -/
def InTimeOrder (l : List Report) : Prop :=
  l.Pairwise fun a b => ∃ t, a.timeTo b = .ok (some t) ∧ 0 ≤ t

end Spec

open Spec

/-- What the track check needs. -/
structure TrackReady (v : List Report) : Prop where
  placed : ∀ r ∈ v, r.Placed
  heading : ∀ r ∈ v, r.getvar "dsi" ∈ dsConvert
  speed : ∀ r ∈ v, ∃ x, r.getext "speed" = .ok x
  later : ∀ (i : Nat) (r : Report), v[i + 1]? = some r →
    ∃ s t, r.getext "speed" = .ok (some s) ∧ r.getvar "time_diff" = some t ∧ 0 ≤ t

theorem mapM_exists {α β : Type} {f : α → Except Err β} {l : List α} (h : ∀ a ∈ l, ∃ b, f a = .ok b) :
    ∃ r, l.mapM f = .ok r := by
  induction l with
  | nil => exact ⟨[], rfl⟩
  | cons a l ih =>
    obtain ⟨b, hb⟩ := h a (by simp)
    obtain ⟨r, hr⟩ := ih (fun x hx => h x (by simp [hx]))
    exact ⟨b :: r, by rw [List.mapM_cons, hb, hr]; rfl⟩

theorem placed_latlon {r : Report} (h : r.Placed) :
    ∃ lat lon, r.getvar "LAT" = some lat ∧ r.getvar "LON" = some lon := by
  have h1 := h.1
  have h2 := h.2.1
  unfold Report.lat at h1
  unfold Report.lon at h2
  cases e1 : r.getvar "LAT" with
  | none => exact absurd e1 h1
  | some lat =>
    cases e2 : r.getvar "LON" with
    | none => rw [e2] at h2; simp at h2
    | some lon => exact ⟨lat, lon, rfl, rfl⟩

theorem calcAlternate_completes (G : Geo) {v : List Report} (hv : ∀ r ∈ v, r.Placed) :
    ∃ v', calcAlternate G v = .ok v' := by
  apply mapM_exists
  intro i hi
  rw [List.mem_range] at hi
  unfold alternateAt
  rw [pyIndex_get (List.getElem?_eq_getElem hi), except_bind_ok]
  by_cases hc : 1 ≤ i ∧ i < v.length - 1
  · rw [if_pos hc]
    have p1 : pyIndex v ((i : Int) + 1) = .ok (v[i + 1]'(by omega)) := by
      have := pyIndex_get (l := v) (i := i + 1) (List.getElem?_eq_getElem (by omega))
      push_cast at this; exact this
    have p2 : pyIndex v ((i : Int) - 1) = .ok (v[i - 1]'(by omega)) := by
      have : (i : Int) - 1 = ((i - 1 : Nat) : Int) := by omega
      rw [this]; exact pyIndex_get (List.getElem?_eq_getElem (by omega))
    obtain ⟨d, hd⟩ := sub_ok G (hv (v[i + 1]'(by omega)) (List.getElem_mem _))
      (hv (v[i - 1]'(by omega)) (List.getElem_mem _))
    rw [p1, p2, except_bind_ok, except_bind_ok, hd, except_bind_ok]
    exact ⟨_, rfl⟩
  · rw [if_neg hc]
    exact ⟨_, rfl⟩

theorem ready_alternate {G : Geo} {v v' : List Report} (hv : TrackReady v) (h : calcAlternate G v = .ok v') :
    TrackReady v' := by
  obtain ⟨a1, a2⟩ := calcAlternate_spec h
  have back : ∀ (j : Nat) (r' : Report), v'[j]? = some r' → ∃ r o, v[j]? = some r ∧ r' = r.setAlt o := by
    intro j r' hr'
    have hj : j < v.length := by
      by_contra hc
      rw [List.getElem?_eq_none (by omega)] at hr'; simp at hr'
    obtain ⟨o, o1, -⟩ := a2 j v[j] (List.getElem?_eq_getElem hj)
    rw [hr', Option.some.injEq] at o1
    exact ⟨_, o, List.getElem?_eq_getElem hj, o1⟩
  have back' : ∀ r' ∈ v', ∃ r ∈ v, ∃ o, r' = r.setAlt o := by
    intro r' hr'
    obtain ⟨j, hj⟩ := List.mem_iff_getElem?.1 hr'
    obtain ⟨r, o, e1, e2⟩ := back j r' hj
    exact ⟨r, List.mem_of_getElem? e1, o, e2⟩
  refine ⟨?_, ?_, ?_, ?_⟩
  · intro r' hr'
    obtain ⟨r, hr, o, rfl⟩ := back' r' hr'
    exact placed_of_data rfl (hv.placed r hr)
  · intro r' hr'
    obtain ⟨r, hr, o, rfl⟩ := back' r' hr'
    have := hv.heading r hr
    simpa [Report.getvar, Report.setAlt, Report.setext, VARLIST] using this
  · intro r' hr'
    obtain ⟨r, hr, o, rfl⟩ := back' r' hr'
    have := hv.speed r hr
    simpa [Report.getext, Report.setAlt, Report.setext] using this
  · intro i r' hr'
    obtain ⟨r, o, e1, rfl⟩ := back _ r' hr'
    have := hv.later i r e1
    simpa [Report.getext, Report.getvar, Report.setAlt, Report.setext, VARLIST] using this

theorem distrAt_completes (G : Geo) (turn : Rat) {a b : Report} (ha : a.Placed) (hb : b.Placed)
    (t : Option Rat) : ∃ o, distrAt G turn a b t = .ok o := by
  obtain ⟨lata, lona, e1, e2⟩ := placed_latlon ha
  obtain ⟨latb, lonb, e3, e4⟩ := placed_latlon hb
  unfold distrAt
  cases b.getvar "vsi" with
  | none => exact ⟨_, rfl⟩
  | some =>
  cases a.getvar "vsi" with
  | none => exact ⟨_, rfl⟩
  | some =>
  cases b.getvar "dsi" with
  | none => exact ⟨_, rfl⟩
  | some =>
  cases a.getvar "dsi" with
  | none => exact ⟨_, rfl⟩
  | some =>
  cases t with
  | none => exact ⟨_, rfl⟩
  | some =>
    simp only [e1, e2, e3, e4, incrementPosition, except_bind_ok, shiftPosition, sphereDistanceOf, except_pure]
    exact ⟨_, rfl⟩

theorem midptAt_completes (G : Geo) {a b c : Report} (ha : a.Placed) (hb : b.Placed) (hc : c.Placed)
    {t t' : Rat} (h1 : b.getvar "time_diff" = some t) (h2 : c.getvar "time_diff" = some t')
    (p1 : 0 ≤ t) (p2 : 0 ≤ t') : ∃ d, midptAt G a b c = .ok d := by
  obtain ⟨lata, lona, e1, e2⟩ := placed_latlon ha
  obtain ⟨latb, lonb, e3, e4⟩ := placed_latlon hb
  obtain ⟨latc, lonc, e5, e6⟩ := placed_latlon hc
  have hf : timeFraction (some t) (some t') ≤ 1 := by
    unfold timeFraction
    simp only
    split
    · rename_i h
      have : 0 < t + t' := lt_of_le_of_ne (by linarith) (Ne.symm h)
      rw [div_le_one this]; linarith
    · norm_num
  unfold midptAt intermediatePointOf
  simp only [h1, h2, hf, decide_true, pyAssert_true, except_bind_ok, e1, e2, e3, e4, e5, e6, sphereDistanceOf]
  exact ⟨_, rfl⟩

theorem trackFlags_completes (G : Geo) (P : TrackParams) {v : List Report} (hv : TrackReady v) :
    ∃ fl, trackFlags G P v = .ok fl := by
  have hget : ∀ i (h : i < v.length), pyIndex v (i : Int) = .ok v[i] := fun i h =>
    pyIndex_get (List.getElem?_eq_getElem h)
  have hprev : ∀ i (h : i + 1 < v.length), pyIndex v (((1 + i : Nat) : Int) - 1) = .ok v[i] := by
    intro i h
    have : ((1 + i : Nat) : Int) - 1 = (i : Nat) := by omega
    rw [this]; exact hget i (by omega)
  have hcur : ∀ i (h : i + 1 < v.length), pyIndex v ((1 + i : Nat) : Int) = .ok v[i + 1] := by
    intro i h
    rw [Nat.add_comm]; exact hget (i + 1) h
  have hnext : ∀ i (h : i + 2 < v.length), pyIndex v (((1 + i : Nat) : Int) + 1) = .ok v[i + 2] := by
    intro i h
    have : ((1 + i : Nat) : Int) + 1 = ((i + 2 : Nat) : Int) := by omega
    rw [this]; exact hget (i + 2) h
  have hp : ∀ i (h : i < v.length), v[i].Placed := fun i h => hv.placed _ (List.getElem_mem _)
  obtain ⟨spd, e1⟩ : ∃ spd, getSpeed v = .ok spd := mapM_exists hv.speed
  obtain ⟨l1, g1⟩ := mapM_get e1
  have hspd : ∀ s ∈ spd.tail, ∃ x, s = some x := by
    intro s hs
    obtain ⟨j, hj⟩ := List.mem_iff_getElem?.1 hs
    rw [List.getElem?_tail] at hj
    have hjl : j + 1 < v.length := by
      by_contra hc
      rw [List.getElem?_eq_none (by omega)] at hj; simp at hj
    obtain ⟨y, y1, y2⟩ := g1 (j + 1) v[j + 1] (List.getElem?_eq_getElem hjl)
    obtain ⟨x, t, x1, -⟩ := hv.later j v[j + 1] (List.getElem?_eq_getElem hjl)
    rw [x1, Except.ok.injEq] at y1
    rw [← y1, hj, Option.some.injEq] at y2
    exact ⟨x, y2⟩
  obtain ⟨ms, e0⟩ : ∃ ms, meansp v = .ok ms := by
    unfold meansp
    rw [e1, except_bind_ok]
    split
    · obtain ⟨l, hl⟩ := mapM_exists (l := spd.tail) (f := fun s => match s with
        | some s => (.ok s : Except Err Rat)
        | none => .error .type) (by
          intro s hs
          obtain ⟨x, rfl⟩ := hspd s hs
          exact ⟨x, rfl⟩)
      refine ⟨some (l.sum / l.length), ?_⟩
      have := congrArg (fun z => z >>= fun l : List Rat => (pure (some (l.sum / l.length)) : Except Err _)) hl
      exact this
    · exact ⟨_, rfl⟩
  obtain ⟨mode, e2⟩ : ∃ mode, modesp spd = .ok mode := by
    unfold modesp
    split
    · obtain ⟨l, hl⟩ := mapM_exists (l := spd.tail) (f := speedBinOf) (by
          intro s hs
          obtain ⟨x, rfl⟩ := hspd s hs
          exact ⟨_, rfl⟩)
      rw [hl, except_bind_ok]
      exact ⟨_, rfl⟩
    · exact ⟨_, rfl⟩
  obtain ⟨r3, m3⟩ : ∃ r, (List.range' 1 (v.length - 1)).mapM (distr1At G v) = .ok r := by
    apply mapM_exists
    intro i hi
    rw [List.mem_range'_1] at hi
    obtain ⟨k, rfl⟩ : ∃ k, i = 1 + k := ⟨i - 1, by omega⟩
    unfold distr1At
    rw [hprev k (by omega), hcur k (by omega), except_bind_ok, except_bind_ok]
    exact distrAt_completes G 0 (hp _ _) (hp _ _) _
  obtain ⟨r4, m4⟩ : ∃ r, (List.range' 1 (v.length - 1)).reverse.mapM (distr2At G v) = .ok r := by
    apply mapM_exists
    intro i hi
    rw [List.mem_reverse, List.mem_range'_1] at hi
    obtain ⟨k, rfl⟩ : ∃ k, i = 1 + k := ⟨i - 1, by omega⟩
    unfold distr2At
    rw [hprev k (by omega), hcur k (by omega), except_bind_ok, except_bind_ok]
    exact distrAt_completes G 180 (hp _ _) (hp _ _) _
  obtain ⟨r5, m5⟩ : ∃ r, (List.range' 1 (v.length - 2)).mapM (midptOf G v) = .ok r := by
    apply mapM_exists
    intro i hi
    rw [List.mem_range'_1] at hi
    obtain ⟨k, rfl⟩ : ∃ k, i = 1 + k := ⟨i - 1, by omega⟩
    unfold midptOf
    rw [hprev k (by omega), hcur k (by omega), hnext k (by omega), except_bind_ok, except_bind_ok,
      except_bind_ok]
    obtain ⟨s, t, -, t1, t2⟩ := hv.later k _ (List.getElem?_eq_getElem (by omega))
    obtain ⟨s', t', -, t1', t2'⟩ := hv.later (k + 1) _ (List.getElem?_eq_getElem (by omega))
    obtain ⟨d, hd⟩ := midptAt_completes G (hp k (by omega)) (hp (k + 1) (by omega)) (hp (k + 2) (by omega))
      t1 t1' t2 t2'
    rw [hd, except_bind_ok]
    exact ⟨_, rfl⟩
  have l3 := (mapM_get m3).1
  have l4 := (mapM_get m4).1
  have l5 := (mapM_get m5).1
  rw [List.length_range'] at l3 l5
  rw [List.length_reverse, List.length_range'] at l4
  obtain ⟨r6, m6⟩ : ∃ r, (List.range' 1 (v.length - 2)).mapM
      (trackFlag P (setSpeedLimits mode).1 v (none :: r3) (none :: r4).reverse (none :: r5 ++ [none])) = .ok r := by
    apply mapM_exists
    intro i hi
    rw [List.mem_range'_1] at hi
    obtain ⟨k, rfl⟩ : ∃ k, i = 1 + k := ⟨i - 1, by omega⟩
    unfold trackFlag
    rw [hprev k (by omega), hcur k (by omega), hnext k (by omega), except_bind_ok, except_bind_ok,
      except_bind_ok,
      pyIndex_get (List.getElem?_eq_getElem (l := none :: r3) (i := 1 + k) (by simp; omega)),
      pyIndex_get (List.getElem?_eq_getElem (l := (none :: r4).reverse) (i := 1 + k) (by simp; omega)),
      pyIndex_get (List.getElem?_eq_getElem (l := none :: r5 ++ [none]) (i := 1 + k) (by simp; omega)),
      except_bind_ok, except_bind_ok, except_bind_ok]
    have hd1 := hv.heading (v[k]'(by omega)) (List.getElem_mem _)
    have hd2 := hv.heading (v[k + 1]'(by omega)) (List.getElem_mem _)
    obtain ⟨y, hy⟩ : ∃ y, directionContinuity ((v[k + 1]'(by omega)).getvar "dsi") ((v[k]'(by omega)).getvar "dsi")
        ((v[k + 1]'(by omega)).getvar "course") P.maxDirection = .ok y := by
      unfold directionContinuity
      simp only [hd1, hd2, decide_true, pyAssert_true, except_bind_ok]
      split
      · split <;> exact ⟨_, rfl⟩
      · exact ⟨_, rfl⟩
    unfold otherTests
    rw [hy, except_bind_ok]
    simp only [except_pure, except_bind_ok]
    repeat' split
    all_goals exact ⟨_, rfl⟩
  unfold trackFlags distr1 distr2 midpt
  simp only [e0, e1, e2, m3, m4, m5, m6, except_bind_ok, except_pure]
  exact ⟨_, rfl⟩

theorem writeBoth_completes {v : List Report} {f g : String} {fl gl : List Int}
    (hf : ∀ x ∈ fl, 0 ≤ x ∧ x ≤ 9) (hg : ∀ x ∈ gl, 0 ≤ x ∧ x ≤ 9) :
    ∃ v', writeBoth v f g fl gl = .ok v' := by
  obtain ⟨v1, h1⟩ := writeFlags_ok (v := v) (t := "POS") (f := f) (fl := fl) (Or.inl (by decide)) hf
  obtain ⟨v2, h2⟩ := writeFlags_ok (v := v1) (t := "POS") (f := g) (fl := gl) (Or.inl (by decide)) hg
  exact ⟨v2, by unfold writeBoth; rw [h1, except_bind_ok, h2]⟩

theorem trackFlags_bits {G : Geo} {P : TrackParams} {v : List Report} {fl : List Int} (hn : 2 ≤ v.length)
    (h : trackFlags G P v = .ok fl) : ∀ x ∈ fl, x = 0 ∨ x = 1 := by
  obtain ⟨f1, f2, f3, spd, mode, -, -, f4⟩ := trackFlags_spec hn h
  intro x hx
  obtain ⟨j, hj⟩ := List.mem_iff_getElem?.1 hx
  have hjl : j < fl.length := by
    by_contra hc
    rw [List.getElem?_eq_none (by omega)] at hj; simp at hj
  by_cases h0 : j = 0
  · subst h0; rw [f2] at hj; left; simpa using hj.symm
  · by_cases h1 : j = v.length - 1
    · subst h1; rw [f3] at hj; left; simpa using hj.symm
    · obtain ⟨i, rfl⟩ : ∃ i, j = i + 1 := ⟨j - 1, by omega⟩
      obtain ⟨y, y1, y2, -⟩ := f4 i v[i] v[i + 1] v[i + 2] (List.getElem?_eq_getElem (by omega))
        (List.getElem?_eq_getElem (by omega)) (List.getElem?_eq_getElem (by omega))
      rw [hj, Option.some.injEq] at y1
      rw [y1]; exact y2

theorem trackCheck_completes (G : Geo) (P : TrackParams) {v : List Report} (hv : TrackReady v) :
    ∃ v', trackCheck G P v = .ok v' := by
  have c0 : ∀ x ∈ v.map (fun _ => (0 : Int)), 0 ≤ x ∧ x ≤ 9 := by
    intro x hx
    obtain ⟨_, -, rfl⟩ := List.mem_map.1 hx
    omega
  have c1 : ∀ x ∈ v.map (fun _ => (1 : Int)), 0 ≤ x ∧ x ≤ 9 := by
    intro x hx
    obtain ⟨_, -, rfl⟩ := List.mem_map.1 hx
    omega
  unfold trackCheck
  cases v.head? with
  | none => exact ⟨_, rfl⟩
  | some r =>
    simp only
    split
    · exact writeBoth_completes c0 c0
    · split
      · split
        · exact writeBoth_completes c0 c0
        · exact writeBoth_completes c0 c1
      · rename_i hn
        obtain ⟨v1, h1⟩ := calcAlternate_completes G hv.placed
        obtain ⟨fl, h2⟩ := trackFlags_completes G P (ready_alternate hv h1)
        rw [h1, except_bind_ok, h2, except_bind_ok]
        have hl := (calcAlternate_spec h1).1
        have hb := trackFlags_bits (by omega) h2
        refine writeBoth_completes ?_ ?_
        · intro x hx
          have := hb x hx
          omega
        · intro x hx
          obtain ⟨_, -, rfl⟩ := List.mem_map.1 hx
          omega

theorem sub_tdiff {G : Geo} {a b : Report} {d : Diff} {t : Rat} (h : a.sub G b = .ok d)
    (ht : b.timeTo a = .ok (some t)) : d.tdiff = t := by
  unfold Report.sub at h
  split at h
  · rw [ht, except_bind_ok] at h
    simp only [except_pure, Except.ok.injEq] at h
    subst h
    simp only
    split
    · rfl
    · rename_i hc
      push Not at hc
      exact hc.symm
  · simp at h

theorem addReport_ext_other {G : Geo} {l v : List Report} (h : l.foldlM (addReport G) [] = .ok v) {k : String}
    (hk : k ∉ ["speed", "course", "distance", "time_diff"]) :
    List.Forall₂ (fun a b : Report => a.ext k = b.ext k) v l := by
  simp only [List.mem_cons, List.not_mem_nil, or_false, not_or] at hk
  induction l using List.reverseRecOn generalizing v with
  | nil =>
    simp only [List.foldlM_nil, except_pure, Except.ok.injEq] at h
    subst h
    exact List.Forall₂.nil
  | append_singleton l r ih =>
    rw [List.foldlM_append] at h
    cases h1 : l.foldlM (addReport G) [] with
    | error e => rw [h1] at h; simp at h
    | ok v0 =>
      rw [h1, except_bind_ok, List.foldlM_cons] at h
      cases h2 : addReport G v0 r with
      | error e => rw [h2] at h; simp at h
      | ok v1 =>
        rw [h2, except_bind_ok, List.foldlM_nil, except_pure, Except.ok.injEq] at h
        subst h
        have i1 := ih h1
        rcases addReport_some h2 with ⟨rfl, rfl⟩ | ⟨p, d, hp, hd, rfl⟩
        · have : l = [] := by simpa using i1
          subst this
          refine List.Forall₂.cons ?_ List.Forall₂.nil
          simp [Report.clearDiff, Report.setext, hk]
        · refine List.rel_append i1 (List.Forall₂.cons ?_ List.Forall₂.nil)
          simp [Report.setDiff, Report.setext, hk]

/-- A voyage built in time order from placed reports is ready for the track check. -/
theorem ready_of_build {G : Geo} {l v : List Report} (hp : ∀ r ∈ l, r.Placed)
    (hd : ∀ r ∈ l, r.getvar "dsi" ∈ dsConvert) (ho : InTimeOrder l) (h : l.foldlM (addReport G) [] = .ok v) :
    TrackReady v := by
  obtain ⟨b1, b2, b3⟩ := C40_add_report G l v h
  have b4 := addReport_ext_other h (k := "dsi") (by decide)
  have hlen := b1.length_eq
  have hrel : ∀ (j : Nat) (r : Report), v[j]? = some r → ∃ r0, l[j]? = some r0 ∧ SameReport r r0
      ∧ r.ext "dsi" = r0.ext "dsi" := by
    intro j r hr
    have hj : j < v.length := by
      by_contra hc
      rw [List.getElem?_eq_none (by omega)] at hr; simp at hr
    refine ⟨l[j], List.getElem?_eq_getElem (by omega), ?_, ?_⟩
    · have := b1.get hj (by omega)
      rw [List.getElem?_eq_getElem hj, Option.some.injEq] at hr
      rw [← hr]
      simpa using this
    · have := b4.get hj (by omega)
      rw [List.getElem?_eq_getElem hj, Option.some.injEq] at hr
      rw [← hr]
      simpa using this
  refine ⟨?_, ?_, ?_, ?_⟩
  · intro r hr
    obtain ⟨j, hj⟩ := List.mem_iff_getElem?.1 hr
    obtain ⟨r0, e1, e2, -⟩ := hrel j r hj
    exact placed_of_data e2.2.2.1 (hp r0 (List.mem_of_getElem? e1))
  · intro r hr
    obtain ⟨j, hj⟩ := List.mem_iff_getElem?.1 hr
    obtain ⟨r0, e1, -, e3⟩ := hrel j r hj
    have := hd r0 (List.mem_of_getElem? e1)
    have hv : "dsi" ∉ VARLIST := by decide
    simpa [Report.getvar, hv, e3] using this
  · intro r hr
    obtain ⟨j, hj⟩ := List.mem_iff_getElem?.1 hr
    cases j with
    | zero => exact ⟨_, (b2 r (by rw [List.head?_eq_getElem?]; exact hj)).1⟩
    | succ j =>
      have hjl := lt_of_get hj
      obtain ⟨d, -, d2⟩ := b3 j v[j] r (List.getElem?_eq_getElem (by omega)) hj
      exact ⟨_, d2.1⟩
  · intro i r hr
    have hil := lt_of_get hr
    obtain ⟨d, d1, d2⟩ := b3 i v[i] r (List.getElem?_eq_getElem (by omega)) hr
    obtain ⟨q, q1, q2, -⟩ := hrel i v[i] (List.getElem?_eq_getElem (by omega))
    obtain ⟨r0, e1, e2, -⟩ := hrel (i + 1) r hr
    have hq := lt_of_get q1
    have he := lt_of_get e1
    obtain ⟨t, t1, t2⟩ := (List.pairwise_iff_getElem.1 ho) i (i + 1) hq he (by omega)
    rw [List.getElem?_eq_getElem hq, Option.some.injEq] at q1
    rw [List.getElem?_eq_getElem he, Option.some.injEq] at e1
    rw [q1, e1] at t1
    rw [sub_data_eq G e2.2.2.1 q2.2.2.1] at d1
    have htd := sub_tdiff d1 t1
    refine ⟨d.speed, t, d2.1, ?_, t2⟩
    have h4 := d2.2.2.2
    unfold Report.getext at h4
    have hv : "time_diff" ∉ VARLIST := by decide
    cases e : r.ext "time_diff" with
    | none => simp [e] at h4
    | some x =>
      simp only [e, Except.ok.injEq] at h4
      simp [Report.getvar, hv, e, h4, htd]

/-- C45. The track check never raises on a voyage whose reports were added in the order of their times, have
position, date and hour, and report a heading from the table of headings or none. -/
theorem C45_completes (G : Geo) (P : TrackParams) (l : List Report) (hp : ∀ r ∈ l, r.Placed)
    (hd : ∀ r ∈ l, r.getvar "dsi" ∈ dsConvert) (ho : InTimeOrder l) :
    ∃ v v', l.foldlM (addReport G) [] = .ok v ∧ trackCheck G P v = .ok v' := by
  obtain ⟨v, hv⟩ := C40_add_report_completes G l hp
  obtain ⟨v', hv'⟩ := trackCheck_completes G P (ready_of_build hp hd ho hv)
  exact ⟨v, v', hv, hv'⟩

/-! ### Examples -/

/-- Distances of 100 km per degree on a plane, for examples. -/
def planeGeo : Geo := { flatGeo with dist := fun a b c d => 100 * (|a - c| + |b - d|) }

/-- The limits in the parameter files. -/
def sampleTrackParams : TrackParams := ⟨60, 10, 40, 150⟩

/-- Non-vacuity: of three reports at hours 0, 6 and 12 the middle one, 100 degrees off the track, is flagged. -/
example : (([sampleAt 0 0 0, sampleAt 6 0 100, sampleAt 12 0 2].foldlM (addReport planeGeo) []).bind
      (trackCheck planeGeo sampleTrackParams)).map (fun v => v.map fun r => (r.getQc "POS" "trk", r.getQc "POS" "few"))
    = .ok [(0, 0), (1, 0), (0, 0)] := by
  decide +kernel

/-- Non-vacuity of the hypotheses of `C45_completes`. -/
example : (∀ r ∈ [sampleAt 0 0 0, sampleAt 6 0 100, sampleAt 12 0 2], r.Placed)
    ∧ (∀ r ∈ [sampleAt 0 0 0, sampleAt 6 0 100, sampleAt 12 0 2], r.getvar "dsi" ∈ dsConvert)
    ∧ InTimeOrder [sampleAt 0 0 0, sampleAt 6 0 100, sampleAt 12 0 2] := by
  refine ⟨?_, ?_, ?_⟩
  · intro r hr
    simp only [List.mem_cons, List.not_mem_nil, or_false] at hr
    rcases hr with rfl | rfl | rfl <;> exact sampleAt_placed _ _ _ (by norm_num) (by norm_num) (by norm_num)
  · decide +kernel
  · have h1 : (sampleAt 0 0 0).timeTo (sampleAt 6 0 100) = .ok (some 6) := by decide +kernel
    have h2 : (sampleAt 0 0 0).timeTo (sampleAt 12 0 2) = .ok (some 12) := by decide +kernel
    have h3 : (sampleAt 6 0 100).timeTo (sampleAt 12 0 2) = .ok (some 6) := by decide +kernel
    simp only [InTimeOrder, List.pairwise_cons, List.mem_cons, List.not_mem_nil, or_false, forall_eq_or_imp,
      forall_eq, IsEmpty.forall_iff, implies_true, List.Pairwise.nil, and_true]
    exact ⟨⟨⟨6, h1, by norm_num⟩, 12, h2, by norm_num⟩, 6, h3, by norm_num⟩

/-- C45. Out of time order the check can raise: with reports at hours 2, 1 and 1.5 the fraction of the time spent
up to the second is 2, which the calculation of the intermediate point does not accept. -/
theorem C45_unordered_violation : ∃ l v : List Report, (∀ r ∈ l, r.Placed)
    ∧ (∀ r ∈ l, r.getvar "dsi" ∈ dsConvert) ∧ l.foldlM (addReport planeGeo) [] = .ok v
    ∧ trackCheck planeGeo sampleTrackParams v = .error .assertion := by
  have hp : ∀ r ∈ [sampleAt 2 0 0, sampleAt 1 0 1, sampleAt (3 / 2) 0 2], r.Placed := by
    intro r hr
    simp only [List.mem_cons, List.not_mem_nil, or_false] at hr
    rcases hr with rfl | rfl | rfl <;> exact sampleAt_placed _ _ _ (by norm_num) (by norm_num) (by norm_num)
  obtain ⟨v, hv⟩ := C40_add_report_completes planeGeo _ hp
  refine ⟨_, v, hp, by decide +kernel, hv, ?_⟩
  have h : (([sampleAt 2 0 0, sampleAt 1 0 1, sampleAt (3 / 2) 0 2].foldlM (addReport planeGeo) []).bind
      (trackCheck planeGeo sampleTrackParams)).map (fun _ => ()) = .error .assertion := by decide +kernel
  rw [hv] at h
  cases e : trackCheck planeGeo sampleTrackParams v with
  | ok w => simp [Except.bind, e, Except.map] at h
  | error e' => simpa [Except.bind, e, Except.map] using h

end MarineQC
