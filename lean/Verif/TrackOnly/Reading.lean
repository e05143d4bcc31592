import Verif.TrackOnly.BaseQc
import Verif.TrackOnly.Bare

/-!
# The reading of the two programs
-/

namespace MarineQC

open Spec

variable {F : Type} [LinearOrder F] [Zero F]

theorem shadow_congr {r s : Report} (h1 : s.id = r.id) (h2 : s.uid = r.uid) (h3 : s.dt = r.dt) (h4 : s.ext = r.ext)
    (h5 : s.qc = r.qc) (h6 : ∀ k, k ∉ mainOnly → s.data k = r.data k) (h7 : s.clim "SST" = r.clim "SST") : shadow r = shadow s :=
  (same_iff r s).mp ⟨h1, h2, h3, h4, h6, h7, fun f => by rw [h5], fun f => by rw [h5]⟩

/-! ## Background values -/

theorem backgroundValues_shadow (lib : ClimLib Arr3) (bg : Arr3) (r : Report) :
    backgroundValues lib bg (shadow r) = (backgroundValues lib bg r).map shadow := by
  unfold backgroundValues
  simp only [exMap_bind]
  congr 1

theorem backgroundValues_clim {lib : ClimLib Arr3} {bg : Arr3} {r r' : Report} (h : backgroundValues lib bg r = .ok r') :
    r'.clim = r.clim := by
  unfold backgroundValues at h
  simp only [bind_ok_iff, except_pure, Except.ok.injEq] at h
  obtain ⟨_, _, _, _, _, _, _, _, _, _, rfl⟩ := h
  rfl

theorem addBackground_beside {E : ReadEnv F} {bg : Option Arr3} {y m : Int} {s t : ReadState} (hd : t.lastday = s.lastday)
    (hl : t.lib = s.lib) {r r' : Report} (hr : Beside r r') {b : Report × Int × ClimLib Arr3}
    (h : addBackground E bg y m s r = .ok b) :
    ∃ b', addBackground E bg y m t r' = .ok b' ∧ b'.2 = b.2 ∧ Beside b.1 b'.1 := by
  unfold addBackground at h ⊢
  have e : r'.getint "DY" = r.getint "DY" := by
    rw [← shadow_getint r' (by decide), ← hr.alike, shadow_getint r (by decide)]
  rw [e, hd, hl]
  generalize r.getint "DY" = od at h ⊢
  cases od with
  | none =>
    cases h
    exact ⟨_, rfl, rfl, hr⟩
  | some d =>
    cases bg with
    | none =>
      cases h
      exact ⟨_, rfl, rfl, hr⟩
    | some bg =>
      simp only at h ⊢
      split_ifs at h ⊢
      · simp only [bind_ok_iff] at h
        obtain ⟨n, h1, r1, h2, h3⟩ := h
        cases h3
        have m1 := backgroundValues_shadow n.2 bg r
        rw [hr.alike, backgroundValues_shadow, h2] at m1
        obtain ⟨r1', k, e1⟩ := exMap_ok_iff.mp m1
        refine ⟨(r1', n), by rw [h1, except_bind_ok, k, except_bind_ok, except_pure], rfl, e1.symm, ?_⟩
        intro k' hk
        rw [backgroundValues_clim k]
        exact hr.bare k' hk
      · cases h
        exact ⟨_, rfl, rfl, hr⟩

/-! ## Climatology, humidity, checks -/

theorem mdsClims_beside {lib : ClimLib Arr3} {r s r1 : Report} (hr : Beside r s) (h : addMdsClims lib ["SST", "AT"] r = .ok r1) :
    ∃ s1, addMdsClims lib ["SST"] s = .ok s1 ∧ Beside r1 s1 := by
  simp only [addMdsClims, bind_ok_iff] at h ⊢
  obtain ⟨f, h1, x, h2, g, h3, z, h4, h5⟩ := h
  cases h5
  have e1 : s.lat = r.lat := by rw [← shadow_lat s, ← hr.alike, shadow_lat]
  have e2 : s.lon = r.lon := by rw [← shadow_lon s, ← hr.alike, shadow_lon]
  have e3 : ∀ k, k ∉ mainOnly → s.getint k = r.getint k := fun k hk => by
    rw [← shadow_getint s hk, ← hr.alike, shadow_getint r hk]
  refine ⟨s.addClim "SST" x none, ⟨f, h1, x, ?_, rfl⟩, ?_, ?_⟩
  · rw [e1, e2, e3 _ (by decide), e3 _ (by decide)]
    exact h2
  · rw [shadow_addClim_other _ (by decide), shadow_addClim, shadow_addClim, hr.alike]
  · intro k hk
    show (if k = "SST" then _ else s.clim k) = none
    rw [if_neg hk]
    exact hr.bare k hk

theorem clims_shadow {lib : ClimLib Arr3} {r r' : Report} (h : addClims lib ["SLP2", "SHU", "CRH", "CWB", "DPD"] r = .ok r') :
    shadow r' = shadow r := by
  obtain ⟨e, -, h3⟩ := addClims_ok (by decide) h
  rw [e]
  refine Eq.symm (shadow_congr (r := r) rfl rfl rfl rfl rfl (fun _ _ => rfl) ?_)
  exact h3 "SST" (by decide)

theorem stdevClims_shadow {lib : ClimLib Arr3} {r r' : Report} (h : addStdevClims lib ["DPT", "AT2", "SLP"] r = .ok r') :
    shadow r' = shadow r := by
  obtain ⟨e, -, h3⟩ := addStdevClims_ok (by decide) h
  rw [e]
  refine Eq.symm (shadow_congr (r := r) rfl rfl rfl rfl rfl (fun _ _ => rfl) ?_)
  exact h3 "SST" (by decide)

theorem humidity_shadow {H : HumFns} {r r' : Report} {vars : List String} (h : r.calculateHumidity H vars = .ok r') :
    shadow r' = shadow r := by
  obtain ⟨d, rfl, hd⟩ := humidity_only h
  refine Eq.symm (shadow_congr (r := r) rfl rfl rfl rfl rfl (fun k hk => ?_) rfl)
  apply hd
  revert hk
  unfold mainOnly humNames
  simp only [List.mem_cons, List.not_mem_nil, or_false, not_or]
  tauto

theorem monthFlag_keeps (year month : Int) :
    Keeps (fun r => r.setQc "POS" "month_match" (reportMonthMatch year month r))
      (fun r => r.setQc "POS" "month_match" (reportMonthMatch year month r)) :=
  keeps_put (.inl rfl) _ _ fun r => by
    unfold reportMonthMatch
    rw [shadow_getint _ (by decide), shadow_getint _ (by decide)]

theorem finish_beside {E : ReadEnv F} {year month : Int} {lib : ClimLib Arr3} {r s r1 : Report} (hr : Beside r s)
    (h : finishReport E year month lib r = .ok r1) : ∃ s1, trackOnlyFinish E year month lib s = .ok s1 ∧ Beside r1 s1 := by
  unfold finishReport at h
  obtain ⟨a, h1, h⟩ := bind_ok_iff.mp h
  obtain ⟨b, h2, h⟩ := bind_ok_iff.mp h
  obtain ⟨c, h3, h⟩ := bind_ok_iff.mp h
  obtain ⟨d, h4, h⟩ := bind_ok_iff.mp h
  obtain ⟨a', k1, ha⟩ := mdsClims_beside hr h1
  have hd : Beside d a' := ⟨by rw [humidity_shadow h4, stdevClims_shadow h3, clims_shadow h2, ha.alike], ha.bare⟩
  obtain ⟨s1, k2, hs⟩ := keeps_then (baseQc_keeps E.elev E.params) (monthFlag_keeps year month) d a' r1 hd h
  refine ⟨s1, ?_, hs⟩
  unfold trackOnlyFinish
  rw [k1, except_bind_ok]
  exact k2

/-! ## Records, lines, files -/

/-- What the states of the two programs have in common while they read. -/
structure StateAlike (s t : ReadState) : Prop where
  day : t.lastday = s.lastday
  lib : t.lib = s.lib
  deck : DeckAlike s.deck t.deck
  bare : ∀ r ∈ t.deck.reps, Bare r

theorem append_alike {d d' : Deck} (hd : DeckAlike d d') {r r' : Report} (hr : shadow r = shadow r') :
    DeckAlike (d.append r) (d'.append r') := by
  constructor
  · show (d.reps ++ [r]).map shadow = (d'.reps ++ [r']).map shadow
    rw [List.map_append, List.map_append, hd.reps, List.map_singleton, List.map_singleton, hr]
  · show trackAdd d'.idtracker r'.id ((d'.reps ++ [r']).length - 1) = trackAdd d.idtracker r.id ((d.reps ++ [r]).length - 1)
    have e : d'.reps.length = d.reps.length := by
      have := congrArg List.length hd.reps
      simpa using this.symm
    have e' : r'.id = r.id := by rw [← shadow_id r', ← hr, shadow_id]
    rw [hd.index, e']
    simp [e]

theorem use_alike {E : ReadEnv F} {year month : Int} {bg : Option Arr3} {y m : Int} {s t s1 : ReadState} {rec : Imma}
    (hs : StateAlike s t) (h : useRecord E year month bg y m s rec = .ok s1) :
    ∃ t1, trackOnlyUse E year month bg y m t rec = .ok t1 ∧ StateAlike s1 t1 := by
  unfold useRecord at h
  simp only [bind_ok_iff] at h
  obtain ⟨r0, h0, r1, h1, b, h2, r2, h3, h4⟩ := h
  cases h4
  have hb : Beside r1 r0 := by
    refine ⟨?_, fun k _ => (reportOf_ok h0).2.2.2.2.2.1 k⟩
    rw [setAT2_ok h1]
    refine Eq.symm (shadow_congr (r := r0) rfl rfl rfl rfl rfl (fun k hk => ?_) rfl)
    show (if k = "AT2" then r0.data "AT" else r0.data k) = r0.data k
    rw [if_neg]
    rintro rfl
    exact hk (by decide)
  obtain ⟨b', k2, e2, hb'⟩ := addBackground_beside hs.day hs.lib hb h2
  rw [← e2] at h3
  obtain ⟨r2', k3, hr⟩ := finish_beside hb' h3
  refine ⟨⟨b'.2.1, b'.2.2, t.deck.append r2'⟩, ?_, ?_, ?_, ?_, ?_⟩
  · unfold trackOnlyUse
    rw [h0, except_bind_ok, k2, except_bind_ok, k3, except_bind_ok, except_pure]
  · rw [e2]
  · rw [e2]
  · exact append_alike hs.deck hr.alike
  · intro q hq
    rcases List.mem_append.mp hq with hq | hq
    · exact hs.bare q hq
    · rw [List.mem_singleton] at hq
      subst hq
      exact hr.bare

theorem fold_alike {α : Type} {f g : ReadState → α → Except Err ReadState}
    (hfg : ∀ s t a s1, StateAlike s t → f s a = .ok s1 → ∃ t1, g t a = .ok t1 ∧ StateAlike s1 t1) (l : List α) :
    ∀ {s t s1 : ReadState}, StateAlike s t → l.foldlM f s = .ok s1 → ∃ t1, l.foldlM g t = .ok t1 ∧ StateAlike s1 t1 := by
  induction l with
  | nil => intro s t s1 hs h; cases h; exact ⟨t, rfl, hs⟩
  | cons a l ih =>
    intro s t s1 hs h
    rw [List.foldlM_cons] at h
    obtain ⟨s0, h1, h2⟩ := bind_ok_iff.mp h
    obtain ⟨t0, k1, h0⟩ := hfg s t a s0 hs h1
    obtain ⟨t1, k2, h3⟩ := ih h0 h2
    exact ⟨t1, by rw [List.foldlM_cons, k1, except_bind_ok, k2], h3⟩

theorem line_alike {E : ReadEnv F} {year month : Int} {bg : Option Arr3} {y m : Int} {s t : ReadState} {line : List Char} {s1 : ReadState}
    (hs : StateAlike s t) (h : readLine E year month bg y m s line = .ok s1) :
    ∃ t1, trackOnlyLine E year month bg y m t line = .ok t1 ∧ StateAlike s1 t1 := by
  unfold readLine at h
  unfold trackOnlyLine
  obtain ⟨b, h1, h2⟩ := bind_ok_iff.mp h
  rw [h1, except_bind_ok]
  split_ifs at h2 ⊢
  · exact use_alike hs h2
  · cases h2
    exact ⟨t, rfl, hs⟩

theorem monthFile_alike {E : ReadEnv F} {year month : Int} {s t : ReadState} {ym : Int × Int} {s1 : ReadState}
    (hs : StateAlike s t) (h : readMonthFile E year month s ym = .ok s1) :
    ∃ t1, trackOnlyMonthFile E year month t ym = .ok t1 ∧ StateAlike s1 t1 := by
  unfold readMonthFile at h
  unfold trackOnlyMonthFile
  obtain ⟨bg, h1, h⟩ := bind_ok_iff.mp h
  obtain ⟨name, h2, h⟩ := bind_ok_iff.mp h
  obtain ⟨file, h3, h⟩ := bind_ok_iff.mp h
  rw [h1, except_bind_ok, h2, except_bind_ok, h3, except_bind_ok]
  cases file with
  | none =>
    cases h
    exact ⟨t, rfl, hs⟩
  | some lines =>
    exact fold_alike (f := readLine E year month bg ym.1 ym.2) (g := trackOnlyLine E year month bg ym.1 ym.2)
      (fun _ _ _ _ hs h => line_alike hs h) lines hs h

theorem reports_alike {E : ReadEnv F} {lib : ClimLib Arr3} {year month : Int} {s : ReadState}
    (h : readReports E lib year month = .ok s) : ∃ t, trackOnlyReports E lib year month = .ok t ∧ StateAlike s t := by
  unfold readReports at h
  unfold trackOnlyReports
  obtain ⟨months, h1, h⟩ := bind_ok_iff.mp h
  rw [h1, except_bind_ok]
  cases months with
  | none => cases h
  | some l =>
    have h0 : StateAlike ⟨-99, lib, Deck.empty⟩ ⟨-99, lib, Deck.empty⟩ := ⟨rfl, rfl, ⟨rfl, rfl⟩, by simp [Deck.empty]⟩
    exact fold_alike (f := readMonthFile E year month) (g := trackOnlyMonthFile E year month)
      (fun _ _ _ _ hs h => monthFile_alike hs h) l h0 h

theorem checked_alike {E : RunEnv F} {lib lib' : ClimLib Arr3} {ym : Int × Int} {d : Deck}
    (h : checkedMonth E lib ym = .ok (d, lib')) : ∃ d', trackOnlyChecked E lib ym = .ok (d', lib') ∧ DeckAlike d d' ∧
      ∀ r ∈ d'.reps, Bare r := by
  unfold checkedMonth at h
  obtain ⟨s, h1, h⟩ := bind_ok_iff.mp h
  obtain ⟨a, h2, h⟩ := bind_ok_iff.mp h
  obtain ⟨b, h3, h⟩ := bind_ok_iff.mp h
  simp only [except_pure, Except.ok.injEq, Prod.mk.injEq] at h
  obtain ⟨rfl, rfl⟩ := h
  obtain ⟨t, k1, ht⟩ := reports_alike h1
  obtain ⟨a', k2, ha⟩ := shipPass_follows (f := shipChecks E.geo E.rnd E.ships) (g := trackOnlyShip E.geo E.rnd E.ships)
    (d := s.deck) (d' := t.deck) (e := a) (q := shipFilter) (ship_follows E.geo E.rnd E.ships) ht.deck kept_ship h2
  unfold buddyFromLib at h3
  obtain ⟨f, -, h3⟩ := bind_ok_iff.mp h3
  obtain ⟨g, -, h3⟩ := bind_ok_iff.mp h3
  obtain ⟨b', k3, hb⟩ := buddies_follow (B := { E.buddy with dpt := f.stdev, slp := g.stdev }) (B' := E.buddy) (e := b) rfl rfl rfl rfl rfl rfl ha h3
  refine ⟨b', ?_, hb, bare_buddies k3 (bare_rounds (fun _ _ => bare_ship) _ k2 ht.bare)⟩
  unfold trackOnlyChecked
  rw [k1, except_bind_ok, k2, except_bind_ok, k3, except_bind_ok, except_pure, ht.lib]

end MarineQC
