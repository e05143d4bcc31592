import Verif.Track.Flags

/-!
# C45: the track check
-/

namespace MarineQC

namespace Spec

/-- The first report of the voyage has a generic identifier, or is from a moored or drifting buoy. -/
def TrackExempt (v : List Report) : Prop :=
  ∃ r, v.head? = some r
    ∧ (idIsGeneric r.id (r.getint "YR") = true ∨ r.getint "PT" = some 6 ∨ r.getint "PT" = some 7)

/-- The first report is from deck 720 and from before 1891 (or without a year). -/
def EarlyDeck720 (v : List Report) : Prop :=
  ∃ r, v.head? = some r ∧ r.getint "DCK" = some 720 ∧ ∀ y, r.getint "YR" = some y → y < 1891

/-- The report holds these alternate differences. -/
def HoldsAlt (r : Report) (d : Option Diff) : Prop :=
  r.getext "alt_speed" = .ok (d.map (·.speed)) ∧ r.getext "alt_course" = .ok (d.map (·.course))
    ∧ r.getext "alt_distance" = .ok (d.map (·.distance)) ∧ r.getext "alt_time_diff" = .ok (d.map (·.tdiff))

/-- The extended data written by the track check. -/
def altNames : List String := ["alt_speed", "alt_course", "alt_distance", "alt_time_diff"]

/-- `r'` is `r` but for the alternate differences and the flags named. -/
def SameButTrack (flags : List String) (r r' : Report) : Prop :=
  r'.id = r.id ∧ r'.uid = r.uid ∧ r'.data = r.data ∧ r'.clim = r.clim ∧ r'.dt = r.dt
    ∧ (∀ k, k ∉ altNames → r'.ext k = r.ext k) ∧ ∀ k, k ∉ flags → r'.qc k = r.qc k

end Spec

open Spec

theorem earlyDeck720_iff {r : Report} {v : List Report} (h : v.head? = some r) :
    earlyDeck720 r = true ↔ EarlyDeck720 v := by
  unfold earlyDeck720 EarlyDeck720
  rw [h]
  cases e : r.getint "YR" <;> simp [e]

theorem getvar_ext_data {a b : Report} (hd : a.data = b.data) (he : a.ext = b.ext) : a.getvar = b.getvar := by
  funext k
  simp [Report.getvar, hd, he]

theorem trackFails_congr {G : Geo} {P : TrackParams} {amax : Rat} {a b c a' b' c' : Report}
    (ha : a'.getvar = a.getvar) (hb : b'.getvar = b.getvar) (hc : c'.getvar = c.getvar) :
    TrackFails G P amax a' b' c' ↔ TrackFails G P amax a b c := by
  unfold TrackFails MidpointFails SpeedFails DistanceFails DirectionFails SpeedChangeFails TimePart EstimateMiss
  rw [ha, hb, hc]

theorem holdsAlt_setAlt (r : Report) (d : Option Diff) : HoldsAlt (r.setAlt d) d := by
  simp [HoldsAlt, Report.setAlt, Report.setext, Report.getext]

theorem setAlt_same (r : Report) (d : Option Diff) : SameButTrack [] r (r.setAlt d) := by
  refine ⟨rfl, rfl, rfl, rfl, rfl, ?_, fun _ _ => rfl⟩
  intro k hk
  simp only [altNames, List.mem_cons, List.not_mem_nil, or_false, not_or] at hk
  simp [Report.setAlt, Report.setext, hk]

/-- `calc_alternate_speeds`. -/
theorem calcAlternate_spec {G : Geo} {v v' : List Report} (h : calcAlternate G v = .ok v') :
    v'.length = v.length ∧ ∀ (j : Nat) (r : Report), v[j]? = some r → ∃ o, v'[j]? = some (r.setAlt o)
      ∧ (o = none ∧ (j = 0 ∨ j + 1 = v.length)
        ∨ ∃ a c d, 0 < j ∧ v[j - 1]? = some a ∧ v[j + 1]? = some c ∧ c.sub G a = .ok d ∧ o = some d) := by
  obtain ⟨l, g⟩ := mapM_get h
  rw [List.length_range] at l
  refine ⟨l, fun j r hr => ?_⟩
  have hj : j < v.length := by
    by_contra hc
    rw [List.getElem?_eq_none (by omega)] at hr; simp at hr
  obtain ⟨y, y1, y2⟩ := g j j (by simp [hj])
  unfold alternateAt at y1
  rw [pyIndex_get hr, except_bind_ok] at y1
  by_cases hi : 1 ≤ j ∧ j < v.length - 1
  · rw [if_pos hi] at y1
    have h1 : v[j + 1]? = some v[j + 1] := List.getElem?_eq_getElem (by omega)
    have h2 : v[j - 1]? = some v[j - 1] := List.getElem?_eq_getElem (by omega)
    have p1 : pyIndex v ((j : Int) + 1) = .ok v[j + 1] := by
      have := pyIndex_get h1; push_cast at this; exact this
    have p2 : pyIndex v ((j : Int) - 1) = .ok v[j - 1] := by
      have : (j : Int) - 1 = ((j - 1 : Nat) : Int) := by omega
      rw [this]; exact pyIndex_get h2
    rw [p1, p2, except_bind_ok, except_bind_ok] at y1
    cases hd : v[j + 1].sub G v[j - 1] with
    | error e => simp [hd] at y1
    | ok d =>
      simp only [hd, except_bind_ok, except_pure, Except.ok.injEq] at y1
      exact ⟨some d, by rw [y2, y1], Or.inr ⟨_, _, d, hi.1, h2, h1, hd, rfl⟩⟩
  · rw [if_neg hi] at y1
    simp only [except_pure, Except.ok.injEq] at y1
    exact ⟨none, by rw [y2, y1], Or.inl ⟨rfl, by omega⟩⟩

/-- Writing two sets of flags. -/
theorem writeBoth_spec {v v' : List Report} {f g : String} {fl gl : List Int} (hf : fl.length = v.length)
    (hg : gl.length = v.length) (hne : ("POS" ++ f) ≠ ("POS" ++ g)) (h : writeBoth v f g fl gl = .ok v') :
    v'.length = v.length ∧ ∀ (j : Nat) (r r' : Report), v[j]? = some r → v'[j]? = some r' →
      fl[j]? = some (r'.getQc "POS" f) ∧ gl[j]? = some (r'.getQc "POS" g)
        ∧ r' = { r with qc := r'.qc } ∧ ∀ k, k ∉ ["POS" ++ f, "POS" ++ g] → r'.qc k = r.qc k := by
  unfold writeBoth at h
  cases h1 : writeFlags v "POS" f fl with
  | error e => simp [h1] at h
  | ok v1 =>
    rw [h1, except_bind_ok] at h
    obtain ⟨a1, a2⟩ := writeFlags_spec hf h1
    obtain ⟨b1, b2⟩ := writeFlags_spec (by omega) h
    refine ⟨by omega, fun j r r' hr hr' => ?_⟩
    have hj : j < v1.length := by
      by_contra hc
      rw [List.getElem?_eq_none (by omega)] at hr'; simp at hr'
    have hr1 : v1[j]? = some v1[j] := List.getElem?_eq_getElem hj
    obtain ⟨⟨x, x1, x2⟩, x3, x4⟩ := a2 j r _ hr hr1
    obtain ⟨⟨y, y1, y2⟩, y3, y4⟩ := b2 j _ r' hr1 hr'
    refine ⟨?_, by rw [y1, y2], ?_, ?_⟩
    · rw [x1, ← x2]
      unfold Report.getQc
      rw [y4 _ hne]
    · rw [x3] at y3
      exact y3
    · intro k hk
      simp only [List.mem_cons, List.not_mem_nil, or_false, not_or] at hk
      rw [y4 k hk.2, x4 k hk.1]

theorem getSpeed_congr {v v' : List Report} (hl : v'.length = v.length)
    (h : ∀ (j : Nat) (r r' : Report), v[j]? = some r → v'[j]? = some r' → r'.ext "speed" = r.ext "speed") :
    getSpeed v' = getSpeed v := by
  unfold getSpeed
  induction v generalizing v' with
  | nil =>
    have : v' = [] := List.length_eq_zero_iff.1 hl
    rw [this]
  | cons a v ih =>
    cases v' with
    | nil => simp at hl
    | cons a' v' =>
      have h0 : a'.getext "speed" = a.getext "speed" := by
        unfold Report.getext; rw [h 0 a a' rfl rfl]
      rw [List.mapM_cons, List.mapM_cons, h0, ih (by simpa using hl) (fun j r r' hr hr' => h (j + 1) r r' hr hr')]

/-- C45. Whatever the voyage, a completed track check gives every report a `trk` flag and a `few` flag, each
0 or 1, and changes nothing else but the alternate differences.  Exempt voyages get 0 for both.  Other voyages of
fewer than three reports get `trk` 0 and `few` 1, or 0 if they are from deck 720 before 1891. -/
theorem C45_flags (G : Geo) (P : TrackParams) (v v' : List Report) (h : trackCheck G P v = .ok v') :
    v'.length = v.length ∧ ∀ (j : Nat) (r r' : Report), v[j]? = some r → v'[j]? = some r' →
      (r'.getQc "POS" "trk" = 0 ∨ r'.getQc "POS" "trk" = 1)
      ∧ (r'.getQc "POS" "few" = 0 ∨ r'.getQc "POS" "few" = 1)
      ∧ SameButTrack ["POStrk", "POSfew"] r r'
      ∧ (r'.getQc "POS" "few" = 1 ↔ ¬ TrackExempt v ∧ v.length < 3 ∧ ¬ EarlyDeck720 v)
      ∧ (TrackExempt v ∨ v.length < 3 ∨ j = 0 ∨ j + 1 = v.length → r'.getQc "POS" "trk" = 0) := by
  have hne : ("POS" ++ "trk") ≠ ("POS" ++ "few") := by decide
  have hnames : ["POS" ++ "trk", "POS" ++ "few"] = ["POStrk", "POSfew"] := by decide
  have same : ∀ (r r' : Report), r' = { r with qc := r'.qc } →
      (∀ k, k ∉ ["POS" ++ "trk", "POS" ++ "few"] → r'.qc k = r.qc k) →
      SameButTrack ["POStrk", "POSfew"] r r' := by
    intro r r' h1 h2
    rw [hnames] at h2
    rw [h1]
    refine ⟨rfl, rfl, rfl, rfl, rfl, fun _ _ => rfl, ?_⟩
    intro k hk
    exact h2 k hk
  have const : ∀ (c : Int) (j : Nat) (x : Int), (v.map fun _ => c)[j]? = some x → x = c := by
    intro c j x hx
    rw [List.getElem?_map] at hx
    cases e : v[j]? <;> simp [e] at hx
    exact hx.symm
  unfold trackCheck at h
  cases hh : v.head? with
  | none =>
    rw [hh] at h
    simp only [Except.ok.injEq] at h
    subst h
    have : v = [] := by simpa using hh
    subst this
    exact ⟨rfl, fun j r r' hr => by simp at hr⟩
  | some r0 =>
    rw [hh] at h
    simp only at h
    have hex : (idIsGeneric r0.id (r0.getint "YR") || decide (r0.getint "PT" = some 6)
        || decide (r0.getint "PT" = some 7)) = true ↔ TrackExempt v := by
      unfold TrackExempt
      rw [hh]
      simp [or_assoc]
    by_cases hE : TrackExempt v
    · rw [if_pos (hex.2 hE)] at h
      obtain ⟨w1, w2⟩ := writeBoth_spec (by simp) (by simp) hne h
      refine ⟨w1, fun j r r' hr hr' => ?_⟩
      obtain ⟨t1, t2, t3, t4⟩ := w2 j r r' hr hr'
      have e1 := const 0 j _ t1
      have e2 := const 0 j _ t2
      exact ⟨Or.inl e1, Or.inl e2, same r r' t3 t4, by rw [e2]; simp [hE], fun _ => e1⟩
    · rw [if_neg (fun hc => hE (hex.1 hc))] at h
      by_cases hn : v.length < 3
      · rw [if_pos hn] at h
        by_cases hd : EarlyDeck720 v
        · rw [if_pos ((earlyDeck720_iff hh).2 hd)] at h
          obtain ⟨w1, w2⟩ := writeBoth_spec (by simp) (by simp) hne h
          refine ⟨w1, fun j r r' hr hr' => ?_⟩
          obtain ⟨t1, t2, t3, t4⟩ := w2 j r r' hr hr'
          have e1 := const 0 j _ t1
          have e2 := const 0 j _ t2
          exact ⟨Or.inl e1, Or.inl e2, same r r' t3 t4, by rw [e2]; simp [hd], fun _ => e1⟩
        · rw [if_neg (fun hc => hd ((earlyDeck720_iff hh).1 hc))] at h
          obtain ⟨w1, w2⟩ := writeBoth_spec (by simp) (by simp) hne h
          refine ⟨w1, fun j r r' hr hr' => ?_⟩
          obtain ⟨t1, t2, t3, t4⟩ := w2 j r r' hr hr'
          have e1 := const 0 j _ t1
          have e2 := const 1 j _ t2
          exact ⟨Or.inl e1, Or.inr e2, same r r' t3 t4, by rw [e2]; simp [hd, hE, hn], fun _ => e1⟩
      · rw [if_neg hn] at h
        cases h1 : calcAlternate G v with
        | error e => simp [h1] at h
        | ok v1 =>
        cases h2 : trackFlags G P v1 with
        | error e => simp [h1, h2] at h
        | ok fl =>
          simp only [h1, h2, except_bind_ok] at h
          obtain ⟨a1, a2⟩ := calcAlternate_spec h1
          obtain ⟨f1, f2, f3, spd, mode, -, -, f4⟩ := trackFlags_spec (by omega) h2
          obtain ⟨w1, w2⟩ := writeBoth_spec f1 (by simp) hne h
          refine ⟨by omega, fun j r r' hr hr' => ?_⟩
          obtain ⟨o, o1, -⟩ := a2 j r hr
          obtain ⟨t1, t2, t3, t4⟩ := w2 j _ r' o1 hr'
          have hj : j < v.length := by
            by_contra hc
            rw [List.getElem?_eq_none (by omega)] at hr; simp at hr
          have e2 : r'.getQc "POS" "few" = 0 := by
            rw [List.getElem?_map] at t2
            cases e : v1[j]? <;> simp [e] at t2
            exact t2.symm
          have hends : j = 0 ∨ j + 1 = v.length → r'.getQc "POS" "trk" = 0 := by
            rintro (rfl | hj2)
            · rw [f2, Option.some.injEq] at t1; exact t1.symm
            · have : v1.length - 1 = j := by omega
              rw [this] at f3
              rw [f3, Option.some.injEq] at t1; exact t1.symm
          refine ⟨?_, Or.inl e2, ?_, by rw [e2]; simp [hn], ?_⟩
          · by_cases hmid : 0 < j ∧ j + 1 < v.length
            · obtain ⟨i, rfl⟩ : ∃ i, j = i + 1 := ⟨j - 1, by omega⟩
              obtain ⟨x, x1, x2, -⟩ := f4 i v1[i] v1[i + 1] v1[i + 2] (List.getElem?_eq_getElem (by omega))
                (List.getElem?_eq_getElem (by omega)) (List.getElem?_eq_getElem (by omega))
              rw [x1, Option.some.injEq] at t1
              rw [← t1]; exact x2
            · exact Or.inl (hends (by omega))
          · obtain ⟨q1, q2, q3, q4, q5, q6, q7⟩ := setAlt_same r o
            obtain ⟨p1, p2, p3, p4, p5, p6, p7⟩ := same _ r' t3 t4
            refine ⟨p1.trans q1, p2.trans q2, p3.trans q3, p4.trans q4, p5.trans q5, ?_, ?_⟩
            · intro k hk; rw [p6 k hk, q6 k hk]
            · intro k hk; rw [p7 k hk]; rfl
          · rintro (h | h | h | h)
            · exact absurd h hE
            · exact absurd h hn
            · exact hends (Or.inl h)
            · exact hends (Or.inr h)

/-- C45. In a voyage of three or more reports that is not exempt, a report between two others is flagged `trk`
exactly if it fails the track check against its neighbours, with the limit set from the modal speed of the
voyage.  The alternate differences it uses, which are stored in the reports, are those between the neighbours of a
report, and missing for the first and the last. -/
theorem C45_decision (G : Geo) (P : TrackParams) (v v' : List Report) (h : trackCheck G P v = .ok v')
    (hE : ¬ TrackExempt v) (hn : 3 ≤ v.length) :
    (∃ spd mode, getSpeed v = .ok spd ∧ modesp spd = .ok mode
      ∧ ∀ (i : Nat) (a b c : Report), v'[i]? = some a → v'[i + 1]? = some b → v'[i + 2]? = some c →
        (b.getQc "POS" "trk" = 1 ↔ TrackFails G P (setSpeedLimits mode).1 a b c))
    ∧ (∀ r, v'.head? = some r → HoldsAlt r none) ∧ (∀ r, v'.getLast? = some r → HoldsAlt r none)
    ∧ ∀ (i : Nat) (a b c : Report), v'[i]? = some a → v'[i + 1]? = some b → v'[i + 2]? = some c →
      ∃ d, c.sub G a = .ok d ∧ HoldsAlt b (some d) := by
  have hne : ("POS" ++ "trk") ≠ ("POS" ++ "few") := by decide
  unfold trackCheck at h
  cases hh : v.head? with
  | none =>
    have : v = [] := by simpa using hh
    subst this
    simp at hn
  | some r0 =>
    rw [hh] at h
    simp only at h
    have hex : (idIsGeneric r0.id (r0.getint "YR") || decide (r0.getint "PT" = some 6)
        || decide (r0.getint "PT" = some 7)) = true ↔ TrackExempt v := by
      unfold TrackExempt
      rw [hh]
      simp [or_assoc]
    rw [if_neg (fun hc => hE (hex.1 hc)), if_neg (by omega)] at h
    cases h1 : calcAlternate G v with
    | error e => simp [h1] at h
    | ok v1 =>
    cases h2 : trackFlags G P v1 with
    | error e => simp [h1, h2] at h
    | ok fl =>
      simp only [h1, h2, except_bind_ok] at h
      obtain ⟨a1, a2⟩ := calcAlternate_spec h1
      obtain ⟨f1, f2, f3, spd, mode, s1, s2, f4⟩ := trackFlags_spec (by omega) h2
      obtain ⟨w1, w2⟩ := writeBoth_spec f1 (by simp) hne h
      have back : ∀ (j : Nat) (r' : Report), v'[j]? = some r' → ∃ r1, v1[j]? = some r1
          ∧ r' = { r1 with qc := r'.qc } ∧ fl[j]? = some (r'.getQc "POS" "trk") := by
        intro j r' hr'
        have hj : j < v1.length := by
          by_contra hc
          rw [List.getElem?_eq_none (by omega)] at hr'; simp at hr'
        have hr1 : v1[j]? = some v1[j] := List.getElem?_eq_getElem hj
        obtain ⟨t1, -, t3, -⟩ := w2 j _ r' hr1 hr'
        exact ⟨_, hr1, t3, t1⟩
      have gv : ∀ r1 r' : Report, r' = { r1 with qc := r'.qc } → r'.getvar = r1.getvar := by
        intro r1 r' e
        exact getvar_ext_data (by rw [e]) (by rw [e])
      have alt : ∀ (j : Nat) (r' : Report), v'[j]? = some r' → ∃ o, HoldsAlt r' o
          ∧ (o = none ∧ (j = 0 ∨ j + 1 = v.length)
            ∨ ∃ a c d, 0 < j ∧ v[j - 1]? = some a ∧ v[j + 1]? = some c ∧ c.sub G a = .ok d ∧ o = some d) := by
        intro j r' hr'
        obtain ⟨r1, e1, e2, -⟩ := back j r' hr'
        have hj : j < v.length := by
          by_contra hc
          rw [List.getElem?_eq_none (by omega)] at e1; simp at e1
        obtain ⟨o, o1, o2⟩ := a2 j v[j] (List.getElem?_eq_getElem hj)
        rw [e1, Option.some.injEq] at o1
        refine ⟨o, ?_, o2⟩
        have : r'.ext = (v[j].setAlt o).ext := by rw [e2, o1]
        have hs := holdsAlt_setAlt v[j] o
        unfold HoldsAlt Report.getext at hs ⊢
        rw [this]
        exact hs
      have orig : ∀ (j : Nat) (r' : Report), v'[j]? = some r' → ∃ r, v[j]? = some r ∧ r'.data = r.data := by
        intro j r' hr'
        obtain ⟨r1, e1, e2, -⟩ := back j r' hr'
        have hj : j < v.length := by
          by_contra hc
          rw [List.getElem?_eq_none (by omega)] at e1; simp at e1
        obtain ⟨o, o1, o2⟩ := a2 j v[j] (List.getElem?_eq_getElem hj)
        rw [e1, Option.some.injEq] at o1
        exact ⟨_, List.getElem?_eq_getElem hj, by rw [e2, o1]; rfl⟩
      refine ⟨⟨spd, mode, ?_, s2, ?_⟩, ?_, ?_, ?_⟩
      · rw [← s1]
        symm
        apply getSpeed_congr a1
        intro j r r' hr hr'
        obtain ⟨o, o1, -⟩ := a2 j r hr
        rw [hr', Option.some.injEq] at o1
        rw [o1]
        simp [Report.setAlt, Report.setext]
      · intro i a b c ha hb hc
        obtain ⟨a', ea, ga, -⟩ := back _ a ha
        obtain ⟨b', eb, gb, fb⟩ := back _ b hb
        obtain ⟨c', ec, gc, -⟩ := back _ c hc
        obtain ⟨x, x1, -, x3⟩ := f4 i a' b' c' ea eb ec
        rw [fb, Option.some.injEq] at x1
        rw [x1, x3]
        exact (trackFails_congr (gv _ _ ga) (gv _ _ gb) (gv _ _ gc)).symm
      · intro r hr
        rw [List.head?_eq_getElem?] at hr
        obtain ⟨o, o1, o2⟩ := alt 0 r hr
        rcases o2 with ⟨rfl, -⟩ | ⟨a, c, d, h0, -⟩
        · exact o1
        · omega
      · intro r hr
        rw [List.getLast?_eq_getElem?] at hr
        obtain ⟨o, o1, o2⟩ := alt _ r hr
        rcases o2 with ⟨rfl, -⟩ | ⟨a, c, d, -, -, h0, -⟩
        · exact o1
        · rw [List.getElem?_eq_none (by omega)] at h0; simp at h0
      · intro i a b c ha hb hc
        obtain ⟨o, o1, o2⟩ := alt _ b hb
        have hl : i + 2 < v.length := by
          by_contra hcc
          rw [List.getElem?_eq_none (by omega)] at hc; simp at hc
        rcases o2 with ⟨-, o2⟩ | ⟨a0, c0, d, -, g1, g2, g3, rfl⟩
        · omega
        · obtain ⟨a2', q1, q2⟩ := orig _ a ha
          obtain ⟨c2', q3, q4⟩ := orig _ c hc
          rw [Nat.add_sub_cancel, q1, Option.some.injEq] at g1
          rw [show i + 1 + 1 = i + 2 from rfl, q3, Option.some.injEq] at g2
          subst g1; subst g2
          exact ⟨d, by rw [← g3]; exact sub_data_eq G q4 q2, o1⟩

end MarineQC
