import Verif.Base.Spec
import Verif.Base.Ships
import Verif.Buoy.Speed
import Verif.Track.Complete

/-!
# The checks of one ship
-/

namespace MarineQC

open Spec

/-! ## Steps that only write flags -/

/-- From `v` to `v'` only the flags named and the differences of the track check have changed. -/
def FlagStep (keys : List String) (v v' : List Report) : Prop :=
  v'.length = v.length ∧ ∀ (j : Nat) (r r' : Report), v[j]? = some r → v'[j]? = some r' → SameButTrack keys r r'

theorem flagStep_get {keys : List String} {v v' : List Report} (h : FlagStep keys v v') (j : Nat) (r' : Report)
    (hr' : v'[j]? = some r') : ∃ r, v[j]? = some r ∧ SameButTrack keys r r' := by
  have hlt : j < v.length := by rw [← h.1]; exact (List.getElem?_eq_some_iff.mp hr').1
  exact ⟨v[j], List.getElem?_eq_getElem hlt, h.2 j _ r' (List.getElem?_eq_getElem hlt) hr'⟩

theorem sameButTrack_append {k1 k2 : List String} {a b c : Report} (h1 : SameButTrack k1 a b) (h2 : SameButTrack k2 b c) :
    SameButTrack (k1 ++ k2) a c := by
  obtain ⟨a1, a2, a3, a4, a5, a6, a7⟩ := h1
  obtain ⟨b1, b2, b3, b4, b5, b6, b7⟩ := h2
  refine ⟨b1.trans a1, b2.trans a2, b3.trans a3, b4.trans a4, b5.trans a5, fun k hk => (b6 k hk).trans (a6 k hk),
    fun k hk => ?_⟩
  rw [List.mem_append, not_or] at hk
  exact (b7 k hk.2).trans (a7 k hk.1)

theorem flagStep_trans {k1 k2 : List String} {a b c : List Report} (h1 : FlagStep k1 a b) (h2 : FlagStep k2 b c) :
    FlagStep (k1 ++ k2) a c := by
  refine ⟨h2.1.trans h1.1, fun j r r' hr hr' => ?_⟩
  obtain ⟨s, hs, hs'⟩ := flagStep_get h2 j r' hr'
  exact sameButTrack_append (h1.2 j r s hr hs) hs'

theorem flagStep_refl (v : List Report) : FlagStep [] v v := by
  refine ⟨rfl, fun j r r' hr hr' => ?_⟩
  rw [hr, Option.some.injEq] at hr'
  subst hr'
  exact ⟨rfl, rfl, rfl, rfl, rfl, fun _ _ => rfl, fun _ _ => rfl⟩

theorem flagStep_of_eq {key : String} {v v' : List Report} (hl : v'.length = v.length)
    (h : ∀ (j : Nat) (r r' : Report), v[j]? = some r → v'[j]? = some r' →
      r' = { r with qc := r'.qc } ∧ ∀ k, k ≠ key → r'.qc k = r.qc k) : FlagStep [key] v v' := by
  refine ⟨hl, fun j r r' hr hr' => ?_⟩
  obtain ⟨e, hq⟩ := h j r r' hr hr'
  refine ⟨by rw [e], by rw [e], by rw [e], by rw [e], by rw [e], fun k _ => by rw [e], fun k hk => hq k (by simpa using hk)⟩

theorem getQc_same {keys : List String} {r r' : Report} (h : SameButTrack keys r r') {t f : String}
    (hk : t ++ f ∉ keys) : r'.getQc t f = r.getQc t f := by
  unfold Report.getQc
  rw [h.2.2.2.2.2.2 _ hk]

theorem setExactly_step {keys : List String} {v w : List Report} (h : FlagStep keys v w) {t f : String} {S : Nat → Prop}
    (hk : t ++ f ∉ keys) (hs : SetExactly v t f S) : SetExactly w t f S := by
  intro n r' hr'
  obtain ⟨r, hr, hs'⟩ := flagStep_get h n r' hr'
  have := hs n r hr
  unfold Decided at this ⊢
  rw [getQc_same hs' hk]
  exact this

theorem setExactly_congr {w : List Report} {t f : String} {S S' : Nat → Prop} (h : ∀ n, S n ↔ S' n)
    (hs : SetExactly w t f S) : SetExactly w t f S' :=
  fun n r' hr' => ⟨(hs n r' hr').1, (hs n r' hr').2.trans (h n)⟩

/-! ## Reports with the same data -/

/-- The same identifiers and data, report by report. -/
def Alike (a b : List Report) : Prop := List.Forall₂ (fun r s => s.id = r.id ∧ s.data = r.data) a b

theorem alike_symm {a b : List Report} (h : Alike a b) : Alike b a := by
  unfold Alike at *
  exact List.Forall₂.flip (h.imp fun r s e => ⟨e.1.symm, e.2.symm⟩)

theorem alike_trans {a b c : List Report} (h1 : Alike a b) (h2 : Alike b c) : Alike a c := by
  unfold Alike at *
  induction h1 generalizing c with
  | nil => exact h2
  | cons e _ ih =>
    cases h2 with
    | cons e' h2 => exact .cons ⟨e'.1.trans e.1, e'.2.trans e.2⟩ (ih h2)

theorem alike_of_step {keys : List String} {v v' : List Report} (h : FlagStep keys v v') : Alike v v' := by
  refine List.forall₂_iff_get.mpr ⟨h.1.symm, fun j h1 h2 => ?_⟩
  have := h.2 j v[j] v'[j] (List.getElem?_eq_getElem h1) (List.getElem?_eq_getElem h2)
  exact ⟨this.1, this.2.2.1⟩

theorem alike_of_build {G : Geo} {l v : List Report} (h : l.foldlM (addReport G) [] = .ok v) : Alike l v :=
  (build_only G l v h).imp fun _ _ e => ⟨e.id, e.data⟩

theorem alike_get {a b : List Report} (h : Alike a b) {j : Nat} {r : Report} (hr : a[j]? = some r) :
    ∃ s, b[j]? = some s ∧ s.id = r.id ∧ s.data = r.data := by
  obtain ⟨s, h1, h2⟩ := forall2_get h j r hr
  exact ⟨s, h1, h2⟩

theorem getvar_alike {r s : Report} (h : s.data = r.data) {t : String} (ht : t ∈ VARLIST) : s.getvar t = r.getvar t := by
  unfold Report.getvar
  simp only [ht, h, true_or, not_true_eq_false, if_true, if_false]

theorem placed_alike {r s : Report} (h : s.data = r.data) (hp : r.Placed) : s.Placed := placed_of_data h hp

theorem timeTo_alike {a b a' b' : Report} (ha : a'.data = a.data) (hb : b'.data = b.data) :
    a'.timeTo b' = a.timeTo b := by
  unfold Report.timeTo Report.getint
  rw [getvar_alike ha (t := "HR") (by decide), getvar_alike hb (t := "HR") (by decide), ha, hb]

theorem lat_alike {r s : Report} (h : s.data = r.data) : s.lat = r.lat ∧ s.lon = r.lon := by
  unfold Report.lat Report.lon
  simp only [getvar_alike h (t := "LAT") (by decide), getvar_alike h (t := "LON") (by decide)]
  exact ⟨trivial, trivial⟩

theorem apart_alike {G : Geo} {a b a' b' : Report} (ha : a'.data = a.data) (hb : b'.data = b.data) {d t : Rat} :
    Apart G a' b' d t ↔ Apart G a b d t := by
  unfold Apart
  rw [timeTo_alike ha hb, (lat_alike ha).1, (lat_alike ha).2, (lat_alike hb).1, (lat_alike hb).2]

theorem tooFast_alike {G : Geo} {P : IquamParams} {lim : Rat} {a b a' b' : Report} (ha : a'.data = a.data)
    (hb : b'.data = b.data) : TooFast G P lim a' b' ↔ TooFast G P lim a b := by
  unfold TooFast
  simp only [apart_alike ha hb]

theorem tooSteep_alike {G : Geo} {P : SpikeParams} {delta : Rat} {t : String} (ht : t ∈ VARLIST) {a b a' b' : Report}
    (ha : a'.data = a.data) (hb : b'.data = b.data) : TooSteep G P delta t a' b' ↔ TooSteep G P delta t a b := by
  unfold TooSteep
  simp only [apart_alike ha hb, getvar_alike ha ht, getvar_alike hb ht]

theorem pairOf_alike {l v : List Report} (h : Alike l v) {nn : Int} {C : Report → Report → Prop}
    (hC : ∀ a b a' b' : Report, a'.data = a.data → b'.data = b.data → (C a' b' ↔ C a b)) :
    PairOf v nn C = PairOf l nn C := by
  funext i j
  apply propext
  unfold PairOf
  constructor
  · rintro ⟨h1, a, b, ha, hb, hab⟩
    obtain ⟨a', p1, -, p2⟩ := alike_get (alike_symm h) ha
    obtain ⟨b', q1, -, q2⟩ := alike_get (alike_symm h) hb
    exact ⟨h1, a', b', p1, q1, (hC a b a' b' p2 q2).mpr hab⟩
  · rintro ⟨h1, a, b, ha, hb, hab⟩
    obtain ⟨a', p1, -, p2⟩ := alike_get h ha
    obtain ⟨b', q1, -, q2⟩ := alike_get h hb
    exact ⟨h1, a', b', p1, q1, (hC a b a' b' p2 q2).mpr hab⟩

theorem valuesOf_alike {l v : List Report} (h : Alike l v) {t : String} (ht : t ∈ VARLIST) : valuesOf v t = valuesOf l t := by
  unfold Alike at h
  unfold valuesOf
  induction h with
  | nil => rfl
  | cons e _ ih => rw [List.filterMap_cons, List.filterMap_cons, getvar_alike e.2 ht, ih]

theorem satAt_alike {l v : List Report} (h : Alike l v) {i : Nat} (hs : SatAt l i) : SatAt v i := by
  obtain ⟨r, x, hr, h1, h2⟩ := hs
  obtain ⟨s, hs, -, e⟩ := alike_get h hr
  exact ⟨s, x, hs, by rw [getvar_alike e (by decide), h1], by rw [getvar_alike e (by decide), h2]⟩

theorem sub_alike {G : Geo} {a b a' b' : Report} (ha : a'.data = a.data) (hb : b'.data = b.data) :
    a'.sub G b' = a.sub G b := by
  unfold Report.sub
  rw [timeTo_alike hb ha, (lat_alike ha).1, (lat_alike ha).2, (lat_alike hb).1, (lat_alike hb).2]

theorem inLongSatRun_alike {G : Geo} {l v : List Report} (h : Alike l v) {t : Rat} {n : Int} {i : Nat}
    (hs : InLongSatRun G l t n i) : InLongSatRun G v t n i := by
  obtain ⟨a, b, ⟨r1, r2, r3, r4⟩, h1, h2, h3, ra, rb, d, ha, hb, hd, ht⟩ := hs
  obtain ⟨ra', ha', -, ea⟩ := alike_get h ha
  obtain ⟨rb', hb', -, eb⟩ := alike_get h hb
  refine ⟨a, b, ⟨r1, fun i hi hi' => satAt_alike h (r2 i hi hi'), ?_, fun hc => r4 (satAt_alike (alike_symm h) hc)⟩, h1, h2, h3,
    ra', rb', d, ha', hb', by rw [sub_alike eb ea, hd], ht⟩
  rcases r3 with r3 | r3
  · exact .inl r3
  · exact .inr fun hc => r3 (satAt_alike (alike_symm h) hc)

theorem head_alike {l v : List Report} (h : Alike l v) {r : Report} (hr : v.head? = some r) :
    ∃ s, l.head? = some s ∧ r.id = s.id ∧ r.data = s.data := by
  rw [List.head?_eq_getElem?] at hr
  obtain ⟨s, hs, e1, e2⟩ := alike_get (alike_symm h) hr
  exact ⟨s, by rw [List.head?_eq_getElem?]; exact hs, e1.symm, e2.symm⟩

theorem getint_alike {r s : Report} (h : s.data = r.data) (t : String) : s.getint t = r.getint t := by
  unfold Report.getint
  rw [h]

theorem trackExempt_alike {l v : List Report} (h : Alike l v) (hv : TrackExempt v) : TrackExempt l := by
  obtain ⟨r, hr, hc⟩ := hv
  obtain ⟨s, hs, e1, e2⟩ := head_alike h hr
  refine ⟨s, hs, ?_⟩
  rw [← e1, ← getint_alike e2 "YR", ← getint_alike e2 "PT"]
  exact hc

theorem earlyDeck720_alike {l v : List Report} (h : Alike l v) (hv : EarlyDeck720 v) : EarlyDeck720 l := by
  obtain ⟨r, hr, h1, h2⟩ := hv
  obtain ⟨s, hs, e1, e2⟩ := head_alike h hr
  refine ⟨s, hs, ?_, ?_⟩
  · rw [← getint_alike e2]; exact h1
  · rw [← getint_alike e2]; exact h2

/-! ## The checks -/

theorem track_step {G : Geo} {P : TrackParams} {l v v' : List Report} (hl : Alike l v) (h : trackCheck G P v = .ok v') :
    FlagStep ["POStrk", "POSfew"] v v' ∧ (∀ r' ∈ v', Decided r' "POS" "trk") ∧
    SetExactly v' "POS" "few" fun _ => ¬ TrackExempt l ∧ l.length < 3 ∧ ¬ EarlyDeck720 l := by
  obtain ⟨h1, h2⟩ := C45_flags G P v v' h
  have hs : FlagStep ["POStrk", "POSfew"] v v' := ⟨h1, fun j r r' hr hr' => (h2 j r r' hr hr').2.2.1⟩
  refine ⟨hs, ?_, ?_⟩
  · intro r' hr'
    obtain ⟨n, hn⟩ := List.mem_iff_getElem?.mp hr'
    obtain ⟨r, hr, -⟩ := flagStep_get hs n r' hn
    exact (h2 n r r' hr hn).1
  · intro n r' hr'
    obtain ⟨r, hr, -⟩ := flagStep_get hs n r' hr'
    obtain ⟨-, k2, -, k4, -⟩ := h2 n r r' hr hr'
    refine ⟨k2, k4.trans ?_⟩
    have e1 : TrackExempt v ↔ TrackExempt l := ⟨trackExempt_alike hl, trackExempt_alike (alike_symm hl)⟩
    have e2 : EarlyDeck720 v ↔ EarlyDeck720 l := ⟨earlyDeck720_alike hl, earlyDeck720_alike (alike_symm hl)⟩
    have e3 : v.length = l.length := (List.Forall₂.length_eq hl).symm
    rw [e1, e2, e3]

theorem iquam_keeps {G : Geo} {P : IquamParams} {v v' : List Report} (h : iquamTrackCheck G P v = .ok v') :
    FlagStep ["POSiquam_track"] v v' := by
  unfold iquamTrackCheck at h
  cases h1 : iquamFlags G P v with
  | error e => rw [h1] at h; simp at h
  | ok fl =>
    rw [h1, except_bind_ok] at h
    obtain ⟨g1, g2⟩ := writeFlags_spec (iquamFlags_binary h1).1 h
    exact flagStep_of_eq g1 fun j r r' hr hr' => (g2 j r r' hr hr').2

theorem eliminate_length {n : Nat} {nn : Int} {bad : Nat → Nat → Except Err Bool} {fl fl' : List Int}
    (h : eliminate n nn bad fl = .ok fl') (hf : fl.length = n) : fl'.length = n := by
  unfold eliminate at h
  rw [set_all_zero _ _ hf] at h
  cases h1 : (List.range n).mapM fun t1 => violators (bad t1) (neighbours n nn t1) with
  | error e => rw [h1] at h; simp at h
  | ok viol =>
    rw [h1, except_bind_ok] at h
    simp only at h
    cases h2 : elimLoop n ⟨viol, viol.map fun l => (l.length : Int), List.replicate n 0⟩ with
    | error e => rw [h2] at h; simp at h
    | ok s =>
      rw [h2, except_bind_ok, except_pure, Except.ok.injEq] at h
      subst h
      have := (elimLoop_binary _ _ _ h2 (by intro x hx; exact .inl (List.eq_of_mem_replicate hx))).1
      simpa using this

theorem spike_keeps {G : Geo} {P : SpikeParams} {t : String} {v v' : List Report} (h : spikeCheck G P t v = .ok v') :
    FlagStep [t ++ "spike"] v v' := by
  unfold spikeCheck at h
  cases h1 : spikeFlags G P t v with
  | error e => rw [h1] at h; simp at h
  | ok fl =>
    rw [h1, except_bind_ok] at h
    have hl : fl.length = v.length := by
      unfold spikeFlags at h1
      cases hh : v.head? with
      | none =>
        rw [hh] at h1
        rw [List.head?_eq_none_iff] at hh
        simp only [Except.ok.injEq] at h1
        rw [← h1, hh]; rfl
      | some r =>
        rw [hh] at h1
        exact eliminate_length h1 (by simp [readFlags])
    obtain ⟨g1, g2⟩ := writeFlags_spec hl h
    exact flagStep_of_eq g1 fun j r r' hr hr' => (g2 j r r' hr hr').2

/-- What the checks of ships need of their parameters. -/
structure GoodShipParams (P : ShipParams) : Prop where
  deltaT : 0 < P.iquam.deltaT
  deltaD : 0 ≤ P.iquam.deltaD
  buoy : 0 ≤ P.iquam.buoySpeedLimit
  ship : 0 ≤ P.iquam.shipSpeedLimit

theorem speed_step {G : Geo} (hG : IsDistance G) {P : IquamParams} (hT : 0 < P.deltaT) (hD : 0 ≤ P.deltaD)
    (hb : 0 ≤ P.buoySpeedLimit) (hsh : 0 ≤ P.shipSpeedLimit) {l v v' : List Report} (hl : Alike l v)
    (hp : ∀ r ∈ v, r.Placed) (h : iquamTrackCheck G P v = .ok v') :
    ∃ removed, FastRemoved G P l removed ∧ SetExactly v' "POS" "iquam_track" (· ∈ removed) := by
  classical
  cases v with
  | nil =>
    have e : v' = [] := List.eq_nil_of_length_eq_zero (iquam_keeps h).1
    have e2 : l = [] := List.eq_nil_of_length_eq_zero (List.Forall₂.length_eq hl)
    subst e e2
    exact ⟨[], by simp [FastRemoved], by intro n r' hr'; simp at hr'⟩
  | cons r0 v =>
    obtain ⟨s0, hs0, e1, e2⟩ := head_alike hl (r := r0) rfl
    have egen : idIsGeneric s0.id (s0.getint "YR") = idIsGeneric r0.id (r0.getint "YR") := by
      rw [← e1, ← getint_alike e2]
    by_cases hgen : idIsGeneric r0.id (r0.getint "YR") = true
    · refine ⟨[], ?_, ?_⟩
      · intro x hx
        rw [hs0, Option.some.injEq] at hx
        subst hx
        rw [egen, if_pos hgen]
      · have hf : iquamFlags G P (r0 :: v) = .ok (List.replicate (r0 :: v).length 0) := by
          unfold iquamFlags
          simp only [List.head?_cons, hgen, if_true]
          rw [set_all_zero _ _ (by simp [readFlags])]
        unfold iquamTrackCheck at h
        rw [hf, except_bind_ok] at h
        obtain ⟨g1, g2⟩ := writeFlags_spec (by simp) h
        intro n r' hr'
        obtain ⟨r, hr, -⟩ := flagStep_get (iquam_keeps (G := G) (P := P) (v := r0 :: v) (v' := v')
          (by unfold iquamTrackCheck; rw [hf, except_bind_ok]; exact h)) n r' hr'
        obtain ⟨⟨x, hx1, hx2⟩, -⟩ := g2 n r r' hr hr'
        have : x = 0 := List.eq_of_mem_replicate (List.mem_of_getElem? hx1)
        subst this
        refine ⟨.inl hx2, ?_⟩
        rw [hx2]
        simp
    · have ebuoy : PlatformIsBuoy s0 ↔ PlatformIsBuoy r0 := by
        unfold PlatformIsBuoy; rw [getint_alike e2]
      obtain ⟨R, w, h1, h2, h3, h4⟩ := C43_iquam G hG P hT hD r0 v hp (by simpa using hgen) _ rfl
        (by split <;> assumption)
      rw [h, Except.ok.injEq] at h1
      subst h1
      refine ⟨R, ?_, ?_⟩
      · intro x hx
        rw [hs0, Option.some.injEq] at hx
        subst hx
        rw [egen, if_neg hgen]
        simp only [ebuoy]
        rw [pairOf_alike hl (fun a b a' b' ha hb => tooFast_alike ha hb), ← List.Forall₂.length_eq hl] at h2
        exact h2
      · intro n r' hr'
        obtain ⟨r, hr, -⟩ := flagStep_get (iquam_keeps h) n r' hr'
        have := (h4 n r r' hr hr').1
        unfold Decided
        rw [this]
        by_cases hn : n ∈ R <;> simp [hn]

theorem steep_step {G : Geo} (hG : IsDistance G) {P : SpikeParams} {t : String} (ht : t ∈ VARLIST)
    {l v v' : List Report} (hl : Alike l v) (hp : ∀ r ∈ v, r.Placed) (h : spikeCheck G P t v = .ok v') :
    ∃ removed, SteepRemoved G P t l removed ∧ SetExactly v' t "spike" (· ∈ removed) := by
  classical
  cases v with
  | nil =>
    have e : v' = [] := List.eq_nil_of_length_eq_zero (spike_keeps h).1
    have e2 : l = [] := List.eq_nil_of_length_eq_zero (List.Forall₂.length_eq hl)
    subst e e2
    exact ⟨[], by simp [SteepRemoved], by intro n r' hr'; simp at hr'⟩
  | cons r0 v =>
    obtain ⟨s0, hs0, e1, e2⟩ := head_alike hl (r := r0) rfl
    have ebuoy : PlatformIsBuoy s0 ↔ PlatformIsBuoy r0 := by
      unfold PlatformIsBuoy; rw [getint_alike e2]
    obtain ⟨R, w, h1, h2, h3, h4⟩ := C44_spike G hG P t (.inr ht) r0 v hp _ rfl
    rw [h, Except.ok.injEq] at h1
    subst h1
    refine ⟨R, ?_, ?_⟩
    · intro x hx
      rw [hs0, Option.some.injEq] at hx
      subst hx
      simp only [ebuoy]
      rw [pairOf_alike hl (fun a b a' b' ha hb => tooSteep_alike ht ha hb), ← List.Forall₂.length_eq hl] at h2
      exact h2
    · intro n r' hr'
      obtain ⟨r, hr, -⟩ := flagStep_get (spike_keeps h) n r' hr'
      have := (h4 n r r' hr hr').1
      unfold Decided
      rw [this]
      by_cases hn : n ∈ R <;> simp [hn]

theorem saturated_step {G : Geo} {minTime : Rat} {shortest : Int} {l v v' : List Report} (hl : Alike l v)
    (h : findSaturatedRuns G minTime shortest v = .ok v') :
    FlagStep ["DPTrepsat"] v v' ∧ SetExactly v' "DPT" "repsat" (InLongSatRun G l minTime shortest) := by
  obtain ⟨h1, h2⟩ := C41_saturated_runs G minTime shortest v v' h
  have hs : FlagStep ["DPTrepsat"] v v' := flagStep_of_eq h1 fun j r r' hr hr' => (h2 j r r' hr hr').2.2
  refine ⟨hs, fun n r' hr' => ?_⟩
  obtain ⟨r, hr, -⟩ := flagStep_get hs n r' hr'
  obtain ⟨k1, k2, -⟩ := h2 n r r' hr hr'
  exact ⟨k1, k2.trans ⟨inLongSatRun_alike (alike_symm hl), inLongSatRun_alike hl⟩⟩

theorem rounded_step {rnd : Rat → Rat} {count : Int} {share : Rat} {t : String} (ht : t ∈ VARLIST) {l v v' : List Report}
    (hl : Alike l v) (h : findMultipleRounded rnd count share t v = .ok v') :
    FlagStep [t ++ "round"] v v' ∧ SetExactly v' t "round" (OftenWhole rnd count share t l) := by
  obtain ⟨h1, h2⟩ := C42_rounded rnd count share t v v' h
  have hs : FlagStep [t ++ "round"] v v' := flagStep_of_eq h1 fun j r r' hr hr' => (h2 j r r' hr hr').2.2
  refine ⟨hs, fun n r' hr' => ?_⟩
  obtain ⟨r, hr, -⟩ := flagStep_get hs n r' hr'
  obtain ⟨k1, k2, -⟩ := h2 n r r' hr hr'
  refine ⟨k1, k2.trans ?_⟩
  rw [valuesOf_alike hl ht]
  unfold OftenWhole
  obtain ⟨s, hs1, -, hs2⟩ := alike_get (alike_symm hl) hr
  rw [← getvar_alike hs2 ht]
  simp only [hs1, Option.some.injEq, exists_and_left, exists_eq_left']

theorem repeated_step {rnd : Rat → Rat} {count : Int} {share : Rat} {t : String} (ht : t ∈ VARLIST) {l v v' : List Report}
    (hl : Alike l v) (h : findRepeated rnd count share t v = .ok v') :
    FlagStep [t ++ "rep"] v v' ∧ SetExactly v' t "rep" (OftenRepeated rnd count share t l) := by
  obtain ⟨h1, h2⟩ := C42_repeated rnd count share t v v' h
  have hs : FlagStep [t ++ "rep"] v v' := flagStep_of_eq h1 fun j r r' hr hr' => (h2 j r r' hr hr').2.2
  refine ⟨hs, fun n r' hr' => ?_⟩
  obtain ⟨r, hr, -⟩ := flagStep_get hs n r' hr'
  obtain ⟨k1, k2, -⟩ := h2 n r r' hr hr'
  refine ⟨k1, k2.trans ?_⟩
  rw [valuesOf_alike hl ht]
  unfold OftenRepeated
  obtain ⟨s, hs1, -, hs2⟩ := alike_get (alike_symm hl) hr
  rw [← getvar_alike hs2 ht]
  simp only [hs1, Option.some.injEq, exists_and_left, exists_eq_left']

theorem repeatedChecks_step {rnd : Rat → Rat} {P : ShipParams} {l : List Report} : ∀ (ts : List String) (v v' : List Report),
    (∀ t ∈ ts, t ∈ VARLIST) → (ts.map (· ++ "rep")).Nodup → Alike l v → repeatedChecks rnd P ts v = .ok v' →
    FlagStep (ts.map (· ++ "rep")) v v' ∧
    ∀ t ∈ ts, SetExactly v' t "rep" (OftenRepeated rnd P.repCount P.repShare t l) := by
  intro ts
  induction ts with
  | nil =>
    intro v v' _ _ _ h
    simp only [repeatedChecks, Except.ok.injEq] at h
    subst h
    exact ⟨flagStep_refl v, by simp⟩
  | cons t ts ih =>
    intro v v' hts hn hl h
    rw [repeatedChecks] at h
    cases h1 : findRepeated rnd P.repCount P.repShare t v with
    | error e => rw [h1] at h; simp at h
    | ok v1 =>
      rw [h1, except_bind_ok] at h
      rw [List.map_cons, List.nodup_cons] at hn
      obtain ⟨a1, a2⟩ := repeated_step (hts t (by simp)) hl h1
      obtain ⟨b1, b2⟩ := ih v1 v' (fun t ht => hts t (by simp [ht])) hn.2 (alike_trans hl (alike_of_step a1)) h
      refine ⟨flagStep_trans a1 b1, fun t' ht' => ?_⟩
      rcases List.mem_cons.mp ht' with rfl | ht'
      · exact setExactly_step b1 hn.1 a2
      · exact b2 t' ht'

theorem shipChecks_ok {G : Geo} {rnd : Rat → Rat} {P : ShipParams} {v w : List Report} :
    shipChecks G rnd P v = .ok w ↔ ∃ a b c d e, trackCheck G P.track v = .ok a ∧ iquamTrackCheck G P.iquam a = .ok b ∧
      spikeCheck G P.spike "SST" b = .ok c ∧ findSaturatedRuns G P.satTime P.satRun c = .ok d ∧
      findMultipleRounded rnd P.roundCount P.roundShare "DPT" d = .ok e ∧
      repeatedChecks rnd P ["SST", "AT", "AT2", "DPT", "SLP"] e = .ok w := by
  unfold shipChecks
  constructor
  · intro h
    cases h1 : trackCheck G P.track v with
    | error e => rw [h1] at h; simp at h
    | ok a =>
      rw [h1, except_bind_ok] at h
      cases h2 : iquamTrackCheck G P.iquam a with
      | error e => rw [h2] at h; simp at h
      | ok b =>
        rw [h2, except_bind_ok] at h
        cases h3 : spikeCheck G P.spike "SST" b with
        | error e => rw [h3] at h; simp at h
        | ok c =>
          rw [h3, except_bind_ok] at h
          cases h4 : findSaturatedRuns G P.satTime P.satRun c with
          | error e => rw [h4] at h; simp at h
          | ok d =>
            rw [h4, except_bind_ok] at h
            cases h5 : findMultipleRounded rnd P.roundCount P.roundShare "DPT" d with
            | error e => rw [h5] at h; simp at h
            | ok e =>
              rw [h5, except_bind_ok] at h
              exact ⟨a, b, c, d, e, rfl, h2, h3, h4, h5, h⟩
  · rintro ⟨a, b, c, d, e, h1, h2, h3, h4, h5, h6⟩
    rw [h1, except_bind_ok, h2, except_bind_ok, h3, except_bind_ok, h4, except_bind_ok, h5, except_bind_ok, h6]

/-- The checks keep the reports but for flags and the differences of the track check. -/
theorem shipChecks_step {G : Geo} {rnd : Rat → Rat} {P : ShipParams} {v w : List Report} (h : shipChecks G rnd P v = .ok w) :
    FlagStep (stored shipFlagNames) v w := by
  obtain ⟨a, b, c, d, e, h1, h2, h3, h4, h5, h6⟩ := shipChecks_ok.mp h
  have refl : ∀ v : List Report, Alike v v := fun v => alike_of_step (flagStep_refl v)
  have k6 := (repeatedChecks_step (l := e) _ _ _ (by decide) (by decide) (refl e) h6).1
  have k5 := (rounded_step (by decide) (refl d) h5).1
  exact flagStep_trans (track_step (refl v) h1).1 (flagStep_trans (iquam_keeps h2) (flagStep_trans (spike_keeps h3)
    (flagStep_trans (saturated_step (refl c) h4).1 (flagStep_trans k5 k6))))

theorem shipChecks_keepsIds (G : Geo) (rnd : Rat → Rat) (P : ShipParams) : KeepsIds (shipChecks G rnd P) := by
  intro v v' h
  have := alike_of_step (shipChecks_step h)
  unfold Alike at this
  clear h
  induction this with
  | nil => rfl
  | cons e _ ih => rw [List.map_cons, List.map_cons, e.1, ih]

/-- The flags of the reports of one ship. -/
theorem shipChecks_flags {G : Geo} (hG : IsDistance G) {rnd : Rat → Rat} {P : ShipParams} (hP : GoodShipParams P)
    {l v w : List Report} (hp : ∀ r ∈ l, r.Placed) (hb : l.foldlM (addReport G) [] = .ok v)
    (h : shipChecks G rnd P v = .ok w) : ShipFlags G rnd P l w := by
  obtain ⟨a, b, c, d, e, h1, h2, h3, h4, h5, h6⟩ := shipChecks_ok.mp h
  have placed : ∀ x : List Report, Alike l x → ∀ r ∈ x, r.Placed := by
    intro x hx r hr
    obtain ⟨n, hn⟩ := List.mem_iff_getElem?.mp hr
    obtain ⟨s, hs, -, e⟩ := alike_get (alike_symm hx) hn
    exact placed_of_data e.symm (hp s (List.mem_of_getElem? hs))
  have lv := alike_of_build hb
  obtain ⟨s1, p1, q1⟩ := track_step lv h1
  have la := alike_trans lv (alike_of_step s1)
  have s2 := iquam_keeps h2
  obtain ⟨R, q2, q2'⟩ := speed_step hG hP.deltaT hP.deltaD hP.buoy hP.ship la (placed a la) h2
  have lb := alike_trans la (alike_of_step s2)
  have s3 := spike_keeps h3
  obtain ⟨S, q3, q3'⟩ := steep_step hG (by decide) lb (placed b lb) h3
  have lc := alike_trans lb (alike_of_step s3)
  obtain ⟨s4, q4⟩ := saturated_step lc h4
  have ld := alike_trans lc (alike_of_step s4)
  obtain ⟨s5, q5⟩ := rounded_step (by decide) ld h5
  have le := alike_trans ld (alike_of_step s5)
  obtain ⟨s6, q6⟩ := repeatedChecks_step _ _ _ (by decide) (by decide) le h6
  have t5 := s6
  have t4 := flagStep_trans s5 t5
  have t3 := flagStep_trans s4 t4
  have t2 := flagStep_trans s3 t3
  have t1 := flagStep_trans s2 t2
  have t0 := shipChecks_step h
  have hlen : w.length = l.length := t0.1.trans (List.Forall₂.length_eq lv).symm
  refine ⟨hlen, ?_, ⟨v, a, hb, h1, ?_⟩, ?_, setExactly_step t1 (by decide) q1,
    ⟨R, q2, setExactly_step t2 (by decide) q2'⟩, ⟨S, q3, setExactly_step t3 (by decide) q3'⟩,
    setExactly_step t4 (by decide) q4, setExactly_step t5 (by decide) q5, q6⟩
  · intro n r r' hr hr'
    obtain ⟨s, hs, k⟩ := forall2_get (build_only G l v hb) n r hr
    obtain ⟨m1, m2, m3, m4, m5, m6, m7⟩ := t0.2 n s r' hs hr'
    refine ⟨m1.trans k.id, m2.trans k.uid, m3.trans k.data, m4.trans k.clim, m5.trans k.dt, ?_, ?_⟩
    · intro x hx
      rw [List.mem_append, not_or] at hx
      exact (m6 x hx.2).trans (k.ext x hx.1)
    · intro x hx
      exact (m7 x hx).trans (k.flags x (by simp))
  · intro n s r' hs hr'
    exact getQc_same (t1.2 n s r' hs hr') (by decide)
  · intro r' hr'
    obtain ⟨n, hn⟩ := List.mem_iff_getElem?.mp hr'
    obtain ⟨s, hs, k⟩ := flagStep_get t1 n r' hn
    have := p1 s (List.mem_of_getElem? hs)
    unfold Decided at this ⊢
    rw [getQc_same k (by decide)]
    exact this

end MarineQC
