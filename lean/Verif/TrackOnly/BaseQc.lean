import Verif.TrackOnly.Shadow
import Verif.Base.ReadStep

/-!
# Base checks of reports with the same shadow
-/

namespace MarineQC

open Spec

variable {F : Type} [LinearOrder F] [Zero F]

/-- The report `s` of the tracking-only program next to the report `r` of the main program. -/
structure Beside (r s : Report) : Prop where
  alike : shadow r = shadow s
  bare : ∀ k, k ≠ "SST" → s.clim k = none

/-- Where the main program's step completes, the step of the tracking-only program does, and the reports stay alike. -/
def Keeps (f g : Report → Except Err Report) : Prop :=
  ∀ r s r1, Beside r s → f r = .ok r1 → ∃ s1, g s = .ok s1 ∧ Beside r1 s1

theorem keeps_then {f g f' g' : Report → Except Err Report} (h : Keeps f g) (h' : Keeps f' g') :
    Keeps (fun r => f r >>= f') (fun s => g s >>= g') := by
  intro r s r2 hb e
  obtain ⟨r1, e1, e2⟩ := bind_ok_iff.mp e
  obtain ⟨s1, k1, b1⟩ := h r s r1 hb e1
  obtain ⟨s2, k2, b2⟩ := h' r1 s1 r2 b1 e2
  exact ⟨s2, by simp only [k1, except_bind_ok, k2], b2⟩

/-! ## Steps on position and sea-surface temperature -/

theorem keeps_of_shadow {f : Report → Except Err Report} (h1 : ∀ r, f (shadow r) = (f r).map shadow)
    (h2 : ∀ r r', f r = .ok r' → r'.clim = r.clim) : Keeps f f := by
  intro r s r1 hb e
  have m := h1 r
  rw [hb.alike, h1, e] at m
  obtain ⟨s1, k, e1⟩ := exMap_ok_iff.mp m
  refine ⟨s1, k, e1.symm, ?_⟩
  intro k' hk
  rw [h2 s s1 k]
  exact hb.bare k' hk

theorem setQc_clim {r r' : Report} {t f : String} {v : Int} (h : r.setQc t f v = .ok r') : r'.clim = r.clim := by
  rw [setQc_eq h]

theorem ok_clim {r r' : Report} (h : Except.ok (ε := Err) r = .ok r') : r'.clim = r.clim := by cases h; rfl

theorem keeps_set {t : String} (ht : KeptType t) (f : String) (v : Report → Except Err Int) (hv : ∀ r, v (shadow r) = v r) :
    Keeps (fun r => v r >>= r.setQc t f) (fun r => v r >>= r.setQc t f) := by
  apply keeps_of_shadow
  · intro r
    rw [hv, exMap_bind]
    congr 1
    funext x
    exact setQc_shadow r ht f x
  · intro r r' h
    obtain ⟨x, -, h⟩ := bind_ok_iff.mp h
    exact setQc_clim h

theorem keeps_put {t : String} (ht : KeptType t) (f : String) (v : Report → Int) (hv : ∀ r, v (shadow r) = v r) :
    Keeps (fun r => r.setQc t f (v r)) (fun r => r.setQc t f (v r)) :=
  keeps_set ht f (fun r => .ok (v r)) fun r => by rw [hv]

theorem computeDt_shadow (r : Report) : (shadow r).computeDt = r.computeDt := by
  unfold Report.computeDt
  simp only [shadow_getvar _ (show "HR" ∉ mainOnly by decide), shadow_getint _ (show "YR" ∉ mainOnly by decide),
    shadow_getint _ (show "MO" ∉ mainOnly by decide), shadow_getint _ (show "DY" ∉ mainOnly by decide)]

/-- The report with the hour 0. -/
def hourZero (r : Report) : Report := { r with data := fun k => if k = "HR" then some 0 else r.data k }

theorem hourZero_shadow (r : Report) : hourZero (shadow r) = shadow (hourZero r) := by
  unfold shadow hourZero
  simp only [Report.mk.injEq, true_and, and_true]
  funext k
  by_cases hk : k = "HR"
  · subst hk
    rw [if_pos rfl, if_neg (by decide), if_pos rfl]
  · simp only [if_neg hk]

theorem setHour_eq (r : Report) : (do
    let r ← raising (r.setvar "HR" (some 0))
    let d ← r.computeDt
    return { r with dt := d } : Except Err Report) = (hourZero r).computeDt.map fun d => { hourZero r with dt := d } := by
  unfold Report.setvar raising
  rw [if_pos (by decide), if_pos (by decide)]
  have e : ∀ d, Report.computeDt { hourZero r with dt := d } = (hourZero r).computeDt := fun _ => rfl
  show (do
    let r ← _
    let d ← Report.computeDt r
    return { r with dt := d } : Except Err Report) = _
  change (do
    let r ← (match (match (hourZero r).computeDt with
      | .ok d => ({ hourZero r with dt := d }, none)
      | .error e => (hourZero r, some e) : Report × Option Err).2 with
      | none => .ok (match (hourZero r).computeDt with
        | .ok d => ({ hourZero r with dt := d }, none)
        | .error e => (hourZero r, some e) : Report × Option Err).1
      | some e => .error e)
    let d ← Report.computeDt r
    return { r with dt := d } : Except Err Report) = _
  cases hc : (hourZero r).computeDt with
  | error x => rfl
  | ok d =>
    simp only [except_bind_ok, e, hc]
    rfl

theorem fixHour_keeps : Keeps Report.doFixMissingHour Report.doFixMissingHour := by
  apply keeps_of_shadow
  · intro r
    unfold Report.doFixMissingHour
    simp only [shadow_getvar _ (show "HR" ∉ mainOnly by decide), shadow_getint _ (show "YR" ∉ mainOnly by decide),
      shadow_getint _ (show "DCK" ∉ mainOnly by decide), setHour_eq]
    generalize he : (match r.getint "YR" with | some y => decide (y < 1860) | none => true) = early
    split_ifs
    · rw [hourZero_shadow, computeDt_shadow]
      cases (hourZero r).computeDt with
      | error x => rfl
      | ok d => rfl
    · rfl
  · intro r r' h
    exact (C34_missing_hour r r' h).2.2.2.2.2.1

theorem isBuoy_keeps : Keeps Report.isBuoy Report.isBuoy := by
  have e : Report.isBuoy = fun r =>
      (r.setQc "POS" "isbuoy" (if r.getint "PT" ∈ [some 6, some 7] then 1 else 0)) >>= fun r =>
        r.setQc "POS" "isdrifter" (if r.getint "PT" = some 7 then 1 else 0) := by
    funext r
    unfold Report.isBuoy
    have e1 : ∀ r : Report, (if r.getint "PT" = some 7 then r.setQc "POS" "isdrifter" 1 else r.setQc "POS" "isdrifter" 0) =
        r.setQc "POS" "isdrifter" (if r.getint "PT" = some 7 then 1 else 0) := by
      intro r
      split_ifs <;> rfl
    simp only [e1]
    split_ifs <;> rfl
  rw [e]
  refine keeps_then (keeps_put (.inl rfl) _ _ ?_) (keeps_put (.inl rfl) _ _ ?_) <;>
  · intro r
    rw [shadow_getint _ (by decide)]

theorem isShip_keeps : Keeps Report.isShip Report.isShip := by
  have e : Report.isShip = fun r => r.setQc "POS" "isship" (if r.getint "PT" ∈ [some 0, some 1, some 2, some 3, some 4, some 5,
      some 10, some 11, some 12, some 17] then 1 else 0) := by
    funext r
    unfold Report.isShip
    split_ifs <;> rfl
  rw [e]
  refine keeps_put (.inl rfl) _ _ ?_
  intro r
  rw [shadow_getint _ (by decide)]

theorem isDeck780_keeps : Keeps Report.isDeck780 Report.isDeck780 := by
  have e : Report.isDeck780 = fun r => r.setQc "POS" "is780" (if r.getint "DCK" = some 780 then 1 else 0) := by
    funext r
    unfold Report.isDeck780
    split_ifs <;> rfl
  rw [e]
  refine keeps_put (.inl rfl) _ _ ?_
  intro r
  rw [shadow_getint _ (by decide)]

theorem position_keeps : Keeps Report.doPositionCheck Report.doPositionCheck :=
  keeps_set (.inl rfl) _ (fun r => positionCheck (r.getvar "LAT") (r.getvar "LON")) fun r => by
    rw [shadow_getvar _ (by decide), shadow_getvar _ (by decide)]

theorem date_keeps : Keeps Report.doDateCheck Report.doDateCheck :=
  keeps_set (.inl rfl) _ (fun r => dateCheck (r.getint "YR") (r.getint "MO") (r.getint "DY")) fun r => by
    rw [shadow_getint _ (by decide), shadow_getint _ (by decide), shadow_getint _ (by decide)]

theorem time_keeps : Keeps Report.doTimeCheck Report.doTimeCheck :=
  keeps_put (.inl rfl) _ (fun r => timeCheck (r.getvar "HR")) fun r => by rw [shadow_getvar _ (by decide)]

theorem blacklist_keeps : Keeps Report.doBlacklist Report.doBlacklist :=
  keeps_set (.inl rfl) _ (fun r => blacklist r.id (r.getint "DCK") (r.getint "YR") (r.getint "MO") r.lat r.lon (r.getint "PT"))
    fun r => by
      rw [shadow_getint _ (by decide), shadow_getint _ (by decide), shadow_getint _ (by decide), shadow_getint _ (by decide),
        shadow_lat, shadow_lon, shadow_id]

theorem day_keeps (elev : Elev F) (t : Rat) : Keeps (Report.doDayCheck elev t) (Report.doDayCheck elev t) := by
  have e : Report.doDayCheck elev t = fun r => ((if r.getQc "POS" "pos" = 0 ∧ r.getQc "POS" "date" = 0 ∧ r.getQc "POS" "time" = 0 then
      match r.lon with
      | none => .error .type
      | some lon => dayTest elev (r.getint "YR") (r.getint "MO") (r.getint "DY") (r.getvar "HR") r.lat lon t
      else .ok 1 : Except Err Int)) >>= r.setQc "POS" "day" := by
    funext r
    unfold Report.doDayCheck
    split_ifs
    · cases r.lon <;> rfl
    · rfl
  rw [e]
  refine keeps_set (.inl rfl) _ _ ?_
  intro r
  simp only [shadow_getQc r (.inl rfl), shadow_lon, shadow_lat, shadow_getvar _ (show "HR" ∉ mainOnly by decide),
    shadow_getint _ (show "YR" ∉ mainOnly by decide), shadow_getint _ (show "MO" ∉ mainOnly by decide),
    shadow_getint _ (show "DY" ∉ mainOnly by decide)]

theorem sst_keeps (p : BaseParams) : Keeps (Report.doBaseSstQc p) (Report.doBaseSstQc p) := by
  refine keeps_then (keeps_put (.inr rfl) _ (fun r => valueCheck (r.getvar "SST")) ?_) ?_
  · intro r; rw [shadow_getvar _ (by decide)]
  have e : (fun r : Report => do
      let v ← sstFreezeCheck (r.getvar "SST") (some 0) (some p.sstFreezingPoint) p.sstNSigma
      let r ← r.setQc "SST" "freez" v
      let r ← r.setQc "SST" "clim" (climatologyCheck (r.getvar "SST") (r.getnorm "SST") (some p.sstMaxAnomaly))
      let r ← r.setQc "SST" "nonorm" (noNormalCheck (r.getnorm "SST"))
      let v ← hardLimit (r.getvar "SST") p.sstHard.lo p.sstHard.hi
      r.setQc "SST" "hardlimit" v) = fun r : Report =>
      (sstFreezeCheck (r.getvar "SST") (some 0) (some p.sstFreezingPoint) p.sstNSigma >>= r.setQc "SST" "freez") >>= (fun r => do
        let r ← r.setQc "SST" "clim" (climatologyCheck (r.getvar "SST") (r.getnorm "SST") (some p.sstMaxAnomaly))
        let r ← r.setQc "SST" "nonorm" (noNormalCheck (r.getnorm "SST"))
        let v ← hardLimit (r.getvar "SST") p.sstHard.lo p.sstHard.hi
        r.setQc "SST" "hardlimit" v) := by
    funext r
    rw [bind_assoc]
  rw [e]
  refine keeps_then (keeps_set (.inr rfl) _ _ ?_) ?_
  · intro r; rw [shadow_getvar _ (by decide)]
  refine keeps_then (keeps_put (.inr rfl) _ (fun r => climatologyCheck (r.getvar "SST") (r.getnorm "SST") (some p.sstMaxAnomaly)) ?_) ?_
  · intro r; rw [shadow_getvar _ (by decide), shadow_getnorm]
  refine keeps_then (keeps_put (.inr rfl) _ (fun r => noNormalCheck (r.getnorm "SST")) ?_) ?_
  · intro r; rw [shadow_getnorm]
  refine keeps_set (.inr rfl) _ (fun r => hardLimit (r.getvar "SST") p.sstHard.lo p.sstHard.hi) ?_
  · intro r; rw [shadow_getvar _ (by decide)]

/-! ## The other steps -/

/-- The computation completes with a report that has kept its shadow. -/
def Drops (x : Except Err Report) (s : Report) : Prop := ∃ s1, x = .ok s1 ∧ shadow s1 = shadow s ∧ s1.clim = s.clim

theorem drops_keeps {f : Report → Except Err Report}
    (h1 : ∀ r r1, f r = .ok r1 → shadow r1 = shadow r)
    (h2 : ∀ r r1 s, Beside r s → f r = .ok r1 → Drops (f s) s) : Keeps f f := by
  intro r s r1 hb e
  obtain ⟨s1, k, a, b⟩ := h2 r r1 s hb e
  refine ⟨s1, k, ?_, ?_⟩
  · rw [h1 r r1 e, hb.alike, a]
  · intro k hk
    rw [b]
    exact hb.bare k hk

/-- The result, if any, has kept its shadow. -/
def Stays (x : Except Err Report) (r : Report) : Prop := ∀ r1, x = .ok r1 → shadow r1 = shadow r

theorem stays_pure (r : Report) : Stays (pure r) r := by
  intro r1 h; cases h; rfl

theorem stays_set (r : Report) {t : String} (ht : t ∈ ["AT", "AT2", "DPT", "SLP", "W", "D"]) (f : String) (v : Int) :
    Stays (r.setQc t f v) r := fun _ h => (setQc_drop ht h).1

theorem stays_then {x : Except Err Report} {r : Report} {f : Report → Except Err Report} (h : Stays x r) (h' : ∀ s, Stays (f s) s) :
    Stays (x >>= f) r := by
  intro r2 e
  obtain ⟨r1, e1, e2⟩ := bind_ok_iff.mp e
  rw [h' r1 r2 e2, h r1 e1]

theorem stays_int {α : Type} {x : Except Err α} {r : Report} {f : α → Except Err Report} (h' : ∀ v, Stays (f v) r) :
    Stays (x >>= f) r := by
  intro r2 e
  obtain ⟨v, -, e2⟩ := bind_ok_iff.mp e
  exact h' v r2 e2

theorem stays_ite {c : Prop} [Decidable c] {x y : Except Err Report} {r : Report} (h : Stays x r) (h' : Stays y r) :
    Stays (if c then x else y) r := by
  split_ifs <;> assumption

/-- Steps that set only flags that are not kept. -/
macro "stays" : tactic => `(tactic| repeat' (first
  | with_reducible exact stays_pure _
  | with_reducible refine stays_set _ (by decide) _ _
  | with_reducible refine stays_ite ?_ ?_
  | with_reducible refine stays_then ?_ (fun _ => ?_)
  | with_reducible refine stays_int (fun _ => ?_)))

theorem drops_set (r : Report) {t : String} (ht : t ∈ ["AT", "AT2", "DPT", "SLP", "W", "D"]) (ht' : t ∈ VARLIST) (f : String) {v : Int}
    (hv : v = 0 ∨ v = 1) : Drops (r.setQc t f v) r := by
  have h := setQc_writes (r := r) (f := f) (.inr ht') hv
  obtain ⟨a, b⟩ := setQc_drop ht h
  exact ⟨_, h, a, b⟩

theorem drops_pure (r : Report) : Drops (pure r) r := ⟨r, rfl, rfl, rfl⟩

theorem drops_then {x : Except Err Report} {r : Report} {f : Report → Except Err Report} (h : Drops x r)
    (h' : ∀ s, s.clim = r.clim → Drops (f s) s) : Drops (x >>= f) r := by
  obtain ⟨r1, e1, a1, b1⟩ := h
  obtain ⟨r2, e2, a2, b2⟩ := h' r1 b1
  exact ⟨r2, by rw [e1, except_bind_ok, e2], by rw [a2, a1], by rw [b2, b1]⟩

theorem drops_int {x : Except Err Int} {r : Report} {f : Int → Except Err Report} (h : ∃ v, x = .ok v ∧ (v = 0 ∨ v = 1))
    (h' : ∀ v, (v = 0 ∨ v = 1) → Drops (f v) r) : Drops (x >>= f) r := by
  obtain ⟨v, e, hv⟩ := h
  rw [e, except_bind_ok]
  exact h' v hv

theorem drops_ite {c : Prop} [Decidable c] {x y : Except Err Report} {r : Report} (h : Drops x r) (h' : Drops y r) :
    Drops (if c then x else y) r := by
  split_ifs <;> assumption

theorem hardLimit_any {a : Option Rat} {lo hi : Rat} {v : Int} (h : hardLimit a lo hi = .ok v) (b : Option Rat) :
    ∃ v, hardLimit b lo hi = .ok v ∧ (v = 0 ∨ v = 1) := by
  unfold hardLimit at h ⊢
  rw [pyAssert_bind] at h ⊢
  split_ifs at h ⊢
  · cases b with
    | none => exact ⟨1, rfl, .inr rfl⟩
    | some x =>
      simp only [except_pure]
      split_ifs
      · exact ⟨0, rfl, .inl rfl⟩
      · exact ⟨1, rfl, .inr rfl⟩

theorem lowbar_any {a b c : Option Rat} {l m : Rat} {v : Int} (h : climatologyPlusStdevWithLowbar a b c l m = .ok v)
    (x : Option Rat) : ∃ v, climatologyPlusStdevWithLowbar x none none l m = .ok v ∧ (v = 0 ∨ v = 1) := by
  unfold climatologyPlusStdevWithLowbar at h ⊢
  rw [pyAssert_bind] at h ⊢
  split_ifs at h ⊢
  exact ⟨1, by cases x <;> rfl, .inr rfl⟩

theorem stdev_any {a b c : Option Rat} {lo hi l : Rat} {v : Int} (h : climatologyPlusStdevCheck a b c lo hi l = .ok v)
    (x : Option Rat) : ∃ v, climatologyPlusStdevCheck x none none lo hi l = .ok v ∧ (v = 0 ∨ v = 1) := by
  unfold climatologyPlusStdevCheck at h ⊢
  rw [pyAssert_bind] at h ⊢
  split_ifs at h ⊢
  rw [pyAssert_bind] at h ⊢
  split_ifs at h ⊢
  exact ⟨1, by cases x <;> rfl, .inr rfl⟩

theorem getnorm_none {s : Report} {k : String} (h : s.clim k = none) : s.getnorm k = none := by
  unfold Report.getnorm
  rw [h]

theorem getstdev_none {s : Report} {k : String} (h : s.clim k = none) : s.getstdev k = none := by
  unfold Report.getstdev
  rw [h]

/-- Steps that complete and set only flags that are not kept. -/
macro "drops" : tactic => `(tactic| repeat' (first
  | assumption
  | with_reducible exact drops_pure _
  | with_reducible refine drops_set _ (by decide) (by decide) _ ?_
  | with_reducible refine drops_ite ?_ ?_
  | with_reducible refine drops_then ?_ (fun _ _ => ?_)
  | with_reducible refine drops_int ?_ (fun _ _ => ?_)
  | exact valueCheck_flag _ | exact noNormalCheck_flag _ | exact supersatCheck_flag _ _
  | exact windConsistency_flag _ _ _ | exact climatologyCheck_flag _ _ _
  | exact Or.inl rfl | exact Or.inr rfl))

theorem humidityBlacklist_keeps : Keeps Report.humidityBlacklist Report.humidityBlacklist := by
  apply drops_keeps
  · intro r
    show Stays _ r
    unfold Report.humidityBlacklist
    stays
  · intro r r1 s _ _
    unfold Report.humidityBlacklist
    drops

theorem matBlacklist_keeps : Keeps Report.matBlacklist Report.matBlacklist := by
  apply drops_keeps
  · intro r
    show Stays _ r
    unfold Report.matBlacklist
    stays
    exact stays_pure _
  · intro r r1 s _ _
    unfold Report.matBlacklist
    drops
    exact drops_pure _

theorem windBlacklist_keeps : Keeps Report.windBlacklist Report.windBlacklist := by
  apply drops_keeps
  · intro r
    show Stays _ r
    unfold Report.windBlacklist
    stays
  · intro r r1 s _ _
    unfold Report.windBlacklist
    drops

theorem mat_keeps (p : BaseParams) : Keeps (Report.doBaseMatQc p) (Report.doBaseMatQc p) := by
  apply drops_keeps
  · intro r
    show Stays _ r
    unfold Report.doBaseMatQc
    stays
  · intro r r1 s _ h
    unfold Report.doBaseMatQc at h ⊢
    simp only [bind_ok_iff] at h
    obtain ⟨_, -, _, -, _, -, v, hv, -⟩ := h
    drops
    exact hardLimit_any hv _

theorem dpt_keeps (p : BaseParams) : Keeps (Report.doBaseDptQc p) (Report.doBaseDptQc p) := by
  apply drops_keeps
  · intro r
    show Stays _ r
    unfold Report.doBaseDptQc
    stays
  · intro r r1 s hb h
    unfold Report.doBaseDptQc at h ⊢
    simp only [bind_ok_iff] at h
    obtain ⟨v, hv, -⟩ := h
    rw [getnorm_none (hb.bare "DPT" (by decide)), getstdev_none (hb.bare "DPT" (by decide))]
    drops
    exact stdev_any hv _

theorem slp_keeps (p : BaseParams) : Keeps (Report.doBaseSlpQc p) (Report.doBaseSlpQc p) := by
  apply drops_keeps
  · intro r
    show Stays _ r
    unfold Report.doBaseSlpQc
    stays
  · intro r r1 s hb h
    unfold Report.doBaseSlpQc at h ⊢
    simp only [bind_ok_iff] at h
    obtain ⟨_, -, v, hv, -⟩ := h
    have e : ∀ s1 : Report, s1.clim = s.clim → s1.clim "SLP" = none := fun s1 h1 => by rw [h1]; exact hb.bare _ (by decide)
    drops
    rename_i s1 h1
    rw [getnorm_none (e s1 h1), getstdev_none (e s1 h1)]
    exact lowbar_any hv _

theorem wind_keeps (p : BaseParams) : Keeps (Report.doBaseWindQc p) (Report.doBaseWindQc p) := by
  apply drops_keeps
  · intro r
    show Stays _ r
    unfold Report.doBaseWindQc
    stays
  · intro r r1 s hb h
    unfold Report.doBaseWindQc at h ⊢
    simp only [bind_ok_iff] at h
    obtain ⟨_, -, v, hv, -⟩ := h
    drops
    exact hardLimit_any hv _

theorem dptHard_keeps (p : BaseParams) : Keeps (Report.dptHard p) (Report.dptHard p) := by
  apply drops_keeps
  · intro r
    show Stays _ r
    unfold Report.dptHard Report.dptHardStep
    stays
  · intro r r1 s hb h
    unfold Report.dptHard Report.dptHardStep at h ⊢
    simp only [bind_ok_iff] at h
    obtain ⟨_, -, _, ⟨v1, h1, -⟩, _, ⟨v2, h2, -⟩, _, ⟨v3, h3, -⟩, v4, h4, -⟩ := h
    drops
    · exact hardLimit_any h1 _
    · exact hardLimit_any h2 _
    · exact hardLimit_any h3 _
    · exact hardLimit_any h4 _

theorem kate_keeps (p : BaseParams) : Keeps (Report.doKateMatQc p) (Report.doKateMatQc p) := by
  apply drops_keeps
  · intro r
    show Stays _ r
    unfold Report.doKateMatQc
    stays
  · intro r r1 s hb h
    unfold Report.doKateMatQc at h ⊢
    simp only [bind_ok_iff] at h
    obtain ⟨v, hv, _, -, _, -, _, -, v', hv', -⟩ := h
    rw [getnorm_none (hb.bare "AT2" (by decide)), getstdev_none (hb.bare "AT2" (by decide))]
    drops
    · exact stdev_any hv _
    · exact hardLimit_any hv' _

theorem baseQc_keeps (elev : Elev F) (p : BaseParams) : Keeps (Report.performBaseQc elev p) (Report.performBaseQc elev p) := by
  refine keeps_then fixHour_keeps ?_
  refine keeps_then isBuoy_keeps ?_
  refine keeps_then isShip_keeps ?_
  refine keeps_then isDeck780_keeps ?_
  refine keeps_then position_keeps ?_
  refine keeps_then date_keeps ?_
  refine keeps_then time_keeps ?_
  refine keeps_then blacklist_keeps ?_
  refine keeps_then (day_keeps elev p.timeSince) ?_
  refine keeps_then humidityBlacklist_keeps ?_
  refine keeps_then matBlacklist_keeps ?_
  refine keeps_then windBlacklist_keeps ?_
  refine keeps_then (sst_keeps p) ?_
  refine keeps_then (mat_keeps p) ?_
  refine keeps_then (dpt_keeps p) ?_
  refine keeps_then (slp_keeps p) ?_
  refine keeps_then (wind_keeps p) ?_
  exact keeps_then (dptHard_keeps p) (kate_keeps p)

end MarineQC
