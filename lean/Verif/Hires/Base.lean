import Verif.Hires.Bones
import Verif.TrackOnly.BaseQc
import Verif.TrackOnly.Reading

/-!
# Base checks of the two programs
-/

namespace MarineQC

open Spec

variable {F : Type} [LinearOrder F] [Zero F]

/-- Where the first step completes so does the second, and reports that agree but for the climatology go on to agree. -/
def Agree (f g : Report → Except Err Report) : Prop :=
  ∀ r s r1, bones r = bones s → f r = .ok r1 → ∃ s1, g s = .ok s1 ∧ bones r1 = bones s1

/-- The result, if any, has changed in what depends on the climatology only. -/
def Lost (x : Except Err Report) (r : Report) : Prop := ∀ r1, x = .ok r1 → bones r1 = bones r

theorem agree_then {f g f' g' : Report → Except Err Report} (h : Agree f g) (h' : Agree f' g') :
    Agree (fun r => f r >>= f') (fun s => g s >>= g') := by
  intro r s r2 hb e
  obtain ⟨r1, e1, e2⟩ := bind_ok_iff.mp e
  obtain ⟨s1, k1, k2⟩ := h r s r1 hb e1
  obtain ⟨s2, k3, k4⟩ := h' r1 s1 r2 k2 e2
  exact ⟨s2, bind_ok_iff.mpr ⟨s1, k1, k3⟩, k4⟩

theorem agree_skip {f f' g : Report → Except Err Report} (h : ∀ r, Lost (f r) r) (h' : Agree f' g) : Agree (fun r => f r >>= f') g := by
  intro r s r2 hb e
  obtain ⟨r1, e1, e2⟩ := bind_ok_iff.mp e
  exact h' r1 s r2 (by rw [h r r1 e1, hb]) e2

theorem agree_last {f f' g : Report → Except Err Report} (h : Agree f g) (h' : ∀ r, Lost (f' r) r) : Agree (fun r => f r >>= f') g := by
  intro r s r2 hb e
  obtain ⟨r1, e1, e2⟩ := bind_ok_iff.mp e
  obtain ⟨s1, k1, k2⟩ := h r s r1 hb e1
  exact ⟨s1, k1, by rw [h' r1 r2 e2, k2]⟩

theorem agree_of_bones {f : Report → Except Err Report} (h1 : ∀ r, f (bones r) = (f r).map bones) : Agree f f := by
  intro r s r1 hb e
  have m := h1 r
  rw [hb, h1, e] at m
  cases k : f s with
  | error x => rw [k] at m; cases m
  | ok s1 =>
    rw [k] at m
    exact ⟨s1, rfl, (Except.ok.inj m).symm⟩

theorem agree_lost {f g : Report → Except Err Report} (h : ∀ r, Lost (f r) r) (h' : ∀ r, Lost (g r) r)
    (ht : ∀ r, ∃ s, g r = .ok s) : Agree f g := by
  intro r s r1 hb e
  obtain ⟨s1, k⟩ := ht s
  exact ⟨s1, k, by rw [h r r1 e, h' s s1 k, hb]⟩

theorem agree_set {t f : String} (ht : t ++ f ∈ boneKeys) (v : Report → Except Err Int) (hv : ∀ r, v (bones r) = v r) :
    Agree (fun r => v r >>= r.setQc t f) (fun r => v r >>= r.setQc t f) := by
  apply agree_of_bones
  intro r
  rw [hv, exMap_bind]
  congr 1
  funext x
  exact setQc_bones r ht x

theorem agree_put {t f : String} (ht : t ++ f ∈ boneKeys) (v : Report → Int) (hv : ∀ r, v (bones r) = v r) :
    Agree (fun r => r.setQc t f (v r)) (fun r => r.setQc t f (v r)) :=
  agree_set ht (fun r => .ok (v r)) fun r => by rw [hv]

/-! ## Steps that lose nothing of interest -/

theorem lost_pure (r : Report) : Lost (pure r) r := by
  intro r1 h; cases h; rfl

theorem lost_set (r : Report) {t f : String} (ht : t ++ f ∉ boneKeys) (v : Int) : Lost (r.setQc t f v) r :=
  fun _ h => setQc_lost ht h

theorem lost_then {x : Except Err Report} {r : Report} {f : Report → Except Err Report} (h : Lost x r) (h' : ∀ s, Lost (f s) s) :
    Lost (x >>= f) r := by
  intro r2 e
  obtain ⟨r1, e1, e2⟩ := bind_ok_iff.mp e
  rw [h' r1 r2 e2, h r1 e1]

theorem lost_int {α : Type} {x : Except Err α} {r : Report} {f : α → Except Err Report} (h' : ∀ v, Lost (f v) r) :
    Lost (x >>= f) r := by
  intro r2 e
  obtain ⟨v, -, e2⟩ := bind_ok_iff.mp e
  exact h' v r2 e2

theorem lost_ite {c : Prop} [Decidable c] {x y : Except Err Report} {r : Report} (h : Lost x r) (h' : Lost y r) :
    Lost (if c then x else y) r := by
  split_ifs <;> assumption

/-- Steps that set only flags that depend on the climatology or that only the main program sets. -/
macro "loses" : tactic => `(tactic| repeat' (first
  | with_reducible exact lost_pure _
  | with_reducible refine lost_set _ (by decide) _
  | with_reducible refine lost_ite ?_ ?_
  | with_reducible refine lost_then ?_ (fun _ => ?_)
  | with_reducible refine lost_int (fun _ => ?_)))

theorem humidityBlacklist_lost (r : Report) : Lost r.humidityBlacklist r := by
  unfold Report.humidityBlacklist
  loses

theorem matBlacklist_lost (r : Report) : Lost r.matBlacklist r := by
  unfold Report.matBlacklist
  loses
  exact lost_pure _

theorem windBlacklist_lost (r : Report) : Lost r.windBlacklist r := by
  unfold Report.windBlacklist
  loses

theorem mat_lost (p : BaseParams) (r : Report) : Lost (r.doBaseMatQc p) r := by
  unfold Report.doBaseMatQc
  loses

theorem dpt_lost (p : BaseParams) (r : Report) : Lost (r.doBaseDptQc p) r := by
  unfold Report.doBaseDptQc
  loses

theorem slp_lost (p : BaseParams) (r : Report) : Lost (r.doBaseSlpQc p) r := by
  unfold Report.doBaseSlpQc
  loses

theorem wind_lost (p : BaseParams) (r : Report) : Lost (r.doBaseWindQc p) r := by
  unfold Report.doBaseWindQc
  loses

theorem dptHard_lost (p : BaseParams) (r : Report) : Lost (r.dptHard p) r := by
  unfold Report.dptHard Report.dptHardStep
  loses

theorem kate_lost (p : BaseParams) (r : Report) : Lost (r.doKateMatQc p) r := by
  unfold Report.doKateMatQc
  loses

/-! ## Steps of both programs -/

theorem computeDt_bones (r : Report) : (bones r).computeDt = r.computeDt := by
  unfold Report.computeDt
  simp only [bones_getvar _ (show "HR" ∉ hiddenNames by decide), bones_getint _ (show "YR" ∉ hiddenNames by decide),
    bones_getint _ (show "MO" ∉ hiddenNames by decide), bones_getint _ (show "DY" ∉ hiddenNames by decide)]

theorem hourZero_bones (r : Report) : hourZero (bones r) = bones (hourZero r) := by
  unfold bones hourZero
  simp only [Report.mk.injEq, true_and, and_true]
  funext k
  by_cases hk : k = "HR"
  · subst hk
    rw [if_pos rfl, if_neg (by decide), if_pos rfl]
  · simp only [if_neg hk]

theorem fixHour_agree : Agree Report.doFixMissingHour Report.doFixMissingHour := by
  apply agree_of_bones
  intro r
  unfold Report.doFixMissingHour
  simp only [bones_getvar _ (show "HR" ∉ hiddenNames by decide), bones_getint _ (show "YR" ∉ hiddenNames by decide),
    bones_getint _ (show "DCK" ∉ hiddenNames by decide), setHour_eq]
  generalize he : (match r.getint "YR" with | some y => decide (y < 1860) | none => true) = early
  split_ifs
  · rw [hourZero_bones, computeDt_bones]
    cases (hourZero r).computeDt with
    | error x => rfl
    | ok d => rfl
  · rfl

theorem isBuoy_agree : Agree Report.isBuoy Report.isBuoy := by
  have e : Report.isBuoy = fun r =>
      (r.setQc "POS" "isbuoy" (if r.getint "PT" ∈ [some 6, some 7] then 1 else 0)) >>= fun r =>
        r.setQc "POS" "isdrifter" (if r.getint "PT" = some 7 then 1 else 0) := by
    funext r
    unfold Report.isBuoy
    have e1 : ∀ r : Report, (if r.getint "PT" = some 7 then r.setQc "POS" "isdrifter" 1 else r.setQc "POS" "isdrifter" 0) =
        r.setQc "POS" "isdrifter" (if r.getint "PT" = some 7 then 1 else 0) := by
      intro r
      split_ifs <;> rfl
    simp only [e1]
    split_ifs <;> rfl
  rw [e]
  refine agree_then (agree_put (by decide) _ ?_) (agree_put (by decide) _ ?_) <;>
  · intro r
    rw [bones_getint _ (by decide)]

theorem isShip_agree : Agree Report.isShip Report.isShip := by
  have e : Report.isShip = fun r => r.setQc "POS" "isship" (if r.getint "PT" ∈ [some 0, some 1, some 2, some 3, some 4, some 5,
      some 10, some 11, some 12, some 17] then 1 else 0) := by
    funext r
    unfold Report.isShip
    split_ifs <;> rfl
  rw [e]
  refine agree_put (by decide) _ ?_
  intro r
  rw [bones_getint _ (by decide)]

theorem isDeck780_agree : Agree Report.isDeck780 Report.isDeck780 := by
  have e : Report.isDeck780 = fun r => r.setQc "POS" "is780" (if r.getint "DCK" = some 780 then 1 else 0) := by
    funext r
    unfold Report.isDeck780
    split_ifs <;> rfl
  rw [e]
  refine agree_put (by decide) _ ?_
  intro r
  rw [bones_getint _ (by decide)]

theorem position_agree : Agree Report.doPositionCheck Report.doPositionCheck :=
  agree_set (by decide) (fun r => positionCheck (r.getvar "LAT") (r.getvar "LON")) fun r => by
    rw [bones_getvar _ (by decide), bones_getvar _ (by decide)]

theorem date_agree : Agree Report.doDateCheck Report.doDateCheck :=
  agree_set (by decide) (fun r => dateCheck (r.getint "YR") (r.getint "MO") (r.getint "DY")) fun r => by
    rw [bones_getint _ (by decide), bones_getint _ (by decide), bones_getint _ (by decide)]

theorem time_agree : Agree Report.doTimeCheck Report.doTimeCheck :=
  agree_put (by decide) (fun r => timeCheck (r.getvar "HR")) fun r => by rw [bones_getvar _ (by decide)]

theorem blacklist_agree : Agree Report.doBlacklist Report.doBlacklist :=
  agree_set (by decide) (fun r => blacklist r.id (r.getint "DCK") (r.getint "YR") (r.getint "MO") r.lat r.lon (r.getint "PT"))
    fun r => by
      rw [bones_getint _ (by decide), bones_getint _ (by decide), bones_getint _ (by decide), bones_getint _ (by decide),
        bones_lat, bones_lon, bones_id]

theorem day_agree (elev : Elev F) (t : Rat) : Agree (Report.doDayCheck elev t) (Report.doDayCheck elev t) := by
  have e : Report.doDayCheck elev t = fun r => ((if r.getQc "POS" "pos" = 0 ∧ r.getQc "POS" "date" = 0 ∧ r.getQc "POS" "time" = 0 then
      match r.lon with
      | none => .error .type
      | some lon => dayTest elev (r.getint "YR") (r.getint "MO") (r.getint "DY") (r.getvar "HR") r.lat lon t
      else .ok 1 : Except Err Int)) >>= r.setQc "POS" "day" := by
    funext r
    unfold Report.doDayCheck
    split_ifs
    · cases r.lon <;> rfl
    · rfl
  rw [e]
  refine agree_set (by decide) _ ?_
  intro r
  simp only [bones_getQc r (show "POS" ++ "pos" ∈ boneKeys by decide), bones_getQc r (show "POS" ++ "date" ∈ boneKeys by decide),
    bones_getQc r (show "POS" ++ "time" ∈ boneKeys by decide), bones_lon, bones_lat,
    bones_getvar _ (show "HR" ∉ hiddenNames by decide), bones_getint _ (show "YR" ∉ hiddenNames by decide),
    bones_getint _ (show "MO" ∉ hiddenNames by decide), bones_getint _ (show "DY" ∉ hiddenNames by decide)]

theorem sst_agree (p : BaseParams) : Agree (Report.doBaseSstQc p) (Report.doBaseSstQc p) := by
  refine agree_then (agree_put (by decide) (fun r => valueCheck (r.getvar "SST")) ?_) ?_
  · intro r; rw [bones_getvar _ (by decide)]
  have e : (fun r : Report => do
      let v ← sstFreezeCheck (r.getvar "SST") (some 0) (some p.sstFreezingPoint) p.sstNSigma
      let r ← r.setQc "SST" "freez" v
      let r ← r.setQc "SST" "clim" (climatologyCheck (r.getvar "SST") (r.getnorm "SST") (some p.sstMaxAnomaly))
      let r ← r.setQc "SST" "nonorm" (noNormalCheck (r.getnorm "SST"))
      let v ← hardLimit (r.getvar "SST") p.sstHard.lo p.sstHard.hi
      r.setQc "SST" "hardlimit" v) = fun r : Report =>
      (sstFreezeCheck (r.getvar "SST") (some 0) (some p.sstFreezingPoint) p.sstNSigma >>= r.setQc "SST" "freez") >>= (fun r => do
        let r ← r.setQc "SST" "clim" (climatologyCheck (r.getvar "SST") (r.getnorm "SST") (some p.sstMaxAnomaly))
        let r ← r.setQc "SST" "nonorm" (noNormalCheck (r.getnorm "SST"))
        let v ← hardLimit (r.getvar "SST") p.sstHard.lo p.sstHard.hi
        r.setQc "SST" "hardlimit" v) := by
    funext r
    rw [bind_assoc]
  rw [e]
  refine agree_then (agree_set (by decide) _ ?_) ?_
  · intro r; rw [bones_getvar _ (by decide)]
  refine agree_then (agree_lost (fun r => lost_set r (by decide) _) (fun r => lost_set r (by decide) _)
    (fun r => ⟨_, setQc_writes (r := r) (t := "SST") (by decide) (climatologyCheck_flag _ _ _)⟩)) ?_
  refine agree_then (agree_lost (fun r => lost_set r (by decide) _) (fun r => lost_set r (by decide) _)
    (fun r => ⟨_, setQc_writes (r := r) (t := "SST") (by decide) (noNormalCheck_flag _)⟩)) ?_
  refine agree_set (by decide) (fun r => hardLimit (r.getvar "SST") p.sstHard.lo p.sstHard.hi) ?_
  · intro r; rw [bones_getvar _ (by decide)]

theorem baseQc_agree (elev : Elev F) (p : BaseParams) : Agree (Report.performBaseQc elev p) (Report.performBaseSstQc elev p) := by
  refine agree_then fixHour_agree ?_
  refine agree_then isBuoy_agree ?_
  refine agree_then isShip_agree ?_
  refine agree_then isDeck780_agree ?_
  refine agree_then position_agree ?_
  refine agree_then date_agree ?_
  refine agree_then time_agree ?_
  refine agree_then blacklist_agree ?_
  refine agree_then (day_agree elev p.timeSince) ?_
  refine agree_skip humidityBlacklist_lost ?_
  refine agree_skip matBlacklist_lost ?_
  refine agree_skip windBlacklist_lost ?_
  refine agree_last (sst_agree p) ?_
  intro r
  refine lost_then (mat_lost p r) fun r => ?_
  refine lost_then (dpt_lost p r) fun r => ?_
  refine lost_then (slp_lost p r) fun r => ?_
  refine lost_then (wind_lost p r) fun r => ?_
  exact lost_then (dptHard_lost p r) (kate_lost p)

/-! ## Reading -/

theorem bones_addClim (r : Report) (v : String) (x s : Option Rat) : bones (r.addClim v x s) = bones r := rfl

theorem mdsClims_bones {lib : ClimLib Arr3} : ∀ (vs : List String) {r r1 : Report}, addMdsClims lib vs r = .ok r1 → bones r1 = bones r := by
  intro vs
  induction vs with
  | nil => intro r r1 h; cases h; rfl
  | cons v vs ih =>
    intro r r1 h
    simp only [addMdsClims, bind_ok_iff] at h
    obtain ⟨f, -, x, -, h⟩ := h
    have := ih h
    exact this

theorem clims_bones {lib : ClimLib Arr3} : ∀ (vs : List String) {r r1 : Report}, addClims lib vs r = .ok r1 → bones r1 = bones r := by
  intro vs
  induction vs with
  | nil => intro r r1 h; cases h; rfl
  | cons v vs ih =>
    intro r r1 h
    simp only [addClims, bind_ok_iff] at h
    obtain ⟨f, -, x, -, h⟩ := h
    have := ih h
    exact this

theorem stdevClims_bones {lib : ClimLib Arr3} : ∀ (vs : List String) {r r1 : Report}, addStdevClims lib vs r = .ok r1 →
    bones r1 = bones r := by
  intro vs
  induction vs with
  | nil => intro r r1 h; cases h; rfl
  | cons v vs ih =>
    intro r r1 h
    simp only [addStdevClims, bind_ok_iff] at h
    obtain ⟨f, -, x, -, g, -, y, -, h⟩ := h
    have := ih h
    exact this

theorem humidity_bones {H : HumFns} {r r' : Report} {vars : List String} (h : r.calculateHumidity H vars = .ok r') :
    bones r' = bones r := by
  obtain ⟨d, rfl, hd⟩ := humidity_only h
  refine Eq.symm (bones_congr (r := r) rfl rfl rfl (fun _ _ => rfl) (fun _ _ => rfl) (fun k hk => ?_))
  apply hd
  revert hk
  unfold hiddenNames mainOnly humNames
  simp only [List.mem_cons, List.mem_append, List.not_mem_nil, or_false, not_or]
  tauto

theorem backgroundValues_bones {lib : ClimLib Arr3} {bg : Arr3} {r r' : Report} (h : backgroundValues lib bg r = .ok r') :
    bones r' = bones r := by
  unfold backgroundValues at h
  simp only [bind_ok_iff, except_pure, Except.ok.injEq] at h
  obtain ⟨_, _, _, _, _, _, _, _, _, _, rfl⟩ := h
  rw [bones_setext_hidden _ (by decide), bones_setext_hidden _ (by decide), bones_setext_hidden _ (by decide)]

theorem addBackground_bones {E : ReadEnv F} {bg : Option Arr3} {y m : Int} {s : ReadState} {r : Report}
    {b : Report × Int × ClimLib Arr3} (h : addBackground E bg y m s r = .ok b) : bones b.1 = bones r := by
  unfold addBackground at h
  split at h
  · split_ifs at h
    · simp only [bind_ok_iff, except_pure, Except.ok.injEq] at h
      obtain ⟨n, h1, r1, h2, rfl⟩ := h
      exact backgroundValues_bones h2
    · cases h; rfl
  · cases h; rfl

theorem monthFlag_agree (year month : Int) :
    Agree (fun r => r.setQc "POS" "month_match" (reportMonthMatch year month r))
      (fun r => r.setQc "POS" "month_match" (reportMonthMatch year month r)) :=
  agree_put (by decide) _ fun r => by
    unfold reportMonthMatch
    rw [bones_getint _ (by decide), bones_getint _ (by decide)]

theorem finish_goes {E : ReadEnv F} {clim : Arr3} {year month : Int} {lib : ClimLib Arr3} {r s r1 : Report} (hr : bones r = bones s)
    (h : finishReport E year month lib r = .ok r1) {x : Option Rat}
    (hx : clim.lookup s.lat s.lon (s.getint "MO") (s.getint "DY") = .ok x) :
    ∃ s1, hiresFinish E clim year month s = .ok s1 ∧ bones r1 = bones s1 := by
  unfold finishReport at h
  obtain ⟨a, h1, h⟩ := bind_ok_iff.mp h
  obtain ⟨b, h2, h⟩ := bind_ok_iff.mp h
  obtain ⟨c, h3, h⟩ := bind_ok_iff.mp h
  obtain ⟨d, h4, h⟩ := bind_ok_iff.mp h
  unfold hiresFinish
  rw [hx, except_bind_ok]
  refine agree_then (baseQc_agree E.elev E.params) (monthFlag_agree year month) d (s.addClim "SST" x none) r1 ?_ h
  rw [humidity_bones h4, stdevClims_bones _ h3, clims_bones _ h2, mdsClims_bones _ h1, hr, bones_addClim]

theorem finish_bones {E : ReadEnv F} {clim : Arr3} {year month : Int} {lib : ClimLib Arr3} {r s r1 s1 : Report} (hr : bones r = bones s)
    (h : finishReport E year month lib r = .ok r1) (k : hiresFinish E clim year month s = .ok s1) : bones r1 = bones s1 := by
  obtain ⟨x, hx⟩ : ∃ x, clim.lookup s.lat s.lon (s.getint "MO") (s.getint "DY") = .ok x := by
    unfold hiresFinish at k
    obtain ⟨x, hx, -⟩ := bind_ok_iff.mp k
    exact ⟨x, hx⟩
  obtain ⟨s2, k1, k2⟩ := finish_goes hr h hx
  rw [k1] at k
  cases k
  exact k2

/-- What the decks of the two programs have in common. -/
structure DeckNear (d d' : Deck) : Prop where
  reps : d.reps.map bones = d'.reps.map bones
  index : d'.idtracker = d.idtracker

theorem append_near {d d' : Deck} (hd : DeckNear d d') {r r' : Report} (hr : bones r = bones r') :
    DeckNear (d.append r) (d'.append r') := by
  constructor
  · show (d.reps ++ [r]).map bones = (d'.reps ++ [r']).map bones
    rw [List.map_append, List.map_append, hd.reps, List.map_singleton, List.map_singleton, hr]
  · show trackAdd d'.idtracker r'.id ((d'.reps ++ [r']).length - 1) = trackAdd d.idtracker r.id ((d.reps ++ [r]).length - 1)
    have e : d'.reps.length = d.reps.length := by
      have := congrArg List.length hd.reps
      simpa using this.symm
    have e' : r'.id = r.id := by rw [← bones_id r', ← hr, bones_id]
    rw [hd.index, e']
    simp [e]

theorem use_near {E : ReadEnv F} {clim : Arr3} {year month : Int} {bg : Option Arr3} {y m : Int} {s s1 : ReadState} {d d1 : Deck}
    {rec : Imma} (hs : DeckNear s.deck d) (h : useRecord E year month bg y m s rec = .ok s1)
    (k : hiresUse E clim year month d rec = .ok d1) : DeckNear s1.deck d1 := by
  unfold useRecord at h
  simp only [bind_ok_iff] at h
  obtain ⟨r0, h0, r1, h1, b, h2, r2, h3, h4⟩ := h
  cases h4
  unfold hiresUse at k
  rw [h0, except_bind_ok] at k
  obtain ⟨q, k1, k2⟩ := bind_ok_iff.mp k
  cases k2
  refine append_near hs (finish_bones ?_ h3 k1)
  rw [addBackground_bones h2, setAT2_ok h1]
  refine Eq.symm (bones_congr (r := r0) rfl rfl rfl (fun _ _ => rfl) (fun _ _ => rfl) (fun k hk => ?_))
  show (if k = "AT2" then r0.data "AT" else r0.data k) = r0.data k
  rw [if_neg]
  rintro rfl
  exact hk (by decide)

theorem fold_near {α : Type} {f : ReadState → α → Except Err ReadState} {g : Deck → α → Except Err Deck}
    (hfg : ∀ s t a s1 t1, DeckNear s.deck t → f s a = .ok s1 → g t a = .ok t1 → DeckNear s1.deck t1) (l : List α) :
    ∀ {s s1 : ReadState} {t t1 : Deck}, DeckNear s.deck t → l.foldlM f s = .ok s1 → l.foldlM g t = .ok t1 → DeckNear s1.deck t1 := by
  induction l with
  | nil => intro s s1 t t1 hs h k; cases h; cases k; exact hs
  | cons a l ih =>
    intro s s1 t t1 hs h k
    rw [List.foldlM_cons] at h k
    obtain ⟨s0, h1, h2⟩ := bind_ok_iff.mp h
    obtain ⟨t0, k1, k2⟩ := bind_ok_iff.mp k
    exact ih (hfg s t a s0 t0 hs h1 k1) h2 k2

theorem line_near {E : ReadEnv F} {clim : Arr3} {year month : Int} {bg : Option Arr3} {y m : Int} {s s1 : ReadState} {d d1 : Deck}
    {line : List Char} (hs : DeckNear s.deck d) (h : readLine E year month bg y m s line = .ok s1)
    (k : hiresLine E clim year month y m d line = .ok d1) : DeckNear s1.deck d1 := by
  unfold readLine at h
  unfold hiresLine at k
  obtain ⟨b, h1, h2⟩ := bind_ok_iff.mp h
  rw [h1, except_bind_ok] at k
  split_ifs at h2 k
  · exact use_near hs h2 k
  · cases h2
    cases k
    exact hs

theorem monthFile_near {E : ReadEnv F} {clim : Arr3} {year month : Int} {s s1 : ReadState} {d d1 : Deck} {ym : Int × Int}
    (hs : DeckNear s.deck d) (h : readMonthFile E year month s ym = .ok s1)
    (k : hiresMonthFile E clim year month d ym = .ok d1) : DeckNear s1.deck d1 := by
  unfold readMonthFile at h
  unfold hiresMonthFile at k
  obtain ⟨bg, h1, h⟩ := bind_ok_iff.mp h
  obtain ⟨name, h2, h⟩ := bind_ok_iff.mp h
  obtain ⟨file, h3, h⟩ := bind_ok_iff.mp h
  rw [h2, except_bind_ok, h3, except_bind_ok] at k
  cases file with
  | none =>
    cases h
    cases k
    exact hs
  | some lines =>
    exact fold_near (f := readLine E year month bg ym.1 ym.2) (g := hiresLine E clim year month ym.1 ym.2)
      (fun _ _ _ _ _ hs h k => line_near hs h k) lines hs h k

theorem reports_near {E : ReadEnv F} {lib : ClimLib Arr3} {clim : Arr3} {year month : Int} {s : ReadState} {d : Deck}
    (h : readReports E lib year month = .ok s) (k : hiresReports E clim year month = .ok d) : DeckNear s.deck d := by
  unfold readReports at h
  unfold hiresReports at k
  obtain ⟨months, h1, h⟩ := bind_ok_iff.mp h
  rw [h1, except_bind_ok] at k
  cases months with
  | none => cases h
  | some l =>
    exact fold_near (f := readMonthFile E year month) (g := hiresMonthFile E clim year month)
      (fun _ _ _ _ _ hs h k => monthFile_near hs h k) l (s := ⟨-99, lib, Deck.empty⟩) (t := Deck.empty) ⟨rfl, rfl⟩ h k

end MarineQC
