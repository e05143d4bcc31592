import Verif.Hires.Base
import Verif.TrackOnly.Decks
import Verif.Base.ShipFlags

/-!
# The loops over a deck in the two programs
-/

namespace MarineQC

open Spec

variable {F : Type} [LinearOrder F] [Zero F]

/-! ## The checks of one ship -/

/-- Where the first step completes so does the second, and voyages that agree but for the climatology go on to agree. -/
def AgreeShip (f g : List Report → Except Err (List Report)) : Prop :=
  ∀ v v' w, v.map bones = v'.map bones → f v = .ok w → ∃ w', g v' = .ok w' ∧ w.map bones = w'.map bones

/-- The step changes only what depends on the climatology or what only the main program sets. -/
def LostShip (f : List Report → Except Err (List Report)) : Prop := ∀ v w, f v = .ok w → w.map bones = v.map bones

theorem agreeShip_of_bones {f : List Report → Except Err (List Report)}
    (h : ∀ v, f (v.map bones) = (f v).map (List.map bones)) : AgreeShip f f := by
  intro v v' w hv hw
  have e := h v
  rw [hv, h v', hw] at e
  cases k : f v' with
  | error x => rw [k] at e; cases e
  | ok w' =>
    rw [k] at e
    exact ⟨w', rfl, (Except.ok.inj e).symm⟩

theorem agreeShip_then {f g f' g' : List Report → Except Err (List Report)} (h : AgreeShip f g) (h' : AgreeShip f' g') :
    AgreeShip (fun v => f v >>= f') (fun v => g v >>= g') := by
  intro v v' w hv hw
  obtain ⟨u, h1, h2⟩ := bind_ok_iff.mp hw
  obtain ⟨u', k1, k2⟩ := h v v' u hv h1
  obtain ⟨w', k3, k4⟩ := h' u u' w k2 h2
  exact ⟨w', bind_ok_iff.mpr ⟨u', k1, k3⟩, k4⟩

theorem agreeShip_skip {f f' g : List Report → Except Err (List Report)} (h : LostShip f) (h' : AgreeShip f' g) :
    AgreeShip (fun v => f v >>= f') g := by
  intro v v' w hv hw
  obtain ⟨u, h1, h2⟩ := bind_ok_iff.mp hw
  exact h' u v' w (by rw [h v u h1, hv]) h2

theorem agreeShip_last {f f' g : List Report → Except Err (List Report)} (h : AgreeShip f g) (h' : LostShip f') :
    AgreeShip (fun v => f v >>= f') g := by
  intro v v' w hv hw
  obtain ⟨u, h1, h2⟩ := bind_ok_iff.mp hw
  obtain ⟨w', k1, k2⟩ := h v v' u hv h1
  exact ⟨w', k1, by rw [h' u w h2, k2]⟩

theorem writeFlags_lost {v w : List Report} {t f : String} (ht : t ++ f ∉ boneKeys) {fl : List Int} (hl : v.length ≤ fl.length)
    (h : writeFlags v t f fl = .ok w) : w.map bones = v.map bones := by
  unfold writeFlags at h
  induction v generalizing fl w with
  | nil => cases h; rfl
  | cons a v ih =>
    cases fl with
    | nil => simp at hl
    | cons x fl =>
      rw [List.zip_cons_cons, List.mapM_cons] at h
      simp only [bind_ok_iff, except_pure, Except.ok.injEq] at h
      obtain ⟨a', h1, w', h2, rfl⟩ := h
      rw [List.map_cons, List.map_cons, ih (by simpa using hl) h2, setQc_lost ht h1]

theorem repeated_lost {rnd : Rat → Rat} {n : Int} {x : Rat} {t : String} (ht : t ++ "rep" ∉ boneKeys) :
    LostShip (findRepeated rnd n x t) := by
  intro v w h
  unfold findRepeated at h
  obtain ⟨fl, h1, h2⟩ := bind_ok_iff.mp h
  exact writeFlags_lost ht (repeatedFlags_spec h1).1.ge h2

theorem rounded_lost {rnd : Rat → Rat} {n : Int} {x : Rat} : LostShip (findMultipleRounded rnd n x "DPT") := by
  intro v w h
  unfold findMultipleRounded at h
  obtain ⟨fl, h1, h2⟩ := bind_ok_iff.mp h
  exact writeFlags_lost (by decide) (roundedFlags_spec h1).1.ge h2

theorem saturated_lost {G : Geo} {t : Rat} {n : Int} : LostShip (findSaturatedRuns G t n) := by
  intro v w h
  unfold findSaturatedRuns at h
  obtain ⟨fl, h1, h2⟩ := bind_ok_iff.mp h
  exact writeFlags_lost (by decide) (saturatedFlags_spec h1).1.ge h2

theorem repeatedChecks_lost {rnd : Rat → Rat} {P : ShipParams} (ts : List String) (hts : ∀ t ∈ ts, t ++ "rep" ∉ boneKeys) :
    LostShip (repeatedChecks rnd P ts) := by
  induction ts with
  | nil => intro v w h; cases h; rfl
  | cons t ts ih =>
    intro v w h
    simp only [repeatedChecks, bind_ok_iff] at h
    obtain ⟨u, h1, h2⟩ := h
    rw [ih (fun t ht => hts t (by simp [ht])) u w h2, repeated_lost (hts t (by simp)) v u h1]

theorem iquam_lost {G : Geo} {P : IquamParams} : LostShip (iquamTrackCheck G P) := by
  intro v w h
  unfold iquamTrackCheck at h
  obtain ⟨fl, h1, h2⟩ := bind_ok_iff.mp h
  exact writeFlags_lost (by decide) (iquamFlags_binary h1).1.ge h2

theorem spike_lost {G : Geo} {P : SpikeParams} : LostShip (spikeCheck G P "SST") := by
  intro v w h
  unfold spikeCheck at h
  obtain ⟨fl, h1, h2⟩ := bind_ok_iff.mp h
  refine writeFlags_lost (by decide) ?_ h2
  unfold spikeFlags at h1
  cases v with
  | nil => simp
  | cons r v => exact (eliminate_length h1 (by simp [readFlags])).ge

theorem ship_agree (G : Geo) (rnd : Rat → Rat) (P : ShipParams) : AgreeShip (shipChecks G rnd P) (hiresShip G rnd P) := by
  refine agreeShip_then (agreeShip_of_bones (trackCheck_bones G P.track)) ?_
  refine agreeShip_skip iquam_lost ?_
  refine agreeShip_skip spike_lost ?_
  refine agreeShip_skip saturated_lost ?_
  refine agreeShip_skip rounded_lost ?_
  exact agreeShip_last (f' := repeatedChecks rnd P ["AT", "AT2", "DPT", "SLP"])
    (agreeShip_of_bones (repeated_bones rnd P.repCount P.repShare)) (repeatedChecks_lost _ (by decide))

/-! ## The loops -/

/-- The deck with the bones of its reports. -/
def Deck.bare (d : Deck) : Deck := { d with reps := d.reps.map bones }

/-- All flags of the filter are kept. -/
def BoneFilter (q : QcFilter) : Prop := ∀ t ∈ q, t.1 ++ t.2.1 ∈ boneKeys

theorem testReport_bones {q : QcFilter} (hq : BoneFilter q) (r : Report) : q.testReport (bones r) = q.testReport r := by
  unfold QcFilter.testReport
  generalize (0 : Int) = x
  induction q generalizing x with
  | nil => rfl
  | cons t q ih =>
    rw [List.foldl_cons, List.foldl_cons, bones_getQc r (hq t (by simp)), ih fun t ht => hq t (by simp [ht])]

theorem bone_ship : BoneFilter shipFilter := by
  unfold BoneFilter
  decide

theorem bone_drifters : BoneFilter drifterFilter := by
  unfold BoneFilter
  decide

/-- The bones of a report with its position. -/
def bonesAt (p : Report × Nat) : Report × Nat := (bones p.1, p.2)

theorem platform_bones {d : Deck} (hq : BoneFilter d.filter) (l : List Nat) :
    d.bare.platform l = (d.platform l).map (List.map bonesAt) := by
  have key : ∀ (l : List Nat) (v : List (Report × Nat)),
      l.foldlM (fun v (i : Nat) => do
        let r ← pyIndex (d.reps.map bones) i
        return if d.filter.testReport r = 0 then v ++ [(r, i)] else v) (v.map bonesAt) =
      (l.foldlM (fun v (i : Nat) => do
        let r ← pyIndex d.reps i
        return if d.filter.testReport r = 0 then v ++ [(r, i)] else v) v).map (List.map bonesAt) := by
    intro l
    induction l with
    | nil => intro v; rfl
    | cons i l ih =>
      intro v
      rw [List.foldlM_cons, List.foldlM_cons, exMap_bind, pyIndex_map]
      cases pyIndex d.reps (i : Int) with
      | error e => rfl
      | ok r =>
        simp only [exMap_ok, except_bind_ok, testReport_bones hq]
        refine Eq.trans ?_ (ih (if d.filter.testReport r = 0 then v ++ [(r, i)] else v))
        simp only [except_pure, except_bind_ok]
        congr 1
        split_ifs
        · rw [List.map_append]
          rfl
        · rfl
  exact key l []

theorem voyage_bones {d : Deck} (hq : BoneFilter d.filter) (G : Geo) (l : List Nat) :
    d.bare.voyage G l = (d.voyage G l).map (List.map bones) := by
  unfold Deck.voyage
  rw [platform_bones hq, exBind_map, exMap_bind]
  congr 1
  funext c
  have e1 : (c.map bonesAt).map (·.1) = (c.map (·.1)).map bones := by simp [bonesAt, Function.comp_def]
  rw [e1]
  exact build_bones G _ []

theorem buildTagged_bones (G : Geo) (l : List (Report × Nat)) :
    buildTagged G (l.map bonesAt) = (buildTagged G l).map (List.map bonesAt) := by
  unfold buildTagged
  have e1 : (l.map bonesAt).map (·.1) = (l.map (·.1)).map bones := by simp [bonesAt, Function.comp_def]
  have e2 : (l.map bonesAt).map (·.2) = l.map (·.2) := by simp [bonesAt, Function.comp_def]
  have := build_bones G (l.map (·.1)) []
  rw [List.map_nil] at this
  rw [e1, e2, this, exBind_map, exMap_bind]
  congr 1
  funext v
  show Except.ok _ = Except.ok _
  rw [List.zip_map_left]
  rfl

theorem storeBack_bones (reps : List Report) (v : List (Report × Nat)) :
    storeBack (reps.map bones) (v.map bonesAt) = (storeBack reps v).map bones := by
  unfold storeBack
  induction v generalizing reps with
  | nil => rfl
  | cons p v ih =>
    rw [List.map_cons, List.foldl_cons, List.foldl_cons, ← ih]
    congr 1
    exact List.map_set.symm

theorem deckNear_bare {d d' : Deck} (h : DeckNear d d') (hf : d'.filter = d.filter) : d.bare = d'.bare := by
  unfold Deck.bare
  rw [h.reps, h.index, hf]

theorem shipRound_agree {G : Geo} {f g : List Report → Except Err (List Report)} (hfg : AgreeShip f g) {d d' e : Deck}
    (hd : DeckNear d d') (hf : d'.filter = d.filter) (hq : BoneFilter d.filter) (l : List Nat)
    (h : shipRound G f d l = .ok e) :
    ∃ e', shipRound G g d' l = .ok e' ∧ DeckNear e e' ∧ e'.filter = e.filter ∧ e.filter = d.filter := by
  unfold shipRound at h ⊢
  simp only [bind_ok_iff, except_pure, Except.ok.injEq] at h
  obtain ⟨c, h1, v, h2, w, h3, rfl⟩ := h
  have hq' : BoneFilter d'.filter := by rw [hf]; exact hq
  have p1 := platform_bones hq l
  rw [deckNear_bare hd hf, platform_bones hq' l, h1] at p1
  obtain ⟨c', k1⟩ : ∃ c', d'.platform l = .ok c' := by
    cases k : d'.platform l with
    | error x => rw [k] at p1; cases p1
    | ok c' => exact ⟨c', rfl⟩
  rw [k1] at p1
  have ec : c'.map bonesAt = c.map bonesAt := Except.ok.inj p1
  have p2 := buildTagged_bones G c
  rw [← ec, buildTagged_bones, h2] at p2
  obtain ⟨v', k2⟩ : ∃ v', buildTagged G c' = .ok v' := by
    cases k : buildTagged G c' with
    | error x => rw [k] at p2; cases p2
    | ok v' => exact ⟨v', rfl⟩
  rw [k2] at p2
  have ev : v'.map bonesAt = v.map bonesAt := Except.ok.inj p2
  have e1 : (v.map (·.1)).map bones = (v'.map (·.1)).map bones := by
    have := congrArg (List.map (·.1)) ev
    simpa [bonesAt, Function.comp_def] using this.symm
  have e2 : v'.map (·.2) = v.map (·.2) := by
    have := congrArg (List.map (·.2)) ev
    simpa [bonesAt, Function.comp_def] using this
  obtain ⟨w', k3, ew⟩ := hfg _ _ w e1 h3
  rw [k1, except_bind_ok, k2, except_bind_ok, k3, except_bind_ok]
  refine ⟨_, rfl, ⟨?_, hd.index⟩, hf, rfl⟩
  show (storeBack d.reps (w.zip (v.map (·.2)))).map bones = (storeBack d'.reps (w'.zip (v'.map (·.2)))).map bones
  have z : ∀ (a : List Report) (b : List Nat), (a.zip b).map bonesAt = (a.map bones).zip b := by
    intro a b
    rw [List.zip_map_left]
    rfl
  rw [← storeBack_bones, ← storeBack_bones, z, z, hd.reps, ew, e2]

theorem shipRounds_agree {G : Geo} {f g : List Report → Except Err (List Report)} (hfg : AgreeShip f g)
    (es : List (Option String × List Nat)) : ∀ {d d' e : Deck}, DeckNear d d' → d'.filter = d.filter → BoneFilter d.filter →
    shipRounds G f es d = .ok e → ∃ e', shipRounds G g es d' = .ok e' ∧ DeckNear e e' := by
  induction es with
  | nil => intro d d' e hd _ _ h; cases h; exact ⟨d', rfl, hd⟩
  | cons p es ih =>
    intro d d' e hd hf hq h
    simp only [shipRounds, bind_ok_iff] at h ⊢
    obtain ⟨c, h1, h2⟩ := h
    obtain ⟨c', k1, hc, hf', hfc⟩ := shipRound_agree hfg hd hf hq p.2 h1
    obtain ⟨e', k2, k3⟩ := ih hc hf' (by rw [hfc]; exact hq) h2
    exact ⟨e', ⟨c', k1, k2⟩, k3⟩

/-! ## Buddy checks -/

theorem mapM_lost {f : Report → Except Err Report} (hf : ∀ r r', f r = .ok r' → bones r' = bones r) :
    ∀ {l l' : List Report}, l.mapM f = .ok l' → l'.map bones = l.map bones := by
  intro l
  induction l with
  | nil => intro l' h; cases h; rfl
  | cons r l ih =>
    intro l' h
    rw [List.mapM_cons] at h
    simp only [bind_ok_iff, except_pure, Except.ok.injEq] at h
    obtain ⟨r', h1, u, h2, rfl⟩ := h
    rw [List.map_cons, List.map_cons, ih h2, hf r r' h1]

theorem bayes_lost {erf : ℝ → ℝ} {span : Int → Nat → Int} {d e : Deck} {v : String}
    (hv : v ++ "bbud" ∉ boneKeys) {f1 f2 f3 : StdevField} {P : BayesParams}
    (h : bayesianBuddyCheck erf span d v f1 f2 f3 P = .ok e) : e.reps.map bones = d.reps.map bones ∧ e.idtracker = d.idtracker := by
  unfold bayesianBuddyCheck at h
  simp only [bind_ok_iff, except_pure, Except.ok.injEq] at h
  obtain ⟨-, -, g, h2, lim, h3, reps, h4, rfl⟩ := h
  refine ⟨mapM_lost ?_ h4, rfl⟩
  intro r r' hr
  unfold bayesBuddyFlag at hr
  split_ifs at hr
  · simp only [bind_ok_iff] at hr
    obtain ⟨l, -, hr⟩ := hr
    split at hr
    · simp only [bind_ok_iff] at hr
      obtain ⟨p, -, hr⟩ := hr
      exact setQc_lost hv hr
    · simp at hr
  · exact setQc_lost hv hr

theorem mds_lost {span : Int → Nat → Int} {d e : Deck} {v : String} (hv : v ++ "bud" ∉ boneKeys)
    {field : StdevField} {P : BuddyParams} (h : mdsBuddyCheck span d v field P = .ok e) :
    e.reps.map bones = d.reps.map bones ∧ e.idtracker = d.idtracker := by
  unfold mdsBuddyCheck at h
  simp only [bind_ok_iff, except_pure, Except.ok.injEq] at h
  obtain ⟨-, -, g, h2, lim, h3, reps, h4, rfl⟩ := h
  refine ⟨mapM_lost ?_ h4, rfl⟩
  intro r r' hr
  unfold mdsBuddyFlag at hr
  split_ifs at hr
  · simp only [bind_ok_iff] at hr
    obtain ⟨l, -, hr⟩ := hr
    split at hr
    · exact setQc_lost hv hr
    · simp at hr
  · exact setQc_lost hv hr

theorem near_lost {d d' e : Deck} (h : DeckNear d d') (he : e.reps.map bones = d.reps.map bones ∧ e.idtracker = d.idtracker) :
    DeckNear e d' := ⟨by rw [he.1, h.reps], by rw [he.2, h.index]⟩

theorem near_lost' {d d' e' : Deck} (h : DeckNear d d') (he : e'.reps.map bones = d'.reps.map bones ∧ e'.idtracker = d'.idtracker) :
    DeckNear d e' := ⟨by rw [he.1, h.reps], by rw [he.2, h.index]⟩

theorem checked_near {E : RunEnv F} {lib lib' : ClimLib Arr3} {clim : Arr3} {ym : Int × Int} {d d' : Deck}
    (h : checkedMonth E lib ym = .ok (d, lib')) (k : hiresChecked E clim ym = .ok d') : DeckNear d d' := by
  unfold checkedMonth at h
  obtain ⟨s, h1, h⟩ := bind_ok_iff.mp h
  obtain ⟨a, h2, h⟩ := bind_ok_iff.mp h
  obtain ⟨b, h3, h⟩ := bind_ok_iff.mp h
  simp only [except_pure, Except.ok.injEq, Prod.mk.injEq] at h
  obtain ⟨rfl, rfl⟩ := h
  unfold hiresChecked at k
  obtain ⟨t, k1, k⟩ := bind_ok_iff.mp k
  obtain ⟨a', k2, k3⟩ := bind_ok_iff.mp k
  have hs := reports_near h1 k1
  have ha : DeckNear a a' := by
    unfold shipPass at h2 k2
    have e : (t.addFilter shipFilter).idtracker = (s.deck.addFilter shipFilter).idtracker := hs.index
    rw [e] at k2
    obtain ⟨e', i1, i2⟩ := shipRounds_agree (ship_agree E.geo E.rnd E.ships) _ (d := s.deck.addFilter shipFilter)
      (d' := t.addFilter shipFilter) ⟨hs.reps, hs.index⟩ rfl bone_ship h2
    rw [i1] at k2
    cases k2
    exact i2
  unfold buddyFromLib at h3
  obtain ⟨f, -, h3⟩ := bind_ok_iff.mp h3
  obtain ⟨g, -, h3⟩ := bind_ok_iff.mp h3
  unfold buddyStage at h3
  simp only [bind_ok_iff] at h3
  obtain ⟨b1, j1, b2, j2, b3, j3, b4, j4, b5, j5, j6⟩ := h3
  unfold hiresBuddies at k3
  obtain ⟨c1, i1, i2⟩ := bind_ok_iff.mp k3
  have f1 : DeckNear (a.addFilter sstBuddies) (a'.addFilter sstBuddies) := ⟨ha.reps, ha.index⟩
  have f2 : DeckNear b2 d' := near_lost (near_lost (near_lost' (near_lost' f1 (bayes_lost (v := "SST") (by decide) i1)) (mds_lost (v := "SST") (by decide) i2))
    (bayes_lost (v := "SST") (by decide) j1)) (mds_lost (v := "SST") (by decide) j2)
  have f3 := near_lost (d := b2.addFilter atBuddies) ⟨f2.reps, f2.index⟩ (bayes_lost (v := "AT") (by decide) j3)
  have f4 := near_lost f3 (mds_lost (v := "AT") (by decide) j4)
  have f5 := near_lost (d := b4.addFilter dptBuddies) ⟨f4.reps, f4.index⟩ (mds_lost (v := "DPT") (by decide) j5)
  exact near_lost (d := b5.addFilter slpBuddies) ⟨f5.reps, f5.index⟩ (mds_lost (v := "SLP") (by decide) j6)

end MarineQC
