import Verif.TrackOnly.Voyages

/-!
# The loops over a deck on reports with the same shadow
-/

namespace MarineQC

open Spec

/-- The deck with the shadows of its reports. -/
noncomputable def Deck.dim (d : Deck) : Deck := { d with reps := d.reps.map shadow }

/-- All flags of the filter are kept. -/
def KeptFilter (q : QcFilter) : Prop := ∀ t ∈ q, KeptType t.1

theorem testReport_shadow {q : QcFilter} (hq : KeptFilter q) (r : Report) : q.testReport (shadow r) = q.testReport r := by
  unfold QcFilter.testReport
  generalize (0 : Int) = x
  induction q generalizing x with
  | nil => rfl
  | cons t q ih =>
    rw [List.foldl_cons, List.foldl_cons, shadow_getQc r (hq t (by simp)), ih fun t ht => hq t (by simp [ht])]

theorem kept_ship : KeptFilter shipFilter := by
  unfold KeptFilter KeptType
  decide

theorem kept_sst : KeptFilter sstBuddies := by
  unfold KeptFilter KeptType
  decide

theorem kept_drifters : KeptFilter drifterFilter := by
  unfold KeptFilter KeptType
  decide

/-- The shadow of a report with its position. -/
noncomputable def shadowAt (p : Report × Nat) : Report × Nat := (shadow p.1, p.2)

theorem platform_shadow {d : Deck} (hq : KeptFilter d.filter) (l : List Nat) :
    d.dim.platform l = (d.platform l).map (List.map shadowAt) := by
  have key : ∀ (l : List Nat) (v : List (Report × Nat)),
      l.foldlM (fun v (i : Nat) => do
        let r ← pyIndex (d.reps.map shadow) i
        return if d.filter.testReport r = 0 then v ++ [(r, i)] else v) (v.map shadowAt) =
      (l.foldlM (fun v (i : Nat) => do
        let r ← pyIndex d.reps i
        return if d.filter.testReport r = 0 then v ++ [(r, i)] else v) v).map (List.map shadowAt) := by
    intro l
    induction l with
    | nil => intro v; rfl
    | cons i l ih =>
      intro v
      rw [List.foldlM_cons, List.foldlM_cons, exMap_bind, pyIndex_map]
      cases pyIndex d.reps (i : Int) with
      | error e => rfl
      | ok r =>
        simp only [exMap_ok, except_bind_ok, testReport_shadow hq]
        refine Eq.trans ?_ (ih (if d.filter.testReport r = 0 then v ++ [(r, i)] else v))
        simp only [except_pure, except_bind_ok]
        congr 1
        split_ifs
        · rw [List.map_append]
          rfl
        · rfl
  exact key l []

theorem buildTagged_shadow (G : Geo) (l : List (Report × Nat)) :
    buildTagged G (l.map shadowAt) = (buildTagged G l).map (List.map shadowAt) := by
  unfold buildTagged
  have e1 : (l.map shadowAt).map (·.1) = (l.map (·.1)).map shadow := by simp [shadowAt, Function.comp_def]
  have e2 : (l.map shadowAt).map (·.2) = l.map (·.2) := by simp [shadowAt, Function.comp_def]
  have := build_shadow G (l.map (·.1)) []
  rw [List.map_nil] at this
  rw [e1, e2, this, exBind_map, exMap_bind]
  congr 1
  funext v
  show Except.ok _ = Except.ok _
  rw [List.zip_map_left]
  rfl

theorem storeBack_shadow (reps : List Report) (v : List (Report × Nat)) :
    storeBack (reps.map shadow) (v.map shadowAt) = (storeBack reps v).map shadow := by
  unfold storeBack
  induction v generalizing reps with
  | nil => rfl
  | cons p v ih =>
    rw [List.map_cons, List.foldl_cons, List.foldl_cons, ← ih]
    congr 1
    exact List.map_set.symm

/-- What the decks of the two programs have in common. -/
structure DeckAlike (d d' : Deck) : Prop where
  reps : d.reps.map shadow = d'.reps.map shadow
  index : d'.idtracker = d.idtracker

theorem deckAlike_dim {d d' : Deck} (h : DeckAlike d d') (hf : d'.filter = d.filter) : d.dim = d'.dim := by
  unfold Deck.dim
  rw [h.reps, h.index, hf]

theorem shipRound_follows {G : Geo} {f g : List Report → Except Err (List Report)} (hfg : Follows f g) {d d' e : Deck}
    (hd : DeckAlike d d') (hf : d'.filter = d.filter) (hq : KeptFilter d.filter) (l : List Nat)
    (h : shipRound G f d l = .ok e) :
    ∃ e', shipRound G g d' l = .ok e' ∧ DeckAlike e e' ∧ e'.filter = e.filter ∧ e.filter = d.filter := by
  unfold shipRound at h ⊢
  simp only [bind_ok_iff, except_pure, Except.ok.injEq] at h
  obtain ⟨c, h1, v, h2, w, h3, rfl⟩ := h
  have hq' : KeptFilter d'.filter := by rw [hf]; exact hq
  have p1 := platform_shadow hq l
  rw [deckAlike_dim hd hf, platform_shadow hq' l, h1] at p1
  obtain ⟨c', k1, ec⟩ := exMap_ok_iff.mp p1
  have p2 := buildTagged_shadow G c
  rw [← ec, buildTagged_shadow, h2] at p2
  obtain ⟨v', k2, ev⟩ := exMap_ok_iff.mp p2
  have e1 : (v.map (·.1)).map shadow = (v'.map (·.1)).map shadow := by
    have := congrArg (List.map (·.1)) ev
    simpa [shadowAt, Function.comp_def] using this.symm
  have e2 : v'.map (·.2) = v.map (·.2) := by
    have := congrArg (List.map (·.2)) ev
    simpa [shadowAt, Function.comp_def] using this
  obtain ⟨w', k3, ew⟩ := hfg _ _ w e1 h3
  refine ⟨{ d' with reps := storeBack d'.reps (w'.zip (v'.map (·.2))) },
    by rw [k1, except_bind_ok, k2, except_bind_ok, k3, except_bind_ok, except_pure], ⟨?_, hd.index⟩, hf, rfl⟩
  show (storeBack d.reps (w.zip (v.map (·.2)))).map shadow = (storeBack d'.reps (w'.zip (v'.map (·.2)))).map shadow
  have z : ∀ (a : List Report) (b : List Nat), (a.zip b).map shadowAt = (a.map shadow).zip b := by
    intro a b
    rw [List.zip_map_left]
    rfl
  rw [← storeBack_shadow, ← storeBack_shadow, z, z, hd.reps, ew, e2]

theorem shipRounds_follows {G : Geo} {f g : List Report → Except Err (List Report)} (hfg : Follows f g)
    (es : List (Option String × List Nat)) : ∀ {d d' e : Deck}, DeckAlike d d' → d'.filter = d.filter → KeptFilter d.filter →
    shipRounds G f es d = .ok e → ∃ e', shipRounds G g es d' = .ok e' ∧ DeckAlike e e' := by
  induction es with
  | nil => intro d d' e hd _ _ h; cases h; exact ⟨d', rfl, hd⟩
  | cons p es ih =>
    intro d d' e hd hf hq h
    simp only [shipRounds, bind_ok_iff] at h
    obtain ⟨c, h1, h2⟩ := h
    obtain ⟨c', k1, hc, hf', hfc⟩ := shipRound_follows hfg hd hf hq p.2 h1
    obtain ⟨e', k2, he⟩ := ih hc hf' (by rw [hfc]; exact hq) h2
    exact ⟨e', by simp only [shipRounds, k1, except_bind_ok, k2], he⟩

theorem shipPass_follows {G : Geo} {f g : List Report → Except Err (List Report)} (hfg : Follows f g) {d d' e : Deck}
    (hd : DeckAlike d d') {q : QcFilter} (hq : KeptFilter q) (h : shipPass G f (d.addFilter q) = .ok e) :
    ∃ e', shipPass G g (d'.addFilter q) = .ok e' ∧ DeckAlike e e' := by
  unfold shipPass at h ⊢
  have e : (d'.addFilter q).idtracker = (d.addFilter q).idtracker := hd.index
  rw [e]
  have ha : DeckAlike (d.addFilter q) (d'.addFilter q) := ⟨hd.reps, hd.index⟩
  exact shipRounds_follows hfg _ ha rfl hq h

/-! ## Buddy checks -/

theorem gridReports_shadow {q : QcFilter} (hq : KeptFilter q) (reps : List Report) :
    gridReports q "SST" (reps.map shadow) = gridReports q "SST" reps := by
  unfold gridReports
  rw [List.foldlM_map]
  simp only [testReport_shadow hq, shadow_lat, shadow_lon, shadow_getint _ (show "MO" ∉ mainOnly by decide),
    shadow_getint _ (show "DY" ∉ mainOnly by decide), shadow_getanom]

theorem bayesFlag_shadow (erf : ℝ → ℝ) {q : QcFilter} (hq : KeptFilter q) (P : BayesParams) (lim : Cell → ℝ × ℝ) (r : Report) :
    bayesBuddyFlag erf q "SST" P lim (shadow r) = (bayesBuddyFlag erf q "SST" P lim r).map shadow := by
  unfold bayesBuddyFlag
  simp only [testReport_shadow hq, shadow_lat, shadow_lon, shadow_getint _ (show "MO" ∉ mainOnly by decide),
    shadow_getint _ (show "DY" ∉ mainOnly by decide), shadow_getanom]
  split_ifs
  · rw [exMap_bind]
    congr 1
    funext l
    cases r.getanom "SST" with
    | none => rfl
    | some x =>
      simp only [exMap_bind]
      congr 1
      funext p
      exact setQc_shadow r (.inr rfl) _ _
  · exact setQc_shadow r (.inr rfl) _ _

theorem mdsFlag_shadow {q : QcFilter} (hq : KeptFilter q) (lim : Cell → Rat × Rat) (r : Report) :
    mdsBuddyFlag q "SST" lim (shadow r) = (mdsBuddyFlag q "SST" lim r).map shadow := by
  unfold mdsBuddyFlag
  simp only [testReport_shadow hq, shadow_lat, shadow_lon, shadow_getint _ (show "MO" ∉ mainOnly by decide),
    shadow_getint _ (show "DY" ∉ mainOnly by decide), shadow_getanom]
  split_ifs
  · rw [exMap_bind]
    congr 1
    funext l
    cases r.getanom "SST" with
    | none => rfl
    | some x => exact setQc_shadow r (.inr rfl) _ _
  · exact setQc_shadow r (.inr rfl) _ _

theorem bayes_shadow (erf : ℝ → ℝ) (span : Int → Nat → Int) {d : Deck} (hq : KeptFilter d.filter) (f1 f2 f3 : StdevField)
    (P : BayesParams) :
    bayesianBuddyCheck erf span d.dim "SST" f1 f2 f3 P = (bayesianBuddyCheck erf span d "SST" f1 f2 f3 P).map Deck.dim := by
  unfold bayesianBuddyCheck
  show (do
    let _ ← pyAssert _
    let g ← gridReports d.filter "SST" (d.reps.map shadow)
    let lim ← limitsOf g (newLimits span g f1 f2 f3 P.limits P.sigmaM P.noise)
    let reps ← (d.reps.map shadow).mapM (bayesBuddyFlag erf d.filter "SST" P lim)
    return { d.dim with reps := reps }) = _
  simp only [gridReports_shadow hq, exMap_bind, map_then_mapM, bayesFlag_shadow erf hq, ← mapM_then_map, exBind_map]
  rfl

theorem mds_shadow (span : Int → Nat → Int) {d : Deck} (hq : KeptFilter d.filter) (field : StdevField) (P : BuddyParams) :
    mdsBuddyCheck span d.dim "SST" field P = (mdsBuddyCheck span d "SST" field P).map Deck.dim := by
  unfold mdsBuddyCheck
  show (do
    let _ ← pyAssert _
    let g ← gridReports d.filter "SST" (d.reps.map shadow)
    let lim ← limitsOf g (cellLimits span g field P)
    let reps ← (d.reps.map shadow).mapM (mdsBuddyFlag d.filter "SST" lim)
    return { d.dim with reps := reps }) = _
  simp only [gridReports_shadow hq, exMap_bind, map_then_mapM, mdsFlag_shadow hq, ← mapM_then_map, exBind_map]
  rfl

theorem mapM_drop {f : Report → Except Err Report} (hf : ∀ r r', f r = .ok r' → shadow r' = shadow r) :
    ∀ {l l' : List Report}, l.mapM f = .ok l' → l'.map shadow = l.map shadow := by
  intro l
  induction l with
  | nil => intro l' h; cases h; rfl
  | cons r l ih =>
    intro l' h
    rw [List.mapM_cons] at h
    simp only [bind_ok_iff, except_pure, Except.ok.injEq] at h
    obtain ⟨r', h1, u, h2, rfl⟩ := h
    rw [List.map_cons, List.map_cons, ih h2, hf r r' h1]

theorem bayes_drop {erf : ℝ → ℝ} {span : Int → Nat → Int} {d e : Deck} {v : String}
    (hv : v ∈ ["AT", "AT2", "DPT", "SLP", "W", "D"]) {f1 f2 f3 : StdevField} {P : BayesParams}
    (h : bayesianBuddyCheck erf span d v f1 f2 f3 P = .ok e) : e.reps.map shadow = d.reps.map shadow ∧ e.idtracker = d.idtracker := by
  unfold bayesianBuddyCheck at h
  simp only [bind_ok_iff, except_pure, Except.ok.injEq] at h
  obtain ⟨-, -, g, h2, lim, h3, reps, h4, rfl⟩ := h
  refine ⟨mapM_drop ?_ h4, rfl⟩
  intro r r' hr
  unfold bayesBuddyFlag at hr
  split_ifs at hr
  · simp only [bind_ok_iff] at hr
    obtain ⟨l, -, hr⟩ := hr
    split at hr
    · simp only [bind_ok_iff] at hr
      obtain ⟨p, -, hr⟩ := hr
      exact (setQc_drop hv hr).1
    · simp at hr
  · exact (setQc_drop hv hr).1

theorem mds_drop {span : Int → Nat → Int} {d e : Deck} {v : String} (hv : v ∈ ["AT", "AT2", "DPT", "SLP", "W", "D"])
    {field : StdevField} {P : BuddyParams} (h : mdsBuddyCheck span d v field P = .ok e) :
    e.reps.map shadow = d.reps.map shadow ∧ e.idtracker = d.idtracker := by
  unfold mdsBuddyCheck at h
  simp only [bind_ok_iff, except_pure, Except.ok.injEq] at h
  obtain ⟨-, -, g, h2, lim, h3, reps, h4, rfl⟩ := h
  refine ⟨mapM_drop ?_ h4, rfl⟩
  intro r r' hr
  unfold mdsBuddyFlag at hr
  split_ifs at hr
  · simp only [bind_ok_iff] at hr
    obtain ⟨l, -, hr⟩ := hr
    split at hr
    · exact (setQc_drop hv hr).1
    · simp at hr
  · exact (setQc_drop hv hr).1

theorem mds_filter {span : Int → Nat → Int} {d e : Deck} {v : String} {field : StdevField} {P : BuddyParams}
    (h : mdsBuddyCheck span d v field P = .ok e) : e.filter = d.filter := by
  unfold mdsBuddyCheck at h
  simp only [bind_ok_iff, except_pure, Except.ok.injEq] at h
  obtain ⟨-, -, g, h2, lim, h3, reps, h4, rfl⟩ := h
  rfl

theorem bayes_filter {erf : ℝ → ℝ} {span : Int → Nat → Int} {d e : Deck} {v : String} {f1 f2 f3 : StdevField} {P : BayesParams}
    (h : bayesianBuddyCheck erf span d v f1 f2 f3 P = .ok e) : e.filter = d.filter := by
  unfold bayesianBuddyCheck at h
  simp only [bind_ok_iff, except_pure, Except.ok.injEq] at h
  obtain ⟨-, -, g, h2, lim, h3, reps, h4, rfl⟩ := h
  rfl

theorem dim_alike {d e d' e' : Deck} (h : d.dim = e.dim) (h' : d.dim = d'.dim) (h'' : e.dim = e'.dim) : d'.dim = e'.dim := by
  rw [← h', h, h'']

theorem buddies_follow {erf : ℝ → ℝ} {span : Int → Nat → Int} {B B' : BuddyInputs} (h1 : B'.sst1 = B.sst1)
    (h2 : B'.sst2 = B.sst2) (h3 : B'.sst3 = B.sst3) (h4 : B'.pentad = B.pentad) (h5 : B'.sstBayes = B.sstBayes)
    (h6 : B'.mds = B.mds) {d d' e : Deck} (hd : DeckAlike d d') (h : buddyStage erf span B d = .ok e) :
    ∃ e', trackOnlyBuddies erf span B' d' = .ok e' ∧ DeckAlike e e' := by
  unfold buddyStage at h
  simp only [bind_ok_iff] at h
  obtain ⟨a, k1, b, k2, c, k3, f, k4, g, k5, k6⟩ := h
  have kq : KeptFilter (d.addFilter sstBuddies).filter := kept_sst
  have kq' : KeptFilter (d'.addFilter sstBuddies).filter := kept_sst
  have eq1 : (d.addFilter sstBuddies).dim = (d'.addFilter sstBuddies).dim := deckAlike_dim ⟨hd.reps, hd.index⟩ rfl
  have m1 := bayes_shadow erf span kq B.sst1 B.sst2 B.sst3 B.sstBayes
  rw [eq1, bayes_shadow erf span kq', k1] at m1
  obtain ⟨a', n1, ea⟩ := exMap_ok_iff.mp m1
  have fa : KeptFilter a.filter := by rw [bayes_filter k1]; exact kept_sst
  have fa' : KeptFilter a'.filter := by rw [bayes_filter n1]; exact kept_sst
  have m2 := mds_shadow span fa B.pentad B.mds
  rw [← ea, mds_shadow span fa', k2] at m2
  obtain ⟨b', n2, eb⟩ := exMap_ok_iff.mp m2
  refine ⟨b', ?_, ?_, ?_⟩
  · unfold trackOnlyBuddies
    rw [h1, h2, h3, h4, h5, h6, n1, except_bind_ok, n2]
  · have := congrArg Deck.reps eb
    rw [(mds_drop (by decide) k6).1]
    refine Eq.trans (mds_drop (by decide) k5).1 ?_
    refine Eq.trans (mds_drop (by decide) k4).1 ?_
    refine Eq.trans (bayes_drop (by decide) k3).1 ?_
    exact this.symm
  · have := congrArg Deck.idtracker eb
    rw [(mds_drop (by decide) k6).2]
    refine Eq.trans ?_ (mds_drop (by decide) k5).2.symm
    refine Eq.trans ?_ (mds_drop (by decide) k4).2.symm
    refine Eq.trans ?_ (bayes_drop (by decide) k3).2.symm
    exact this

end MarineQC
