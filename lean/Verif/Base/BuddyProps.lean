import Verif.Base.BuddySpec
import Verif.Base.ShipFlags
import Verif.Report.BaseQc

/-!
# C102, C103: the buddy checks of the main program
-/

namespace MarineQC

open Spec

/-- The same report but for flags of buddy checks. -/
def BuddySame (r s : Report) : Prop := s = { r with qc := s.qc } ∧ ∀ k, k ∉ stored buddyFlagNames → s.qc k = r.qc k

theorem buddySame_obs {r s : Report} (h : BuddySame r s) (v : String) : obsOf v s = obsOf v r := by
  rw [h.1]; rfl

theorem buddySame_anom {r s : Report} (h : BuddySame r s) (v : String) : s.getanom v = r.getanom v := by
  rw [h.1]; rfl

theorem buddySame_qc {r s : Report} (h : BuddySame r s) {t f : String} (hk : t ++ f ∉ stored buddyFlagNames) :
    s.getQc t f = r.getQc t f := by
  unfold Report.getQc
  rw [h.2 _ hk]

theorem buddySame_refl (r : Report) : BuddySame r r := ⟨rfl, fun _ _ => rfl⟩

theorem buddySame_set {r s s' : Report} {t f : String} {x : Int} (h : BuddySame r s) (hs : FlagSet s s' t f x)
    (hk : t ++ f ∈ stored buddyFlagNames) : BuddySame r s' := by
  obtain ⟨-, e, o⟩ := hs
  refine ⟨?_, fun k hk' => ?_⟩
  · rw [e, h.1]
  · rw [o k (fun hc => hk' (hc ▸ hk)), h.2 k hk']

/-- A filter that tests none of the flags of buddy checks, and what it means. -/
def Means (q : QcFilter) (E : Report → Prop) : Prop :=
  (∀ r, Passes q r ↔ E r) ∧ ∀ x ∈ q, x.1 ++ x.2.1 ∉ stored buddyFlagNames

theorem passes_same {q : QcFilter} {E : Report → Prop} (hq : Means q E) {r s : Report} (h : BuddySame r s) :
    Passes q s ↔ E r := by
  rw [← hq.1 r]
  constructor
  · intro hp t f v hm
    rw [← buddySame_qc h (hq.2 (t, f, v) hm)]
    exact hp t f v hm
  · intro hp t f v hm
    rw [buddySame_qc h (hq.2 (t, f, v) hm)]
    exact hp t f v hm

theorem keptObs_same {q : QcFilter} {E : Report → Prop} (hq : Means q E) (v : String) {l m : List Report}
    (h : List.Forall₂ BuddySame l m) : keptObs q v m = buddyObs l v E := by
  classical
  unfold keptObs buddyObs
  induction h with
  | nil => rfl
  | @cons r s l m e _ ih =>
    by_cases hr : E r
    · rw [List.filter_cons_of_pos (by simpa using (passes_same hq e).mpr hr), List.filter_cons_of_pos (by simpa using hr),
        List.map_cons, List.map_cons, ih, buddySame_obs e]
    · rw [List.filter_cons_of_neg (by simpa using fun hc => hr ((passes_same hq e).mp hc)),
        List.filter_cons_of_neg (by simpa using hr), ih]

theorem means_sst : Means sstBuddies SstBuddy := by
  refine ⟨fun r => ?_, by decide⟩
  simp only [Passes, sstBuddies, QcFilter.add, List.nil_append, List.cons_append, List.mem_cons, List.not_mem_nil, or_false,
    SstBuddy, WellPlaced]
  constructor
  · intro h
    exact ⟨⟨h _ _ _ (by simp), h _ _ _ (by simp), h _ _ _ (by simp), h _ _ _ (by simp), h _ _ _ (by simp)⟩,
      h _ _ _ (by simp), h _ _ _ (by simp), h _ _ _ (by simp), h _ _ _ (by simp), h _ _ _ (by simp)⟩
  · rintro ⟨⟨h1, h2, h3, h4, h5⟩, h6, h7, h8, h9, h10⟩ t f v hm
    simp only [Prod.mk.injEq] at hm
    rcases hm with ⟨rfl, rfl, rfl⟩ | ⟨rfl, rfl, rfl⟩ | ⟨rfl, rfl, rfl⟩ | ⟨rfl, rfl, rfl⟩ | ⟨rfl, rfl, rfl⟩ |
      ⟨rfl, rfl, rfl⟩ | ⟨rfl, rfl, rfl⟩ | ⟨rfl, rfl, rfl⟩ | ⟨rfl, rfl, rfl⟩ | ⟨rfl, rfl, rfl⟩ <;> assumption

theorem means_at : Means atBuddies AtBuddy := by
  refine ⟨fun r => ?_, by decide⟩
  simp only [Passes, atBuddies, QcFilter.add, List.nil_append, List.cons_append, List.mem_cons, List.not_mem_nil, or_false,
    AtBuddy, WellPlaced]
  constructor
  · intro h
    exact ⟨⟨h _ _ _ (by simp), h _ _ _ (by simp), h _ _ _ (by simp), h _ _ _ (by simp), h _ _ _ (by simp)⟩,
      h _ _ _ (by simp), h _ _ _ (by simp), h _ _ _ (by simp), h _ _ _ (by simp), h _ _ _ (by simp), h _ _ _ (by simp)⟩
  · rintro ⟨⟨h1, h2, h3, h4, h5⟩, h6, h7, h8, h9, h10, h11⟩ t f v hm
    simp only [Prod.mk.injEq] at hm
    rcases hm with ⟨rfl, rfl, rfl⟩ | ⟨rfl, rfl, rfl⟩ | ⟨rfl, rfl, rfl⟩ | ⟨rfl, rfl, rfl⟩ | ⟨rfl, rfl, rfl⟩ |
      ⟨rfl, rfl, rfl⟩ | ⟨rfl, rfl, rfl⟩ | ⟨rfl, rfl, rfl⟩ | ⟨rfl, rfl, rfl⟩ | ⟨rfl, rfl, rfl⟩ | ⟨rfl, rfl, rfl⟩ <;>
      assumption

theorem means_dpt : Means dptBuddies DptBuddy := by
  refine ⟨fun r => ?_, by decide⟩
  simp only [Passes, dptBuddies, QcFilter.add, List.nil_append, List.cons_append, List.mem_cons, List.not_mem_nil, or_false,
    DptBuddy, WellPlaced]
  constructor
  · intro h
    exact ⟨⟨h _ _ _ (by simp), h _ _ _ (by simp), h _ _ _ (by simp), h _ _ _ (by simp), h _ _ _ (by simp)⟩,
      h _ _ _ (by simp), h _ _ _ (by simp), h _ _ _ (by simp), h _ _ _ (by simp)⟩
  · rintro ⟨⟨h1, h2, h3, h4, h5⟩, h6, h7, h8, h9⟩ t f v hm
    simp only [Prod.mk.injEq] at hm
    rcases hm with ⟨rfl, rfl, rfl⟩ | ⟨rfl, rfl, rfl⟩ | ⟨rfl, rfl, rfl⟩ | ⟨rfl, rfl, rfl⟩ | ⟨rfl, rfl, rfl⟩ |
      ⟨rfl, rfl, rfl⟩ | ⟨rfl, rfl, rfl⟩ | ⟨rfl, rfl, rfl⟩ | ⟨rfl, rfl, rfl⟩ <;> assumption

theorem means_slp : Means slpBuddies SlpBuddy := by
  refine ⟨fun r => ?_, by decide⟩
  simp only [Passes, slpBuddies, QcFilter.add, List.nil_append, List.cons_append, List.mem_cons, List.not_mem_nil, or_false,
    SlpBuddy, WellPlaced]
  constructor
  · intro h
    exact ⟨⟨h _ _ _ (by simp), h _ _ _ (by simp), h _ _ _ (by simp), h _ _ _ (by simp), h _ _ _ (by simp)⟩,
      h _ _ _ (by simp), h _ _ _ (by simp), h _ _ _ (by simp)⟩
  · rintro ⟨⟨h1, h2, h3, h4, h5⟩, h6, h7, h8⟩ t f v hm
    simp only [Prod.mk.injEq] at hm
    rcases hm with ⟨rfl, rfl, rfl⟩ | ⟨rfl, rfl, rfl⟩ | ⟨rfl, rfl, rfl⟩ | ⟨rfl, rfl, rfl⟩ | ⟨rfl, rfl, rfl⟩ |
      ⟨rfl, rfl, rfl⟩ | ⟨rfl, rfl, rfl⟩ | ⟨rfl, rfl, rfl⟩ <;> assumption

/-! ## One check -/

/-- What one check did to the reports `m`, which were `l`: `Q r x` is the meaning of its flag. -/
def BuddyStep (t f : String) (Q : Report → Int → Prop) (l m m' : List Report) : Prop :=
  List.Forall₂ BuddySame l m' ∧ List.Forall₂ (fun r s' => Q r (s'.getQc t f)) l m'
    ∧ List.Forall₂ (fun s s' : Report => ∀ k, k ≠ t ++ f → s'.qc k = s.qc k) m m'

theorem forall2_of_get {α β : Type} {R : α → β → Prop} {l : List α} {m : List β} (hl : m.length = l.length)
    (h : ∀ (i : Nat) a b, l[i]? = some a → m[i]? = some b → R a b) : List.Forall₂ R l m :=
  List.forall₂_iff_get.mpr ⟨hl.symm, fun j h1 h2 =>
    h j _ _ (List.getElem?_eq_getElem h1) (List.getElem?_eq_getElem h2)⟩

theorem mds_buddyStep {span : Int → Nat → Int} {d d' : Deck} {v : String} {field : StdevField} {P : BuddyParams}
    {E : Report → Prop} {l : List Report} (h : mdsBuddyCheck span d v field P = .ok d') (hq : Means d.filter E)
    (hl : List.Forall₂ BuddySame l d.reps) (hk : v ++ "bud" ∈ stored buddyFlagNames) :
    BuddyStep v "bud" (MdsFlag span field P v E l) l d.reps d'.reps ∧ d'.filter = d.filter ∧ d'.idtracker = d.idtracker := by
  obtain ⟨e, hlen, g, hg, hr⟩ := C56_mds_flags span d d' v field P h
  rw [keptObs_same hq v hl] at hg
  have key : ∀ (i : Nat) r s', l[i]? = some r → d'.reps[i]? = some s' → ∃ s, d.reps[i]? = some s ∧ BuddySame r s := by
    intro i r s' hr _
    exact forall2_get hl i r hr
  refine ⟨⟨?_, ?_, ?_⟩, by rw [e], by rw [e]⟩
  · refine forall2_of_get (hlen.trans hl.length_eq.symm) fun i r s' h1 h2 => ?_
    obtain ⟨s, h3, h4⟩ := key i r s' h1 h2
    obtain ⟨x, -, hx, -⟩ := hr i s s' h3 h2
    exact buddySame_set h4 hx hk
  · refine forall2_of_get (hlen.trans hl.length_eq.symm) fun i r s' h1 h2 => ?_
    obtain ⟨s, h3, h4⟩ := key i r s' h1 h2
    obtain ⟨x, h01, hx, hn, hp⟩ := hr i s s' h3 h2
    rw [hx.1]
    refine ⟨h01, fun hc => hn fun hp => hc ((passes_same hq h4).mp hp), fun hE => ⟨g, hg, ?_⟩⟩
    have := hp ((passes_same hq h4).mpr hE)
    rwa [buddySame_obs h4, buddySame_anom h4] at this
  · refine forall2_of_get hlen fun i s s' h1 h2 => ?_
    obtain ⟨x, -, hx, -⟩ := hr i s s' h1 h2
    exact hx.2.2

theorem bayes_buddyStep {span : Int → Nat → Int} {d d' : Deck} {v : String} {f1 f2 f3 : StdevField} {P : BayesParams}
    {E : Report → Prop} {l : List Report} (h : bayesianBuddyCheck erf span d v f1 f2 f3 P = .ok d') (hq : Means d.filter E)
    (hl : List.Forall₂ BuddySame l d.reps) (hk : v ++ "bbud" ∈ stored buddyFlagNames) :
    BuddyStep v "bbud" (BayesFlag span f1 f2 f3 P v E l) l d.reps d'.reps ∧ d'.filter = d.filter
      ∧ d'.idtracker = d.idtracker := by
  obtain ⟨e, hlen, g, hg, hr⟩ := C56_bayes_flags span d d' v f1 f2 f3 P h
  rw [keptObs_same hq v hl] at hg
  have key : ∀ (i : Nat) r s', l[i]? = some r → d'.reps[i]? = some s' → ∃ s, d.reps[i]? = some s ∧ BuddySame r s := by
    intro i r s' hr _
    exact forall2_get hl i r hr
  refine ⟨⟨?_, ?_, ?_⟩, by rw [e], by rw [e]⟩
  · refine forall2_of_get (hlen.trans hl.length_eq.symm) fun i r s' h1 h2 => ?_
    obtain ⟨s, h3, h4⟩ := key i r s' h1 h2
    obtain ⟨x, -, hx, -⟩ := hr i s s' h3 h2
    exact buddySame_set h4 hx hk
  · refine forall2_of_get (hlen.trans hl.length_eq.symm) fun i r s' h1 h2 => ?_
    obtain ⟨s, h3, h4⟩ := key i r s' h1 h2
    obtain ⟨x, h01, hx, hn, hp⟩ := hr i s s' h3 h2
    rw [hx.1]
    refine ⟨h01, fun hc => hn fun hp => hc ((passes_same hq h4).mp hp), fun hE => ⟨g, hg, ?_⟩⟩
    have := hp ((passes_same hq h4).mpr hE)
    rwa [buddySame_obs h4, buddySame_anom h4] at this
  · refine forall2_of_get hlen fun i s s' h1 h2 => ?_
    obtain ⟨x, -, hx, -⟩ := hr i s s' h1 h2
    exact hx.2.2

/-- A flag set before survives a check that sets another. -/
theorem buddyStep_keeps {t f t' f' : String} {Q Q' : Report → Int → Prop} {l m m' : List Report}
    (hs : BuddyStep t f Q l m m') (h : List.Forall₂ (fun r s : Report => Q' r (s.getQc t' f')) l m) (hne : t' ++ f' ≠ t ++ f) :
    List.Forall₂ (fun r s : Report => Q' r (s.getQc t' f')) l m' := by
  obtain ⟨-, -, h3⟩ := hs
  clear * - h h3 hne
  induction h generalizing m' with
  | nil => cases h3; exact .nil
  | cons e _ ih =>
    cases h3 with
    | cons e' h3 =>
      refine .cons ?_ (ih h3)
      unfold Report.getQc at e ⊢
      rw [e' _ hne]
      exact e

/-- C102: if the buddy checks of a month complete, then every report is as it was but for the six flags.  A report which
is not among the buddies for a variable has flags 0; otherwise its flags compare its anomaly with those of the buddies
in the cells around, chosen by the flags that the reports had before the buddy checks. -/
theorem C102_buddies (span : Int → Nat → Int) (B : BuddyInputs) (d d' : Deck) (h : buddyStage erf span B d = .ok d') :
    d'.idtracker = d.idtracker ∧ List.Forall₂ (BuddyFlags span B d.reps) d.reps d'.reps := by
  unfold buddyStage at h
  simp only [bind_ok_iff] at h
  obtain ⟨d1, h1, d2, h2, d3, h3, d4, h4, d5, h5, h6⟩ := h
  have s0 : List.Forall₂ BuddySame d.reps (d.addFilter sstBuddies).reps := List.forall₂_same.mpr fun r _ => buddySame_refl r
  obtain ⟨b1, f1, t1⟩ := bayes_buddyStep h1 means_sst s0 (by decide)
  obtain ⟨b2, f2, t2⟩ := mds_buddyStep h2 (by rw [f1]; exact means_sst) b1.1 (by decide)
  obtain ⟨b3, f3, t3⟩ := bayes_buddyStep h3 means_at b2.1 (by decide)
  obtain ⟨b4, f4, t4⟩ := mds_buddyStep h4 (by rw [f3]; exact means_at) b3.1 (by decide)
  obtain ⟨b5, f5, t5⟩ := mds_buddyStep h5 means_dpt b4.1 (by decide)
  obtain ⟨b6, f6, t6⟩ := mds_buddyStep h6 means_slp b5.1 (by decide)
  refine ⟨by rw [t6]; exact t5.trans (t4.trans (t3.trans (t2.trans t1))), ?_⟩
  have k1 := buddyStep_keeps b6 (buddyStep_keeps b5 (buddyStep_keeps b4 (buddyStep_keeps b3 (buddyStep_keeps b2 b1.2.1
    (by decide)) (by decide)) (by decide)) (by decide)) (by decide)
  have k2 := buddyStep_keeps b6 (buddyStep_keeps b5 (buddyStep_keeps b4 (buddyStep_keeps b3 b2.2.1
    (by decide)) (by decide)) (by decide)) (by decide)
  have k3 := buddyStep_keeps b6 (buddyStep_keeps b5 (buddyStep_keeps b4 b3.2.1 (by decide)) (by decide)) (by decide)
  have k4 := buddyStep_keeps b6 (buddyStep_keeps b5 b4.2.1 (by decide)) (by decide)
  have k5 := buddyStep_keeps b6 b5.2.1 (by decide)
  have k6 := b6.2.1
  have k0 := b6.1
  refine forall2_of_get k0.length_eq.symm fun i r r' hr hr' => ?_
  have pick : ∀ {R : Report → Report → Prop}, List.Forall₂ R d.reps d'.reps → R r r' := by
    intro R hR
    obtain ⟨s, hs, e⟩ := forall2_get hR i r hr
    rw [hr'] at hs
    cases hs
    exact e
  exact ⟨(pick k0).1, (pick k0).2, pick k1, pick k2, pick k3, pick k4, pick k5, pick k6⟩

/-! ## Completion -/

theorem flag_zero {r : Report} {t f : String} (h : r.getQc t f = 0) : r.qc (t ++ f) = some 0 := by
  unfold Report.getQc at h
  split at h
  · rename_i v hv
    rw [hv, h]
  · simp at h

theorem flagIs_zero {r r1 : Report} {k : String} {c : Except Err Int} (h : FlagIs r1 k c) (he : r.qc k = r1.qc k)
    (h0 : r.qc k = some 0) : c = .ok 0 := by
  obtain ⟨v, hc, -, hv⟩ := h
  rw [h0, hv, Option.some.injEq] at he
  rw [hc, ← he]

theorem getanom_some {r : Report} {v : String} (h1 : valueCheck (r.getvar v) = 0) (h2 : noNormalCheck (r.getnorm v) = 0) :
    ∃ x n, r.getvar v = some x ∧ r.getnorm v = some n ∧ r.getanom v = some (x - n) := by
  cases hx : r.getvar v with
  | none => rw [hx] at h1; simp [valueCheck] at h1
  | some x =>
    cases hn : r.getnorm v with
    | none => rw [hn] at h2; simp [noNormalCheck] at h2
    | some n =>
      refine ⟨x, n, rfl, rfl, ?_⟩
      unfold Report.getnorm at hn
      unfold Report.getanom
      split at hn
      · rename_i c hc
        simp only [hc, hx, hn]
      · simp at hn

/-- What the flags of the base checks say about a report that passes the filters of the buddy checks. -/
theorem baseChecked_good {F : Type} [LinearOrder F] [Zero F] {elev : Elev F} {p : BaseParams} {r : Report}
    (h : BaseChecked elev p r) :
    (WellPlaced r → ∀ v, ∃ c, FallsIn c (obsOf v r)) ∧
    (∀ v, v ∈ ["SST", "AT", "DPT", "SLP"] → r.getQc v "noval" = 0 → r.getQc v "nonorm" = 0 →
      ∃ x n, r.getvar v = some x ∧ r.getnorm v = some n ∧ r.getanom v = some (x - n)) ∧
    (r.getQc "SST" "clim" = 0 → climatologyCheck (r.getvar "SST") (r.getnorm "SST") (some p.sstMaxAnomaly) = 0) ∧
    (r.getQc "AT" "clim" = 0 → climatologyCheck (r.getvar "AT") (r.getnorm "AT") (some p.atMaxAnomaly) = 0) := by
  obtain ⟨r0, r1, hb, hd, hcl, hk⟩ := h
  obtain ⟨s, -, ⟨q, hq⟩, hf⟩ := C34_base_flags_partial elev p r0 r1 hb
  have hds : r.data = s.data := by rw [hd, hq]
  have hcs : r.clim = s.clim := by rw [hcl, hq]
  have hgv : ∀ v ∈ VARLIST, s.getvar v = r.getvar v := fun v hv => (getvar_alike hds hv).symm
  have hgn : ∀ v, s.getnorm v = r.getnorm v := fun v => by unfold Report.getnorm; rw [hcs]
  have hgi : ∀ v, s.getint v = r.getint v := fun v => (getint_alike hds v).symm
  obtain ⟨-, -, -, -, hpos, hdate, -, -, -, -, -, -, -, hnv, -, hcm, hnn, -, hnv2, hcm2, hnn2, -, -, hnv3, hnn3, -, -,
    hnv4, -, hnn4, -⟩ := hf
  have zero : ∀ {t f : String} {c : Except Err Int}, FlagIs r1 (t ++ f) c → t ++ f ∈ baseKeys → r.getQc t f = 0 → c = .ok 0 :=
    fun h1 h2 h3 => flagIs_zero h1 (hk _ h2) (flag_zero h3)
  refine ⟨?_, ?_, ?_, ?_⟩
  · rintro ⟨g1, -, g3, -⟩ v
    have hp := zero (t := "POS") (f := "pos") hpos (by decide) g3
    have hdt := zero (t := "POS") (f := "date") hdate (by decide) g1
    rw [hgv _ (by decide), hgv _ (by decide)] at hp
    rw [hgi, hgi, hgi] at hdt
    cases hla : r.getvar "LAT" with
    | none => rw [hla, (C22_position_missing _).1] at hp; simp at hp
    | some la =>
      cases hlo : r.getvar "LON" with
      | none => rw [hlo, (C22_position_missing _).2] at hp; simp at hp
      | some lo =>
        rw [hla, hlo, C22_position] at hp
        have hin : (-90 ≤ la ∧ la ≤ 90) ∧ (-180 ≤ lo ∧ lo ≤ 360) := by
          by_contra hc
          rw [if_neg hc] at hp
          simp at hp
        cases hy : r.getint "YR" with
        | none => rw [hy] at hdt; simp [dateCheck] at hdt
        | some y =>
          cases hm : r.getint "MO" with
          | none => rw [hy, hm] at hdt; simp [dateCheck] at hdt
          | some m =>
            rw [hy, hm] at hdt
            obtain ⟨-, d, hdd, hdate⟩ := C22_date_pass y m _ hdt
            refine (C54_cell (obsOf v r)).1.mpr ?_
            have hlon : ∃ l, r.lon = some l ∧ -180 ≤ l ∧ l ≤ 180 := by
              unfold Report.lon
              rw [hlo]
              simp only
              split
              · rename_i hgt
                exact ⟨_, rfl, by linarith, by linarith⟩
              · rename_i hgt
                exact ⟨_, rfl, by linarith, by linarith⟩
            obtain ⟨l, hl, hl1, hl2⟩ := hlon
            refine ⟨la, l, m, d, hla, hl, hm, hdd, hin.1.1, hin.1.2, hl1, hl2, ?_⟩
            obtain ⟨e1, e2, e3, e4⟩ := hdate
            refine ⟨e1, e2, e3, e4.trans ?_⟩
            have h04 : LeapYear 2004 := by decide
            unfold monthLength
            rw [if_pos h04]
            split
            · split <;> norm_num
            · exact le_refl _
  · intro v hv h1 h2
    simp only [List.mem_cons, List.not_mem_nil, or_false] at hv
    rcases hv with rfl | rfl | rfl | rfl
    · have a := zero (t := "SST") (f := "noval") hnv (by decide) h1
      have b := zero (t := "SST") (f := "nonorm") hnn (by decide) h2
      rw [hgv _ (by decide), Except.ok.injEq] at a
      rw [hgn, Except.ok.injEq] at b
      exact getanom_some a b
    · have a := zero (t := "AT") (f := "noval") hnv2 (by decide) h1
      have b := zero (t := "AT") (f := "nonorm") hnn2 (by decide) h2
      rw [hgv _ (by decide), Except.ok.injEq] at a
      rw [hgn, Except.ok.injEq] at b
      exact getanom_some a b
    · have a := zero (t := "DPT") (f := "noval") hnv3 (by decide) h1
      have b := zero (t := "DPT") (f := "nonorm") hnn3 (by decide) h2
      rw [hgv _ (by decide), Except.ok.injEq] at a
      rw [hgn, Except.ok.injEq] at b
      exact getanom_some a b
    · have a := zero (t := "SLP") (f := "noval") hnv4 (by decide) h1
      have b := zero (t := "SLP") (f := "nonorm") hnn4 (by decide) h2
      rw [hgv _ (by decide), Except.ok.injEq] at a
      rw [hgn, Except.ok.injEq] at b
      exact getanom_some a b
  · intro h1
    have a := zero (t := "SST") (f := "clim") hcm (by decide) h1
    rw [hgv _ (by decide), hgn, Except.ok.injEq] at a
    exact a
  · intro h1
    have a := zero (t := "AT") (f := "clim") hcm2 (by decide) h1
    rw [hgv _ (by decide), hgn, Except.ok.injEq] at a
    exact a

theorem clim_close {x n l : Rat} (h : climatologyCheck (some x) (some n) (some l) = 0) : |x - n| ≤ l := by
  unfold climatologyCheck at h
  simp only at h
  split at h
  · simp at h
  · rename_i hc
    exact not_lt.mp hc

/-- C103: with sound parameters and readable fields the buddy checks complete for every month of reports that have been
through the base checks. -/
theorem C103_completes {F : Type} [LinearOrder F] [Zero F] (elev : Elev F) (p : BaseParams) (span : Int → Nat → Int)
    (B : BuddyInputs) (hB : SoundBuddies p B) (d : Deck) (hd : ∀ r ∈ d.reps, BaseChecked elev p r) :
    ∃ d', buddyStage erf span B d = .ok d' := by
  have back : ∀ {m : List Report}, List.Forall₂ BuddySame d.reps m → ∀ s ∈ m, ∃ r ∈ d.reps, BuddySame r s := by
    intro m hm s hs
    obtain ⟨i, hi⟩ := List.mem_iff_getElem?.mp hs
    obtain ⟨r, hr, e⟩ := forall2_get hm.flip i s hi
    exact ⟨r, List.mem_of_getElem? hr, e⟩
  have mds : ∀ {e : Deck} {v : String} {field : StdevField} {P : BuddyParams} {E : Report → Prop},
      Means e.filter E → List.Forall₂ BuddySame d.reps e.reps → v ∈ ["SST", "AT", "DPT", "SLP"] → UsableParams P →
      Readable field → (∀ r, E r → WellPlaced r ∧ r.getQc v "noval" = 0 ∧ r.getQc v "nonorm" = 0) →
      ∃ e', mdsBuddyCheck span e v field P = .ok e' := by
    intro e v field P E hm hs hv hP hf hE
    refine C56_mds_completes span e v field P hv hP hf fun s hs' hp => ?_
    obtain ⟨r, hr, hrs⟩ := back hs s hs'
    obtain ⟨w, n1, n2⟩ := hE r ((passes_same hm hrs).mp hp)
    obtain ⟨g1, g2, -⟩ := baseChecked_good (hd r hr)
    obtain ⟨x, n, -, -, ha⟩ := g2 v hv n1 n2
    rw [buddySame_obs hrs, buddySame_anom hrs, ha]
    exact ⟨g1 w v, by simp⟩
  have bayes : ∀ {e : Deck} {v : String} {P : BayesParams} {top : Rat} {E : Report → Prop},
      Means e.filter E → List.Forall₂ BuddySame d.reps e.reps → v ∈ ["SST", "AT"] → SoundBayes P top →
      (∀ r, E r → WellPlaced r ∧ r.getQc v "noval" = 0 ∧ r.getQc v "nonorm" = 0) →
      (∀ r ∈ d.reps, E r → climatologyCheck (r.getvar v) (r.getnorm v) (some top) = 0) →
      ∃ e', bayesianBuddyCheck erf span e v B.sst1 B.sst2 B.sst3 P = .ok e' := by
    intro e v P top E hm hs hv hP hE hc
    refine C56_bayes_completes span e v _ _ _ P hv hP.prior hP.quantum (hP.limit ▸ hP.limit_pos) hP.sigma hP.noise hP.radius
      hB.sst1 hB.sst2 hB.sst3 fun s hs' hp => ?_
    obtain ⟨r, hr, hrs⟩ := back hs s hs'
    have hEr := (passes_same hm hrs).mp hp
    obtain ⟨w, n1, n2⟩ := hE r hEr
    obtain ⟨g1, g2, -⟩ := baseChecked_good (hd r hr)
    obtain ⟨x, n, hx, hn, ha⟩ := g2 v (by simp only [List.mem_cons, List.not_mem_nil, or_false] at hv ⊢; tauto) n1 n2
    rw [buddySame_obs hrs, buddySame_anom hrs, ha]
    refine ⟨g1 w v, _, rfl, ?_⟩
    have := hc r hr hEr
    rw [hx, hn] at this
    rw [hP.limit]
    exact clim_close this
  have s0 : List.Forall₂ BuddySame d.reps (d.addFilter sstBuddies).reps := List.forall₂_same.mpr fun r _ => buddySame_refl r
  have sstE : ∀ r, SstBuddy r → WellPlaced r ∧ r.getQc "SST" "noval" = 0 ∧ r.getQc "SST" "nonorm" = 0 :=
    fun r h => ⟨h.1, h.2.2.1, h.2.2.2.2.2⟩
  have atE : ∀ r, AtBuddy r → WellPlaced r ∧ r.getQc "AT" "noval" = 0 ∧ r.getQc "AT" "nonorm" = 0 :=
    fun r h => ⟨h.1, h.2.2.2.2.1, h.2.2.2.2.2.2⟩
  obtain ⟨d1, h1⟩ := bayes (v := "SST") (e := d.addFilter sstBuddies) means_sst s0 (by decide) hB.sstBayes sstE
    fun r hr hE => (baseChecked_good (hd r hr)).2.2.1 hE.2.2.2.2.1
  obtain ⟨b1, f1, -⟩ := bayes_buddyStep h1 means_sst s0 (by decide)
  have m1 : Means d1.filter SstBuddy := by rw [f1]; exact means_sst
  obtain ⟨d2, h2⟩ := mds (v := "SST") m1 b1.1 (by decide) hB.mds hB.pentad sstE
  obtain ⟨b2, f2, -⟩ := mds_buddyStep h2 m1 b1.1 (by decide)
  obtain ⟨d3, h3⟩ := bayes (v := "AT") (e := d2.addFilter atBuddies) means_at b2.1 (by decide) hB.atBayes atE
    fun r hr hE => (baseChecked_good (hd r hr)).2.2.2 hE.2.2.2.2.2.1
  obtain ⟨b3, f3, -⟩ := bayes_buddyStep h3 means_at b2.1 (by decide)
  have m3 : Means d3.filter AtBuddy := by rw [f3]; exact means_at
  obtain ⟨d4, h4⟩ := mds (v := "AT") m3 b3.1 (by decide) hB.mds hB.pentad atE
  obtain ⟨b4, f4, -⟩ := mds_buddyStep h4 m3 b3.1 (by decide)
  obtain ⟨d5, h5⟩ := mds (v := "DPT") (e := d4.addFilter dptBuddies) means_dpt b4.1 (by decide) hB.mds hB.dpt
    fun r h => ⟨h.1, h.2.2.1, h.2.2.2.2⟩
  obtain ⟨b5, f5, -⟩ := mds_buddyStep h5 means_dpt b4.1 (by decide)
  obtain ⟨d6, h6⟩ := mds (v := "SLP") (e := d5.addFilter slpBuddies) means_slp b5.1 (by decide) hB.slpMds hB.slp
    fun r h => ⟨h.1, h.2.1, h.2.2.2⟩
  refine ⟨d6, ?_⟩
  unfold buddyStage
  rw [h1, except_bind_ok, h2, except_bind_ok, h3, except_bind_ok, h4, except_bind_ok, h5, except_bind_ok, h6]

/-! ## A sample -/

/-- A report with a sea temperature, its climatology and the flag of the track check, for examples. -/
def buddyStart : Report :=
  { buddyReport (99 / 2) (7 / 2) 2 with
    qc := fun k => if k = "POStrk" then some 0 else none }

/-- The report after the base checks. -/
def buddyChecked : Report :=
  match buddyStart.performBaseQc (fun _ _ _ _ _ _ => (1 : Rat)) sampleParams with
  | .ok r => r
  | .error _ => buddyStart

/-- Inputs like those of the program. -/
def sampleBuddies : BuddyInputs where
  sst1 _ _ _ _ := .ok (some 1)
  sst2 _ _ _ _ := .ok (some 1)
  sst3 _ _ _ _ := .ok (some 1)
  pentad _ _ _ _ := .ok (some (1 / 2))
  dpt _ _ _ _ := .ok none
  slp _ _ _ _ := .ok none
  sstBayes := ⟨1 / 20, 1 / 10, 1, 8, [2, 2, 4], 3⟩
  atBayes := ⟨1 / 20, 1 / 10, 1, 10, [2, 2, 4], 3⟩
  mds := fixedParams
  slpMds := fixedParams

/-- The base checks of the sample report complete. -/
theorem buddyChecked_ok : buddyStart.performBaseQc (fun _ _ _ _ _ _ => (1 : Rat)) sampleParams = .ok buddyChecked := by
  have h : (match buddyStart.performBaseQc (fun _ _ _ _ _ _ => (1 : Rat)) sampleParams with
    | .ok _ => true | .error _ => false) = true := by decide +kernel
  unfold buddyChecked
  split at h
  · rename_i r hr
    rw [hr]
  · simp at h

theorem sampleBuddies_sound : SoundBuddies sampleParams sampleBuddies := by
  have ok : ∀ f : StdevField, (∀ lat lon m d, ∃ x, f lat lon m d = .ok x) → Readable f := fun f h lat lon m d _ _ _ _ _ => h lat lon m d
  refine ⟨ok _ fun _ _ _ _ => ⟨_, rfl⟩, ok _ fun _ _ _ _ => ⟨_, rfl⟩, ok _ fun _ _ _ _ => ⟨_, rfl⟩, ok _ fun _ _ _ _ => ⟨_, rfl⟩,
    ok _ fun _ _ _ _ => ⟨_, rfl⟩, ok _ fun _ _ _ _ => ⟨_, rfl⟩, ?_, ?_, fixedParams_usable, fixedParams_usable⟩ <;>
  constructor <;> norm_num [sampleBuddies, sampleParams]

/-- Non-vacuity of C102 and C103: the buddy checks complete for a report whose sea temperature is compared with others and
whose air temperature is not. -/
example : SoundBuddies sampleParams sampleBuddies ∧
    (∀ r ∈ (Deck.empty.ofReports [buddyChecked]).reps, BaseChecked (fun _ _ _ _ _ _ => (1 : Rat)) sampleParams r) ∧
    SstBuddy buddyChecked ∧ ¬ AtBuddy buddyChecked ∧
    ∃ d', buddyStage erf fullXspan sampleBuddies (Deck.empty.ofReports [buddyChecked]) = .ok d' := by
  have hB := sampleBuddies_sound
  have hd : ∀ r ∈ (Deck.empty.ofReports [buddyChecked]).reps,
      BaseChecked (fun _ _ _ _ _ _ => (1 : Rat)) sampleParams r := by
    intro r hr
    rw [ofReports_reps] at hr
    simp only [Deck.empty, List.nil_append, List.mem_singleton] at hr
    subst hr
    exact ⟨buddyStart, buddyChecked, buddyChecked_ok, rfl, rfl, fun _ _ => rfl⟩
  refine ⟨hB, hd, ?_, ?_, C103_completes _ _ _ _ hB _ hd⟩
  · unfold SstBuddy WellPlaced
    decide +kernel
  · unfold AtBuddy WellPlaced
    decide +kernel

end MarineQC
