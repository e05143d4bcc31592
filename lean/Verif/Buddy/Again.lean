import Verif.Buddy.Check
import Verif.Report.BaseQc

/-!
# C147: buddy checks may be repeated and run in any order
-/

namespace MarineQC

/-- A call of one of the two buddy checks of a deck: `mds_buddy_check` (Extended_IMMA.py:2991-3046) or
`bayesian_buddy_check` (3048-3116), with its arguments. -/
inductive BuddyCall where
  | mds (v : String) (field : StdevField) (P : BuddyParams)
  | bayes (v : String) (f1 f2 f3 : StdevField) (P : BayesParams)

/-- The call made on a deck (Extended_IMMA.py:2991 and 3048). -/
noncomputable def BuddyCall.perform (erf : ℝ → ℝ) (span : Int → Nat → Int) : BuddyCall → Deck → Except Err Deck
  | .mds v field P, d => mdsBuddyCheck span d v field P
  | .bayes v f1 f2 f3 P, d => bayesianBuddyCheck erf span d v f1 f2 f3 P

namespace Spec

/-- The flag a buddy check sets: `bud` or `bbud` of its variable. -/
def buddyFlag : BuddyCall → String
  | .mds v _ _ => v ++ "bud"
  | .bayes v _ _ _ _ => v ++ "bbud"

/-- The filter of the deck does not ask for a flag. -/
def NotAsked (d : Deck) (k : String) : Prop := ∀ t ∈ d.filter, t.1 ++ t.2.1 ≠ k

/-- A deck that has the same reports as `d`, but for the values of the flags in `ks`. -/
def LikeBut (ks : List String) (d d' : Deck) : Prop :=
  d'.filter = d.filter ∧ d'.idtracker = d.idtracker ∧
    List.Forall₂ (fun r r' : Report => r' = { r with qc := r'.qc } ∧ ∀ k ∉ ks, r'.qc k = r.qc k) d.reps d'.reps

end Spec

open Spec

/-- The flag under a key set to a value. -/
def putFlag (key : String) (r : Report) (x : Int) : Report :=
  { r with qc := fun k => if k = key then some x else r.qc k }

theorem setQc_putFlag {r r' : Report} {t f : String} {x : Int} (h : r.setQc t f x = .ok r') :
    r' = putFlag (t ++ f) r x ∧ ∀ s : Report, s.setQc t f x = .ok (putFlag (t ++ f) s x) := by
  unfold Report.setQc at h ⊢
  obtain ⟨_, h1, h⟩ := bind_ok_iff.mp h
  obtain ⟨_, h2, h⟩ := bind_ok_iff.mp h
  injection h with h
  exact ⟨h.symm, fun s => bind_ok_iff.mpr ⟨_, h1, bind_ok_iff.mpr ⟨_, h2, rfl⟩⟩⟩

/-- Reports alike but for some flags the filter does not ask for. -/
def Kin (q : QcFilter) (r s : Report) : Prop :=
  (∃ c, s = { r with qc := c }) ∧ ∀ t ∈ q, s.qc (t.1 ++ t.2.1) = r.qc (t.1 ++ t.2.1)

theorem testReport_kin {q : QcFilter} {r s : Report} (h : Kin q r s) : q.testReport s = q.testReport r := by
  unfold QcFilter.testReport
  refine List.foldl_ext _ _ _ fun x t ht => ?_
  have : s.getQc t.1 t.2.1 = r.getQc t.1 t.2.1 := by
    unfold Report.getQc
    rw [h.2 t ht]
  rw [this]

theorem gridReports_kin {q : QcFilter} (v : String) {l l' : List Report} (h : List.Forall₂ (Kin q) l l') :
    gridReports q v l' = gridReports q v l := by
  unfold gridReports
  congr 1
  generalize SuperOb.empty = g
  induction h generalizing g with
  | nil => rfl
  | cons h _ ih =>
    rw [List.foldlM_cons, List.foldlM_cons, testReport_kin h]
    obtain ⟨⟨c, rfl⟩, -⟩ := h
    exact congrArg _ (funext fun g => ih g)

/-- A routine that sets one flag of a report, without looking at flags the filter does not ask for. -/
def SetsFlag (q : QcFilter) (key : String) (f : Report → Except Err Report) : Prop :=
  ∀ r r' : Report, f r = .ok r' → ∃ x, r' = putFlag key r x ∧ ∀ s, Kin q r s → f s = .ok (putFlag key s x)

theorem mdsBuddyFlag_sets (q : QcFilter) (v : String) (lim : Cell → Rat × Rat) :
    SetsFlag q (v ++ "bud") (mdsBuddyFlag q v lim) := by
  intro r r' h
  unfold mdsBuddyFlag at h
  split at h
  · rename_i hc
    obtain ⟨l, hl, h⟩ := bind_ok_iff.mp h
    split at h
    · rename_i x hx
      obtain ⟨e, hs⟩ := setQc_putFlag h
      refine ⟨_, e, fun s hk => ?_⟩
      unfold mdsBuddyFlag
      rw [testReport_kin hk, if_pos hc]
      obtain ⟨⟨c, rfl⟩, -⟩ := hk
      refine bind_ok_iff.mpr ⟨l, hl, ?_⟩
      rw [show ({ r with qc := c } : Report).getanom v = some x from hx]
      exact hs _
    · cases h
  · rename_i hc
    obtain ⟨e, hs⟩ := setQc_putFlag h
    refine ⟨_, e, fun s hk => ?_⟩
    unfold mdsBuddyFlag
    rw [testReport_kin hk, if_neg hc]
    exact hs _

theorem bayesBuddyFlag_sets (erf : ℝ → ℝ) (q : QcFilter) (v : String) (P : BayesParams) (lim : Cell → ℝ × ℝ) :
    SetsFlag q (v ++ "bbud") (bayesBuddyFlag erf q v P lim) := by
  intro r r' h
  unfold bayesBuddyFlag at h
  split at h
  · rename_i hc
    obtain ⟨l, hl, h⟩ := bind_ok_iff.mp h
    split at h
    · rename_i x hx
      obtain ⟨p, hp, h⟩ := bind_ok_iff.mp h
      obtain ⟨e, hs⟩ := setQc_putFlag h
      refine ⟨_, e, fun s hk => ?_⟩
      unfold bayesBuddyFlag
      rw [testReport_kin hk, if_pos hc]
      obtain ⟨⟨c, rfl⟩, -⟩ := hk
      refine bind_ok_iff.mpr ⟨l, hl, ?_⟩
      rw [show ({ r with qc := c } : Report).getanom v = some x from hx]
      exact bind_ok_iff.mpr ⟨p, hp, hs _⟩
    · cases h
  · rename_i hc
    obtain ⟨e, hs⟩ := setQc_putFlag h
    refine ⟨_, e, fun s hk => ?_⟩
    unfold bayesBuddyFlag
    rw [testReport_kin hk, if_neg hc]
    exact hs _

theorem mapM_sets {q : QcFilter} {key : String} {f : Report → Except Err Report} (hf : SetsFlag q key f)
    (l m : List Report) (h : l.mapM f = .ok m) :
    ∃ xs : List Int, xs.length = l.length ∧ m = List.zipWith (putFlag key) l xs ∧
      ∀ l', List.Forall₂ (Kin q) l l' → l'.mapM f = .ok (List.zipWith (putFlag key) l' xs) := by
  induction l generalizing m with
  | nil =>
    simp only [List.mapM_nil] at h
    injection h with h
    refine ⟨[], rfl, h.symm, fun l' hl => ?_⟩
    cases hl
    rfl
  | cons r l ih =>
    rw [List.mapM_cons] at h
    obtain ⟨r', hr, h⟩ := bind_ok_iff.mp h
    obtain ⟨m', hm, h⟩ := bind_ok_iff.mp h
    injection h with h
    obtain ⟨xs, hx, e, hl⟩ := ih m' hm
    obtain ⟨x, e', hs⟩ := hf r r' hr
    refine ⟨x :: xs, by simp [hx], ?_, fun l' hl' => ?_⟩
    · rw [← h, e', e]; rfl
    · cases hl' with
      | cons h1 h2 =>
        rw [List.mapM_cons]
        exact bind_ok_iff.mpr ⟨_, hs _ h1, bind_ok_iff.mpr ⟨_, hl _ h2, rfl⟩⟩

/-- What a call does to the reports, and that it does the same to reports alike. -/
theorem perform_sets (erf : ℝ → ℝ) (span : Int → Nat → Int) (c : BuddyCall) (d e : Deck)
    (h : c.perform erf span d = .ok e) :
    ∃ xs : List Int, xs.length = d.reps.length ∧
      e = { d with reps := List.zipWith (putFlag (buddyFlag c)) d.reps xs } ∧
      ∀ l', List.Forall₂ (Kin d.filter) d.reps l' →
        c.perform erf span { d with reps := l' } =
          .ok { d with reps := List.zipWith (putFlag (buddyFlag c)) l' xs } := by
  cases c with
  | mds v field P =>
    unfold BuddyCall.perform mdsBuddyCheck at h
    obtain ⟨_, h0, h⟩ := bind_ok_iff.mp h
    obtain ⟨g, hg, h⟩ := bind_ok_iff.mp h
    obtain ⟨lim, hlim, h⟩ := bind_ok_iff.mp h
    obtain ⟨m, hm, h⟩ := bind_ok_iff.mp h
    injection h with h
    obtain ⟨xs, hx, e1, hl⟩ := mapM_sets (mdsBuddyFlag_sets _ _ _) _ _ hm
    refine ⟨xs, hx, by rw [← h, e1]; rfl, fun l' hl' => ?_⟩
    exact bind_ok_iff.mpr ⟨_, h0, bind_ok_iff.mpr ⟨g, (gridReports_kin v hl').trans hg, bind_ok_iff.mpr ⟨lim, hlim,
      bind_ok_iff.mpr ⟨_, hl l' hl', rfl⟩⟩⟩⟩
  | bayes v f1 f2 f3 P =>
    unfold BuddyCall.perform bayesianBuddyCheck at h
    obtain ⟨_, h0, h⟩ := bind_ok_iff.mp h
    obtain ⟨g, hg, h⟩ := bind_ok_iff.mp h
    obtain ⟨lim, hlim, h⟩ := bind_ok_iff.mp h
    obtain ⟨m, hm, h⟩ := bind_ok_iff.mp h
    injection h with h
    obtain ⟨xs, hx, e1, hl⟩ := mapM_sets (bayesBuddyFlag_sets _ _ _ _ _) _ _ hm
    refine ⟨xs, hx, by rw [← h, e1]; rfl, fun l' hl' => ?_⟩
    exact bind_ok_iff.mpr ⟨_, h0, bind_ok_iff.mpr ⟨g, (gridReports_kin v hl').trans hg, bind_ok_iff.mpr ⟨lim, hlim,
      bind_ok_iff.mpr ⟨_, hl l' hl', rfl⟩⟩⟩⟩

theorem kin_put {q : QcFilter} {key : String} (hq : ∀ t ∈ q, t.1 ++ t.2.1 ≠ key) (l : List Report) (xs : List Int)
    (hx : xs.length = l.length) : List.Forall₂ (Kin q) l (List.zipWith (putFlag key) l xs) := by
  induction l generalizing xs with
  | nil => cases xs <;> constructor
  | cons r l ih =>
    cases xs with
    | nil => cases hx
    | cons x xs =>
      refine List.Forall₂.cons ⟨⟨_, rfl⟩, fun t ht => ?_⟩ (ih xs (by simpa using hx))
      exact if_neg (hq t ht)

theorem Kin.symm {q : QcFilter} {r s : Report} (h : Kin q r s) : Kin q s r := by
  obtain ⟨⟨c, rfl⟩, h⟩ := h
  exact ⟨⟨r.qc, rfl⟩, fun t ht => (h t ht).symm⟩

theorem putFlags_again (key : String) (l : List Report) (xs ys : List Int) (hy : ys.length = xs.length) :
    List.zipWith (putFlag key) (List.zipWith (putFlag key) l xs) ys = List.zipWith (putFlag key) l ys := by
  induction l generalizing xs ys with
  | nil => simp
  | cons r l ih =>
    cases xs with
    | nil => cases ys with
      | nil => rfl
      | cons y ys => cases hy
    | cons x xs => cases ys with
      | nil => cases hy
      | cons y ys =>
        simp only [List.zipWith_cons_cons]
        rw [ih xs ys (by simpa using hy)]
        congr 1
        unfold putFlag
        simp only [Report.mk.injEq, true_and, and_true]
        funext k
        split <;> rfl

theorem putFlags_comm {key key' : String} (hk : key ≠ key') (l : List Report) (xs ys : List Int) :
    List.zipWith (putFlag key) (List.zipWith (putFlag key') l xs) ys =
      List.zipWith (putFlag key') (List.zipWith (putFlag key) l ys) xs := by
  induction l generalizing xs ys with
  | nil => simp
  | cons r l ih =>
    cases xs with
    | nil => simp
    | cons x xs => cases ys with
      | nil => simp
      | cons y ys =>
        simp only [List.zipWith_cons_cons]
        rw [ih xs ys]
        congr 1
        unfold putFlag
        simp only [Report.mk.injEq, true_and, and_true]
        funext k
        by_cases h1 : k = key
        · rw [if_pos h1, if_neg (fun h2 => hk (h1.symm.trans h2)), if_pos h1]
        · rw [if_neg h1, if_neg h1]

/-- C147: what a buddy check finds does not depend on flags the deck's filter does not ask for, in particular not on
the outcome of earlier buddy checks.  Of two decks alike but for such flags, if the first is checked without an error,
so is the second; every report gets the same value of the flag the check sets, and keeps all else. -/
theorem C147_blind (erf : ℝ → ℝ) (span : Int → Nat → Int) (c : BuddyCall) (ks : List String) (d d' e : Deck)
    (hks : ∀ k ∈ ks, NotAsked d k) (hd : LikeBut ks d d') (h : c.perform erf span d = .ok e) :
    ∃ e', c.perform erf span d' = .ok e' ∧ e'.filter = d'.filter ∧ e'.idtracker = d'.idtracker ∧
      e'.reps.length = d'.reps.length ∧
      ∀ (i : Nat) (r s t : Report), e.reps[i]? = some r → d'.reps[i]? = some s → e'.reps[i]? = some t →
        t = { s with qc := t.qc } ∧ t.qc (buddyFlag c) = r.qc (buddyFlag c) ∧
        ∀ k, k ≠ buddyFlag c → t.qc k = s.qc k := by
  obtain ⟨xs, hx, e1, hl⟩ := perform_sets erf span c d e h
  obtain ⟨hf, hi, hr⟩ := hd
  have hkin : List.Forall₂ (Kin d.filter) d.reps d'.reps := by
    refine hr.imp fun r s hrs => ⟨⟨_, hrs.1⟩, fun t ht => hrs.2 _ fun hm => ?_⟩
    exact hks _ hm t ht rfl
  have h2 := hl _ hkin
  have hd' : ({ d with reps := d'.reps } : Deck) = d' := by
    cases d'
    simp only at hf hi
    rw [hf, hi]
  rw [hd'] at h2
  refine ⟨_, h2, hf.symm, hi.symm, ?_, ?_⟩
  · simp [List.length_zipWith, hx, hr.length_eq]
  · intro i r s t h3 h4 h5
    rw [e1] at h3
    simp only [List.getElem?_zipWith] at h3 h5
    rw [h4] at h5
    cases hxi : xs[i]? with
    | none => rw [hxi] at h5; simp at h5
    | some x =>
      rw [hxi] at h3 h5
      cases hri : d.reps[i]? with
      | none => rw [hri] at h3; simp at h3
      | some r0 =>
        rw [hri] at h3
        simp only [Option.some.injEq] at h3 h5
        subst h3 h5
        exact ⟨rfl, by simp [putFlag], fun k hk => if_neg hk⟩

/-- C147: repeating a buddy check changes nothing, if the filter does not ask for its own flag. -/
theorem C147_twice (erf : ℝ → ℝ) (span : Int → Nat → Int) (c : BuddyCall) (d e : Deck)
    (hc : NotAsked d (buddyFlag c)) (h : c.perform erf span d = .ok e) : c.perform erf span e = .ok e := by
  obtain ⟨xs, hx, e1, hl⟩ := perform_sets erf span c d e h
  have h2 := hl _ (kin_put hc d.reps xs hx)
  rw [putFlags_again _ _ _ _ rfl, ← e1] at h2
  exact h2

/-- C147: two buddy checks that set different flags give the same in either order, if the filter asks for neither. -/
theorem C147_order (erf : ℝ → ℝ) (span : Int → Nat → Int) (a b : BuddyCall) (d e f : Deck)
    (hab : buddyFlag a ≠ buddyFlag b) (ha : NotAsked d (buddyFlag a)) (hb : NotAsked d (buddyFlag b))
    (h1 : a.perform erf span d = .ok e) (h2 : b.perform erf span e = .ok f) :
    ∃ g, b.perform erf span d = .ok g ∧ a.perform erf span g = .ok f := by
  obtain ⟨xs, hx, e1, hl⟩ := perform_sets erf span a d e h1
  obtain ⟨ys, hy, e2, hm⟩ := perform_sets erf span b e f h2
  have hf : e.filter = d.filter := by rw [e1]
  have hlen : ys.length = d.reps.length := by rw [hy, e1]; simp [hx]
  have hk := kin_put ha d.reps xs hx
  have h3 := hm d.reps (by
    rw [hf, e1]
    exact (hk.flip).imp fun r s h => Kin.symm (q := d.filter) h)
  have h4 : ({ e with reps := d.reps } : Deck) = d := by rw [e1]
  rw [h4] at h3
  refine ⟨_, h3, ?_⟩
  have h5 := hl _ (kin_put hb d.reps ys hlen)
  rw [e1]
  refine h5.trans ?_
  rw [e2, e1, putFlags_comm hab]

/-- Non-vacuity of C147: on the sample deck both checks complete, one after the other, and its filter asks for
neither flag. -/
example : ∃ a b : BuddyCall, buddyFlag a ≠ buddyFlag b ∧ NotAsked buddyDeck (buddyFlag a) ∧
    NotAsked buddyDeck (buddyFlag b) ∧ ∃ e f, a.perform erf fullXspan buddyDeck = .ok e ∧
      b.perform erf fullXspan e = .ok f := by
  have hm : ∃ d', mdsBuddyCheck fullXspan buddyDeck "SST" (fun _ _ _ _ => .ok (some (1 / 2))) fixedParams = .ok d' := by
    refine C56_mds_completes _ _ _ _ _ (by simp) fixedParams_usable (fun _ _ _ _ _ _ _ _ _ => ⟨_, rfl⟩) fun r hr hp => ?_
    obtain ⟨h1, a, h2, -⟩ := buddyDeck_reports r hr hp
    exact ⟨h1, by rw [h2]; simp⟩
  have hb : ∃ d', bayesianBuddyCheck erf fullXspan buddyDeck "SST" (fun _ _ _ _ => .ok none) (fun _ _ _ _ => .ok none)
      (fun _ _ _ _ => .ok none) ⟨1 / 20, 1 / 10, 1, 8, [2, 2, 4], 3⟩ = .ok d' :=
    C56_bayes_completes _ _ _ _ _ _ _ (by simp) (by norm_num) (by norm_num) (by norm_num) (by norm_num)
      (by norm_num) rfl (fun _ _ _ _ _ _ _ _ _ => ⟨_, rfl⟩) (fun _ _ _ _ _ _ _ _ _ => ⟨_, rfl⟩)
      (fun _ _ _ _ _ _ _ _ _ => ⟨_, rfl⟩) buddyDeck_reports
  obtain ⟨e, hm⟩ := hm
  obtain ⟨f, hb⟩ := hb
  have hn : NotAsked buddyDeck "SSTbud" := by
    intro t ht
    have : t = ("POS", "date", 0) := by simpa [buddyDeck] using ht
    subst this
    decide
  refine ⟨.mds "SST" (fun _ _ _ _ => .ok (some (1 / 2))) fixedParams, .bayes "SST" (fun _ _ _ _ => .ok none)
    (fun _ _ _ _ => .ok none) (fun _ _ _ _ => .ok none) ⟨1 / 20, 1 / 10, 1, 8, [2, 2, 4], 3⟩,
    (by decide : "SST" ++ "bud" ≠ "SST" ++ "bbud"), hn, ?_, e, ?_⟩
  · intro t ht
    have : t = ("POS", "date", 0) := by simpa [buddyDeck] using ht
    subst this
    exact (by decide : "POS" ++ "date" ≠ "SST" ++ "bbud")
  · obtain ⟨xs, hx, e1, -⟩ := perform_sets erf fullXspan (.mds "SST" _ _) buddyDeck e hm
    obtain ⟨_, -, -, hl⟩ := perform_sets erf fullXspan (.bayes "SST" _ _ _ _) buddyDeck f hb
    have := hl _ (kin_put hn buddyDeck.reps xs hx)
    exact ⟨_, hm, (congrArg _ e1).trans this⟩

end MarineQC
