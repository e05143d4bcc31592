import Verif.Base.Model
import Verif.Tracking.Pass

/-!
# C99: every platform is checked on its own
-/

namespace MarineQC

open Spec

/-! ## Putting checked reports back in their places -/

/-- The reports with the chosen ones replaced, in order, by those of the second list. -/
def refill (keep : Report → Bool) : List Report → List Report → List Report
  | [], _ => []
  | r :: rs, w =>
    if keep r then
      match w with
      | [] => r :: refill keep rs []
      | x :: w => x :: refill keep rs w
    else r :: refill keep rs w

theorem refill_nil (keep : Report → Bool) (reps : List Report) : refill keep reps [] = reps := by
  induction reps with
  | nil => rfl
  | cons r rs ih => unfold refill; split <;> simp [ih]

theorem refill_keep {keep : Report → Bool} {r : Report} (h : keep r = true) (rs : List Report) (x : Report) (w : List Report) :
    refill keep (r :: rs) (x :: w) = x :: refill keep rs w := by
  rw [refill.eq_def]
  simp only [h, if_true]

theorem refill_skip {keep : Report → Bool} {r : Report} (h : ¬ keep r = true) (rs w : List Report) :
    refill keep (r :: rs) w = r :: refill keep rs w := by
  rw [refill.eq_def]
  simp only [h, if_false]
  rfl

theorem storeBack_refill_from (keep : Report → Bool) (reps : List Report) : ∀ (pre w : List Report),
    storeBack (pre ++ reps) (w.zip (((reps.zipIdx pre.length).filter fun p => keep p.1).map (·.2)))
      = pre ++ refill keep reps w := by
  induction reps with
  | nil => intro pre w; simp [storeBack, refill]
  | cons r rs ih =>
    intro pre w
    have hz : (r :: rs).zipIdx pre.length = (r, pre.length) :: rs.zipIdx (pre.length + 1) := rfl
    rw [hz]
    by_cases hk : keep r = true
    · rw [List.filter_cons_of_pos (by simpa using hk), List.map_cons]
      cases w with
      | nil => rw [List.zip_nil_left, refill_nil]; rfl
      | cons x w =>
        rw [List.zip_cons_cons, refill_keep hk]
        have := ih (pre ++ [x]) w
        rw [List.length_append, List.length_singleton] at this
        show storeBack ((pre ++ r :: rs).set pre.length x) _ = _
        rw [List.set_append_right _ _ (le_refl _), Nat.sub_self, List.set_cons_zero]
        rw [List.append_assoc, List.append_assoc] at this
        simpa using this
    · rw [List.filter_cons_of_neg (by simpa using hk), refill_skip hk]
      have := ih (pre ++ [r]) w
      rw [List.length_append, List.length_singleton] at this
      simpa using this

theorem storeBack_refill (keep : Report → Bool) (reps w : List Report) :
    storeBack reps (w.zip ((reps.zipIdx.filter fun p => keep p.1).map (·.2))) = refill keep reps w := by
  simpa using storeBack_refill_from keep reps [] w

/-- The reports of a platform that pass a filter. -/
def chosenFor (q : QcFilter) (i : Option String) (r : Report) : Bool := decide (r.id = i ∧ Passes q r)

/-- The reports of a platform. -/
def ofId (i : Option String) (r : Report) : Bool := decide (r.id = i)

theorem chosenFor_id {q : QcFilter} {i : Option String} {r : Report} (h : chosenFor q i r = true) : r.id = i := by
  unfold chosenFor at h
  exact (of_decide_eq_true h).1

theorem refill_ids {q : QcFilter} {i : Option String} (reps : List Report) : ∀ w : List Report, (∀ x ∈ w, x.id = i) →
    (refill (chosenFor q i) reps w).map Report.id = reps.map Report.id := by
  induction reps with
  | nil => intro w _; rfl
  | cons r rs ih =>
    intro w hw
    by_cases hk : chosenFor q i r = true
    · cases w with
      | nil => rw [refill_nil]
      | cons x w =>
        rw [refill_keep hk, List.map_cons, List.map_cons, ih w (fun y hy => hw y (by simp [hy])), hw x (by simp),
          chosenFor_id hk]
    · rw [refill_skip hk, List.map_cons, List.map_cons, ih w hw]

theorem refill_other {q : QcFilter} {i j : Option String} (hij : j ≠ i) (reps : List Report) : ∀ w : List Report,
    (∀ x ∈ w, x.id = i) → (refill (chosenFor q i) reps w).filter (ofId j) = reps.filter (ofId j) := by
  have hne : ∀ r : Report, r.id = i → ¬ ofId j r = true := by
    intro r h hc
    exact hij ((of_decide_eq_true hc).symm.trans h)
  induction reps with
  | nil => intro w _; rfl
  | cons r rs ih =>
    intro w hw
    by_cases hk : chosenFor q i r = true
    · cases w with
      | nil => rw [refill_nil]
      | cons x w =>
        rw [refill_keep hk, List.filter_cons_of_neg (hne x (hw x (by simp))),
          List.filter_cons_of_neg (hne r (chosenFor_id hk)), ih w (fun y hy => hw y (by simp [hy]))]
    · rw [refill_skip hk]
      by_cases hj : ofId j r = true
      · rw [List.filter_cons_of_pos hj, List.filter_cons_of_pos hj, ih w hw]
      · rw [List.filter_cons_of_neg hj, List.filter_cons_of_neg hj, ih w hw]

theorem refill_same {q : QcFilter} {i : Option String} (reps : List Report) : ∀ w : List Report, (∀ x ∈ w, x.id = i) →
    (refill (chosenFor q i) reps w).filter (ofId i) = refill (chosenFor q i) (reps.filter (ofId i)) w := by
  induction reps with
  | nil => intro w _; rfl
  | cons r rs ih =>
    intro w hw
    by_cases hk : chosenFor q i r = true
    · have hi : ofId i r = true := decide_eq_true (chosenFor_id hk)
      cases w with
      | nil => rw [refill_nil, refill_nil]
      | cons x w =>
        have hx : ofId i x = true := decide_eq_true (hw x (by simp))
        rw [refill_keep hk, List.filter_cons_of_pos hx, List.filter_cons_of_pos hi, refill_keep hk,
          ih w (fun y hy => hw y (by simp [hy]))]
    · rw [refill_skip hk]
      by_cases hj : ofId i r = true
      · rw [List.filter_cons_of_pos hj, List.filter_cons_of_pos hj, refill_skip hk, ih w hw]
      · rw [List.filter_cons_of_neg hj, List.filter_cons_of_neg hj, ih w hw]

/-! ## One round -/

/-- The check leaves the number and the identifiers of the reports alone. -/
def KeepsIds (check : List Report → Except Err (List Report)) : Prop :=
  ∀ v v', check v = .ok v' → v'.map Report.id = v.map Report.id

/-- The round of one platform as a function of all reports. -/
def shipRun (G : Geo) (check : List Report → Except Err (List Report)) (q : QcFilter) (reps : List Report)
    (i : Option String) : Except Err (List Report) := do
  let v ← (reps.filter (chosenFor q i)).foldlM (addReport G) []
  let w ← check v
  return refill (chosenFor q i) reps w

theorem shipRound_eq (G : Geo) (check : List Report → Except Err (List Report)) (d : Deck) (i : Option String)
    (l : List Nat) (hl : l = (d.reps.zipIdx.filter fun p => decide (p.1.id = i)).map (·.2)) :
    shipRound G check d l = (shipRun G check d.filter d.reps i).map fun reps => { d with reps := reps } := by
  have hp : d.platform l = .ok (d.reps.zipIdx.filter fun p => chosenFor d.filter i p.1) := by
    unfold Deck.platform
    rw [hl, platform_eq d _ (by
      intro p hp
      rw [List.mem_filter] at hp
      exact List.mem_zipIdx_iff_getElem?.mp hp.1), List.nil_append, List.filter_filter]
    congr 2
    funext p
    unfold chosenFor
    rw [Bool.decide_and, Bool.and_comm]
  have hm : (d.reps.zipIdx.filter fun p => chosenFor d.filter i p.1).map (·.1) = d.reps.filter (chosenFor d.filter i) := by
    have : (fun p : Report × Nat => chosenFor d.filter i p.1) = chosenFor d.filter i ∘ Prod.fst := rfl
    rw [this, ← List.filter_map, List.zipIdx_map_fst]
  unfold shipRound shipRun buildTagged
  rw [hp, except_bind_ok, hm]
  cases h1 : (d.reps.filter (chosenFor d.filter i)).foldlM (addReport G) [] with
  | error e => rfl
  | ok v =>
    have hlen : v.length = (d.reps.zipIdx.filter fun p => chosenFor d.filter i p.1).length := by
      have := (build_only G _ _ h1).length_eq
      rw [← hm, List.length_map] at this
      exact this.symm
    simp only [except_bind_ok, except_pure]
    rw [List.map_fst_zip (by simp [hlen]), List.map_snd_zip (by simp [hlen])]
    cases h2 : check v with
    | error e => rfl
    | ok w =>
      simp only [except_bind_ok, Except.map]
      rw [storeBack_refill]

theorem checked_ids {G : Geo} {check : List Report → Except Err (List Report)} (hc : KeepsIds check) {q : QcFilter}
    {reps v w : List Report} {i : Option String} (h1 : (reps.filter (chosenFor q i)).foldlM (addReport G) [] = .ok v)
    (h2 : check v = .ok w) : ∀ x ∈ w, x.id = i := by
  have hv : ∀ x ∈ v, x.id = i := by
    intro x hx
    obtain ⟨n, hn⟩ := List.mem_iff_getElem?.mp hx
    have hf := build_only G _ _ h1
    have hlt : n < (reps.filter (chosenFor q i)).length := by
      rw [hf.length_eq]; exact (List.getElem?_eq_some_iff.mp hn).1
    obtain ⟨b, b1, b2⟩ := forall2_get hf n _ (List.getElem?_eq_getElem hlt)
    rw [hn, Option.some.injEq] at b1
    subst b1
    rw [b2.id]
    exact chosenFor_id (List.mem_filter.mp (List.getElem_mem hlt)).2
  intro x hx
  have : x.id ∈ v.map Report.id := by rw [← hc v w h2]; exact List.mem_map_of_mem hx
  obtain ⟨y, hy, e⟩ := List.mem_map.mp this
  rw [← e]
  exact hv y hy

theorem shipRun_ok {G : Geo} {check : List Report → Except Err (List Report)} {q : QcFilter} {reps reps' : List Report}
    {i : Option String} (h : shipRun G check q reps i = .ok reps') :
    ∃ v w, (reps.filter (chosenFor q i)).foldlM (addReport G) [] = .ok v ∧ check v = .ok w ∧
      reps' = refill (chosenFor q i) reps w := by
  unfold shipRun at h
  cases h1 : (reps.filter (chosenFor q i)).foldlM (addReport G) [] with
  | error e => rw [h1] at h; simp at h
  | ok v =>
    rw [h1, except_bind_ok] at h
    cases h2 : check v with
    | error e => rw [h2] at h; simp at h
    | ok w =>
      rw [h2, except_bind_ok, except_pure, Except.ok.injEq] at h
      exact ⟨v, w, rfl, h2, h.symm⟩

theorem shipRun_of {G : Geo} {check : List Report → Except Err (List Report)} {q : QcFilter} {reps v w : List Report}
    {i : Option String} (h1 : (reps.filter (chosenFor q i)).foldlM (addReport G) [] = .ok v) (h2 : check v = .ok w) :
    shipRun G check q reps i = .ok (refill (chosenFor q i) reps w) := by
  unfold shipRun
  rw [h1, except_bind_ok, h2]
  rfl

theorem shipRun_ids {G : Geo} {check : List Report → Except Err (List Report)} (hc : KeepsIds check) {q : QcFilter}
    {reps reps' : List Report} {i : Option String} (h : shipRun G check q reps i = .ok reps') :
    ∃ w, (∀ x ∈ w, x.id = i) ∧ reps' = refill (chosenFor q i) reps w := by
  obtain ⟨v, w, h1, h2, h3⟩ := shipRun_ok h
  exact ⟨w, checked_ids hc h1 h2, h3⟩

/-- What a round does to the reports of its platform it does to them when they are alone. -/
theorem shipRun_alone {G : Geo} {check : List Report → Except Err (List Report)} (hc : KeepsIds check) {q : QcFilter}
    {reps : List Report} {i : Option String} :
    (∀ reps', shipRun G check q reps i = .ok reps' →
      shipRun G check q (reps.filter (ofId i)) i = .ok (reps'.filter (ofId i))) ∧
    ((∃ x, shipRun G check q (reps.filter (ofId i)) i = .ok x) → ∃ reps', shipRun G check q reps i = .ok reps') := by
  have hf : (reps.filter (ofId i)).filter (chosenFor q i) = reps.filter (chosenFor q i) := by
    rw [List.filter_filter]
    congr 1
    funext r
    by_cases h : chosenFor q i r = true
    · rw [h, Bool.true_and]; exact decide_eq_true (chosenFor_id h)
    · simp [Bool.eq_false_iff.mpr h]
  constructor
  · intro reps' h
    obtain ⟨v, w, h1, h2, rfl⟩ := shipRun_ok h
    rw [shipRun_of (by rw [hf]; exact h1) h2, refill_same reps w (checked_ids hc h1 h2)]
  · rintro ⟨x, h⟩
    obtain ⟨v, w, h1, h2, -⟩ := shipRun_ok h
    rw [hf] at h1
    exact ⟨_, shipRun_of h1 h2⟩

/-! ## All rounds -/

/-- The rounds of several platforms. -/
def shipRuns (G : Geo) (check : List Report → Except Err (List Report)) (q : QcFilter) :
    List (Option String) → List Report → Except Err (List Report)
  | [], reps => .ok reps
  | i :: is, reps => do
    let reps ← shipRun G check q reps i
    shipRuns G check q is reps

theorem positions_ids {l l' : List Report} (h : l'.map Report.id = l.map Report.id) (i : Option String) : ∀ n,
    ((l'.zipIdx n).filter fun p => decide (p.1.id = i)).map (·.2)
      = ((l.zipIdx n).filter fun p => decide (p.1.id = i)).map (·.2) := by
  induction l generalizing l' with
  | nil =>
    intro n
    have : l' = [] := by simpa using h
    rw [this]
  | cons a l ih =>
    intro n
    cases l' with
    | nil => simp at h
    | cons b l' =>
      simp only [List.map_cons, List.cons.injEq] at h
      have e1 : (b :: l').zipIdx n = (b, n) :: l'.zipIdx (n + 1) := rfl
      have e2 : (a :: l).zipIdx n = (a, n) :: l.zipIdx (n + 1) := rfl
      rw [e1, e2]
      by_cases hi : a.id = i
      · rw [List.filter_cons_of_pos (by simpa using h.1.trans hi), List.filter_cons_of_pos (by simpa using hi),
          List.map_cons, List.map_cons, ih h.2]
      · rw [List.filter_cons_of_neg (by simpa using fun hb => hi (h.1.symm.trans hb)),
          List.filter_cons_of_neg (by simpa using hi), ih h.2]

theorem shipRounds_eq (G : Geo) (check : List Report → Except Err (List Report)) (hc : KeepsIds check)
    (es : List (Option String × List Nat)) : ∀ d : Deck,
    (∀ e ∈ es, e.2 = (d.reps.zipIdx.filter fun p => decide (p.1.id = e.1)).map (·.2)) →
    shipRounds G check es d = (shipRuns G check d.filter (es.map (·.1)) d.reps).map fun reps => { d with reps := reps } := by
  induction es with
  | nil => intro d _; rfl
  | cons e es ih =>
    intro d hd
    rw [shipRounds, shipRound_eq G check d e.1 e.2 (hd e (by simp)), List.map_cons, shipRuns]
    cases h : shipRun G check d.filter d.reps e.1 with
    | error e => rfl
    | ok reps =>
      obtain ⟨w, hw, rfl⟩ := shipRun_ids hc h
      simp only [Except.map, except_bind_ok]
      rw [ih _ (by
        intro e' he'
        rw [hd e' (by simp [he'])]
        exact (positions_ids (refill_ids d.reps w hw) e'.1 0).symm)]
      rfl

theorem shipRuns_alone (G : Geo) (check : List Report → Except Err (List Report)) (hc : KeepsIds check) (q : QcFilter)
    (ids : List (Option String)) (hn : ids.Nodup) : ∀ reps : List Report,
    (∀ reps', shipRuns G check q ids reps = .ok reps' → reps'.map Report.id = reps.map Report.id ∧
      (∀ i ∈ ids, shipRun G check q (reps.filter (ofId i)) i = .ok (reps'.filter (ofId i))) ∧
      ∀ i, i ∉ ids → reps'.filter (ofId i) = reps.filter (ofId i)) ∧
    ((∀ i ∈ ids, ∃ x, shipRun G check q (reps.filter (ofId i)) i = .ok x) →
      ∃ reps', shipRuns G check q ids reps = .ok reps') := by
  induction ids with
  | nil =>
    intro reps
    refine ⟨?_, fun _ => ⟨_, rfl⟩⟩
    intro reps' h
    simp only [shipRuns, Except.ok.injEq] at h
    subst h
    exact ⟨rfl, by simp, fun _ _ => rfl⟩
  | cons j ids ih =>
    intro reps
    rw [List.nodup_cons] at hn
    have ih := ih hn.2
    rw [shipRuns]
    constructor
    · intro reps' h
      cases h1 : shipRun G check q reps j with
      | error e => rw [h1] at h; simp at h
      | ok r1 =>
        rw [h1, except_bind_ok] at h
        obtain ⟨i1, i2, i3⟩ := (ih r1).1 reps' h
        obtain ⟨w, hw, rfl⟩ := shipRun_ids hc h1
        refine ⟨i1.trans (refill_ids reps w hw), ?_, ?_⟩
        · intro i hi
          rcases List.mem_cons.mp hi with rfl | hi
          · rw [i3 _ hn.1]
            exact (shipRun_alone hc).1 _ h1
          · have hij : i ≠ j := fun e => hn.1 (e ▸ hi)
            rw [← i2 i hi, refill_other hij reps w hw]
        · intro i hi
          rw [List.mem_cons, not_or] at hi
          rw [i3 i hi.2, refill_other hi.1 reps w hw]
    · intro h
      obtain ⟨r1, h1⟩ := (shipRun_alone (reps := reps) hc).2 (h j (by simp))
      rw [h1, except_bind_ok]
      apply (ih r1).2
      intro i hi
      have hij : i ≠ j := fun e => hn.1 (e ▸ hi)
      obtain ⟨w, hw, rfl⟩ := shipRun_ids hc h1
      rw [refill_other hij reps w hw]
      exact h i (by simp [hi])

theorem ofReports_indexed (l : List Report) (q : QcFilter) : ((Deck.empty.ofReports l).addFilter q).Indexed := by
  have key : ∀ (l : List Report) (d : Deck), d.Indexed → (d.ofReports l).Indexed := by
    intro l
    induction l with
    | nil => intro d h; exact h
    | cons r l ih => intro d h; exact ih _ (append_indexed h r)
  have := key l Deck.empty ⟨by simp [Deck.empty], by simp [Deck.empty], by simp [Deck.empty]⟩
  exact this

theorem shipPass_eq (G : Geo) (check : List Report → Except Err (List Report)) (hc : KeepsIds check) (d : Deck)
    (hd : d.Indexed) :
    shipPass G check d = (shipRuns G check d.filter (d.idtracker.map (·.1)) d.reps).map fun reps => { d with reps := reps } :=
  shipRounds_eq G check hc d.idtracker d hd.2.2

/-- The deck of the reports of one platform. -/
theorem shipPass_single (G : Geo) (check : List Report → Except Err (List Report)) (hc : KeepsIds check) (q : QcFilter)
    (i : Option String) (l : List Report) (hl : ∀ r ∈ l, r.id = i) (hne : l ≠ []) :
    shipPass G check ((Deck.empty.ofReports l).addFilter q)
      = (shipRun G check q l i).map fun reps => { (Deck.empty.ofReports l).addFilter q with reps := reps } := by
  have hi := ofReports_indexed l q
  have hreps : ((Deck.empty.ofReports l).addFilter q).reps = l := by
    show (Deck.empty.ofReports l).reps = l
    rw [ofReports_reps]; rfl
  rw [shipPass_eq G check hc _ hi]
  have hk : ((Deck.empty.ofReports l).addFilter q).idtracker.map (·.1) = [i] := by
    obtain ⟨h1, h2, -⟩ := hi
    rw [hreps] at h2
    have hall : ∀ x ∈ ((Deck.empty.ofReports l).addFilter q).idtracker.map (·.1), x = i := by
      intro x hx
      obtain ⟨r, hr, rfl⟩ := (h2 x).mp hx
      exact hl r hr
    have hin : i ∈ ((Deck.empty.ofReports l).addFilter q).idtracker.map (·.1) := by
      obtain ⟨r, hr⟩ := List.exists_mem_of_ne_nil l hne
      exact (h2 i).mpr ⟨r, hr, hl r hr⟩
    generalize ((Deck.empty.ofReports l).addFilter q).idtracker.map (·.1) = L at h1 hall hin
    match L, h1, hall, hin with
    | [], _, _, hin => simp at hin
    | [a], _, hall, _ => rw [hall a (by simp)]
    | a :: b :: L, h1, hall, _ =>
      exfalso
      rw [List.nodup_cons] at h1
      exact h1.1 (by rw [hall a (by simp), hall b (by simp)]; simp)
  rw [hk, hreps]
  show (shipRuns G check q [i] l).map _ = _
  rw [shipRuns]
  cases shipRun G check q l i <;> rfl

/-- The loop over the platforms, for any check that keeps identifiers. -/
theorem shipPass_alone (G : Geo) (check : List Report → Except Err (List Report)) (hc : KeepsIds check)
    (l : List Report) (q : QcFilter) :
    (∀ d', shipPass G check ((Deck.empty.ofReports l).addFilter q) = .ok d' →
      d'.filter = q ∧ d'.idtracker = (Deck.empty.ofReports l).idtracker ∧ d'.reps.map Report.id = l.map Report.id ∧
      ∀ i, ∃ d'', shipPass G check ((Deck.empty.ofReports (l.filter (ofId i))).addFilter q) = .ok d'' ∧
        d''.reps = d'.reps.filter (ofId i)) ∧
    ((∀ i, ∃ d'', shipPass G check ((Deck.empty.ofReports (l.filter (ofId i))).addFilter q) = .ok d'') →
      ∃ d', shipPass G check ((Deck.empty.ofReports l).addFilter q) = .ok d') := by
  have hi := ofReports_indexed l q
  have hreps : ((Deck.empty.ofReports l).addFilter q).reps = l := by
    show (Deck.empty.ofReports l).reps = l
    rw [ofReports_reps]; rfl
  rw [shipPass_eq G check hc _ hi, hreps]
  show (∀ d', (shipRuns G check q _ l).map _ = .ok d' → _) ∧ (_ → ∃ d', (shipRuns G check q _ l).map _ = .ok d')
  obtain ⟨a1, a2⟩ := shipRuns_alone G check hc q _ hi.1 l
  have single : ∀ i, l.filter (ofId i) ≠ [] → shipPass G check ((Deck.empty.ofReports (l.filter (ofId i))).addFilter q)
      = (shipRun G check q (l.filter (ofId i)) i).map fun reps =>
          { (Deck.empty.ofReports (l.filter (ofId i))).addFilter q with reps := reps } := by
    intro i hne
    apply shipPass_single G check hc q i _ _ hne
    intro r hr
    exact of_decide_eq_true (List.mem_filter.mp hr).2
  have memb : ∀ i, l.filter (ofId i) ≠ [] ↔ i ∈ ((Deck.empty.ofReports l).addFilter q).idtracker.map (·.1) := by
    intro i
    rw [hi.2.1 i, hreps]
    constructor
    · intro h
      obtain ⟨r, hr⟩ := List.exists_mem_of_ne_nil _ h
      rw [List.mem_filter] at hr
      exact ⟨r, hr.1, of_decide_eq_true hr.2⟩
    · rintro ⟨r, hr, e⟩ h
      have : r ∈ l.filter (ofId i) := List.mem_filter.mpr ⟨hr, decide_eq_true e⟩
      rw [h] at this
      simp at this
  constructor
  · intro d' h
    cases h1 : shipRuns G check q (((Deck.empty.ofReports l).addFilter q).idtracker.map (·.1)) l with
    | error e => rw [h1] at h; simp [Except.map] at h
    | ok reps =>
      rw [h1] at h
      simp only [Except.map, Except.ok.injEq] at h
      subst h
      obtain ⟨b1, b2, b3⟩ := a1 reps h1
      refine ⟨rfl, rfl, b1, ?_⟩
      intro i
      by_cases hne : l.filter (ofId i) = []
      · rw [hne]
        refine ⟨_, rfl, ?_⟩
        have hnot : i ∉ ((Deck.empty.ofReports l).addFilter q).idtracker.map (·.1) := by
          rw [← memb]; simpa using hne
        show [] = reps.filter (ofId i)
        rw [b3 i hnot, hne]
      · rw [single i hne, b2 i ((memb i).mp hne)]
        exact ⟨_, rfl, rfl⟩
  · intro h
    obtain ⟨reps, hr⟩ := a2 (by
      intro i hin
      obtain ⟨d'', h''⟩ := h i
      have hne := (memb i).mpr hin
      rw [single i hne] at h''
      cases h1 : shipRun G check q (l.filter (ofId i)) i with
      | error e => rw [h1] at h''; simp [Except.map] at h''
      | ok x => exact ⟨x, rfl⟩)
    exact ⟨_, by rw [hr]; rfl⟩

end MarineQC
