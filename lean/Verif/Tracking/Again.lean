import Verif.Buoy.Again
import Verif.Tracking.Main

/-!
# C152: the checks of the tracking program may be repeated
-/

namespace MarineQC

open Spec

/-! ## The voyage of a pass does not depend on flags or differences stored before -/

/-- A report without flags and without stored differences. -/
def strippedReport (r : Report) : Report := (bareReport r).clearDiff

theorem sub_stripped (G : Geo) (a b : Report) (p : Report) (hp : p = strippedReport b ∨ p = bareReport b) :
    (strippedReport a).sub G p = a.sub G b := by
  have h : ∀ k, k ∈ VARLIST → ∀ r s : Report, s.data = r.data → s.getvar k = r.getvar k := by
    intro k hk r s hs
    unfold Report.getvar
    simp only [hk, true_or, not_true_eq_false, if_false, if_true, hs]
  have hi : ∀ k (r s : Report), s.data = r.data → s.getint k = r.getint k := by
    intro k r s hs
    unfold Report.getint
    rw [hs]
  have da : (strippedReport a).data = a.data := rfl
  have db : p.data = b.data := by rcases hp with rfl | rfl <;> rfl
  unfold Report.sub Report.lat Report.lon Report.timeTo
  simp only [h "LAT" (by decide) _ _ da, h "LON" (by decide) _ _ da, h "HR" (by decide) _ _ da, hi _ _ _ da,
    h "LAT" (by decide) _ _ db, h "LON" (by decide) _ _ db, h "HR" (by decide) _ _ db, hi _ _ _ db]

theorem setDiff_stripped (r : Report) (d : Diff) : (strippedReport r).setDiff d = bareReport (r.setDiff d) := by
  unfold strippedReport Report.setDiff Report.clearDiff bareReport Report.setext
  simp only [Report.mk.injEq, true_and, and_true]
  funext k
  by_cases h1 : k = "time_diff"
  · simp [h1]
  by_cases h2 : k = "distance"
  · simp [h2]
  by_cases h3 : k = "course"
  · simp [h3]
  by_cases h4 : k = "speed"
  · simp [h4]
  simp [h1, h2, h3, h4]

theorem clearDiff_stripped (r : Report) : (strippedReport r).clearDiff = bareReport r.clearDiff := by
  unfold strippedReport Report.clearDiff bareReport Report.setext
  simp only [Report.mk.injEq, true_and, and_true]
  funext k
  by_cases h1 : k = "time_diff"
  · simp [h1]
  by_cases h2 : k = "distance"
  · simp [h2]
  by_cases h3 : k = "course"
  · simp [h3]
  by_cases h4 : k = "speed"
  · simp [h4]
  simp [h1, h2, h3, h4]

theorem addReport_stripped (G : Geo) (v : List Report) (r : Report) :
    addReport G (v.map bareReport) (strippedReport r) = (addReport G v r).map (List.map bareReport) := by
  unfold addReport
  rw [List.getLast?_map]
  cases v.getLast? with
  | none =>
    show Except.ok _ = Except.ok _
    rw [clearDiff_stripped]
    rfl
  | some p =>
    simp only [Option.map_some]
    rw [sub_stripped G r p _ (.inr rfl)]
    cases r.sub G p with
    | error e => rfl
    | ok d =>
      show Except.ok _ = Except.ok _
      rw [List.map_append, setDiff_stripped]
      rfl

theorem addReports_stripped (G : Geo) (l v : List Report) :
    (l.map strippedReport).foldlM (addReport G) (v.map bareReport) =
      (l.foldlM (addReport G) v).map (List.map bareReport) := by
  induction l generalizing v with
  | nil => rfl
  | cons r l ih =>
    rw [List.map_cons, List.foldlM_cons, List.foldlM_cons, addReport_stripped]
    cases addReport G v r with
    | error e => rfl
    | ok w => exact ih w

theorem zip_bare (v : List Report) (t : List Nat) :
    (v.map bareReport).zip t = (v.zip t).map (Prod.map bareReport id) := by
  rw [List.zip_map_left]

theorem buildTagged_stripped (G : Geo) (l : List (Report × Nat)) :
    buildTagged G (l.map (Prod.map strippedReport id)) =
      (buildTagged G l).map (List.map (Prod.map bareReport id)) := by
  unfold buildTagged
  have h1 : (l.map (Prod.map strippedReport id)).map (·.1) = (l.map (·.1)).map strippedReport := by
    rw [List.map_map, List.map_map]; rfl
  have h2 : (l.map (Prod.map strippedReport id)).map (·.2) = l.map (·.2) := by
    rw [List.map_map]; rfl
  rw [h1, h2]
  have h3 := addReports_stripped G (l.map (·.1)) []
  rw [List.map_nil] at h3
  rw [h3]
  cases (l.map (·.1)).foldlM (addReport G) [] with
  | error e => rfl
  | ok w =>
    show Except.ok _ = Except.ok _
    rw [zip_bare]

theorem relink_bare (G : Geo) (p : Report) (l : List Report) :
    relink G (bareReport p) (l.map bareReport) = (relink G p l).map (List.map bareReport) := by
  induction l generalizing p with
  | nil => rfl
  | cons r l ih =>
    rw [List.map_cons, relink, relink, sub_bare]
    cases r.sub G p with
    | error e => rfl
    | ok d =>
      have h : (bareReport r).setDiff d = bareReport (r.setDiff d) := rfl
      simp only [except_bind_ok]
      rw [h, ih]
      cases relink G (r.setDiff d) l <;> rfl

theorem relinkAll_bare (G : Geo) (l : List Report) :
    relinkAll G (l.map bareReport) = (relinkAll G l).map (List.map bareReport) := by
  cases l with
  | nil => rfl
  | cons r l =>
    rw [List.map_cons, relinkAll, relinkAll, relink_bare]
    cases relink G r l <;> rfl

theorem sortTagged_bare (G : Geo) (v : List (Report × Nat)) :
    sortTagged G (v.map (Prod.map bareReport id)) = (sortTagged G v).map (List.map (Prod.map bareReport id)) := by
  unfold sortTagged
  have hs : (v.map (Prod.map bareReport id)).mergeSort (fun a b => !(b.1.lt a.1)) =
      (v.mergeSort fun a b => !(b.1.lt a.1)).map (Prod.map bareReport id) := by
    refine (List.map_mergeSort ?_).symm
    intros
    rfl
  rw [hs]
  generalize (v.mergeSort fun a b => !(b.1.lt a.1)) = s
  have h1 : (s.map (Prod.map bareReport id)).map (·.1) = (s.map (·.1)).map bareReport := by
    rw [List.map_map, List.map_map]; rfl
  have h2 : (s.map (Prod.map bareReport id)).map (·.2) = s.map (·.2) := by
    rw [List.map_map]; rfl
  simp only [h1, h2, relinkAll_bare]
  cases relinkAll G (s.map (·.1)) with
  | error e => rfl
  | ok w =>
    show Except.ok _ = Except.ok _
    rw [zip_bare]

theorem passVoyage_stripped (G : Geo) (keep : Report → Bool) (a : List Report) :
    (passVoyage G keep a).map (List.map (Prod.map bareReport id)) =
      buildTagged G ((a.zipIdx.filter fun p => keep p.1).map (Prod.map strippedReport id)) >>= sortTagged G := by
  rw [buildTagged_stripped]
  unfold passVoyage
  cases buildTagged G (a.zipIdx.filter fun p => keep p.1) with
  | error e => rfl
  | ok v => exact (sortTagged_bare G v).symm

/-- Reports that agree but for flags and stored differences, and are both chosen or both not. -/
def TwinChosen (keep : Report → Bool) (r s : Report) : Prop :=
  strippedReport s = strippedReport r ∧ keep s = keep r

theorem chosen_stripped (keep : Report → Bool) (a b : List Report) (h : List.Forall₂ (TwinChosen keep) a b) (n : Nat) :
    ((b.zipIdx n).filter fun p => keep p.1).map (Prod.map strippedReport id) =
      ((a.zipIdx n).filter fun p => keep p.1).map (Prod.map strippedReport id) := by
  induction h generalizing n with
  | nil => rfl
  | @cons r s a b h _ ih =>
    rw [List.zipIdx_cons, List.zipIdx_cons, List.filter_cons, List.filter_cons]
    simp only [h.2]
    split
    · rw [List.map_cons, List.map_cons, ih]
      simp only [Prod.map, h.1]
    · exact ih _

theorem same_of_bare {v v' : List Report} (h : v'.map bareReport = v.map bareReport) : SameReports v v' := by
  induction v generalizing v' with
  | nil =>
    rw [List.map_nil, List.map_eq_nil_iff] at h
    rw [h]; exact .nil
  | cons r v ih =>
    cases v' with
    | nil => cases h
    | cons r' v' =>
      rw [List.map_cons, List.map_cons, List.cons.injEq] at h
      refine .cons ?_ (ih h.2)
      have := h.1
      unfold bareReport at this
      cases r; cases r'
      simp only [Report.mk.injEq] at this ⊢
      simp [this]

theorem passVoyage_alike (G : Geo) (keep : Report → Bool) (a b : List Report)
    (h : List.Forall₂ (TwinChosen keep) a b) (va : List (Report × Nat)) (ha : passVoyage G keep a = .ok va) :
    ∃ vb, passVoyage G keep b = .ok vb ∧ vb.map (·.2) = va.map (·.2) ∧
      SameReports (va.map (·.1)) (vb.map (·.1)) := by
  have e := passVoyage_stripped G keep b
  rw [chosen_stripped keep a b h 0, ← passVoyage_stripped, ha] at e
  cases hb : passVoyage G keep b with
  | error x => rw [hb] at e; cases e
  | ok vb =>
    rw [hb] at e
    injection e with e
    refine ⟨vb, rfl, ?_, same_of_bare ?_⟩
    · have := congrArg (List.map (·.2)) e
      rwa [List.map_map, List.map_map] at this
    · have := congrArg (List.map (·.1)) e
      rw [List.map_map, List.map_map] at this ⊢
      exact this

/-! ## A pass -/

/-- A check that sets only the given flags, and does not depend on flags. -/
def BlindCheck (F : List String) (check : List Report → Except Err (List Report)) : Prop :=
  ∀ v e : List Report, check v = .ok e → SameReports v e ∧
    (∀ f ∉ F, e.map (fun r => r.qc f) = v.map fun r => r.qc f) ∧
    ∀ v' : List Report, SameReports v v' → ∃ e' : List Report, check v' = .ok e' ∧ SameReports v' e' ∧
      ∀ f, e'.map (fun r => r.qc f) = v'.map (fun r => r.qc f) ∨
        f ∈ F ∧ e'.map (fun r => r.qc f) = e.map fun r => r.qc f

theorem sameReports_refl (v : List Report) : SameReports v v := List.forall₂_same.mpr fun _ _ => rfl

theorem drifter_blind (G : Geo) (elev : Int → Int → Rat → Rat → Rat → Rat → ℝ) (c : DrifterCall) :
    BlindCheck (drifterFlags c) (buoyGuard G (c.perform G elev) false) := by
  intro v e h
  cases v with
  | nil =>
    injection h with h
    rw [← h]
    refine ⟨.nil, fun _ _ => rfl, fun v' hv => ?_⟩
    cases hv
    exact ⟨[], rfl, .nil, fun _ => .inl rfl⟩
  | cons r v =>
    by_cases hp : r.getvar "PT" ≠ some 7
    · have h' : buoyGuard G (c.perform G elev) false (r :: v) = .ok (r :: v) := if_pos hp
      rw [h'] at h
      injection h with h
      rw [← h]
      refine ⟨sameReports_refl _, fun _ _ => rfl, fun v' hv => ?_⟩
      cases hv with
      | @cons _ s _ u hr _ =>
        have hq : s.getvar "PT" = r.getvar "PT" := by rw [hr]; rfl
        exact ⟨_, if_pos (by rw [hq]; exact hp), sameReports_refl _, fun _ => .inl rfl⟩
    · have h' : buoyGuard G (c.perform G elev) false (r :: v) = c.perform G elev (r :: v) := if_neg hp
      rw [h'] at h
      obtain ⟨ps, hl, hk, e1, -⟩ := drifter_sets G elev c (r :: v) e h
      refine ⟨e1 ▸ sameReports_plan ps (r :: v) hl, fun f hf => ?_, fun v' hv => ?_⟩
      · rw [e1]
        exact putPlan_other ps f _ hl fun p hp hc => hf (hk ▸ hc ▸ List.mem_map_of_mem hp)
      · obtain ⟨e', he', s1, s2, s3⟩ := (C151_blind G elev c _ v' hv).1 e h
        refine ⟨e', ?_, s1, fun f => ?_⟩
        · cases hv with
          | @cons _ s _ u hr _ =>
            have hq : s.getvar "PT" = r.getvar "PT" := by rw [hr]; rfl
            rw [← he']
            exact if_neg (by rw [hq]; exact hp)
        · by_cases hf : f ∈ drifterFlags c
          · exact .inr ⟨hf, s2 f hf⟩
          · exact .inl (s3 f hf)

/-- A pass over reports that differ in flags and stored differences: the same reports are chosen, and those get the same
differences and the same flags of the check; the others stay as they are. -/
theorem pass_alike (G : Geo) (keep : Report → Bool) (F : List String) (check : List Report → Except Err (List Report))
    (hc : BlindCheck F check) (a a' b : List Report) (hab : List.Forall₂ (TwinChosen keep) a b)
    (h : trackPass G keep check a = .ok a') :
    ∃ b', trackPass G keep check b = .ok b' ∧ a'.length = a.length ∧ b'.length = b.length ∧
      ∀ (k : Nat) (r s r' s' : Report), a[k]? = some r → b[k]? = some s → a'[k]? = some r' → b'[k]? = some s' →
        (keep r = false → r' = r ∧ s' = s) ∧
        (keep r = true → s' = { r' with qc := s'.qc } ∧ strippedReport r' = strippedReport r ∧
          (∀ f ∉ F, r'.qc f = r.qc f) ∧ ∀ f, s'.qc f = s.qc f ∨ f ∈ F ∧ s'.qc f = r'.qc f) := by
  unfold trackPass at h
  obtain ⟨va, ha, h⟩ := bind_ok_iff.mp h
  obtain ⟨w, hw, h⟩ := bind_ok_iff.mp h
  injection h with h
  obtain ⟨vb, hb, ht, hs⟩ := passVoyage_alike G keep a b hab va ha
  obtain ⟨c1, c2, c3⟩ := hc _ _ hw
  obtain ⟨w', hw', c4, c5⟩ := c3 _ hs
  refine ⟨storeBack b (w'.zip (vb.map (·.2))), ?_, ?_⟩
  · unfold trackPass
    exact bind_ok_iff.mpr ⟨vb, hb, bind_ok_iff.mpr ⟨w', hw', rfl⟩⟩
  obtain ⟨⟨na, ma⟩, ⟨-, -, oa⟩, -⟩ := passVoyage_chosen G keep a va ha
  obtain ⟨⟨nb, mb⟩, ⟨-, -, ob⟩, -⟩ := passVoyage_chosen G keep b vb hb
  have lw : w.length = (va.map (·.2)).length := by rw [← c1.length_eq]; simp
  have lw' : w'.length = (vb.map (·.2)).length := by rw [← c4.length_eq]; simp
  have bounds : ∀ (l : List Report) (t : List Nat), (∀ k ∈ t, ∃ r, l[k]? = some r ∧ keep r = true) →
      ∀ (u : List Report), ∀ p ∈ u.zip t, p.2 < l.length := by
    intro l t ht u p hp
    obtain ⟨r, hr, -⟩ := ht p.2 (List.of_mem_zip hp).2
    by_contra hn
    rw [List.getElem?_eq_none (by omega)] at hr
    cases hr
  have za : (w.zip (va.map (·.2))).map (·.2) = va.map (·.2) := List.map_snd_zip (by omega)
  have zb : (w'.zip (vb.map (·.2))).map (·.2) = vb.map (·.2) := List.map_snd_zip (by omega)
  obtain ⟨la, ga, ga'⟩ := storeBack_get (w.zip (va.map (·.2))) a (by rw [za]; exact na)
    (bounds a _ (fun k hk => (ma k).mp hk) w)
  obtain ⟨lb, gb, gb'⟩ := storeBack_get (w'.zip (vb.map (·.2))) b (by rw [zb]; exact nb)
    (bounds b _ (fun k hk => (mb k).mp hk) w')
  rw [h] at la ga ga'
  refine ⟨la, lb, ?_⟩
  intro k r s r' s' hr hs' hr' hs''
  constructor
  · intro hk
    have n1 : k ∉ va.map (·.2) := by
      intro hm
      obtain ⟨q, hq, hk'⟩ := (ma k).mp hm
      rw [hr] at hq
      injection hq with hq
      rw [← hq, hk] at hk'
      cases hk'
    have n2 : k ∉ vb.map (·.2) := by rw [ht]; exact n1
    have e1 := ga' k (by rw [za]; exact n1)
    have e2 := gb' k (by rw [zb]; exact n2)
    rw [hr, hr'] at e1
    rw [hs', hs''] at e2
    exact ⟨Option.some.inj e1, Option.some.inj e2⟩
  · intro hk
    obtain ⟨n, hn⟩ := List.getElem?_of_mem ((ma k).mpr ⟨r, hr, hk⟩)
    have hn' : (vb.map (·.2))[n]? = some k := by rw [ht]; exact hn
    obtain ⟨r0, x, hr0, hx, ox⟩ := oa n k hn
    obtain ⟨s0, y, hs0, hy, oy⟩ := ob n k hn'
    rw [hr] at hr0
    injection hr0 with hr0
    subst hr0
    rw [hs'] at hs0
    injection hs0 with hs0
    subst hs0
    obtain ⟨x', hx', rx⟩ := forall2_get c1 n x hx
    obtain ⟨y', hy', ry⟩ := forall2_get c4 n y hy
    obtain ⟨y2, hy2, rxy⟩ := forall2_get hs n x hx
    rw [hy] at hy2
    injection hy2 with hy2
    subst hy2
    have e1 : r' = x' := by
      have := ga (x', k) (List.mem_of_getElem? (i := n) (by rw [List.getElem?_zip_eq_some]; exact ⟨hx', hn⟩))
      rw [hr'] at this
      exact Option.some.inj this
    have e2 : s' = y' := by
      have := gb (y', k) (List.mem_of_getElem? (i := n) (by rw [List.getElem?_zip_eq_some]; exact ⟨hy', hn'⟩))
      rw [hs''] at this
      exact Option.some.inj this
    subst e1 e2
    have get : ∀ (l m : List Report) (f : String) (p q : Report), l.map (fun r => r.qc f) = m.map (fun r => r.qc f) →
        l[n]? = some p → m[n]? = some q → p.qc f = q.qc f := by
      intro l m f p q e hp hq
      have := congrArg (fun l => l[n]?) e
      simpa [List.getElem?_map, hp, hq] using this
    refine ⟨?_, ?_, fun f hf => ?_, fun f => ?_⟩
    · rw [ry, rxy, rx]
    · rw [rx]
      have : strippedReport { x with qc := r'.qc } = strippedReport x := rfl
      rw [this]
      obtain ⟨o1, o2, o3, o4, o5, o6, -⟩ := ox
      unfold strippedReport Report.clearDiff bareReport Report.setext
      simp only [Report.mk.injEq, o1, o2, o3, o4, o5, true_and, and_true]
      funext k
      by_cases h1 : k = "time_diff"
      · simp [h1]
      by_cases h2 : k = "distance"
      · simp [h2]
      by_cases h3 : k = "course"
      · simp [h3]
      by_cases h4 : k = "speed"
      · simp [h4]
      simp only [h1, h2, h3, h4, if_false]
      exact o6 k (by simp [linkNames, h1, h2, h3, h4])
    · rw [get w _ f r' x (c2 f hf) hx' hx, ox.flags f (by simp)]
    · rcases c5 f with h5 | ⟨hf, h5⟩
      · exact .inl ((get w' _ f s' y h5 hy' hy).trans (oy.flags f (by simp)))
      · exact .inr ⟨hf, get w' w f s' r' h5 hy' hx'⟩

/-! ## The four passes -/

/-- What a pass does to a report: nothing if the report is not chosen, otherwise only the flags of the check and the
stored differences change. -/
def PassStep (keep : Report → Bool) (F : List String) (a a' : List Report) : Prop :=
  a'.length = a.length ∧ ∀ (k : Nat) (r r' : Report), a[k]? = some r → a'[k]? = some r' →
    strippedReport r' = strippedReport r ∧ (∀ f ∉ F, r'.qc f = r.qc f) ∧ (keep r = false → r' = r)

theorem pass_step (G : Geo) (keep : Report → Bool) (F : List String) (check : List Report → Except Err (List Report))
    (hc : BlindCheck F check) (a a' : List Report) (h : trackPass G keep check a = .ok a') : PassStep keep F a a' := by
  obtain ⟨b', h', l1, -, hs⟩ := pass_alike G keep F check hc a a' a (List.forall₂_same.mpr fun _ _ => ⟨rfl, rfl⟩) h
  rw [h] at h'
  injection h' with h'
  subst h'
  refine ⟨l1, fun k r r' hr hr' => ?_⟩
  obtain ⟨x1, x2⟩ := hs k r r r' r' hr hr hr' hr'
  cases hk : keep r with
  | false =>
    rw [(x1 hk).1]
    exact ⟨rfl, fun _ _ => rfl, fun _ => rfl⟩
  | true => exact ⟨(x2 hk).2.1, (x2 hk).2.2.1, fun h => by cases h⟩

theorem pass_steps {keep keep' : Report → Bool} {F F' F'' : List String} {a b z : List Report}
    (h : PassStep keep F a b) (h' : PassStep keep' F' b z) (h1 : ∀ f ∈ F, f ∈ F'') (h2 : ∀ f ∈ F', f ∈ F'')
    (hk : ∀ r, keep r = false → keep' r = false) : PassStep keep F'' a z := by
  refine ⟨h'.1.trans h.1, fun k r q hr hq => ?_⟩
  have kl : k < a.length := (List.getElem?_eq_some_iff.mp hr).1
  have hb : b[k]? = some (b[k]'(by rw [h.1]; exact kl)) := List.getElem?_eq_getElem _
  generalize b[k]'(by rw [h.1]; exact kl) = s at hb
  obtain ⟨e1, e2, e3⟩ := h.2 k r s hr hb
  obtain ⟨g1, g2, g3⟩ := h'.2 k s q hb hq
  refine ⟨g1.trans e1, fun f hf => (g2 f fun hm => hf (h2 f hm)).trans (e2 f fun hm => hf (h1 f hm)), fun hr => ?_⟩
  have e := e3 hr
  subst e
  exact g3 (hk _ hr)

theorem tail_position (r : Report) (h : positionKept r = false) : tailKept r = false := by
  rw [← Bool.not_eq_true, tailKept_iff]
  rw [← Bool.not_eq_true, positionKept_iff] at h
  exact fun hc => h hc.1

theorem bias_tail (r : Report) (h : tailKept r = false) : biasKept r = false := by
  rw [← Bool.not_eq_true, biasKept_iff]
  rw [← Bool.not_eq_true, tailKept_iff] at h
  exact fun hc => h ⟨hc.1, hc.2.1, hc.2.2.1⟩

/-- One pass of the second run: `a` is what the first run had before it, `z` what the first run ended with. -/
theorem pass_again (G : Geo) (keep : Report → Bool) (F : List String) (check : List Report → Except Err (List Report))
    (hc : BlindCheck F check) (a a' b z : List Report) (h : trackPass G keep check a = .ok a')
    (hl : b.length = a.length) (hz : z.length = a.length)
    (hb : ∀ (k : Nat) (r q s : Report), a[k]? = some r → z[k]? = some q → b[k]? = some s →
      s.qc = q.qc ∧ strippedReport s = strippedReport r ∧ keep s = keep r ∧
      (keep r = false → s = { r with qc := q.qc }))
    (hf : ∀ (k : Nat) (r' q : Report), a'[k]? = some r' → z[k]? = some q → ∀ f ∈ F, r'.qc f = q.qc f) :
    ∃ b', trackPass G keep check b = .ok b' ∧ b'.length = a'.length ∧
      ∀ (k : Nat) (r' q s' : Report), a'[k]? = some r' → z[k]? = some q → b'[k]? = some s' →
        s' = { r' with qc := q.qc } := by
  have tw : List.Forall₂ (TwinChosen keep) a b := by
    rw [List.forall₂_iff_get]
    refine ⟨hl.symm, fun k h1 h2 => ?_⟩
    obtain ⟨-, e2, e3, -⟩ := hb k _ _ _ (List.getElem?_eq_getElem h1)
      (List.getElem?_eq_getElem (by omega : k < z.length)) (List.getElem?_eq_getElem h2)
    exact ⟨e2, e3⟩
  obtain ⟨b', h', l1, l2, hs⟩ := pass_alike G keep F check hc a a' b tw h
  refine ⟨b', h', by omega, fun k r' q s' hr' hq hs' => ?_⟩
  have kl : k < a'.length := (List.getElem?_eq_some_iff.mp hr').1
  have hr : a[k]? = some (a[k]'(by omega)) := List.getElem?_eq_getElem _
  have hsb : b[k]? = some (b[k]'(by omega)) := List.getElem?_eq_getElem _
  generalize a[k]'(by omega) = r at hr
  generalize b[k]'(by omega) = s at hsb
  obtain ⟨e1, -, -, e4⟩ := hb k r q s hr hq hsb
  obtain ⟨x1, x2⟩ := hs k r s r' s' hr hsb hr' hs'
  cases hk : keep r with
  | false =>
    obtain ⟨y1, y2⟩ := x1 hk
    rw [y1, y2, e4 hk]
  | true =>
    obtain ⟨y1, -, -, y4⟩ := x2 hk
    have hq' : s'.qc = q.qc := by
      funext f
      rcases y4 f with y | ⟨hm, y⟩
      · rw [y, e1]
      · rw [y, hf k r' q hr' hq f hm]
    rw [y1, hq']

theorem getQc_flag {r s : Report} {t f : String} (h : s.qc (t ++ f) = r.qc (t ++ f)) : s.getQc t f = r.getQc t f := by
  unfold Report.getQc
  rw [h]

/-- The flags the tracking program sets. -/
def driftKeys : List String :=
  ["POSdrf_agr", "POSdrf_spd", "SSTdrf_tail1", "SSTdrf_tail2", "SSTdrf_bias", "SSTdrf_noise", "SSTdrf_short"]

theorem position_same {r s : Report} (h : ∀ f ∉ driftKeys, s.qc f = r.qc f) :
    (GoodPosition s ↔ GoodPosition r) ∧ (GoodTemperature s ↔ GoodTemperature r) := by
  have g : ∀ t f, t ++ f ∉ driftKeys → s.getQc t f = r.getQc t f := fun t f hf => getQc_flag (h _ hf)
  unfold GoodPosition GoodTemperature
  rw [g "POS" "isbuoy" (by decide), g "POS" "date" (by decide), g "POS" "time" (by decide), g "POS" "pos" (by decide),
    g "POS" "blklst" (by decide), g "SST" "clim" (by decide), g "SST" "nonorm" (by decide), g "SST" "freez" (by decide),
    g "SST" "noval" (by decide), g "SST" "rep" (by decide), g "SST" "hardlimit" (by decide), g "SST" "bbud" (by decide)]
  exact ⟨Iff.rfl, Iff.rfl⟩

theorem positionKept_same {r s : Report} (h : ∀ f ∉ driftKeys, s.qc f = r.qc f) : positionKept s = positionKept r := by
  rw [Bool.eq_iff_iff, positionKept_iff, positionKept_iff, (position_same h).1]

theorem tailKept_same {r s : Report} (h : ∀ f ∉ driftKeys.drop 2, s.qc f = r.qc f) : tailKept s = tailKept r := by
  have h' : ∀ f ∉ driftKeys, s.qc f = r.qc f := fun f hf => h f fun hm => hf (List.mem_of_mem_drop hm)
  rw [Bool.eq_iff_iff, tailKept_iff, tailKept_iff, (position_same h').1, (position_same h').2]
  unfold Drifting
  rw [getQc_flag (h ("POS" ++ "drf_agr") (by decide)), getQc_flag (h ("POS" ++ "drf_spd") (by decide))]

theorem biasKept_same {r s : Report} (h : ∀ f ∉ driftKeys.drop 4, s.qc f = r.qc f) : biasKept s = biasKept r := by
  have h' : ∀ f ∉ driftKeys, s.qc f = r.qc f := fun f hf => h f fun hm => hf (List.mem_of_mem_drop hm)
  rw [Bool.eq_iff_iff, biasKept_iff, biasKept_iff, (position_same h').1, (position_same h').2]
  unfold Drifting OutsideTails
  rw [getQc_flag (h ("POS" ++ "drf_agr") (by decide)), getQc_flag (h ("POS" ++ "drf_spd") (by decide)),
    getQc_flag (h ("SST" ++ "drf_tail1") (by decide)), getQc_flag (h ("SST" ++ "drf_tail2") (by decide))]

/-- C152: what the checks of the tracking program end with stays as it is when they are run on it again: the same
reports are chosen for each check and each gets the same flags and the same differences to the report before. -/
theorem C152_twice (G : Geo) (elev : Int → Int → Rat → Rat → Rat → Rat → ℝ) (P : DriftParams)
    (reps reps' : List Report) (h : trackingChecks G elev P reps = .ok reps') :
    trackingChecks G elev P reps' = .ok reps' := by
  obtain ⟨a, b, c, h1, h2, h3, h4⟩ := trackingChecks_ok.mp h
  have k1 := drifter_blind G elev (.newAground P.win P.groundPeriod)
  have k2 := drifter_blind G elev (.newSpeed P.iquam P.speedLimit P.speedPeriod)
  have k3 := drifter_blind G elev (.tail P.tail)
  have k4 := drifter_blind G elev (.bias P.bias)
  have d4 : PassStep biasKept (driftKeys.drop 4) c reps' := pass_step G _ _ _ k4 _ _ h4
  have d3 : PassStep tailKept (driftKeys.drop 2) b reps' :=
    pass_steps (pass_step G _ _ _ k3 _ _ h3) d4 (by simp [drifterFlags, driftKeys]) (by decide) bias_tail
  have d2 : PassStep positionKept (driftKeys.drop 1) a reps' :=
    pass_steps (pass_step G _ _ _ k2 _ _ h2) d3 (by simp [drifterFlags, driftKeys]) (by decide) tail_position
  have d1 : PassStep positionKept driftKeys reps reps' :=
    pass_steps (pass_step G _ _ _ k1 _ _ h1) d2 (by simp [drifterFlags, driftKeys]) (by decide) (fun _ h => h)
  obtain ⟨l1, d1⟩ := d1
  obtain ⟨l2, d2⟩ := d2
  obtain ⟨l3, d3⟩ := d3
  obtain ⟨l4, d4⟩ := d4
  have ex : ∀ (l : List Report) (k : Nat), k < l.length → ∃ r, l[k]? = some r :=
    fun l k hk => ⟨l[k], List.getElem?_eq_getElem hk⟩
  have outside : ∀ {F : List String} (K : List String), (∀ f ∈ F, f ∉ K) → ∀ f ∈ F, f ∉ K := fun _ h => h
  -- the second run
  obtain ⟨a2, p1, m1, t1⟩ := pass_again G _ _ _ k1 reps a reps' reps' h1 (by omega) (by omega)
    (by
      intro k r q s hr hq hs
      rw [hq] at hs
      injection hs with hs
      subst hs
      obtain ⟨g1, g2, g3⟩ := d1 k r q hr hq
      refine ⟨rfl, g1, positionKept_same g2, fun hk => ?_⟩
      have := g3 hk
      subst this
      rfl)
    (by
      intro k r' q hr' hq f hf
      exact ((d2 k r' q hr' hq).2.1 f (outside _ (by simp [drifterFlags, driftKeys]) f hf)).symm)
  obtain ⟨b2, p2, m2, t2⟩ := pass_again G _ _ _ k2 a b a2 reps' h2 m1 (by omega)
    (by
      intro k r q s hr hq hs
      have := t1 k r q s hr hq hs
      subst this
      refine ⟨rfl, rfl, positionKept_same fun f hf => ?_, fun _ => rfl⟩
      exact (d2 k r q hr hq).2.1 f fun hm => hf (List.mem_of_mem_drop hm))
    (by
      intro k r' q hr' hq f hf
      exact ((d3 k r' q hr' hq).2.1 f (outside _ (by simp [drifterFlags, driftKeys]) f hf)).symm)
  obtain ⟨c2, p3, m3, t3⟩ := pass_again G _ _ _ k3 b c b2 reps' h3 m2 (by omega)
    (by
      intro k r q s hr hq hs
      have := t2 k r q s hr hq hs
      subst this
      exact ⟨rfl, rfl, tailKept_same fun f hf => (d3 k r q hr hq).2.1 f hf, fun _ => rfl⟩)
    (by
      intro k r' q hr' hq f hf
      exact ((d4 k r' q hr' hq).2.1 f (outside _ (by simp [drifterFlags, driftKeys]) f hf)).symm)
  obtain ⟨z, p4, m4, t4⟩ := pass_again G _ _ _ k4 c reps' c2 reps' h4 m3 (by omega)
    (by
      intro k r q s hr hq hs
      have := t3 k r q s hr hq hs
      subst this
      exact ⟨rfl, rfl, biasKept_same fun f hf => (d4 k r q hr hq).2.1 f hf, fun _ => rfl⟩)
    (by
      intro k r' q hr' hq f hf
      rw [hr'] at hq
      injection hq with hq
      rw [hq])
  have ez : z = reps' := by
    apply List.ext_getElem?
    intro k
    by_cases hk : k < reps'.length
    · obtain ⟨q, hq⟩ := ex reps' k hk
      obtain ⟨s, hs⟩ := ex z k (by omega)
      have := t4 k q q s hq hq hs
      rw [hs, hq, this]
    · rw [List.getElem?_eq_none (by omega), List.getElem?_eq_none (by omega)]
  rw [ez] at p4
  exact trackingChecks_ok.mpr ⟨a2, b2, c2, p1, p2, p3, p4⟩

/-- Non-vacuity of C152: three reports of a drifter, which the checks decide on. -/
example (elev : Int → Int → Rat → Rat → Rat → Rat → ℝ) :
    ∃ reps' : List Report, trackingChecks blockGeo elev driftParams driftReps = .ok reps' ∧ reps'.length = 3 ∧
      ∀ (k : Nat) (r : Report), reps'[k]? = some r → Decided r "POS" "drf_agr" ∧ Decided r "POS" "drf_spd" := by
  obtain ⟨reps', v, h1, -⟩ := C96_completes_partial blockGeo blockGeo_distance elev driftParams driftParams_ok driftReps
    driftReps_trackable
  have l := (C93_only_flags blockGeo elev driftParams driftParams_ok.speed.2 driftReps reps' h1).1
  have good : ∀ r ∈ driftReps, r.getvar "PT" = some 7 ∧ GoodPosition r := by
    intro r hr
    simp only [driftReps, List.mem_cons, List.not_mem_nil, or_false] at hr
    rcases hr with rfl | rfl | rfl <;> exact ⟨by decide +kernel, driftReport_good ..⟩
  refine ⟨reps', h1, l, fun k r hr => ?_⟩
  have kl : k < driftReps.length := by rw [← l]; exact (List.getElem?_eq_some_iff.mp hr).1
  exact (C94_eligible blockGeo elev driftParams driftParams_ok.speed.2 driftReps reps' (fun r hr => (good r hr).1) h1 k
    driftReps[k] r (List.getElem?_eq_getElem kl) hr).1 (good _ (List.getElem_mem kl)).2

end MarineQC
