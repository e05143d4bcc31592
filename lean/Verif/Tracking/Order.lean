import Verif.Tracking.Again

/-!
# C153: the tracking flags do not depend on the order in which the reports are read
-/

namespace MarineQC

namespace Spec

/-- A report without the differences to the report before that a voyage stores in it. -/
def unlinked (r : Report) : Report := { r with ext := fun k => if k ∈ linkNames then none else r.ext k }

end Spec

open Spec

theorem unlinked_of_only {r s : Report} (h : OnlyFlags [] r s) : unlinked s = unlinked r := by
  obtain ⟨h1, h2, h3, h4, h5, h6, h7⟩ := h
  unfold unlinked
  simp only [Report.mk.injEq]
  refine ⟨h1, h2, h3, funext fun k => h7 k (by simp), h4, funext fun k => ?_, h5⟩
  split
  · rfl
  · exact h6 k (by assumption)

theorem unlinked_all {l m : List Report} (h : List.Forall₂ (OnlyFlags []) l m) : m.map unlinked = l.map unlinked := by
  induction h with
  | nil => rfl
  | cons h _ ih => rw [List.map_cons, List.map_cons, ih, unlinked_of_only h]

theorem unlinked_data {a b : Report} (h : unlinked a = unlinked b) : a.data = b.data := by
  have : (unlinked a).data = (unlinked b).data := by rw [h]
  exact this

theorem stripped_fields {a b : Report} (h : strippedReport a = strippedReport b) : a.id = b.id ∧ a.dt = b.dt := by
  have h1 : (strippedReport a).id = (strippedReport b).id := by rw [h]
  have h2 : (strippedReport a).dt = (strippedReport b).dt := by rw [h]
  exact ⟨h1, h2⟩

/-! ## Taking a list apart -/

theorem filter_indices {α : Type} (l : List α) (p : α → Bool) :
    l.filter p = ((List.range l.length).filter fun k => (l[k]?).any p).filterMap fun k => l[k]? := by
  induction l using List.reverseRecOn with
  | nil => rfl
  | append_singleton l x ih =>
    have hlt : ∀ k ∈ List.range l.length, (l ++ [x])[k]? = l[k]? := fun k hk =>
      List.getElem?_append_left (List.mem_range.mp hk)
    rw [List.length_append, List.length_singleton, List.range_succ, List.filter_append, List.filter_append,
      List.filterMap_append, ih]
    congr 1
    · have e : (List.range l.length).filter (fun k => ((l ++ [x])[k]?).any p) =
          (List.range l.length).filter fun k => (l[k]?).any p :=
        List.filter_congr fun k hk => by rw [hlt k hk]
      rw [e]
      exact (List.filterMap_congr fun k hk => hlt k (List.mem_of_mem_filter hk)).symm
    · have hx : (l ++ [x])[l.length]? = some x := by simp
      cases hp : p x <;> simp [hp]

theorem all_indices {α : Type} (l : List α) : l = (List.range l.length).filterMap fun k => l[k]? := by
  have h := filter_indices l fun _ => true
  rw [List.filter_true] at h
  refine h.trans ?_
  congr 1
  rw [List.filter_eq_self]
  intro k hk
  rw [List.getElem?_eq_getElem (List.mem_range.mp hk)]
  rfl

/-- After a pass there are the reports that were not chosen and those of the checked voyage. -/
theorem replaced_perm (keep : Report → Bool) (a a' w : List Report) (order : List Nat)
    (hc : Chooses (fun r => keep r = true) a order) (hr : Replaced a a' order w) :
    a'.Perm (w ++ a.filter fun r => !keep r) := by
  obtain ⟨l1, l2, g1, g2⟩ := hr
  have hp : (List.range a'.length).Perm
      (order ++ (List.range a.length).filter fun k => (a[k]?).any fun r => !keep r) := by
    rw [List.perm_ext_iff_of_nodup List.nodup_range]
    · intro k
      rw [List.mem_append, hc.2, List.mem_filter, List.mem_range, List.mem_range, l1]
      constructor
      · intro hk
        rw [List.getElem?_eq_getElem hk]
        cases h : keep a[k] with
        | true => exact .inl ⟨_, rfl, h⟩
        | false => exact .inr ⟨hk, by simp [h]⟩
      · rintro (⟨r, hr, -⟩ | h)
        · exact (List.getElem?_eq_some_iff.mp hr).1
        · exact h.1
    · rw [List.nodup_append]
      refine ⟨hc.1, List.nodup_range.filter _, ?_⟩
      rintro k hk j hj rfl
      obtain ⟨r, hr, hk⟩ := (hc.2 k).mp hk
      rw [List.mem_filter, hr] at hj
      simp [hk] at hj
  have h := hp.filterMap fun k => a'[k]?
  rw [← all_indices, List.filterMap_append] at h
  refine h.trans (List.Perm.of_eq ?_)
  congr 1
  · apply List.ext_getElem?
    intro n
    have e : order.filterMap (fun k => a'[k]?) = w := by
      have key : ∀ (o : List Nat) (u : List Report), u.length = o.length →
          (∀ n k : Nat, o[n]? = some k → a'[k]? = u[n]?) → o.filterMap (fun k => a'[k]?) = u := by
        intro o
        induction o with
        | nil =>
          intro u hu _
          exact (List.eq_nil_of_length_eq_zero hu).symm
        | cons k o ih =>
          intro u hu hg
          cases u with
          | nil => cases hu
          | cons x u =>
            have h0 := hg 0 k rfl
            rw [List.getElem?_cons_zero] at h0
            rw [List.filterMap_cons, h0]
            simp only
            rw [ih u (by simpa using hu) fun n k h => by simpa using hg (n + 1) k (by simpa using h)]
      exact key order w l2 g1
    rw [e]
  · rw [filter_indices a fun r => !keep r]
    refine List.filterMap_congr fun k hk => ?_
    refine g2 k fun hm => ?_
    obtain ⟨r, hr, hk'⟩ := (hc.2 k).mp hm
    rw [List.mem_filter, hr] at hk
    simp [hk'] at hk

/-! ## The checks do not read the differences stored in the first report -/

/-- A voyage without the differences stored in its first report. -/
def headless : List Report → List Report
  | [] => []
  | r :: l => unlinked r :: l

theorem headless_length (v : List Report) : (headless v).length = v.length := by cases v <;> rfl

theorem getext_unlinked (r : Report) (k : String) (hk : k ∉ linkNames) : (unlinked r).getext k = r.getext k := by
  unfold Report.getext unlinked
  simp only [if_neg hk]

theorem getvar_unlinked (r : Report) (k : String) (hk : k ∈ VARLIST) : (unlinked r).getvar k = r.getvar k :=
  getvar_data_eq (a := unlinked r) (b := r) rfl hk

theorem mapM_headless {γ : Type} (f : Report × Nat → Except Err γ) (hf : ∀ r, f (unlinked r, 0) = f (r, 0))
    (v : List Report) : (headless v).zipIdx.mapM f = v.zipIdx.mapM f := by
  cases v with
  | nil => rfl
  | cons r l => rw [headless, List.zipIdx_cons, List.zipIdx_cons, List.mapM_cons, List.mapM_cons, hf]

theorem driftFixes_headless (v : List Report) : driftFixes (headless v) = driftFixes v := by
  unfold driftFixes
  rw [mapM_headless]
  intro r
  unfold driftAt elapsedAt
  simp only [if_true, getvar_unlinked _ "LON" (by decide), getvar_unlinked _ "LAT" (by decide)]

theorem sstFilter_headless (elev : Int → Int → Rat → Rat → Rat → Rat → ℝ) (lim : ℝ) (mask : Option Rat → Bool)
    (v : List Report) : sstFilter (reportDaytime elev lim) mask (headless v) =
      sstFilter (reportDaytime elev lim) mask v := by
  unfold sstFilter
  rw [mapM_headless]
  intro r
  have hi : ∀ k, (unlinked r).getint k = r.getint k := fun _ => rfl
  unfold sstScreen reportDaytime timeSorted sstObs
  simp only [if_true, getext_unlinked _ "OSTIA" (by decide), getext_unlinked _ "ICE" (by decide),
    getext_unlinked _ "BGVAR" (by decide), getvar_unlinked _ "LON" (by decide), getvar_unlinked _ "LAT" (by decide),
    getvar_unlinked _ "HR" (by decide), getvar_unlinked _ "SST" (by decide), hi]

theorem shipScreen_headless (G : Geo) (P : IquamParams) (v : List Report) :
    shipScreen G P (headless v) = shipScreen G P v := by
  unfold shipScreen
  rw [shipCopies_form, shipCopies_form]
  cases v with
  | nil => rfl
  | cons r l =>
    have h : addReport G [] (shipForm (unlinked r)) = addReport G [] (shipForm r) := by
      show Except.ok [(shipForm (unlinked r)).clearDiff] = Except.ok [(shipForm r).clearDiff]
      refine congrArg (fun x => Except.ok [x]) ?_
      unfold shipForm putFlag unlinked Report.clearDiff Report.setext
      simp only [Report.mk.injEq, true_and, and_true]
      funext k
      by_cases h1 : k = "time_diff"
      · simp [h1]
      by_cases h2 : k = "distance"
      · simp [h2]
      by_cases h3 : k = "course"
      · simp [h3]
      by_cases h4 : k = "speed"
      · simp [h4]
      simp [h1, h2, h3, h4, linkNames]
    simp only [except_bind_ok, headless, List.map_cons, List.foldlM_cons, h]

theorem plan_headless (G : Geo) (elev : Int → Int → Rat → Rat → Rat → Rat → ℝ) (c : DrifterCall) (v : List Report) :
    c.plan G elev (headless v) = c.plan G elev v := by
  cases c with
  | aground w a b =>
    unfold DrifterCall.plan agroundFlags
    simp only [headless_length, driftFixes_headless]
  | newAground w a =>
    unfold DrifterCall.plan newAgroundFlags
    simp only [headless_length, driftFixes_headless]
  | speed l a b =>
    unfold DrifterCall.plan speedFlags
    simp only [headless_length, driftFixes_headless]
  | newSpeed P l a =>
    unfold DrifterCall.plan newSpeedFlags
    simp only [headless_length, driftFixes_headless, shipScreen_headless]
  | tail P =>
    unfold DrifterCall.plan
    simp only [headless_length, sstFilter_headless]
  | bias P =>
    unfold DrifterCall.plan flagAll
    simp only [headless_length, sstFilter_headless]

theorem unlinked_plan (ps : List (String × List Int)) (v : List Report) :
    (putPlan v ps).map unlinked = putPlan (v.map unlinked) ps := by
  induction ps generalizing v with
  | nil => rfl
  | cons p ps ih =>
    show (putPlan (List.zipWith (putFlag p.1) v p.2) ps).map unlinked = _
    rw [ih]
    show _ = putPlan (List.zipWith (putFlag p.1) (v.map unlinked) p.2) ps
    congr 1
    rw [List.map_zipWith, List.zipWith_map_left]
    rfl

theorem guard_headless (G : Geo) (elev : Int → Int → Rat → Rat → Rat → Rat → ℝ) (c : DrifterCall)
    (v v' e e' : List Report) (hv : headless v' = headless v) (hu : v'.map unlinked = v.map unlinked)
    (h : buoyGuard G (c.perform G elev) false v = .ok e) (h' : buoyGuard G (c.perform G elev) false v' = .ok e') :
    e'.map unlinked = e.map unlinked := by
  cases v with
  | nil =>
    cases v' with
    | nil => rw [h] at h'; injection h' with h'; rw [h']
    | cons _ _ => cases hv
  | cons r l =>
    cases v' with
    | nil => cases hv
    | cons r' l' =>
      have hq : r'.getvar "PT" = r.getvar "PT" := by
        rw [List.map_cons, List.map_cons, List.cons.injEq] at hu
        rw [← getvar_unlinked r' "PT" (by decide), hu.1, getvar_unlinked r "PT" (by decide)]
      by_cases hp : r.getvar "PT" ≠ some 7
      · have g : buoyGuard G (c.perform G elev) false (r :: l) = .ok (r :: l) := if_pos hp
        have g' : buoyGuard G (c.perform G elev) false (r' :: l') = .ok (r' :: l') := if_pos (by rw [hq]; exact hp)
        rw [g] at h
        rw [g'] at h'
        injection h with h
        injection h' with h'
        rw [← h, ← h', hu]
      · have g : buoyGuard G (c.perform G elev) false (r :: l) = c.perform G elev (r :: l) := if_neg hp
        have g' : buoyGuard G (c.perform G elev) false (r' :: l') = c.perform G elev (r' :: l') :=
          if_neg (by rw [hq]; exact hp)
        rw [g, drifter_perform_eq] at h
        rw [g', drifter_perform_eq] at h'
        obtain ⟨ps, h1, h⟩ := bind_ok_iff.mp h
        obtain ⟨ps', h1', h'⟩ := bind_ok_iff.mp h'
        have e0 : ps' = ps := by
          rw [← plan_headless, hv, plan_headless, h1] at h1'
          injection h1' with h1'
          exact h1'.symm
        subst e0
        rw [(writePlan_put ps' _ e (plan_shape G elev c _ _ h1).1 h).1,
          (writePlan_put ps' _ e' (plan_shape G elev c _ _ h1').1 h').1, unlinked_plan, unlinked_plan, hu]

/-! ## A pass over the same reports in another order -/

theorem holds_unique {r s : Report} {d : Diff} (hr : Holds r d) (hs : Holds s d) (hu : unlinked s = unlinked r) :
    s = r := by
  have ge : ∀ (q : Report) (k : String) (x : Option Rat), q.getext k = .ok x → q.ext k = some x := by
    intro q k x h
    unfold Report.getext at h
    cases hq : q.ext k with
    | none => rw [hq] at h; cases h
    | some y => rw [hq] at h; injection h with h; rw [h]
  have hx : s.ext = r.ext := by
    funext k
    by_cases hk : k ∈ linkNames
    · simp only [linkNames, List.mem_cons, List.not_mem_nil, or_false] at hk
      rcases hk with rfl | rfl | rfl | rfl
      · rw [ge _ _ _ hr.1, ge _ _ _ hs.1]
      · rw [ge _ _ _ hr.2.1, ge _ _ _ hs.2.1]
      · rw [ge _ _ _ hr.2.2.1, ge _ _ _ hs.2.2.1]
      · rw [ge _ _ _ hr.2.2.2, ge _ _ _ hs.2.2.2]
    · have := congrFun (congrArg Report.ext hu) k
      simpa [unlinked, hk] using this
  cases r; cases s
  unfold unlinked at hu
  simp only [Report.mk.injEq] at hu hx ⊢
  exact ⟨hu.1, hu.2.1, hu.2.2.1, hu.2.2.2.1, hu.2.2.2.2.1, hx, hu.2.2.2.2.2.2⟩

theorem headless_linked (G : Geo) (v v' : List Report) (hl : Linked G v) (hl' : Linked G v')
    (hu : v'.map unlinked = v.map unlinked) : headless v' = headless v := by
  have hlen : v'.length = v.length := by simpa using congrArg List.length hu
  have get : ∀ (k : Nat) (r r' : Report), v[k]? = some r → v'[k]? = some r' → unlinked r' = unlinked r := by
    intro k r r' hr hr'
    have := congrArg (fun l => l[k]?) hu
    simpa [List.getElem?_map, hr, hr'] using this
  cases v with
  | nil => rw [List.eq_nil_of_length_eq_zero hlen]
  | cons r l =>
    cases v' with
    | nil => cases hlen
    | cons r' l' =>
      show unlinked r' :: l' = unlinked r :: l
      rw [get 0 r r' rfl rfl]
      congr 1
      apply List.ext_getElem (by simpa using hlen)
      intro n h1 h2
      have k1 : n < (r :: l).length := by rw [List.length_cons]; omega
      have k2 : n < (r' :: l').length := by rw [List.length_cons]; omega
      have a1 : (r :: l)[n]? = some (r :: l)[n] := List.getElem?_eq_getElem _
      have a2 : (r' :: l')[n]? = some (r' :: l')[n] := List.getElem?_eq_getElem _
      have b1 : (r :: l)[n + 1]? = some l[n] := by simp
      have b2 : (r' :: l')[n + 1]? = some l'[n] := by simp
      obtain ⟨d, hd, hh⟩ := hl n _ _ a1 b1
      obtain ⟨d', hd', hh'⟩ := hl' n _ _ a2 b2
      have u1 := get n _ _ a1 a2
      have u2 := get (n + 1) _ _ b1 b2
      have da : (r' :: l')[n].data = (r :: l)[n].data := unlinked_data u1
      have db : l'[n].data = l[n].data := unlinked_data u2
      rw [sub_data_eq G db da, hd] at hd'
      injection hd' with hd'
      subst hd'
      exact holds_unique hh hh' u2

/-- The same reports, in some order, up to stored differences; all of one platform, with distinct times. -/
structure Shuffled (a b : List Report) : Prop where
  perm : (a.map unlinked).Perm (b.map unlinked)
  same : ∀ x ∈ a.map unlinked, ∀ y ∈ a.map unlinked, x.id = y.id
  timed : ∀ x ∈ a.map unlinked, x.dt ≠ none
  times : ((a.map unlinked).map (·.dt)).Nodup

theorem pass_sorted (G : Geo) (keep : Report → Bool) (hk : ∀ r, keep (unlinked r) = keep r) (a : List Report)
    (hd : ∀ x ∈ a.map unlinked, x.dt ≠ none) (hi : ∀ x ∈ a.map unlinked, ∀ y ∈ a.map unlinked, x.id = y.id)
    (va : List (Report × Nat)) (h : passVoyage G keep a = .ok va) :
    ((va.map (·.1)).map unlinked).Perm ((a.map unlinked).filter keep) ∧
      ((va.map (·.1)).map unlinked).Pairwise NotLater ∧ Linked G (va.map (·.1)) := by
  obtain ⟨t, t1, t2, t3, t4, t5⟩ := passVoyage_spec G keep a va h
  obtain ⟨-, ⟨c1, -, c2⟩, c3⟩ := passVoyage_chosen G keep a va h
  have hd' : ∀ r ∈ a, keep r = true → r.dt ≠ none := fun r hr _ => hd (unlinked r) (List.mem_map_of_mem (f := unlinked) hr)
  have hi' : ∀ x ∈ a, ∀ y ∈ a, x.id = y.id := fun x hx y hy =>
    hi (unlinked x) (List.mem_map_of_mem (f := unlinked) hx) (unlinked y) (List.mem_map_of_mem (f := unlinked) hy)
  have c3 := c3 hd' hi'
  refine ⟨?_, ?_, t5⟩
  · rw [unlinked_all t4]
    have p1 : ((t.mergeSort fun a b => !(b.1.lt a.1)).map (·.1)).Perm (t.map (·.1)) := (List.mergeSort_perm _ _).map _
    refine (p1.map unlinked).trans (List.Perm.of_eq ?_)
    rw [unlinked_all t2]
    have key : ∀ (l : List Report) (n : Nat), ((l.zipIdx n).filter fun p => keep p.1).map (·.1) = l.filter keep := by
      intro l
      induction l with
      | nil => intro n; rfl
      | cons r l ih =>
        intro n
        rw [List.zipIdx_cons, List.filter_cons, List.filter_cons]
        split
        · rw [List.map_cons, ih]
        · exact ih _
    rw [key, List.filter_map]
    congr 1
    exact List.filter_congr fun r _ => (hk r).symm
  · rw [List.pairwise_map, List.pairwise_iff_getElem]
    intro i j h1 h2 hij
    have h1' : i < (va.map (·.2)).length := by simpa using h1
    have h2' : j < (va.map (·.2)).length := by simpa using h2
    obtain ⟨r, s, hr, hs, o⟩ := c2 i _ (List.getElem?_eq_getElem h1')
    obtain ⟨r', s', hr', hs', o'⟩ := c2 j _ (List.getElem?_eq_getElem h2')
    have hp := (List.pairwise_iff_getElem.mp c3) i j h1' h2' hij r r' hr hr'
    rw [List.getElem?_eq_getElem h1] at hs
    rw [List.getElem?_eq_getElem h2] at hs'
    injection hs with hs
    injection hs' with hs'
    rw [hs, hs']
    obtain ⟨da, db, e1, e2, e3⟩ := hp.1
    exact ⟨da, db, o.dt.trans e1, o'.dt.trans e2, e3⟩

theorem pass_shuffled (G : Geo) (elev : Int → Int → Rat → Rat → Rat → Rat → ℝ) (c : DrifterCall) (keep : Report → Bool)
    (hk : ∀ r, keep (unlinked r) = keep r) (a a' b b' : List Report) (hs : Shuffled a b)
    (ha : trackPass G keep (buoyGuard G (c.perform G elev) false) a = .ok a')
    (hb : trackPass G keep (buoyGuard G (c.perform G elev) false) b = .ok b') : Shuffled a' b' := by
  have st := pass_step G keep _ _ (drifter_blind G elev c) a a' ha
  have mem : ∀ x' ∈ a'.map unlinked, ∃ x ∈ a.map unlinked, x'.id = x.id ∧ x'.dt = x.dt := by
    intro x' hx'
    obtain ⟨r', hr', rfl⟩ := List.mem_map.mp hx'
    obtain ⟨k, hk'⟩ := List.getElem?_of_mem hr'
    have kl : k < a.length := by rw [← st.1]; exact (List.getElem?_eq_some_iff.mp hk').1
    have hr := List.getElem?_eq_getElem kl
    have e := (st.2 k _ _ hr hk').1
    exact ⟨_, List.mem_map_of_mem (f := unlinked) (List.getElem_mem kl), (stripped_fields e).1, (stripped_fields e).2⟩
  have bt : ∀ x ∈ b.map unlinked, x ∈ a.map unlinked := fun x hx => hs.perm.symm.subset hx
  unfold trackPass at ha hb
  obtain ⟨va, ha1, ha⟩ := bind_ok_iff.mp ha
  obtain ⟨wa, ha2, ha⟩ := bind_ok_iff.mp ha
  injection ha with ha
  obtain ⟨vb, hb1, hb⟩ := bind_ok_iff.mp hb
  obtain ⟨wb, hb2, hb⟩ := bind_ok_iff.mp hb
  injection hb with hb
  obtain ⟨pa, sa, la⟩ := pass_sorted G keep hk a hs.timed hs.same va ha1
  obtain ⟨pb, sb, lb⟩ := pass_sorted G keep hk b (fun x hx => hs.timed x (bt x hx))
    (fun x hx y hy => hs.same x (bt x hx) y (bt y hy)) vb hb1
  have pv : ((vb.map (·.1)).map unlinked).Perm ((va.map (·.1)).map unlinked) :=
    pb.trans ((hs.perm.symm.filter keep).trans pa.symm)
  have ev : (vb.map (·.1)).map unlinked = (va.map (·.1)).map unlinked := by
    refine List.Perm.eq_of_pairwise (le := NotLater) ?_ sb sa pv
    intro x y hx hy h1 h2
    have hx' := (List.mem_filter.mp (pb.subset hx)).1
    have hy' := (List.mem_filter.mp (pa.subset hy)).1
    refine List.inj_on_of_nodup_map hs.times (bt x hx') hy' ?_
    obtain ⟨d1, d2, e1, e2, e3⟩ := h1
    obtain ⟨d3, d4, e4, e5, e6⟩ := h2
    rw [e2] at e4
    rw [e1] at e5
    injection e4 with e4
    injection e5 with e5
    subst e4 e5
    rcases dtLt_trichotomy d1 d2 with h | h | h
    · rw [h] at e6; cases e6
    · rw [e1, e2, h]
    · rw [h] at e3; cases e3
  have ew : wb.map unlinked = wa.map unlinked :=
    guard_headless G elev c _ _ _ _ (headless_linked G _ _ la lb ev) ev ha2 hb2
  have rp : ∀ (l l' w : List Report) (v : List (Report × Nat)), passVoyage G keep l = .ok v →
      buoyGuard G (c.perform G elev) false (v.map (·.1)) = .ok w → storeBack l (w.zip (v.map (·.2))) = l' →
      l'.Perm (w ++ l.filter fun r => !keep r) := by
    intro l l' w v h1 h2 h3
    obtain ⟨ch, ⟨-, -, -⟩, -⟩ := passVoyage_chosen G keep l v h1
    have lw : w.length = (v.map (·.2)).length := by
      rw [← (drifter_blind G elev c _ _ h2).1.length_eq]; simp
    have zw : (w.zip (v.map (·.2))).map (·.2) = v.map (·.2) := List.map_snd_zip (by omega)
    obtain ⟨g0, g1, g2⟩ := storeBack_get (w.zip (v.map (·.2))) l (by rw [zw]; exact ch.1) (by
      intro p hp
      obtain ⟨r, hr, -⟩ := (ch.2 p.2).mp (List.of_mem_zip hp).2
      exact (List.getElem?_eq_some_iff.mp hr).1)
    rw [h3] at g0 g1 g2
    refine replaced_perm keep l l' w _ ch ⟨g0, lw, fun n k hn => ?_, fun k hk => g2 k (by rw [zw]; exact hk)⟩
    have hn' : n < w.length := by rw [lw]; exact (List.getElem?_eq_some_iff.mp hn).1
    have hw := List.getElem?_eq_getElem hn'
    rw [hw]
    exact g1 (w[n], k) (List.mem_of_getElem? (i := n) (by rw [List.getElem?_zip_eq_some]; exact ⟨hw, hn⟩))
  have qa := (rp a a' wa va ha1 ha2 ha).map unlinked
  have qb := (rp b b' wb vb hb1 hb2 hb).map unlinked
  have nk : ∀ l : List Report, (l.filter fun r => !keep r).map unlinked = (l.map unlinked).filter fun r => !keep r := by
    intro l
    rw [List.filter_map]
    congr 1
    exact List.filter_congr fun r _ => by simp [hk r]
  rw [List.map_append, nk] at qa qb
  rw [ew] at qb
  refine ⟨qa.trans ((List.Perm.append_left _ (hs.perm.filter _)).trans qb.symm), ?_, ?_, ?_⟩
  · intro x hx y hy
    obtain ⟨x0, hx0, e1, -⟩ := mem x hx
    obtain ⟨y0, hy0, e2, -⟩ := mem y hy
    rw [e1, e2]
    exact hs.same x0 hx0 y0 hy0
  · intro x hx
    obtain ⟨x0, hx0, -, e1⟩ := mem x hx
    rw [e1]
    exact hs.timed x0 hx0
  · have e : (a'.map unlinked).map (·.dt) = (a.map unlinked).map (·.dt) := by
      apply List.ext_getElem (by simp [st.1])
      intro k h1 h2
      simp only [List.length_map] at h1 h2
      simp only [List.getElem_map]
      exact (stripped_fields (st.2 k _ _ (List.getElem?_eq_getElem h2) (List.getElem?_eq_getElem h1)).1).2
    rw [e]
    exact hs.times

theorem kept_unlinked (r : Report) : positionKept (unlinked r) = positionKept r ∧ tailKept (unlinked r) = tailKept r ∧
    biasKept (unlinked r) = biasKept r :=
  ⟨positionKept_same fun _ _ => rfl, tailKept_same fun _ _ => rfl, biasKept_same fun _ _ => rfl⟩

/-- C153: the result of the checks of the tracking program does not depend on the order in which the reports of a
drifter are read: if their times differ, the same reports with the same flags come out, but for the differences
stored. -/
theorem C153_order (G : Geo) (elev : Int → Int → Rat → Rat → Rat → Rat → ℝ) (P : DriftParams)
    (reps₁ reps₂ out₁ out₂ : List Report) (hp : reps₁.Perm reps₂) (hid : ∀ a ∈ reps₁, ∀ b ∈ reps₁, a.id = b.id)
    (hdt : ∀ r ∈ reps₁, r.dt ≠ none) (ht : reps₁.Pairwise fun a b => a.dt ≠ b.dt)
    (h1 : trackingChecks G elev P reps₁ = .ok out₁) (h2 : trackingChecks G elev P reps₂ = .ok out₂) :
    (out₁.map unlinked).Perm (out₂.map unlinked) := by
  obtain ⟨a1, a2, a3, x1, x2, x3, x4⟩ := trackingChecks_ok.mp h1
  obtain ⟨b1, b2, b3, y1, y2, y3, y4⟩ := trackingChecks_ok.mp h2
  have s0 : Shuffled reps₁ reps₂ := by
    refine ⟨hp.map _, ?_, ?_, ?_⟩
    · intro x hx y hy
      obtain ⟨r, hr, rfl⟩ := List.mem_map.mp hx
      obtain ⟨s, hs, rfl⟩ := List.mem_map.mp hy
      exact hid r hr s hs
    · intro x hx
      obtain ⟨r, hr, rfl⟩ := List.mem_map.mp hx
      exact hdt r hr
    · rw [List.map_map]
      exact List.pairwise_map.mpr ht
  have s1 := pass_shuffled G elev (.newAground P.win P.groundPeriod) _ (fun r => (kept_unlinked r).1) _ _ _ _ s0 x1 y1
  have s2 := pass_shuffled G elev (.newSpeed P.iquam P.speedLimit P.speedPeriod) _ (fun r => (kept_unlinked r).1)
    _ _ _ _ s1 x2 y2
  have s3 := pass_shuffled G elev (.tail P.tail) _ (fun r => (kept_unlinked r).2.1) _ _ _ _ s2 x3 y3
  exact (pass_shuffled G elev (.bias P.bias) _ (fun r => (kept_unlinked r).2.2) _ _ _ _ s3 x4 y4).perm

/-- C153: for records the checks can be made on (C96) they complete in both orders. -/
theorem C153_completes (G : Geo) (hG : IsDistance G) (elev : Int → Int → Rat → Rat → Rat → Rat → ℝ) (P : DriftParams)
    (hP : TrackParamsOk P) (reps₁ reps₂ : List Report) (hp : reps₁.Perm reps₂) (hr : Trackable reps₁)
    (hdt : ∀ r ∈ reps₁, r.dt ≠ none) (ht : reps₁.Pairwise fun a b => a.dt ≠ b.dt) :
    ∃ out₁ out₂, trackingChecks G elev P reps₁ = .ok out₁ ∧ trackingChecks G elev P reps₂ = .ok out₂ ∧
      (out₁.map unlinked).Perm (out₂.map unlinked) := by
  have m : ∀ r ∈ reps₂, r ∈ reps₁ := fun r h => hp.symm.subset h
  have hr2 : Trackable reps₂ := ⟨fun r h => hr.placed r (m r h), fun r h => hr.observed r (m r h),
    fun r h => hr.background r (m r h), fun a ha b hb => hr.same a (m a ha) b (m b hb),
    fun a ha b hb => hr.minutes a (m a ha) b (m b hb)⟩
  obtain ⟨o1, -, h1, -⟩ := C96_completes_partial G hG elev P hP reps₁ hr
  obtain ⟨o2, -, h2, -⟩ := C96_completes_partial G hG elev P hP reps₂ hr2
  exact ⟨o1, o2, h1, h2, C153_order G elev P _ _ _ _ hp hr.same hdt ht h1 h2⟩

/-- Non-vacuity of C153: three reports of a drifter, in time order and with the first one last. -/
example : TrackParamsOk driftParams ∧ Trackable driftReps ∧ IsDistance blockGeo ∧ (∀ r ∈ driftReps, r.dt ≠ none) ∧
    (driftReps.Pairwise fun a b => a.dt ≠ b.dt) ∧
    ∃ reps₂ : List Report, driftReps.Perm reps₂ ∧
      reps₂.map (fun r => r.dt) ≠ driftReps.map fun r => r.dt := by
  refine ⟨driftParams_ok, driftReps_trackable, blockGeo_distance, ?_, ?_, driftReps.drop 1 ++ driftReps.take 1, ?_, ?_⟩
  · intro r hr
    simp only [driftReps, List.mem_cons, List.not_mem_nil, or_false] at hr
    rcases hr with rfl | rfl | rfl <;> simp [driftReport]
  · have : (driftReps.map fun r => r.dt).Nodup := by decide +kernel
    exact List.pairwise_map.mp this
  · have := (List.perm_append_comm (l₁ := driftReps.take 1) (l₂ := driftReps.drop 1))
    rwa [List.take_append_drop] at this
  · decide +kernel

end MarineQC
