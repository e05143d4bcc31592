import Verif.Tracking.Spec

/-! # One pass of the tracking program -/

namespace MarineQC

open Spec

theorem onlyFlags_refl (keys : List String) (r : Report) : OnlyFlags keys r r :=
  ⟨rfl, rfl, rfl, rfl, rfl, fun _ _ => rfl, fun _ _ => rfl⟩

theorem onlyFlags_trans {keys keys' : List String} {a b c : Report} (h1 : OnlyFlags keys a b) (h2 : OnlyFlags keys' b c) :
    OnlyFlags (keys ++ keys') a c :=
  ⟨h2.id.trans h1.id, h2.uid.trans h1.uid, h2.data.trans h1.data, h2.clim.trans h1.clim, h2.dt.trans h1.dt,
    fun k hk => (h2.ext k hk).trans (h1.ext k hk),
    fun k hk => (h2.flags k (fun h => hk (by simp [h]))).trans (h1.flags k (fun h => hk (by simp [h])))⟩

theorem onlyFlags_mono {keys keys' : List String} {a b : Report} (h : OnlyFlags keys a b) (hs : keys ⊆ keys') :
    OnlyFlags keys' a b :=
  { h with flags := fun k hk => h.flags k (fun h => hk (hs h)) }

theorem setDiff_only (r : Report) (d : Diff) : OnlyFlags [] r (r.setDiff d) := by
  refine ⟨rfl, rfl, rfl, rfl, rfl, ?_, fun _ _ => rfl⟩
  intro k hk
  simp only [linkNames, List.mem_cons, List.not_mem_nil, or_false, not_or] at hk
  simp [Report.setDiff, Report.setext, hk]

theorem clearDiff_only (r : Report) : OnlyFlags [] r r.clearDiff := by
  refine ⟨rfl, rfl, rfl, rfl, rfl, ?_, fun _ _ => rfl⟩
  intro k hk
  simp only [linkNames, List.mem_cons, List.not_mem_nil, or_false, not_or] at hk
  simp [Report.clearDiff, Report.setext, hk]

theorem build_only (G : Geo) (l v : List Report) (h : l.foldlM (addReport G) [] = .ok v) :
    List.Forall₂ (OnlyFlags []) l v := by
  induction l using List.reverseRecOn generalizing v with
  | nil =>
    simp only [List.foldlM_nil, except_pure, Except.ok.injEq] at h
    subst h
    exact .nil
  | append_singleton l r ih =>
    rw [List.foldlM_append] at h
    cases h1 : l.foldlM (addReport G) [] with
    | error e => rw [h1] at h; simp at h
    | ok v0 =>
      rw [h1, except_bind_ok, List.foldlM_cons] at h
      cases h2 : addReport G v0 r with
      | error e => rw [h2] at h; simp at h
      | ok v1 =>
        rw [h2, except_bind_ok] at h
        simp only [List.foldlM_nil, except_pure, Except.ok.injEq] at h
        subst h
        have hv := ih v0 h1
        rcases addReport_some h2 with ⟨rfl, rfl⟩ | ⟨p, d, -, -, rfl⟩
        · cases hv
          exact .cons (clearDiff_only r) .nil
        · exact forall2_snoc hv (setDiff_only r d)
where
  forall2_snoc {l v : List Report} {a b : Report} (h : List.Forall₂ (OnlyFlags []) l v) (h' : OnlyFlags [] a b) :
      List.Forall₂ (OnlyFlags []) (l ++ [a]) (v ++ [b]) := by
    induction h with
    | nil => exact .cons h' .nil
    | cons x _ ih => exact .cons x ih

theorem relink_only (G : Geo) (p : Report) (l v : List Report) (h : relink G p l = .ok v) :
    List.Forall₂ (OnlyFlags []) l v := by
  induction l generalizing p v with
  | nil => simp only [relink, Except.ok.injEq] at h; subst h; exact .nil
  | cons r l ih =>
    rw [relink] at h
    cases h1 : r.sub G p with
    | error e => rw [h1] at h; simp at h
    | ok d =>
      rw [h1, except_bind_ok] at h
      cases h2 : relink G (r.setDiff d) l with
      | error e => rw [h2] at h; simp at h
      | ok w =>
        rw [h2] at h
        simp only [except_bind_ok, except_pure, Except.ok.injEq] at h
        subst h
        exact .cons (setDiff_only r d) (ih _ _ h2)

theorem relinkAll_only (G : Geo) (l v : List Report) (h : relinkAll G l = .ok v) : List.Forall₂ (OnlyFlags []) l v := by
  cases l with
  | nil => simp only [relinkAll, Except.ok.injEq] at h; subst h; exact .nil
  | cons r l =>
    rw [relinkAll] at h
    cases h2 : relink G r l with
    | error e => rw [h2] at h; simp at h
    | ok w =>
      rw [h2] at h
      simp only [except_bind_ok, except_pure, Except.ok.injEq] at h
      subst h
      exact .cons (onlyFlags_refl _ _) (relink_only G _ _ _ h2)

/-- What is sorted of a voyage is what `Voyage.sort` sorts. -/
theorem sortVoyage_eq (G : Geo) (v : List Report) : sortVoyage G v = relinkAll G (sortReports v) := by
  unfold sortVoyage relinkAll
  rfl

theorem sortTagged_fst (G : Geo) (v w : List (Report × Nat)) (h : sortTagged G v = .ok w) :
    sortVoyage G (v.map (·.1)) = .ok (w.map (·.1)) := by
  unfold sortTagged at h
  dsimp only at h
  rw [sortVoyage_eq]
  have e : (v.mergeSort fun a b => !(b.1.lt a.1)).map (·.1) = sortReports (v.map (·.1)) := by
    unfold sortReports
    apply List.map_mergeSort
    intros
    rfl
  cases h1 : relinkAll G ((v.mergeSort fun a b => !(b.1.lt a.1)).map (·.1)) with
  | error e => rw [h1] at h; simp at h
  | ok u =>
    rw [h1] at h
    simp only [except_bind_ok, except_pure, Except.ok.injEq] at h
    subst h
    rw [← e, h1, List.map_fst_zip]
    rw [← (relinkAll_only G _ _ h1).length_eq]
    simp

/-- The voyage of a pass: a rearrangement `s` of the chosen reports, with the differences stored. -/
theorem passVoyage_spec (G : Geo) (keep : Report → Bool) (reps : List Report) (v : List (Report × Nat))
    (h : passVoyage G keep reps = .ok v) :
    ∃ t : List (Report × Nat), t.map (·.2) = (reps.zipIdx.filter fun p => keep p.1).map (·.2) ∧
      List.Forall₂ (OnlyFlags []) ((reps.zipIdx.filter fun p => keep p.1).map (·.1)) (t.map (·.1)) ∧
      v.map (·.2) = (t.mergeSort fun a b => !(b.1.lt a.1)).map (·.2) ∧
      List.Forall₂ (OnlyFlags []) ((t.mergeSort fun a b => !(b.1.lt a.1)).map (·.1)) (v.map (·.1)) ∧
      Linked G (v.map (·.1)) := by
  unfold passVoyage buildTagged at h
  generalize (reps.zipIdx.filter fun p => keep p.1) = F at h ⊢
  cases h1 : (F.map (·.1)).foldlM (addReport G) [] with
  | error e => rw [h1] at h; simp at h
  | ok u =>
    rw [h1] at h
    simp only [except_bind_ok, except_pure] at h
    have hu := build_only G _ _ h1
    have hlen : u.length = F.length := by simpa using hu.length_eq.symm
    refine ⟨u.zip (F.map (·.2)), List.map_snd_zip (by simp [hlen]), ?_, ?_⟩
    · rw [List.map_fst_zip (by simp [hlen])]; exact hu
    have hl := (C40_sort G _ _ (sortTagged_fst G _ _ h)).2
    unfold sortTagged at h
    dsimp only at h
    generalize ((u.zip (F.map (·.2))).mergeSort fun a b => !(b.1.lt a.1)) = s at h ⊢
    cases h2 : relinkAll G (s.map (·.1)) with
    | error e => rw [h2] at h; simp at h
    | ok w =>
      rw [h2] at h
      simp only [except_bind_ok, except_pure, Except.ok.injEq] at h
      subst h
      have hw := relinkAll_only G _ _ h2
      have hl2 : w.length = s.length := by simpa using hw.length_eq.symm
      refine ⟨List.map_snd_zip (by simp [hl2]), ?_, hl⟩
      rw [List.map_fst_zip (by simp [hl2])]; exact hw

theorem storeBack_get (v : List (Report × Nat)) : ∀ (reps : List Report), (v.map (·.2)).Nodup →
    (∀ p ∈ v, p.2 < reps.length) →
    (storeBack reps v).length = reps.length ∧ (∀ p ∈ v, (storeBack reps v)[p.2]? = some p.1) ∧
    ∀ k, k ∉ v.map (·.2) → (storeBack reps v)[k]? = reps[k]? := by
  induction v with
  | nil => intro reps _ _; exact ⟨rfl, by simp, fun _ _ => rfl⟩
  | cons q v ih =>
    intro reps hn hb
    rw [List.map_cons, List.nodup_cons] at hn
    obtain ⟨i1, i2, i3⟩ := ih (reps.set q.2 q.1) hn.2 (by
      intro p hp
      rw [List.length_set]
      exact hb p (by simp [hp]))
    rw [List.length_set] at i1
    refine ⟨i1, ?_, ?_⟩
    · intro p hp
      rcases List.mem_cons.mp hp with rfl | hp
      · show (storeBack (reps.set p.2 p.1) v)[p.2]? = _
        rw [i3 _ hn.1, List.getElem?_set_self (hb p (by simp))]
      · exact i2 p hp
    · intro k hk
      rw [List.map_cons, List.mem_cons, not_or] at hk
      show (storeBack (reps.set q.2 q.1) v)[k]? = _
      rw [i3 k hk.2, List.getElem?_set_ne (Ne.symm hk.1)]

theorem forall2_get {α β : Type} {R : α → β → Prop} {l : List α} {m : List β} (h : List.Forall₂ R l m) (n : Nat) (a : α)
    (ha : l[n]? = some a) : ∃ b, m[n]? = some b ∧ R a b := by
  induction h generalizing n with
  | nil => simp at ha
  | cons x _ ih =>
    cases n with
    | zero => simp only [List.getElem?_cons_zero, Option.some.injEq] at ha; subst ha; exact ⟨_, rfl, x⟩
    | succ n => exact ih n (by simpa using ha)

theorem tagged_chosen (keep : Report → Bool) (reps : List Report) (p : Report × Nat) :
    p ∈ (reps.zipIdx.filter fun p => keep p.1) ↔ reps[p.2]? = some p.1 ∧ keep p.1 = true := by
  rw [List.mem_filter, List.mem_zipIdx_iff_getElem?]

/-- The voyage of a pass consists of the chosen reports, each once, in time order. -/
theorem passVoyage_chosen (G : Geo) (keep : Report → Bool) (reps : List Report) (v : List (Report × Nat))
    (h1 : passVoyage G keep reps = .ok v) :
    Chooses (fun r => keep r = true) reps (v.map (·.2)) ∧ VoyageOf G reps (v.map (·.2)) (v.map (·.1)) ∧
      ((∀ r ∈ reps, keep r = true → r.dt ≠ none) → (∀ a ∈ reps, ∀ b ∈ reps, a.id = b.id) → InTime reps (v.map (·.2))) := by
  obtain ⟨t, t1, t2, t3, t4, t5⟩ := passVoyage_spec G keep reps v h1
  generalize hF : (reps.zipIdx.filter fun p => keep p.1) = F at t1 t2
  have hFm : ∀ p, p ∈ F ↔ reps[p.2]? = some p.1 ∧ keep p.1 = true := by
    intro p; rw [← hF]; exact tagged_chosen keep reps p
  have hFs : (F.map (·.2)).Pairwise (· < ·) := by
    rw [← hF]
    have : ((reps.zipIdx).map (·.2)).Pairwise (· < ·) := by
      rw [List.zipIdx_map_snd]
      exact List.pairwise_lt_range'
    exact this.sublist ((List.filter_sublist).map _)
  have htm : ∀ p ∈ t, ∃ r, reps[p.2]? = some r ∧ keep r = true ∧ OnlyFlags [] r p.1 := by
    intro p hp
    obtain ⟨n, hn⟩ := List.mem_iff_getElem?.mp hp
    have a1 : (t.map (·.2))[n]? = some p.2 := by rw [List.getElem?_map, hn]; rfl
    rw [t1, List.getElem?_map] at a1
    cases hf : F[n]? with
    | none => rw [hf] at a1; simp at a1
    | some q =>
      rw [hf] at a1
      simp only [Option.map_some, Option.some.injEq] at a1
      obtain ⟨b, b1, b2⟩ := forall2_get t2 n q.1 (by rw [List.getElem?_map, hf]; rfl)
      rw [List.getElem?_map, hn, Option.map_some, Option.some.injEq] at b1
      subst b1
      obtain ⟨q1, q2⟩ := (hFm q).mp (List.mem_of_getElem? hf)
      exact ⟨q.1, by rw [← a1]; exact q1, q2, b2⟩
  generalize hs : (t.mergeSort fun a b => !(b.1.lt a.1)) = s at t3 t4
  have hsp : s.Perm t := by rw [← hs]; exact List.mergeSort_perm _ _
  have hnd : (v.map (·.2)).Nodup := by
    rw [t3, (hsp.map _).nodup_iff, t1]
    exact hFs.imp (fun h => Nat.ne_of_lt h)
  have hmem : ∀ k, k ∈ v.map (·.2) ↔ ∃ r, reps[k]? = some r ∧ keep r = true := by
    intro k
    rw [t3, (hsp.map _).mem_iff, t1, List.mem_map]
    constructor
    · rintro ⟨p, hp, rfl⟩
      exact ⟨p.1, (hFm p).mp hp⟩
    · rintro ⟨r, hr⟩
      exact ⟨(r, k), (hFm (r, k)).mpr hr, rfl⟩
  refine ⟨⟨hnd, hmem⟩, ⟨by simp, t5, ?_⟩, ?_⟩
  · intro n k hk
    rw [t3, List.getElem?_map] at hk
    cases hsn : s[n]? with
    | none => rw [hsn] at hk; simp at hk
    | some q =>
      rw [hsn] at hk
      simp only [Option.map_some, Option.some.injEq] at hk
      obtain ⟨b, b1, b2⟩ := forall2_get t4 n q.1 (by rw [List.getElem?_map, hsn]; rfl)
      obtain ⟨r, r1, _, r3⟩ := htm q (hsp.mem_iff.mp (List.mem_of_getElem? hsn))
      exact ⟨r, b, by rw [← hk]; exact r1, b1, onlyFlags_trans r3 b2⟩
  · intro hdt hid
    have hdt' : ∀ p ∈ t, p.1.dt ≠ none := by
      intro p hp
      obtain ⟨r, r1, r2, r3⟩ := htm p hp
      rw [r3.dt]
      exact hdt r (List.mem_of_getElem? r1) r2
    rw [t3]
    show (s.map (·.2)).Pairwise _
    rw [List.pairwise_map]
    -- sorted
    let T := { p : Report × Nat // p.1.dt ≠ none }
    obtain ⟨t', ht'⟩ : ∃ t' : List T, t'.map Subtype.val = t :=
      ⟨t.attach.map fun p => ⟨p.1, hdt' p.1 p.2⟩, by rw [List.map_map]; exact List.attach_map_subtype_val t⟩
    have es : s = (t'.mergeSort (fun a b => !(b.val.1.lt a.val.1))).map Subtype.val := by
      rw [← hs, ← ht']
      symm
      apply List.map_mergeSort
      intros
      rfl
    have tot : ∀ a b : T, ((!(b.val.1.lt a.val.1)) || !(a.val.1.lt b.val.1)) = true :=
      fun a b => timed_total ⟨a.1.1, a.2⟩ ⟨b.1.1, b.2⟩
    have tra : ∀ a b c : T, (!(b.val.1.lt a.val.1)) = true → (!(c.val.1.lt b.val.1)) = true →
        (!(c.val.1.lt a.val.1)) = true :=
      fun a b c => timed_trans ⟨a.1.1, a.2⟩ ⟨b.1.1, b.2⟩ ⟨c.1.1, c.2⟩
    have sorted : s.Pairwise fun a b => b.1.lt a.1 = false := by
      rw [es, List.pairwise_map]
      refine (List.pairwise_mergeSort tra tot t').imp ?_
      intro a b h
      simpa using h
    have stable : ∀ a b : Report × Nat, [a, b].Sublist t → b.1.lt a.1 = false → [a, b].Sublist s := by
      intro a b hab hl
      rw [← ht'] at hab
      obtain ⟨u, hu1, hu2⟩ := List.sublist_map_iff.1 hab
      match u, hu2 with
      | [x, y], hu2 =>
        simp only [List.map_cons, List.map_nil, List.cons.injEq, and_true] at hu2
        obtain ⟨rfl, rfl⟩ := hu2
        rw [es]
        have := List.pair_sublist_mergeSort tra tot (by rw [hl]; rfl) hu1
        exact this.map Subtype.val
    have hsn : (s.map (·.2)).Nodup := by rw [← t3]; exact hnd
    have tsort : (t.map (·.2)).Pairwise (· < ·) := by rw [t1]; exact hFs
    have pairs : s.Pairwise fun a b => b.1.lt a.1 = false ∧ (a.1.lt b.1 = false → a.2 < b.2) := by
      rw [List.pairwise_iff_getElem] at sorted ⊢
      intro i j hi hj hij
      refine ⟨sorted i j hi hj hij, fun hl => ?_⟩
      by_contra hc
      have hne : s[j].2 < s[i].2 := by
        rcases Nat.lt_trichotomy s[i].2 s[j].2 with h | h | h
        · exact absurd h hc
        · exfalso
          have := List.pairwise_iff_getElem.mp hsn i j (by simpa using hi) (by simpa using hj) hij
          simp only [List.getElem_map] at this
          exact this h
        · exact h
      -- the later one comes first in `t`
      have sub : [s[j], s[i]].Sublist t := by
        obtain ⟨x, hx, ex⟩ := List.mem_iff_getElem.mp (hsp.mem_iff.mp (List.getElem_mem hj))
        obtain ⟨y, hy, ey⟩ := List.mem_iff_getElem.mp (hsp.mem_iff.mp (List.getElem_mem hi))
        have hxy : x < y := by
          by_contra hge
          rcases Nat.lt_or_ge y x with h | h
          · have := List.pairwise_iff_getElem.mp tsort y x (by simpa using hy) (by simpa using hx) h
            simp only [List.getElem_map, ex, ey] at this
            omega
          · have : x = y := by omega
            subst this
            rw [ex] at ey
            rw [ey] at hne
            omega
        rw [← ex, ← ey]
        exact pair_sublist t x y hx hy hxy
      have sub2 := stable _ _ sub hl
      -- both orders in `s`
      have : ((s.map (·.2)).Nodup → [s[j].2, s[i].2].Sublist (s.map (·.2)) → False) := by
        intro hn hsub
        obtain ⟨is, e1, e2⟩ := List.sublist_eq_map_getElem hsub
        have hl2 : is.length = 2 := by simpa using (congrArg List.length e1).symm
        obtain ⟨a, b, rfl⟩ := List.length_eq_two.mp hl2
        · simp only [List.map_cons, List.map_nil, List.cons.injEq, and_true] at e1
          have hab : a < b := by simpa using e2
          have ha : (a : Nat) = j := by
            have := e1.1
            rw [show s[j].2 = (s.map (·.2))[j]'(by simpa using hj) by simp] at this
            exact ((List.Nodup.getElem_inj_iff hn).mp this).symm
          have hb : (b : Nat) = i := by
            have := e1.2
            rw [show s[i].2 = (s.map (·.2))[i]'(by simpa using hi) by simp] at this
            exact ((List.Nodup.getElem_inj_iff hn).mp this).symm
          have : (a : Nat) < b := hab
          omega
      exact this hsn (by simpa using sub2.map (·.2))
    refine pairs.imp_of_mem ?_
    intro p q hp hq hpq a b ha hb
    obtain ⟨r, r1, r2, r3⟩ := htm p (hsp.mem_iff.mp hp)
    obtain ⟨r', r1', r2', r3'⟩ := htm q (hsp.mem_iff.mp hq)
    rw [r1] at ha; injection ha with ha; subst ha
    rw [r1'] at hb; injection hb with hb; subst hb
    obtain ⟨da, hda⟩ := Option.ne_none_iff_exists'.1 (hdt' p (hsp.mem_iff.mp hp))
    obtain ⟨db, hdb⟩ := Option.ne_none_iff_exists'.1 (hdt' q (hsp.mem_iff.mp hq))
    have hids : p.1.id = q.1.id := by
      rw [r3.id, r3'.id]
      exact hid _ (List.mem_of_getElem? r1) _ (List.mem_of_getElem? r1')
    have key : ∀ (x y : Report) dx dy, x.dt = some dx → y.dt = some dy → x.id = y.id →
        (x.lt y = false ↔ dtLt dx dy = false) := by
      intro x y dx dy hx hy hxy
      unfold Report.lt
      rw [Bool.eq_false_iff, Bool.eq_false_iff, ne_eq, gt_iff hy hx, hxy, idLt_irrefl]
      simp
    rw [key _ _ _ _ hdb hda hids.symm, key _ _ _ _ hda hdb hids] at hpq
    refine ⟨⟨da, db, r3.dt ▸ hda, r3'.dt ▸ hdb, hpq.1⟩, fun he => hpq.2 ?_⟩
    rw [← r3.dt, ← r3'.dt, hda, hdb, Option.some.injEq] at he
    rw [he]
    exact dtLt_irrefl _
where
  pair_sublist {α : Type} (l : List α) (i j : Nat) (hi : i < l.length) (hj : j < l.length) (h : i < j) :
      [l[i], l[j]].Sublist l := by
    have : [l[i], l[j]] = [(⟨i, hi⟩ : Fin l.length), ⟨j, hj⟩].map fun k => l[k] := rfl
    rw [this]
    exact List.map_getElem_sublist (by simpa using h)


/-- **One pass.**  The check was given the chosen reports, each once, and what it returned replaced them. -/
theorem trackPass_chosen (G : Geo) (keep : Report → Bool) (check : List Report → Except Err (List Report))
    (hlen : ∀ v v', check v = .ok v' → v'.length = v.length) (reps reps' : List Report)
    (h : trackPass G keep check reps = .ok reps') :
    ∃ order v v', Chooses (fun r => keep r = true) reps order ∧ VoyageOf G reps order v ∧ check v = .ok v' ∧
      Replaced reps reps' order v' ∧
      ((∀ r ∈ reps, keep r = true → r.dt ≠ none) → (∀ a ∈ reps, ∀ b ∈ reps, a.id = b.id) → InTime reps order) := by
  unfold trackPass at h
  cases h1 : passVoyage G keep reps with
  | error e => rw [h1] at h; simp at h
  | ok v =>
    rw [h1, except_bind_ok] at h
    cases h2 : check (v.map (·.1)) with
    | error e => rw [h2] at h; simp at h
    | ok w =>
      rw [h2] at h
      simp only [except_bind_ok, except_pure, Except.ok.injEq] at h
      subst h
      obtain ⟨⟨hnd, hmem⟩, hvo, hint⟩ := passVoyage_chosen G keep reps v h1
      have hw := hlen _ _ h2
      rw [List.length_map] at hw
      have hlt : ∀ k ∈ v.map (·.2), k < reps.length := by
        intro k hk
        obtain ⟨r, hr, _⟩ := (hmem k).mp hk
        exact (List.getElem?_eq_some_iff.mp hr).1
      have hz : (w.zip (v.map (·.2))).map (·.2) = v.map (·.2) := List.map_snd_zip (by simp [hw])
      obtain ⟨s1, s2, s3⟩ := storeBack_get (w.zip (v.map (·.2))) reps (by rw [hz]; exact hnd) (by
        intro p hp
        apply hlt
        rw [← hz]
        exact List.mem_map_of_mem hp)
      refine ⟨v.map (·.2), v.map (·.1), w, ⟨hnd, hmem⟩, hvo, h2, ⟨s1, by simp [hw], ?_, ?_⟩, hint⟩
      · intro n k hk
        have hn : n < w.length := by
          rw [hw]; simpa using (List.getElem?_eq_some_iff.mp hk).1
        have hp : (w[n], k) ∈ w.zip (v.map (·.2)) := by
          apply List.mem_iff_getElem?.mpr
          refine ⟨n, ?_⟩
          rw [List.getElem?_zip_eq_some]
          exact ⟨List.getElem?_eq_getElem hn, hk⟩
        rw [List.getElem?_eq_getElem hn]
        exact s2 _ hp
      · intro k hk
        exact s3 k (by rw [hz]; exact hk)

end MarineQC
