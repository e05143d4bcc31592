import Verif.Base.OutSpec

/-! # The output of a month (C107) -/

namespace MarineQC

open Spec

/-! ## Voyages -/

theorem traceable_sub (G : Geo) {a b : Report} (ha : Traceable a) (hb : Traceable b) : ∃ d, a.sub G b = .ok d := by
  obtain ⟨a1, a2, a3⟩ := ha
  obtain ⟨b1, b2, b3⟩ := hb
  have ht : ∃ t, b.timeTo a = .ok t := by
    cases h1 : b.getvar "HR" with
    | none => exact ⟨none, by unfold Report.timeTo; rw [h1]⟩
    | some hb' =>
      cases h2 : a.getvar "HR" with
      | none => exact ⟨none, by unfold Report.timeTo; rw [h1, h2]⟩
      | some ha' =>
        obtain ⟨p1, p2, p3⟩ := a3 _ h2
        obtain ⟨q1, q2, q3⟩ := b3 _ h1
        obtain ⟨y, m, d, e1, e2, e3, l1, l2, l3, l4⟩ := p3
        obtain ⟨y', m', d', f1, f2, f3, k1, k2, k3, k4⟩ := q3
        obtain ⟨t, ht⟩ := timeTo_ok (a := a) (b := b) ⟨a1, a2, y, m, d, ha', e1, e2, e3, h2, p1, p2, l1, l2, l3, l4⟩
          ⟨b1, b2, y', m', d', hb', f1, f2, f3, h1, q1, q2, k1, k2, k3, k4⟩
        exact ⟨_, ht⟩
  obtain ⟨t, ht⟩ := ht
  obtain ⟨x1, e1⟩ := Option.ne_none_iff_exists'.mp a1
  obtain ⟨x2, e2⟩ := Option.ne_none_iff_exists'.mp a2
  obtain ⟨x3, e3⟩ := Option.ne_none_iff_exists'.mp b1
  obtain ⟨x4, e4⟩ := Option.ne_none_iff_exists'.mp b2
  unfold Report.sub
  rw [e1, e2, e3, e4, ht]
  exact ⟨_, rfl⟩

theorem traceable_of_data {r s : Report} (h : s.data = r.data) (hr : Traceable r) : Traceable s := by
  have hg : ∀ v ∈ ["LAT", "LON", "HR"], s.getvar v = r.getvar v := by
    intro v hv
    simp only [List.mem_cons, List.not_mem_nil, or_false] at hv
    rcases hv with rfl | rfl | rfl <;> simp [Report.getvar, h, VARLIST]
  have hi : ∀ v, s.getint v = r.getint v := by intro v; simp only [Report.getint, h]
  unfold Traceable Report.lat Report.lon at hr ⊢
  rw [hg "LAT" (by simp), hg "LON" (by simp), hg "HR" (by simp)]
  simp only [hi]
  exact hr

theorem build_traceable (G : Geo) (l : List Report) (h : ∀ r ∈ l, Traceable r) :
    ∃ v, l.foldlM (addReport G) [] = .ok v := by
  induction l using List.reverseRecOn with
  | nil => exact ⟨[], rfl⟩
  | append_singleton l r ih =>
    obtain ⟨v, hv⟩ := ih fun q hq => h q (by simp [hq])
    rw [List.foldlM_append, hv, except_bind_ok, List.foldlM_cons, addReport.eq_def]
    cases hlast : v.getLast? with
    | none => exact ⟨_, rfl⟩
    | some p =>
      have hp : Traceable p := by
        obtain ⟨n, hn⟩ := List.mem_iff_getElem?.mp (List.mem_of_getLast? hlast)
        obtain ⟨q, q1, q2⟩ := forall2_get (build_only G l v hv).flip n p hn
        exact traceable_of_data q2.data (h q (by simp [List.mem_of_getElem? q1]))
      obtain ⟨d, hd⟩ := traceable_sub G (h r (by simp)) hp
      simp only [hd, except_bind_ok, except_pure, List.foldlM_nil]
      exact ⟨_, rfl⟩

theorem voyage_eq (G : Geo) (d : Deck) (i : Option String)
    (l : List Nat) (hl : l = (d.reps.zipIdx.filter fun p => decide (p.1.id = i)).map (·.2)) :
    d.voyage G l = (d.reps.filter (chosenFor d.filter i)).foldlM (addReport G) [] := by
  have hp : d.platform l = .ok (d.reps.zipIdx.filter fun p => chosenFor d.filter i p.1) := by
    unfold Deck.platform
    rw [hl, platform_eq d _ (by
      intro p hp
      rw [List.mem_filter] at hp
      exact List.mem_zipIdx_iff_getElem?.mp hp.1), List.nil_append, List.filter_filter]
    congr 2
    funext p
    unfold chosenFor
    rw [Bool.decide_and, Bool.and_comm]
  have hm : (d.reps.zipIdx.filter fun p => chosenFor d.filter i p.1).map (·.1) = d.reps.filter (chosenFor d.filter i) := by
    have : (fun p : Report × Nat => chosenFor d.filter i p.1) = chosenFor d.filter i ∘ Prod.fst := rfl
    rw [this, ← List.filter_map, List.zipIdx_map_fst]
  unfold Deck.voyage
  rw [hp, except_bind_ok, hm]

theorem passes_drifter (r : Report) : Passes drifterFilter r ↔ DriftsNow r := by
  simp only [drifterFilter, QcFilter.add, Passes, DriftsNow]
  constructor
  · intro h
    exact ⟨h "POS" "month_match" 1 (by simp), h "POS" "isdrifter" 1 (by simp)⟩
  · rintro ⟨h1, h2⟩ t f v hv
    simp only [List.nil_append, List.cons_append, List.mem_cons, Prod.mk.injEq, List.not_mem_nil, or_false] at hv
    rcases hv with ⟨rfl, rfl, rfl⟩ | ⟨rfl, rfl, rfl⟩
    · exact h1
    · exact h2

theorem driftOf_eq (i : Option String) (reps : List Report) : reps.filter (chosenFor drifterFilter i) = driftOf i reps := by
  unfold driftOf chosenFor
  simp only [passes_drifter]

/-! ## What is written of a report does not depend on the differences to its neighbours -/

theorem onlyFlags_entry {fmt : Rat → List Char} {r r' : Report} (h : OnlyFlags [] r r') :
    ∀ v ∈ voyageVars, entry fmt r' v = entry fmt r v := by
  have hg : ∀ v : String, v ∉ linkNames → r'.getvar v = r.getvar v := by
    intro v hv
    unfold Report.getvar
    rw [h.data, h.ext v hv]
  have hi : ∀ v : String, r'.getint v = r.getint v := by
    intro v
    unfold Report.getint
    rw [h.data]
  have ha : ∀ v : String, v ∉ linkNames → r'.getanom v = r.getanom v := by
    intro v hv
    unfold Report.getanom
    rw [h.clim, hg v hv]
  intro v hv
  have hn : v.1 ∉ linkNames := by
    have : ∀ v ∈ voyageVars, v.1 ∉ linkNames := by decide
    exact this v hv
  unfold entry
  rw [h.id, h.uid, ha _ hn, hi, hg _ hn]

theorem onlyFlags_row {fmt : Rat → List Char} {r r' : Report} (h : OnlyFlags [] r r') :
    ([(r'.uid.getD "").toList, date r', intText (pentad r')] ++ voyageVars.map (entry fmt r')) =
      [(r.uid.getD "").toList, date r, intText (pentad r)] ++ voyageVars.map (entry fmt r) := by
  have hi : ∀ v : String, r'.getint v = r.getint v := by
    intro v
    unfold Report.getint
    rw [h.data]
  rw [h.uid, List.map_congr_left (onlyFlags_entry h)]
  unfold Spec.date pentad
  simp only [hi]

theorem ofMonth_only {year month : Int} {l v : List Report} (h : List.Forall₂ (OnlyFlags []) l v) :
    List.Forall₂ (OnlyFlags []) (ofMonth year month l) (ofMonth year month v) := by
  induction h with
  | nil => exact .nil
  | @cons r s l m e _ ih =>
    have hi : ∀ v : String, s.getint v = r.getint v := by
      intro v
      unfold Report.getint
      rw [e.data]
    unfold ofMonth at ih ⊢
    rw [List.filter_cons, List.filter_cons, hi, hi]
    split
    · exact .cons e ih
    · exact ih

theorem variableTable_only {fmt : Rat → List Char} {l v : List Report} (h : List.Forall₂ (OnlyFlags []) l v) :
    variableTable fmt voyageVars v = variableTable fmt voyageVars l := by
  unfold variableTable table
  congr 1
  induction h with
  | nil => rfl
  | cons e _ ih =>
    rw [List.map_cons, List.map_cons, ih]
    congr 1
    exact onlyFlags_row e

theorem flagTable_only {b : String} {fl : List String} {l v : List Report} (h : List.Forall₂ (OnlyFlags []) l v) :
    flagTable b fl v = flagTable b fl l := by
  unfold flagTable table
  congr 1
  induction h with
  | nil => rfl
  | @cons r s l m e _ ih =>
    rw [List.map_cons, List.map_cons, ih]
    congr 1
    have hq : ∀ f, s.getQc b f = r.getQc b f := by
      intro f
      unfold Report.getQc
      rw [e.flags _ (by simp)]
    simp only [hq, e.uid]

theorem writable_onlyFlags {r r' : Report} (h : OnlyFlags [] r r') (hw : Writable r) : Writable r' :=
  ⟨by rw [h.uid]; exact hw.uid, by rw [h.id]; exact hw.ident⟩

/-! ## Names -/

theorem voyagePath_inj (runid dir pre pre' ident ident' : List Char) (y m : Int) (hp : Beginning pre) (hp' : Beginning pre')
    (hy : 0 ≤ y) (hm : 0 ≤ m) (h : voyagePath runid dir y m pre ident = voyagePath runid dir y m pre' ident') :
    pre = pre' ∧ ident = ident' := by
  unfold voyagePath at h
  have h := List.append_cancel_left h
  simp only [List.cons.injEq, true_and] at h
  obtain ⟨d1, d2⟩ := yearMonth_digits y m hy hm
  obtain ⟨q1, -, q3⟩ := split_at_digits pre pre' (intText y ++ zeroPad 2 m) (intText y ++ zeroPad 2 m)
    (ident ++ '_' :: (runid ++ ".csv".toList)) (ident' ++ '_' :: (runid ++ ".csv".toList)) hp hp' d1 d1 d2 d2
    (by simpa [List.append_assoc] using h)
  exact ⟨q1, List.append_cancel_right q3⟩

theorem deck_voyage_path (runid dir pre pre' ident : List Char) (y m : Int) (hp : Beginning pre) (hp' : Beginning pre')
    (hy : 0 ≤ y) (hm : 0 ≤ m) : deckPath runid dir y m false pre ≠ voyagePath runid dir y m pre' ident := by
  intro h
  unfold voyagePath deckPath at h
  have h := List.append_cancel_left h
  simp only [List.cons.injEq, true_and] at h
  obtain ⟨d1, d2⟩ := yearMonth_digits y m hy hm
  obtain ⟨q1, -, q3⟩ := split_at_digits pre pre' (intText y ++ zeroPad 2 m) (intText y ++ zeroPad 2 m)
    (runid ++ ".csv".toList) (ident ++ '_' :: (runid ++ ".csv".toList)) hp hp' d1 d1 d2 d2
    (by simpa [List.append_assoc] using h)
  have := congrArg List.length q3
  simp at this
  omega

theorem deckPath_last (runid dir pre : List Char) (y m : Int) : (deckPath runid dir y m false pre).getLast? = some 'v' := by
  unfold deckPath
  have : dir ++ '/' :: ((if false = true then "Test_".toList else []) ++ (pre ++ intText y ++ zeroPad 2 m ++ '_' :: runid ++ ".csv".toList)) =
      (dir ++ '/' :: (pre ++ intText y ++ zeroPad 2 m ++ '_' :: runid)) ++ ".csv".toList := by
    simp [List.append_assoc]
  rw [this, List.getLast?_append_of_ne_nil _ (by decide)]
  decide

theorem voyagePath_last (runid dir pre i : List Char) (y m : Int) : (voyagePath runid dir y m pre i).getLast? = some 'v' := by
  unfold voyagePath
  have : dir ++ '/' :: (pre ++ intText y ++ zeroPad 2 m ++ '_' :: i ++ '_' :: runid ++ ".csv".toList) =
      (dir ++ '/' :: (pre ++ intText y ++ zeroPad 2 m ++ '_' :: i ++ '_' :: runid)) ++ ".csv".toList := by
    simp [List.append_assoc]
  rw [this, List.getLast?_append_of_ne_nil _ (by decide)]
  decide

theorem idFile_last (dir : List Char) : (idFilePath dir).getLast? = some 't' := by
  unfold idFilePath
  rw [List.getLast?_append_of_ne_nil _ (by decide)]
  decide

theorem deck_beginnings : Beginning "Variables_".toList ∧ (∀ b ∈ deckFlags, Beginning (b.1.toList ++ "_qc_".toList)) ∧
    ∀ b ∈ voyageFlags, Beginning (b.1.toList ++ "_qc_".toList) := by
  unfold Beginning
  decide

/-! ## The loop over the drifters -/

/-- The texts of the files of one voyage. -/
def VoyageText (fmt : Rat → List Char) (runid dir : List Char) (year month : Int) (ident : String) (v : List Report)
    (fs : FileSys) : Prop :=
  fs.file (voyagePath runid dir year month "Variables_".toList (safeFilename ident.toList)) =
    some (variableText fmt voyageVars (ofMonth year month v)) ∧
  ∀ b ∈ voyageFlags, fs.file (voyagePath runid dir year month (b.1.toList ++ "_qc_".toList) ident.toList) =
    some (flagText b (ofMonth year month v))

theorem drifterRounds_ok (fmt : Rat → List Char) (flags : List (String × List String)) (hp : flags.Perm voyageFlags) (G : Geo)
    (runid dir : List Char) (hid : '/' ∉ runid) (year month : Int) (hy : 0 ≤ year) (hm : 0 ≤ month) (d : Deck)
    (hq : d.filter = drifterFilter)
    (ht : ∀ r ∈ d.reps, DriftsNow r → Traceable r)
    (hw : ∀ r ∈ ofMonth year month d.reps, DriftsNow r → Writable r)
    (hs : ∀ r ∈ d.reps, DriftsNow r → ∀ i, r.id = some i → '/' ∉ i.toList)
    (hinj : ∀ r ∈ d.reps, ∀ s ∈ d.reps, DriftsNow r → DriftsNow s → ∀ i j, r.id = some i → s.id = some j →
      safeFilename i.toList = safeFilename j.toList → i = j) (es : List (Option String × List Nat)) : ∀ (fs : FileSys)
    (_ : ∀ e ∈ es, e.2 = (d.reps.zipIdx.filter fun p => decide (p.1.id = e.1)).map (·.2)) (_ : (es.map (·.1)).Nodup)
    (_ : fs.dir dir = true) (_ : ∀ pre i, fs.dir (voyagePath runid dir year month pre i) = false),
    ∃ (fs' : FileSys) (ids : List String), drifterRounds fmt flags G runid dir year month d es fs = (ids.flatMap fun i : String => idFileLine i.toList, fs', none) ∧
      ids.Nodup ∧ (∀ i, i ∈ ids ↔ some i ∈ es.map (·.1) ∧ driftOf (some i) d.reps ≠ []) ∧
      (∀ i ∈ ids, ∃ v, (driftOf (some i) d.reps).foldlM (addReport G) [] = .ok v ∧ VoyageText fmt runid dir year month i v fs') ∧
      (∀ p, (∀ i ∈ ids, p ≠ voyagePath runid dir year month "Variables_".toList (safeFilename i.toList) ∧
        ∀ b ∈ voyageFlags, p ≠ voyagePath runid dir year month (b.1.toList ++ "_qc_".toList) i.toList) →
        fs'.file p = fs.file p) ∧ fs'.dir = fs.dir := by
  induction es with
  | nil =>
    intro fs _ _ _ _
    exact ⟨fs, [], rfl, List.nodup_nil, by simp, by simp, fun _ _ => rfl, rfl⟩
  | cons e es ih =>
    intro fs he hn hd hf
    rw [List.map_cons, List.nodup_cons] at hn
    have hv := voyage_eq G d e.1 e.2 (he e (by simp))
    rw [hq, driftOf_eq] at hv
    have mem : ∀ r ∈ driftOf e.1 d.reps, r ∈ d.reps ∧ r.id = e.1 ∧ DriftsNow r := by
      intro r hr
      obtain ⟨h1, h2⟩ := List.mem_filter.mp hr
      exact ⟨h1, of_decide_eq_true h2⟩
    obtain ⟨v, bv⟩ := build_traceable G (driftOf e.1 d.reps) fun r hr => ht r (mem r hr).1 (mem r hr).2.2
    have ov := build_only G _ _ bv
    rw [bv] at hv
    -- a round in which nothing is written
    have skip : (∀ i, e.1 = some i → driftOf (some i) d.reps = []) →
        drifterRound fmt flags G runid dir year month d e.2 fs = ([], fs, none) →
        ∃ (fs' : FileSys) (ids : List String), drifterRounds fmt flags G runid dir year month d (e :: es) fs =
            (ids.flatMap fun i : String => idFileLine i.toList, fs', none) ∧
          ids.Nodup ∧ (∀ i, i ∈ ids ↔ some i ∈ (e :: es).map (·.1) ∧ driftOf (some i) d.reps ≠ []) ∧
          (∀ i ∈ ids, ∃ v, (driftOf (some i) d.reps).foldlM (addReport G) [] = .ok v ∧
            VoyageText fmt runid dir year month i v fs') ∧
          (∀ p, (∀ i ∈ ids, p ≠ voyagePath runid dir year month "Variables_".toList (safeFilename i.toList) ∧
            ∀ b ∈ voyageFlags, p ≠ voyagePath runid dir year month (b.1.toList ++ "_qc_".toList) i.toList) →
            fs'.file p = fs.file p) ∧ fs'.dir = fs.dir := by
      intro hi hround
      obtain ⟨fs', ids, g1, g2, g3, g4, g5, g6⟩ := ih fs (fun x hx => he x (by simp [hx])) hn.2 hd hf
      refine ⟨fs', ids, ?_, g2, ?_, g4, g5, g6⟩
      · rw [drifterRounds, hround]
        simp only [g1, List.nil_append]
      · intro i
        rw [g3, List.map_cons, List.mem_cons]
        constructor
        · rintro ⟨h1, h2⟩; exact ⟨Or.inr h1, h2⟩
        · rintro ⟨h1 | h1, h2⟩
          · exact absurd (hi i h1.symm) h2
          · exact ⟨h1, h2⟩
    cases v with
    | nil =>
      have hnil : driftOf e.1 d.reps = [] := List.forall₂_nil_right_iff.mp ov
      apply skip
      · intro i hi; rw [← hi]; exact hnil
      · unfold drifterRound; rw [hv]
    | cons r v =>
      cases hid' : e.1 with
      | none =>
        apply skip
        · intro i hi; rw [hid'] at hi; cases hi
        · have : r.id = none := by
            obtain ⟨q, q1, q2⟩ := forall2_get ov.flip 0 r rfl
            rw [q2.id, (mem q (List.mem_of_getElem? q1)).2.1, hid']
          unfold drifterRound
          rw [hv]
          simp only [this]
      | some ident =>
        have hr : r.id = some ident := by
          obtain ⟨q, q1, q2⟩ := forall2_get ov.flip 0 r rfl
          rw [q2.id, (mem q (List.mem_of_getElem? q1)).2.1, hid']
        have hne : driftOf (some ident) d.reps ≠ [] := by
          rw [← hid']
          intro h
          rw [h] at ov
          cases ov
        obtain ⟨q0, hq0⟩ := List.exists_mem_of_ne_nil _ hne
        rw [← hid'] at hq0
        obtain ⟨c1, c2, c3⟩ := mem q0 hq0
        rw [hid'] at c2
        have hslash := hs q0 c1 c3 ident c2
        obtain ⟨fs1, a1, a2, a3, a4, a5⟩ := voyage_text fmt flags hp runid dir hid year month r v ident hr hslash
          (by
            intro s hs'
            obtain ⟨n, hn⟩ := List.mem_iff_getElem?.mp hs'
            obtain ⟨q, q1, q2⟩ := forall2_get (ofMonth_only (year := year) (month := month) ov).flip n s hn
            have hqm := List.mem_of_getElem? q1
            unfold ofMonth at hqm
            obtain ⟨m1, m2⟩ := List.mem_filter.mp hqm
            obtain ⟨k1, -, k3⟩ := mem q m1
            exact writable_onlyFlags q2 (hw q (List.mem_filter.mpr ⟨k1, m2⟩) k3)) fs hy hm hd hf
        obtain ⟨fs', ids, g1, g2, g3, g4, g5, g6⟩ := ih fs1 (fun x hx => he x (by simp [hx])) hn.2 (by rw [a5]; exact hd)
          (by rw [a5]; exact hf)
        have hnot : ident ∉ ids := by
          intro h
          have := ((g3 ident).mp h).1
          rw [← hid'] at this
          exact hn.1 this
        have other : ∀ i ∈ ids, safeFilename i.toList ≠ safeFilename ident.toList ∧ i.toList ≠ ident.toList := by
          intro i hi
          have hni : i ≠ ident := fun h => hnot (h ▸ hi)
          refine ⟨?_, fun h => hni (String.toList_injective h)⟩
          intro h
          obtain ⟨q, hq⟩ := List.exists_mem_of_ne_nil _ ((g3 i).mp hi).2
          obtain ⟨h1, h2⟩ := List.mem_filter.mp hq
          obtain ⟨h3, h4⟩ := of_decide_eq_true h2
          exact hni (hinj q h1 q0 c1 h4 c3 i ident h3 c2 h)
        obtain ⟨bg1, -, bg2⟩ := deck_beginnings
        have keep : ∀ pre, pre = "Variables_".toList ∨ (∃ b ∈ voyageFlags, pre = b.1.toList ++ "_qc_".toList) →
            ∀ x, (pre = "Variables_".toList → x = safeFilename ident.toList) →
              (pre ≠ "Variables_".toList → x = ident.toList) →
            fs'.file (voyagePath runid dir year month pre x) = fs1.file (voyagePath runid dir year month pre x) := by
          intro pre hpre x hx1 hx2
          have hb : Beginning pre := by
            rcases hpre with rfl | ⟨b, hb, rfl⟩
            · exact bg1
            · exact bg2 b hb
          apply g5
          intro i hi
          refine ⟨fun h => ?_, fun b hbm h => ?_⟩
          · obtain ⟨e1, e2⟩ := voyagePath_inj _ _ _ _ _ _ _ _ hb bg1 hy hm h
            rw [hx1 e1] at e2
            exact (other i hi).1 e2.symm
          · obtain ⟨e1, e2⟩ := voyagePath_inj _ _ _ _ _ _ _ _ hb (bg2 b hbm) hy hm h
            rw [hx2 (by rw [e1]; exact (not_qc_prefix b.1).symm)] at e2
            exact (other i hi).2 e2.symm
        refine ⟨fs', ident :: ids, ?_, List.nodup_cons.mpr ⟨hnot, g2⟩, ?_, ?_, ?_, g6.trans a5⟩
        · rw [drifterRounds]
          have : drifterRound fmt flags G runid dir year month d e.2 fs = (idFileLine ident.toList, fs1, none) := by
            unfold drifterRound
            rw [hv]
            simp only [hr, a1]
          rw [this]
          simp only [g1, List.flatMap_cons]
        · intro i
          rw [List.mem_cons, g3, List.map_cons, List.mem_cons, hid', Option.some.injEq]
          constructor
          · rintro (rfl | ⟨h1, h2⟩)
            · exact ⟨Or.inl rfl, hne⟩
            · exact ⟨Or.inr h1, h2⟩
          · rintro ⟨rfl | h1, h2⟩
            · exact Or.inl rfl
            · exact Or.inr ⟨h1, h2⟩
        · intro i hi
          rcases List.mem_cons.mp hi with rfl | hi
          · refine ⟨r :: v, by rw [← hid']; exact bv, ?_, ?_⟩
            · rw [keep _ (Or.inl rfl) _ (fun _ => rfl) (fun h => absurd rfl h)]
              exact a2
            · intro b hbm
              rw [keep _ (Or.inr ⟨b, hbm, rfl⟩) _ (fun h => absurd h.symm (not_qc_prefix b.1)) (fun _ => rfl)]
              exact a3 b hbm
          · exact g4 i hi
        · intro p hp'
          rw [g5 p fun i hi => hp' i (by simp [hi])]
          obtain ⟨p1, p2⟩ := hp' ident (by simp)
          exact a4 p p1 p2

/-! ## The month's directory -/

theorem zeroPad_name (m : Int) (hm : 0 ≤ m) : IsName (zeroPad 2 m) ∧ IsName (intText m) := by
  refine ⟨⟨?_, ?_⟩, ?_, intText_no_sep m hm '/' (by decide)⟩
  · obtain ⟨n, rfl⟩ := Int.eq_ofNat_of_zero_le hm
    intro h
    unfold zeroPad at h
    rw [if_neg (by omega)] at h
    exact natText_ne_nil _ (List.append_eq_nil_iff.mp h).2
  · intro h
    rcases zeroPad_chars 2 m '/' h with h | h
    · exact absurd h (by decide)
    · exact absurd h (by decide)
  · obtain ⟨n, rfl⟩ := Int.eq_ofNat_of_zero_le hm
    rw [intText_nat]
    exact natText_ne_nil n

theorem safeMakeDir_ok {runid out : List Char} {year month : Int} {reps : List Report} {fs : FileSys}
    (h : OutputReady runid out year month reps fs) :
    ∃ fs', safeMakeDir fs out year month = (fs', some (monthDir out year month)) ∧ fs'.file = fs.file ∧
      fs'.dir (monthDir out year month) = true ∧
      ∀ q, fs'.dir q = true ↔ q = out ++ '/' :: intText year ∨ q = monthDir out year month ∨ fs.dir q = true := by
  have hc : buildCompletions out [intText year, zeroPad 2 month] =
      [out ++ '/' :: intText year, monthDir out year month] := by
    rw [C81_completions out _ h.base (by
      intro s hs
      simp only [List.mem_cons, List.not_mem_nil, or_false] at hs
      rcases hs with rfl | rfl
      · exact (zeroPad_name _ h.yearPos).2
      · exact (zeroPad_name _ h.monthPos).1)]
    simp [List.range_succ, monthDir]
  obtain ⟨fs', p, a1, a2, a3, a4, a5⟩ := C81_directories fs out [intText year, zeroPad 2 month] h.base (by
      intro s hs
      simp only [List.mem_cons, List.not_mem_nil, or_false] at hs
      rcases hs with rfl | rfl
      · exact (zeroPad_name _ h.yearPos).2
      · exact (zeroPad_name _ h.monthPos).1) (by simp) h.there (by
      rw [hc]
      intro p hp
      simp only [List.mem_cons, List.not_mem_nil, or_false] at hp
      rcases hp with rfl | rfl
      · exact h.yearName
      · exact h.dirName)
  have hp : p = monthDir out year month := by
    rw [a4]; simp [monthDir]
  subst hp
  refine ⟨fs', a1, a2, a5, ?_⟩
  intro q
  rw [a3, hc]
  simp only [List.mem_cons, List.not_mem_nil, or_false]
  tauto

theorem longer_free {runid out : List Char} {year month : Int} {reps : List Report} {fs fs' : FileSys}
    (h : OutputReady runid out year month reps fs)
    (h' : ∀ q, fs'.dir q = true ↔ q = out ++ '/' :: intText year ∨ q = monthDir out year month ∨ fs.dir q = true)
    (x : List Char) (hx : fs.dir (monthDir out year month ++ '/' :: x) = false) :
    fs'.dir (monthDir out year month ++ '/' :: x) = false := by
  rw [Bool.eq_false_iff, ne_eq, h']
  rintro (h | h | h)
  · have := congrArg List.length h
    simp [monthDir] at this
  · have := congrArg List.length h
    simp at this
  · rw [hx] at h; cases h

theorem deckPath_in (runid dir pre : List Char) (y m : Int) : ∃ x, deckPath runid dir y m false pre = dir ++ '/' :: x :=
  ⟨_, rfl⟩

theorem voyagePath_in (runid dir pre i : List Char) (y m : Int) : ∃ x, voyagePath runid dir y m pre i = dir ++ '/' :: x :=
  ⟨_, rfl⟩

theorem idFile_in (dir : List Char) : ∃ x, idFilePath dir = dir ++ '/' :: x := ⟨"ID_file.txt".toList, rfl⟩

theorem idFile_parent (dir : List Char) : parentPath (idFilePath dir) = dir :=
  parent_of_join dir "ID_file.txt".toList (by decide)

/-! ## The output of a month -/

/-- The output of a month, with the text of the drifters' files. -/
theorem output_text (fmt : Rat → List Char) (hf : ∀ x, Plain (fmt x)) (dflags vflags : List (String × List String))
    (hd : dflags.Perm deckFlags) (hv : vflags.Perm voyageFlags) (G : Geo) (runid out : List Char)
    (order : List (Option String × List Nat) → List (Option String × List Nat)) (ho : ∀ l, (order l).Perm l)
    (tracking : Bool) (year month : Int) (d : Deck) (hi : d.Indexed) (fs : FileSys)
    (h : OutputReady runid out year month d.reps fs) (ht : tracking = true → DriftersReady d.reps) :
    ∃ (fs' : FileSys) (ids : List String), outputStage fmt dflags vflags G runid out order tracking year month d fs = (fs', none) ∧
      DeckFiles fmt runid (monthDir out year month) year month d.reps fs' ∧
      (tracking = true →
        ids.Nodup ∧ (∀ i, i ∈ ids ↔ ∃ r ∈ d.reps, r.id = some i ∧ DriftsNow r) ∧
        fs'.file (idFilePath (monthDir out year month)) = some (ids.flatMap fun i : String => idFileLine i.toList) ∧
        ∀ i ∈ ids, ∃ v, (driftOf (some i) d.reps).foldlM (addReport G) [] = .ok v ∧
          VoyageText fmt runid (monthDir out year month) year month i v fs') ∧
      (∀ p, ¬ MonthFile runid (monthDir out year month) year month tracking d.reps p → fs'.file p = fs.file p) ∧
      ∀ q, fs'.dir q = true ↔ q = out ++ '/' :: intText year ∨ q = monthDir out year month ∨ fs.dir q = true := by
  obtain ⟨fs1, m1, m2, m3, m4⟩ := safeMakeDir_ok h
  have free := longer_free h m4
  obtain ⟨fs2, a1, a2, a3, a4, a5⟩ := C87_deck fmt hf dflags hd runid (monthDir out year month) h.noSlash year month false d.reps
    h.nonempty h.writable fs1 m3 (fun pre => free _ (h.deck pre))
  have nolist : ∀ pre, deckPath runid (monthDir out year month) year month false pre ≠ idFilePath (monthDir out year month) := by
    intro pre e
    have := congrArg List.getLast? e
    rw [deckPath_last, idFile_last] at this
    exact absurd this (by decide)
  have nolist' : ∀ pre i, voyagePath runid (monthDir out year month) year month pre i ≠ idFilePath (monthDir out year month) := by
    intro pre i e
    have := congrArg List.getLast? e
    rw [voyagePath_last, idFile_last] at this
    exact absurd this (by decide)
  obtain ⟨bg1, bg2, bg3⟩ := deck_beginnings
  cases tracking with
  | false =>
    refine ⟨fs2, [], ?_, ⟨a2, a3⟩, by simp, ?_, by rw [a5]; exact m4⟩
    · unfold outputStage
      rw [m1]
      simp only [a1, thenDo]
      rfl
    · intro p hp
      rw [a4 p (fun e => hp (e ▸ .vars)) (fun b hb e => hp (e ▸ .flags b hb)), m2]
  | true =>
    obtain ⟨t1, t2, t3⟩ := ht rfl
    have hcw : canWrite fs2 (idFilePath (monthDir out year month)) = true := by
      unfold canWrite
      rw [idFile_parent, a5, m3]
      obtain ⟨x, hx⟩ := idFile_in (monthDir out year month)
      have := h.list
      rw [hx] at this
      rw [hx, free x this]
      rfl
    obtain ⟨fs3, ids, g1, g2, g3, g4, g5, g6⟩ := drifterRounds_ok fmt vflags hv G runid (monthDir out year month) h.noSlash year month
      h.yearPos h.monthPos (d.addFilter drifterFilter) rfl t1
      (fun r hr _ => h.writable r hr) t2 t3 (order d.idtracker) (fs2.put (idFilePath (monthDir out year month)) [])
      (by
        intro e he
        exact hi.2.2 e ((ho _).mem_iff.mp he))
      (((ho d.idtracker).map (·.1)).nodup_iff.mpr hi.1)
      (by show fs2.dir _ = true; rw [a5]; exact m3)
      (by
        intro pre i
        show fs2.dir _ = false
        rw [a5]
        exact free _ (h.voyage pre i))
    have hmem : ∀ i, i ∈ ids ↔ ∃ r ∈ d.reps, r.id = some i ∧ DriftsNow r := by
      intro i
      rw [g3, ((ho d.idtracker).map (·.1)).mem_iff, hi.2.1]
      constructor
      · rintro ⟨-, h2⟩
        obtain ⟨q, hq⟩ := List.exists_mem_of_ne_nil _ h2
        obtain ⟨h1, h2⟩ := List.mem_filter.mp hq
        exact ⟨q, h1, of_decide_eq_true h2⟩
      · rintro ⟨r, h1, h2, h3⟩
        exact ⟨⟨r, h1, h2⟩, List.ne_nil_of_mem (List.mem_filter.mpr ⟨h1, decide_eq_true ⟨h2, h3⟩⟩)⟩
    -- the drifters' files are neither the deck's nor the list
    have keepDeck : ∀ pre, Beginning pre → fs3.file (deckPath runid (monthDir out year month) year month false pre) =
        fs2.file (deckPath runid (monthDir out year month) year month false pre) := by
      intro pre hb
      rw [g5]
      · show (if _ then _ else _) = _
        rw [if_neg (nolist pre)]
      · intro i _
        exact ⟨deck_voyage_path _ _ _ _ _ _ _ hb bg1 h.yearPos h.monthPos,
          fun b hbm => deck_voyage_path _ _ _ _ _ _ _ hb (bg3 b hbm) h.yearPos h.monthPos⟩
    have put : ∀ (s : List Char) p, p ≠ idFilePath (monthDir out year month) →
        (fs3.put (idFilePath (monthDir out year month)) s).file p = fs3.file p := by
      intro s p hp
      show (if _ then _ else _) = _
      rw [if_neg hp]
    refine ⟨fs3.put (idFilePath (monthDir out year month)) (ids.flatMap fun i : String => idFileLine i.toList), ids, ?_, ?_,
      fun _ => ⟨g2, hmem, ?_, ?_⟩, ?_, ?_⟩
    · unfold outputStage
      rw [m1]
      simp only [a1, thenDo]
      unfold drifterOutput
      rw [if_pos trivial, if_pos hcw]
      simp only [g1]
    · refine ⟨?_, fun b hb => ?_⟩
      · obtain ⟨s, e1, e2⟩ := a2
        exact ⟨s, by rw [put _ _ (nolist _), keepDeck _ bg1]; exact e1, e2⟩
      · obtain ⟨s, e1, e2⟩ := a3 b hb
        exact ⟨s, by rw [put _ _ (nolist _), keepDeck _ (bg2 b hb)]; exact e1, e2⟩
    · show (if _ then _ else _) = _
      rw [if_pos rfl]
    · intro i hi'
      obtain ⟨v, e1, e2, e3⟩ := g4 i hi'
      exact ⟨v, e1, by rw [put _ _ (nolist' _ _)]; exact e2, fun b hb => by rw [put _ _ (nolist' _ _)]; exact e3 b hb⟩
    · intro p hp
      have hne : p ≠ idFilePath (monthDir out year month) := fun e => hp (e ▸ .list rfl)
      rw [put _ _ hne, g5]
      · show (if _ then _ else _) = _
        rw [if_neg hne, a4 p (fun e => hp (e ▸ .vars)) (fun b hb e => hp (e ▸ .flags b hb)), m2]
      · intro i hi'
        obtain ⟨r, r1, r2, r3⟩ := (hmem i).mp hi'
        exact ⟨fun e => hp (e ▸ .drifterVars r i rfl r1 r2 r3), fun b hb e => hp (e ▸ .drifterFlags r i b rfl r1 r2 r3 hb)⟩
    · show ∀ q, fs3.dir q = true ↔ _
      rw [g6]
      show ∀ q, fs2.dir q = true ↔ _
      rw [a5]
      exact m4

/-- **C107, without tracking.** The output of a month completes, the files of the deck hold its reports of the month, and
no other file changes. -/
theorem C107_deck (fmt : Rat → List Char) (hf : ∀ x, Plain (fmt x)) (dflags vflags : List (String × List String))
    (hd : dflags.Perm deckFlags) (hv : vflags.Perm voyageFlags) (G : Geo) (runid out : List Char)
    (order : List (Option String × List Nat) → List (Option String × List Nat)) (ho : ∀ l, (order l).Perm l)
    (year month : Int) (d : Deck) (hi : d.Indexed) (fs : FileSys) (h : OutputReady runid out year month d.reps fs) :
    ∃ fs', outputStage fmt dflags vflags G runid out order false year month d fs = (fs', none) ∧
      DeckFiles fmt runid (monthDir out year month) year month d.reps fs' ∧
      ∀ p, ¬ MonthFile runid (monthDir out year month) year month false d.reps p → fs'.file p = fs.file p := by
  obtain ⟨fs', ids, h1, h2, -, h4, -⟩ := output_text fmt hf dflags vflags hd hv G runid out order ho false year month d hi fs h
    (by simp)
  exact ⟨fs', h1, h2, h4⟩

/-- **C107, part.** The output of a month with tracking completes: the files of the deck hold its reports of the month; the
list of identifiers has one line for every drifter that reported in the month, in the order of the dictionary; every drifter
has its own files with its own reports; and no other file changes.  Missing: drifters with a report without a place or with
an hour but no date (see below), with a slash in the identifier (C89), or with identifiers differing only in characters that
`safe_filename` replaces. -/
theorem C107_output_partial (fmt : Rat → List Char) (hf : ∀ x, Plain (fmt x)) (dflags vflags : List (String × List String))
    (hd : dflags.Perm deckFlags) (hv : vflags.Perm voyageFlags) (G : Geo) (runid out : List Char)
    (order : List (Option String × List Nat) → List (Option String × List Nat)) (ho : ∀ l, (order l).Perm l)
    (year month : Int) (d : Deck) (hi : d.Indexed) (fs : FileSys)
    (h : OutputReady runid out year month d.reps fs) (ht : DriftersReady d.reps) :
    ∃ (fs' : FileSys) (ids : List String), outputStage fmt dflags vflags G runid out order true year month d fs = (fs', none) ∧
      DeckFiles fmt runid (monthDir out year month) year month d.reps fs' ∧
      ids.Nodup ∧ (∀ i, i ∈ ids ↔ ∃ r ∈ d.reps, r.id = some i ∧ DriftsNow r) ∧
      fs'.file (idFilePath (monthDir out year month)) =
        some (ids.flatMap fun i : String => i.toList ++ ',' :: (safeFilename i.toList ++ ['\n'])) ∧
      (∀ i ∈ ids, DrifterFiles fmt runid (monthDir out year month) year month i (driftOf (some i) d.reps) fs') ∧
      ∀ p, ¬ MonthFile runid (monthDir out year month) year month true d.reps p → fs'.file p = fs.file p := by
  obtain ⟨fs', ids, h1, h2, h3, h4, -⟩ := output_text fmt hf dflags vflags hd hv G runid out order ho true year month d hi fs h
    (fun _ => ht)
  obtain ⟨a1, a2, a3, a4⟩ := h3 rfl
  refine ⟨fs', ids, h1, h2, a1, a2, a3, ?_, h4⟩
  intro i hi'
  obtain ⟨v, e1, e2, e3⟩ := a4 i hi'
  have ov := ofMonth_only (year := year) (month := month) (build_only G _ _ e1)
  have hw : ∀ r ∈ ofMonth year month v, Writable r := by
    intro s hs'
    obtain ⟨n, hn⟩ := List.mem_iff_getElem?.mp hs'
    obtain ⟨q, q1, q2⟩ := forall2_get ov.flip n s hn
    have hqm := List.mem_of_getElem? q1
    unfold ofMonth driftOf at hqm
    obtain ⟨m1, m2⟩ := List.mem_filter.mp hqm
    exact writable_onlyFlags q2 (h.writable q (List.mem_filter.mpr ⟨(List.mem_filter.mp m1).1, m2⟩))
  have hvv : ∀ v ∈ voyageVars, ∀ c ∈ heading v, c ≠ ',' ∧ c ≠ '"' ∧ c ≠ '\n' := by decide
  have hb : ∀ b ∈ voyageFlags, ∀ v ∈ b.2, ∀ c ∈ v.toList, c ≠ ',' ∧ c ≠ '"' ∧ c ≠ '\n' := by decide
  refine ⟨⟨_, e2, ?_⟩, fun b hbm => ⟨_, e3 b hbm, ?_⟩⟩
  · rw [← variableTable_only ov]
    exact csv_variable_table fmt hf _ hvv _ hw
  · rw [← flagTable_only ov]
    exact csv_flag_table _ _ (hb b hbm) _ hw

/-- **C107, violated.** A drifter with two reports in the month, both with an hour but the second without a day: the
program stops with an exception after the deck's files.  The list of identifiers is empty and the drifter has no files. -/
theorem C107_violation (fmt : Rat → List Char) (hf : ∀ x, Plain (fmt x)) (dflags vflags : List (String × List String))
    (hd : dflags.Perm deckFlags) (G : Geo) (runid out : List Char) (year month : Int) (r s : Report) (i : String)
    (fs : FileSys) (h : OutputReady runid out year month [r, s] fs) (hr : DriftsNow r) (hs : DriftsNow s)
    (ir : r.id = some i) (is : s.id = some i) (pr : r.lat ≠ none ∧ r.lon ≠ none) (ps : s.lat ≠ none ∧ s.lon ≠ none)
    (tr : r.getvar "HR" ≠ none) (ts : s.getvar "HR" ≠ none) (ds : s.getint "DY" = none) :
    ∃ fs' e, outputStage fmt dflags vflags G runid out id true year month (Deck.empty.ofReports [r, s]) fs = (fs', some e) ∧
      DeckFiles fmt runid (monthDir out year month) year month [r, s] fs' ∧
      fs'.file (idFilePath (monthDir out year month)) = some [] ∧
      ∀ pre x, fs'.file (voyagePath runid (monthDir out year month) year month pre x) =
        fs.file (voyagePath runid (monthDir out year month) year month pre x) ∨
        ∃ pre', voyagePath runid (monthDir out year month) year month pre x =
          deckPath runid (monthDir out year month) year month false pre' := by
  obtain ⟨fs1, m1, m2, m3, m4⟩ := safeMakeDir_ok h
  have free := longer_free h m4
  obtain ⟨fs2, a1, a2, a3, a4, a5⟩ := C87_deck fmt hf dflags hd runid (monthDir out year month) h.noSlash year month false [r, s]
    h.nonempty h.writable fs1 m3 (fun pre => free _ (h.deck pre))
  have nolist : ∀ pre, deckPath runid (monthDir out year month) year month false pre ≠ idFilePath (monthDir out year month) := by
    intro pre e
    have := congrArg List.getLast? e
    rw [deckPath_last, idFile_last] at this
    exact absurd this (by decide)
  have nolist' : ∀ pre i, voyagePath runid (monthDir out year month) year month pre i ≠ idFilePath (monthDir out year month) := by
    intro pre i e
    have := congrArg List.getLast? e
    rw [voyagePath_last, idFile_last] at this
    exact absurd this (by decide)
  have hcw : canWrite fs2 (idFilePath (monthDir out year month)) = true := by
    unfold canWrite
    rw [idFile_parent, a5, m3]
    obtain ⟨x, hx⟩ := idFile_in (monthDir out year month)
    have := h.list
    rw [hx] at this
    rw [hx, free x this]
    rfl
  have htrack : (Deck.empty.ofReports [r, s]).idtracker = [(some i, [0, 1])] := by
    simp [Deck.ofReports, Deck.append, Deck.empty, ir, is, trackAdd, dictGet, dictSet]
  have hsub : s.sub G r.clearDiff = .error .type := by
    obtain ⟨x1, e1⟩ := Option.ne_none_iff_exists'.mp pr.1
    obtain ⟨x2, e2⟩ := Option.ne_none_iff_exists'.mp pr.2
    obtain ⟨x3, e3⟩ := Option.ne_none_iff_exists'.mp ps.1
    obtain ⟨x4, e4⟩ := Option.ne_none_iff_exists'.mp ps.2
    obtain ⟨x5, e5⟩ := Option.ne_none_iff_exists'.mp tr
    obtain ⟨x6, e6⟩ := Option.ne_none_iff_exists'.mp ts
    have c1 : r.clearDiff.lat = some x1 := e1
    have c2 : r.clearDiff.lon = some x2 := e2
    have c3 : r.clearDiff.getvar "HR" = some x5 := e5
    have ht : r.clearDiff.timeTo s = .error .type := by
      unfold Report.timeTo
      rw [c3, e6, ds]
      cases r.clearDiff.getint "YR" <;> cases r.clearDiff.getint "MO" <;> cases r.clearDiff.getint "DY" <;>
        cases s.getint "YR" <;> cases s.getint "MO" <;> rfl
    unfold Report.sub
    rw [e3, e4, c1, c2, ht]
    rfl
  have hv : ((Deck.empty.ofReports [r, s]).addFilter drifterFilter).voyage G [0, 1] = .error .type := by
    have hv := voyage_eq G ((Deck.empty.ofReports [r, s]).addFilter drifterFilter) (some i) [0, 1] (by
      have : ((Deck.empty.ofReports [r, s]).addFilter drifterFilter).reps = [r, s] := rfl
      rw [this]
      simp [ir, is])
    have e : ((Deck.empty.ofReports [r, s]).addFilter drifterFilter).filter = drifterFilter := rfl
    rw [e, driftOf_eq] at hv
    have e : driftOf (some i) ((Deck.empty.ofReports [r, s]).addFilter drifterFilter).reps = [r, s] := by
      show driftOf (some i) [r, s] = _
      unfold driftOf
      simp [ir, is, hr, hs]
    rw [hv, e, List.foldlM_cons]
    have e1 : addReport G [] r = .ok [r.clearDiff] := rfl
    have e2 : addReport G [r.clearDiff] s = .error .type := by
      unfold addReport
      simp only [List.getLast?_singleton, hsub, except_bind_error]
    rw [e1, except_bind_ok, List.foldlM_cons, e2]
    rfl
  have hrounds : drifterRounds fmt vflags G runid (monthDir out year month) year month
      ((Deck.empty.ofReports [r, s]).addFilter drifterFilter) [(some i, [0, 1])] (fs2.put (idFilePath (monthDir out year month)) []) =
      ([], fs2.put (idFilePath (monthDir out year month)) [], some .type) := by
    unfold drifterRounds drifterRound
    rw [hv]
  have put : ∀ (s t : List Char) p, p ≠ idFilePath (monthDir out year month) →
      ((fs2.put (idFilePath (monthDir out year month)) s).put (idFilePath (monthDir out year month)) t).file p = fs2.file p := by
    intro s t p hp
    show (if _ then _ else if _ then _ else _) = _
    rw [if_neg hp, if_neg hp]
  refine ⟨(fs2.put (idFilePath (monthDir out year month)) []).put (idFilePath (monthDir out year month)) [], .type, ?_, ⟨?_, ?_⟩, ?_, ?_⟩
  · unfold outputStage
    rw [m1]
    have : (Deck.empty.ofReports [r, s]).reps = [r, s] := rfl
    rw [this]
    simp only [a1, thenDo]
    unfold drifterOutput
    rw [if_pos trivial, if_pos hcw, htrack]
    simp only [id, hrounds]
  · obtain ⟨t, e1, e2⟩ := a2
    exact ⟨t, by rw [put _ _ _ (nolist _)]; exact e1, e2⟩
  · intro b hb
    obtain ⟨t, e1, e2⟩ := a3 b hb
    exact ⟨t, by rw [put _ _ _ (nolist _)]; exact e1, e2⟩
  · show (if _ then _ else _) = _
    rw [if_pos rfl]
  · intro pre x
    rw [put _ _ _ (nolist' _ _)]
    by_cases hc : ∃ pre', voyagePath runid (monthDir out year month) year month pre x =
          deckPath runid (monthDir out year month) year month false pre'
    · exact Or.inr hc
    · left
      rw [a4 _ (fun e => hc ⟨_, e⟩) (fun b _ e => hc ⟨_, e⟩), m2]

/-! ## Cases -/

/-- A report of a drifter (or not) in September 2003. -/
def outSample (ident uid : String) (drifter : Int) (day : Option Rat) (hour : Rat) : Report :=
  { Report.empty (some ident) (some uid) with
    data := fun k => dictGet ([("LAT", 10), ("LON", 20), ("YR", 2003), ("MO", 9), ("HR", hour)] ++
      (day.map fun d => ("DY", d)).toList) k
    qc := fun k => if k = "POSmonth_match" then some 1 else if k = "POSisdrifter" then some drifter else none }

/-- Two drifters and a ship. -/
def outFleet : List Report :=
  [outSample "D1" "A" 1 (some 1) 6, outSample "SHIP" "B" 0 none 6, outSample "D2" "C" 1 (some 1) 7, outSample "D1" "D" 1 (some 2) 6]

theorem outSample_ready (reps : List Report) (hne : reps ≠ []) (hw : ∀ r ∈ reps, Writable r) :
    OutputReady "base".toList "/out".toList 2003 9 reps (oneDir "/out".toList) := by
  have long : ∀ x, (oneDir "/out".toList).dir (monthDir "/out".toList 2003 9 ++ '/' :: x) = false := by
    intro x
    rw [Bool.eq_false_iff]
    intro h
    have h : monthDir "/out".toList 2003 9 ++ '/' :: x = "/out".toList := beq_iff_eq.mp h
    have h := congrArg List.length h
    have e : (monthDir "/out".toList 2003 9).length = 12 := by decide
    rw [List.length_append, e] at h
    simp at h
    omega
  refine ⟨by decide, by unfold IsBase; decide, by decide, by decide, by decide, rfl, rfl, ?_, ?_, ?_, hne, ?_⟩
  · intro pre; exact long _
  · intro pre i; exact long _
  · exact long "ID_file.txt".toList
  · intro r hr; exact hw r (List.mem_filter.mp hr).1

theorem outFleet_drifters : ∀ r ∈ outFleet, DriftsNow r →
    ∃ u h, (u = "D1" ∨ u = "D2") ∧ (h = 6 ∨ h = 7) ∧ r.id = some u ∧ r.lat ≠ none ∧ r.lon ≠ none ∧
      r.getvar "HR" = some h ∧ r.getint "YR" = some 2003 ∧ r.getint "MO" = some 9 ∧
      (r.getint "DY" = some 1 ∨ r.getint "DY" = some 2) := by
  intro r hr hd
  simp only [outFleet, List.mem_cons, List.not_mem_nil, or_false] at hr
  rcases hr with rfl | rfl | rfl | rfl
  · exact ⟨"D1", 6, by decide +kernel⟩
  · exact absurd hd.2 (by decide)
  · exact ⟨"D2", 7, by decide +kernel⟩
  · exact ⟨"D1", 6, by decide +kernel⟩

theorem outFleet_ready : DriftersReady outFleet := by
  refine ⟨?_, ?_, ?_⟩
  · intro r hr hd
    obtain ⟨u, h, -, hh, -, h1, h2, h3, h4, h5, h6⟩ := outFleet_drifters r hr hd
    refine ⟨h1, h2, ?_⟩
    intro h' e
    rw [h3] at e
    cases e
    refine ⟨by rcases hh with rfl | rfl <;> norm_num, by rcases hh with rfl | rfl <;> norm_num, 2003, 9, ?_⟩
    rcases h6 with h6 | h6
    · exact ⟨1, h4, h5, h6, by norm_num⟩
    · exact ⟨2, h4, h5, h6, by norm_num⟩
  · intro r hr hd i hi
    obtain ⟨u, h, hu, -, h1, -⟩ := outFleet_drifters r hr hd
    rw [h1] at hi
    cases hi
    rcases hu with rfl | rfl <;> decide
  · intro r hr s hs hd1 hd2 i j hi hj e
    obtain ⟨u, h, hu, -, h1, -⟩ := outFleet_drifters r hr hd1
    obtain ⟨v, h', hv, -, h2, -⟩ := outFleet_drifters s hs hd2
    rw [h1] at hi
    rw [h2] at hj
    cases hi
    cases hj
    rcases hu with rfl | rfl <;> rcases hv with rfl | rfl <;> first | rfl | (revert e; decide)

theorem outFleet_writable : ∀ r ∈ outFleet, Writable r := by
  intro r hr
  simp only [outFleet, List.mem_cons, List.not_mem_nil, or_false] at hr
  rcases hr with rfl | rfl | rfl | rfl <;>
    exact ⟨⟨_, rfl, by unfold Plain; decide⟩, by intro i hi; cases hi; decide⟩

/-- Non-vacuity: the hypotheses of C107 hold for the fleet. -/
example : ∃ (fs' : FileSys) (ids : List String), outputStage (fun _ => "1".toList) deckFlags voyageFlags flatGeo "base".toList
      "/out".toList id true 2003 9 (Deck.empty.ofReports outFleet) (oneDir "/out".toList) = (fs', none) ∧
    DeckFiles (fun _ => "1".toList) "base".toList "/out/2003/09".toList 2003 9 outFleet fs' ∧
    "D1" ∈ ids ∧ "D2" ∈ ids ∧ "SHIP" ∉ ids ∧
    DrifterFiles (fun _ => "1".toList) "base".toList "/out/2003/09".toList 2003 9 "D1"
      [outSample "D1" "A" 1 (some 1) 6, outSample "D1" "D" 1 (some 2) 6] fs' := by
  have hreps : (Deck.empty.ofReports outFleet).reps = outFleet := rfl
  obtain ⟨fs', ids, h1, h2, h3, h4, -, h6, -⟩ := C107_output_partial (fun _ => "1".toList) (by intro x; unfold Plain; decide)
    deckFlags voyageFlags (List.Perm.refl _) (List.Perm.refl _) flatGeo "base".toList "/out".toList id (fun l => List.Perm.refl l)
    2003 9 (Deck.empty.ofReports outFleet) (indexed_of_ids (ofReports_indexed outFleet []) rfl rfl) (oneDir "/out".toList)
    (by rw [hreps]; exact outSample_ready _ (by simp [outFleet]) outFleet_writable) (by rw [hreps]; exact outFleet_ready)
  rw [hreps] at h4
  refine ⟨fs', ids, h1, h2, (h4 "D1").mpr ⟨outSample "D1" "A" 1 (some 1) 6, by simp [outFleet], rfl, by decide⟩, ?_, ?_, ?_⟩
  · exact (h4 "D2").mpr ⟨outSample "D2" "C" 1 (some 1) 7, by simp [outFleet], rfl, by decide⟩
  · intro h
    obtain ⟨r, hr, e1, e2⟩ := (h4 "SHIP").mp h
    obtain ⟨u, _, hu, -, h1, -⟩ := outFleet_drifters r hr e2
    rw [h1] at e1
    cases e1
    revert hu
    decide
  · have := h6 "D1" ((h4 "D1").mpr ⟨outSample "D1" "A" 1 (some 1) 6, by simp [outFleet], rfl, by decide⟩)
    have e : driftOf (some "D1") (Deck.empty.ofReports outFleet).reps =
        [outSample "D1" "A" 1 (some 1) 6, outSample "D1" "D" 1 (some 2) 6] := by
      rw [hreps]
      unfold driftOf outFleet
      rw [List.filter_cons_of_pos (by decide), List.filter_cons_of_neg (by decide), List.filter_cons_of_neg (by decide),
        List.filter_cons_of_pos (by decide), List.filter_nil]
    rw [e] at this
    exact this

/-- Non-vacuity of the violation: the second report has no day. -/
example : ∃ fs' e, outputStage (fun _ => "1".toList) deckFlags voyageFlags flatGeo "base".toList "/out".toList id true 2003 9
    (Deck.empty.ofReports [outSample "D1" "A" 1 (some 1) 6, outSample "D1" "D" 1 none 6]) (oneDir "/out".toList) =
      (fs', some e) := by
  obtain ⟨fs', e, h, -⟩ := C107_violation (fun _ => "1".toList) (by intro x; unfold Plain; decide) deckFlags voyageFlags
    (List.Perm.refl _) flatGeo "base".toList "/out".toList 2003 9 (outSample "D1" "A" 1 (some 1) 6) (outSample "D1" "D" 1 none 6)
    "D1" (oneDir "/out".toList) (outSample_ready _ (by simp) (by
      intro r hr
      simp only [List.mem_cons, List.not_mem_nil, or_false] at hr
      rcases hr with rfl | rfl <;>
        exact ⟨⟨_, rfl, by unfold Plain; decide⟩, by intro i hi; cases hi; decide⟩)) (by decide) (by decide) rfl rfl
    (by decide) (by decide) (by decide) (by decide) (by decide)
  exact ⟨fs', e, h⟩

end MarineQC
