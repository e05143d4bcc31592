import Verif.Hires.Completion
import Verif.Hires.Files
import Verif.Base.RunEnd

/-!
# A run of the program for high resolution over months
-/

namespace MarineQC

open Spec

variable {F : Type} [LinearOrder F] [Zero F]

/-! ## The files of one month -/

theorem qcFile_put {runid dir : List Char} (hid : '/' ∉ runid) {year month : Int} {reps : List Report} (hne : reps ≠ [])
    (hw : ∀ r ∈ ofMonth year month reps, Writable r) {fs : FileSys} (hd : fs.dir dir = true)
    (hf : fs.dir (deckPath runid dir year month false "SST_qc_".toList) = false) :
    deckWriteQc runid dir year month false reps hiresFlags fs =
      (fs.put (deckPath runid dir year month false "SST_qc_".toList) (flagText ("SST", hiresColumns) (ofMonth year month reps)), none) := by
  have hc : canWrite fs (deckPath runid dir year month false "SST_qc_".toList) = true := by
    unfold canWrite
    rw [hf, deckPath, parent_of_join _ _ (deckName_no_slash runid hid year month false _ (by decide)), hd]
    rfl
  have ht : writeLines (qcFileLines year month reps ("SST", hiresColumns)) =
      (flagText ("SST", hiresColumns) (ofMonth year month reps), none) := by
    rw [← inMonth_eq] at hw ⊢
    exact qc_table "SST" hiresColumns (by decide) reps _ hne hw
  rw [deckWriteQc_eq]
  show writeFiles [(deckPath runid dir year month false "SST_qc_".toList, qcFileLines year month reps ("SST", hiresColumns))] fs = _
  simp only [writeFiles, writeFile, hc, ht, if_true, thenDo]

theorem voyageFile_put {runid dir : List Char} (hid : '/' ∉ runid) {year month : Int} {r : Report} {v : List Report} {i : String}
    (hi : r.id = some i) (hs : '/' ∉ i.toList) (hw : ∀ q ∈ ofMonth year month (r :: v), Writable q) {fs : FileSys}
    (hd : fs.dir dir = true) (hf : fs.dir (voyagePath runid dir year month "SST_qc_".toList i.toList) = false) :
    voyageWriteQc runid dir year month (r :: v) hiresFlags fs =
      (fs.put (voyagePath runid dir year month "SST_qc_".toList i.toList)
        (flagText ("SST", hiresColumns) (ofMonth year month (r :: v))), none) := by
  have hc : canWrite fs (voyagePath runid dir year month "SST_qc_".toList i.toList) = true := by
    unfold canWrite
    rw [hf, voyagePath, parent_of_join _ _ (voyageName_no_slash runid i.toList hid hs year month _ (by decide)), hd]
    rfl
  have ht : writeLines (qcFileLines year month (r :: v) ("SST", hiresColumns)) =
      (flagText ("SST", hiresColumns) (ofMonth year month (r :: v)), none) := by
    rw [← inMonth_eq] at hw ⊢
    exact qc_table "SST" hiresColumns (by decide) (r :: v) _ (by simp) hw
  rw [voyageWriteQc_eq runid dir year month r v i hi]
  show writeFiles [(voyagePath runid dir year month "SST_qc_".toList i.toList, qcFileLines year month (r :: v) ("SST", hiresColumns))] fs = _
  simp only [writeFiles, writeFile, hc, ht, if_true, thenDo]

theorem put_other (fs : FileSys) {p q : List Char} (s : List Char) (h : q ≠ p) : (fs.put p s).file q = fs.file q := by
  show (if _ then _ else _) = _
  rw [if_neg h]

theorem put_same (fs : FileSys) (p s : List Char) : (fs.put p s).file p = some s := by
  show (if _ then _ else _) = _
  rw [if_pos rfl]

theorem hiresRounds_ok (G : Geo) (runid dir : List Char) (hid : '/' ∉ hiresLabel runid) (year month : Int) (hy : 0 ≤ year)
    (hm : 0 ≤ month) (d : Deck) (hq : d.filter = drifterFilter) (ht : ∀ r ∈ d.reps, DriftsNow r → Traceable r)
    (hw : ∀ r ∈ ofMonth year month d.reps, Writable r)
    (hs : ∀ r ∈ d.reps, DriftsNow r → ∀ i, r.id = some i → '/' ∉ i.toList) (es : List (Option String × List Nat)) : ∀ (fs : FileSys)
    (_ : ∀ e ∈ es, e.2 = (d.reps.zipIdx.filter fun p => decide (p.1.id = e.1)).map (·.2)) (_ : (es.map (·.1)).Nodup)
    (_ : fs.dir dir = true) (_ : ∀ pre i, fs.dir (voyagePath (hiresLabel runid) dir year month pre i) = false),
    ∃ (fs' : FileSys) (ids : List String), hiresRounds G runid dir year month d es fs =
        (ids.flatMap fun i : String => idFileLine i.toList, fs', none) ∧
      ids.Nodup ∧ (∀ i, i ∈ ids ↔ some i ∈ es.map (·.1) ∧ driftOf (some i) d.reps ≠ []) ∧
      (∀ i ∈ ids, ∃ v, List.Forall₂ (OnlyFlags []) (driftOf (some i) d.reps) v ∧
        fs'.file (voyagePath (hiresLabel runid) dir year month "SST_qc_".toList i.toList) =
          some (flagText ("SST", hiresColumns) (ofMonth year month v))) ∧
      (∀ p, (∀ i ∈ ids, p ≠ voyagePath (hiresLabel runid) dir year month "SST_qc_".toList i.toList) → fs'.file p = fs.file p) ∧
      fs'.dir = fs.dir := by
  induction es with
  | nil =>
    intro fs _ _ _ _
    exact ⟨fs, [], rfl, List.nodup_nil, by simp, by simp, fun _ _ => rfl, rfl⟩
  | cons e es ih =>
    intro fs he hn hd hf
    rw [List.map_cons, List.nodup_cons] at hn
    have hv := voyage_eq G d e.1 e.2 (he e (by simp))
    rw [hq, driftOf_eq] at hv
    have mem : ∀ r ∈ driftOf e.1 d.reps, r ∈ d.reps ∧ r.id = e.1 ∧ DriftsNow r := by
      intro r hr
      obtain ⟨h1, h2⟩ := List.mem_filter.mp hr
      exact ⟨h1, of_decide_eq_true h2⟩
    obtain ⟨v, bv⟩ := build_traceable G (driftOf e.1 d.reps) fun r hr => ht r (mem r hr).1 (mem r hr).2.2
    have ov := build_only G _ _ bv
    rw [bv] at hv
    have skip : (∀ i, e.1 = some i → driftOf (some i) d.reps = []) →
        hiresRound G runid dir year month d e.2 fs = ([], fs, none) →
        ∃ (fs' : FileSys) (ids : List String), hiresRounds G runid dir year month d (e :: es) fs =
            (ids.flatMap fun i : String => idFileLine i.toList, fs', none) ∧
          ids.Nodup ∧ (∀ i, i ∈ ids ↔ some i ∈ (e :: es).map (·.1) ∧ driftOf (some i) d.reps ≠ []) ∧
          (∀ i ∈ ids, ∃ v, List.Forall₂ (OnlyFlags []) (driftOf (some i) d.reps) v ∧
            fs'.file (voyagePath (hiresLabel runid) dir year month "SST_qc_".toList i.toList) =
              some (flagText ("SST", hiresColumns) (ofMonth year month v))) ∧
          (∀ p, (∀ i ∈ ids, p ≠ voyagePath (hiresLabel runid) dir year month "SST_qc_".toList i.toList) → fs'.file p = fs.file p) ∧
          fs'.dir = fs.dir := by
      intro hi hround
      obtain ⟨fs', ids, g1, g2, g3, g4, g5, g6⟩ := ih fs (fun x hx => he x (by simp [hx])) hn.2 hd hf
      refine ⟨fs', ids, ?_, g2, ?_, g4, g5, g6⟩
      · rw [hiresRounds, hround]
        simp only [g1, List.nil_append]
      · intro i
        rw [g3, List.map_cons, List.mem_cons]
        constructor
        · rintro ⟨h1, h2⟩; exact ⟨Or.inr h1, h2⟩
        · rintro ⟨h1 | h1, h2⟩
          · exact absurd (hi i h1.symm) h2
          · exact ⟨h1, h2⟩
    cases v with
    | nil =>
      have hnil : driftOf e.1 d.reps = [] := List.forall₂_nil_right_iff.mp ov
      apply skip
      · intro i hi; rw [← hi]; exact hnil
      · unfold hiresRound; rw [hv]
    | cons r v =>
      have hr : r.id = e.1 := by
        obtain ⟨q, q1, q2⟩ := forall2_get ov.flip 0 r rfl
        rw [q2.id, (mem q (List.mem_of_getElem? q1)).2.1]
      cases hid' : e.1 with
      | none =>
        apply skip
        · intro i hi; rw [hid'] at hi; cases hi
        · rw [hid'] at hr
          unfold hiresRound
          rw [hv]
          simp only [hr]
      | some ident =>
        rw [hid'] at hr mem ov
        have hne : driftOf (some ident) d.reps ≠ [] := by
          intro h
          rw [h] at ov
          cases ov
        obtain ⟨q0, hq0⟩ := List.exists_mem_of_ne_nil _ hne
        obtain ⟨c1, c2, c3⟩ := mem q0 hq0
        have hslash := hs q0 c1 c3 ident c2
        have hput := voyageFile_put (fs := fs) (v := v) hid hr hslash (by
            intro s hs'
            obtain ⟨n, hn⟩ := List.mem_iff_getElem?.mp hs'
            obtain ⟨q, q1, q2⟩ := forall2_get (ofMonth_only (year := year) (month := month) ov).flip n s hn
            have hqm := List.mem_of_getElem? q1
            unfold ofMonth at hqm
            obtain ⟨m1, m2⟩ := List.mem_filter.mp hqm
            exact writable_onlyFlags q2 (hw q (List.mem_filter.mpr ⟨(mem q m1).1, m2⟩))) hd (hf _ _)
        obtain ⟨fs', ids, g1, g2, g3, g4, g5, g6⟩ := ih (fs.put (voyagePath (hiresLabel runid) dir year month "SST_qc_".toList ident.toList)
          (flagText ("SST", hiresColumns) (ofMonth year month (r :: v)))) (fun x hx => he x (by simp [hx])) hn.2 hd hf
        have hnot : ident ∉ ids := by
          intro h
          have := ((g3 ident).mp h).1
          rw [← hid'] at this
          exact hn.1 this
        have other : ∀ i ∈ ids, voyagePath (hiresLabel runid) dir year month "SST_qc_".toList ident.toList ≠
            voyagePath (hiresLabel runid) dir year month "SST_qc_".toList i.toList := by
          intro i hi h
          obtain ⟨-, e2⟩ := voyagePath_inj _ _ _ _ _ _ _ _ sst_beginning sst_beginning hy hm h
          exact hnot (by rw [String.toList_injective e2]; exact hi)
        refine ⟨fs', ident :: ids, ?_, List.nodup_cons.mpr ⟨hnot, g2⟩, ?_, ?_, ?_, by rw [g6]; rfl⟩
        · rw [hiresRounds]
          have : hiresRound G runid dir year month d e.2 fs = (idFileLine ident.toList,
              fs.put (voyagePath (hiresLabel runid) dir year month "SST_qc_".toList ident.toList)
                (flagText ("SST", hiresColumns) (ofMonth year month (r :: v))), none) := by
            unfold hiresRound
            rw [hv]
            simp only [hr, hput]
          rw [this]
          simp only [g1, List.flatMap_cons]
        · intro i
          rw [List.mem_cons, g3, List.map_cons, List.mem_cons, hid']
          constructor
          · rintro (rfl | ⟨h1, h2⟩)
            · exact ⟨Or.inl rfl, hne⟩
            · exact ⟨Or.inr h1, h2⟩
          · rintro ⟨h1 | h1, h2⟩
            · injection h1 with h1
              exact Or.inl h1
            · exact Or.inr ⟨h1, h2⟩
        · intro i hi
          rcases List.mem_cons.mp hi with rfl | hi
          · refine ⟨r :: v, ov, ?_⟩
            rw [g5 _ other, put_same]
          · exact g4 i hi
        · intro p hp
          rw [g5 p fun i hi => hp i (by simp [hi]), put_other _ _ (hp ident (by simp))]

/-- The output of a month: what is left and what changes. -/
theorem hiresOutput_ok (G : Geo) (runid out : List Char) (order : List (Option String × List Nat) → List (Option String × List Nat))
    (ho : ∀ l, (order l).Perm l) (tracking : Bool) (year month : Int) (d : Deck) (hi : d.Indexed) (fs : FileSys)
    (h : OutputReady (hiresLabel runid) out year month d.reps fs) (ht : tracking = true → DriftersReady d.reps) :
    ∃ fs', hiresOutput G runid out order tracking year month d fs = (fs', none) ∧
      HiresLeft runid (monthDir out year month) year month tracking d.reps fs' ∧
      (∀ p, (∀ x, p ≠ monthDir out year month ++ '/' :: x) → fs'.file p = fs.file p) ∧
      ∀ q, fs'.dir q = true ↔ q = out ++ '/' :: intText year ∨ q = monthDir out year month ∨ fs.dir q = true := by
  obtain ⟨fs1, m1, m2, m3, m4⟩ := safeMakeDir_ok h
  have free := longer_free h m4
  have hput := qcFile_put (fs := fs1) h.noSlash h.nonempty h.writable m3 (free _ (h.deck _))
  have htab : csv (flagText ("SST", hiresColumns) (ofMonth year month d.reps)) =
      flagTable "SST" hiresColumns (ofMonth year month d.reps) :=
    csv_flag_table "SST" hiresColumns (by unfold Plain; decide) _ h.writable
  cases tracking with
  | false =>
    refine ⟨_, ?_, ⟨⟨_, put_same _ _ _, htab⟩, by simp⟩, ?_, m4⟩
    · unfold hiresOutput
      rw [m1]
      simp only [hput, thenDo]
      rfl
    · intro p hp
      exact (put_other _ _ (hp _)).trans (by rw [m2])
  | true =>
    obtain ⟨t1, t2, t3⟩ := ht rfl
    have hcw : canWrite (fs1.put (deckPath (hiresLabel runid) (monthDir out year month) year month false "SST_qc_".toList)
        (flagText ("SST", hiresColumns) (ofMonth year month d.reps))) (idFilePath (monthDir out year month)) = true := by
      show (fs1.dir _ && !fs1.dir _) = true
      rw [idFile_parent, m3]
      have := free "ID_file.txt".toList h.list
      rw [show idFilePath (monthDir out year month) = monthDir out year month ++ '/' :: "ID_file.txt".toList from rfl, this]
      rfl
    obtain ⟨fs3, ids, g1, g2, g3, g4, g5, g6⟩ := hiresRounds_ok G runid (monthDir out year month) h.noSlash year month
      h.yearPos h.monthPos (d.addFilter drifterFilter) rfl t1 h.writable t2 (order d.idtracker)
      ((fs1.put (deckPath (hiresLabel runid) (monthDir out year month) year month false "SST_qc_".toList)
        (flagText ("SST", hiresColumns) (ofMonth year month d.reps))).put (idFilePath (monthDir out year month)) [])
      (fun e he => hi.2.2 e ((ho _).mem_iff.mp he))
      (((ho d.idtracker).map (·.1)).nodup_iff.mpr hi.1) m3 (fun pre i => free _ (h.voyage pre i))
    have hmem : ∀ i, i ∈ ids ↔ ∃ r ∈ d.reps, r.id = some i ∧ DriftsNow r := by
      intro i
      rw [g3, ((ho d.idtracker).map (·.1)).mem_iff, hi.2.1]
      constructor
      · rintro ⟨-, h2⟩
        obtain ⟨q, hq⟩ := List.exists_mem_of_ne_nil _ h2
        obtain ⟨h1, h2⟩ := List.mem_filter.mp hq
        exact ⟨q, h1, of_decide_eq_true h2⟩
      · rintro ⟨r, h1, h2, h3⟩
        exact ⟨⟨r, h1, h2⟩, List.ne_nil_of_mem (List.mem_filter.mpr ⟨h1, decide_eq_true ⟨h2, h3⟩⟩)⟩
    have nolist : deckPath (hiresLabel runid) (monthDir out year month) year month false "SST_qc_".toList ≠ idFilePath (monthDir out year month) := by
      intro e
      have := congrArg List.getLast? e
      rw [deckPath_last, idFile_last] at this
      exact absurd this (by decide)
    have nolist' : ∀ i, voyagePath (hiresLabel runid) (monthDir out year month) year month "SST_qc_".toList i ≠ idFilePath (monthDir out year month) := by
      intro i e
      have := congrArg List.getLast? e
      rw [voyagePath_last, idFile_last] at this
      exact absurd this (by decide)
    refine ⟨fs3.put (idFilePath (monthDir out year month)) (ids.flatMap fun i : String => idFileLine i.toList), ?_,
      ⟨⟨_, ?_, htab⟩, fun _ => ⟨ids, g2, hmem, put_same _ _ _, ?_⟩⟩, ?_, ?_⟩
    · unfold hiresOutput
      rw [m1]
      simp only [hput, thenDo]
      unfold hiresDrifters
      rw [if_pos trivial, if_pos hcw]
      simp only [g1]
    · refine (put_other _ _ nolist).trans ?_
      rw [g5, put_other _ _ nolist]
      · exact put_same _ _ _
      · intro i _
        exact deck_voyage_path _ _ _ _ _ _ _ sst_beginning sst_beginning h.yearPos h.monthPos
    · intro i hi'
      obtain ⟨v, e1, e2⟩ := g4 i hi'
      refine ⟨_, (put_other _ _ (nolist' _)).trans e2, ?_⟩
      rw [flagText, csv_flag_table "SST" hiresColumns (by unfold Plain; decide), flagTable_only (ofMonth_only e1)]
      · rfl
      · intro s hs'
        obtain ⟨n, hn⟩ := List.mem_iff_getElem?.mp hs'
        obtain ⟨q, q1, q2⟩ := forall2_get (ofMonth_only (year := year) (month := month) e1).flip n s hn
        have hqm := List.mem_of_getElem? q1
        unfold ofMonth at hqm
        obtain ⟨k1, k2⟩ := List.mem_filter.mp hqm
        exact writable_onlyFlags q2 (h.writable q (List.mem_filter.mpr ⟨(List.mem_filter.mp k1).1, k2⟩))
    · intro p hp
      have hl : p ≠ idFilePath (monthDir out year month) := hp "ID_file.txt".toList
      rw [put_other _ _ hl, g5 p fun i _ => hp _, put_other _ _ hl]
      exact (put_other _ _ (hp _)).trans (by rw [m2])
    · show ∀ q, fs3.dir q = true ↔ _
      rw [g6]
      exact m4

/-! ## The run -/

theorem hires_ready_after {label out : List Char} {y m y' m' : Int} {reps' : List Report} {fs fs' : FileSys}
    (hy : 0 ≤ y) (h' : OutputReady label out y' m' reps' fs)
    (hf : ∀ p, (∀ x, p ≠ monthDir out y m ++ '/' :: x) → fs'.file p = fs.file p)
    (hd : ∀ q, fs'.dir q = true ↔ q = out ++ '/' :: intText y ∨ q = monthDir out y m ∨ fs.dir q = true) :
    OutputReady label out y' m' reps' fs' := by
  have free : ∀ x, fs.dir (monthDir out y' m' ++ '/' :: x) = false → fs'.dir (monthDir out y' m' ++ '/' :: x) = false := by
    intro x hx
    rw [Bool.eq_false_iff, ne_eq, hd]
    rintro (e | e | e)
    · exact inMonth_not_year _ _ _ _ _ hy e
    · exact inMonth_not_month _ _ _ _ _ _ h'.yearPos hy e
    · rw [hx] at e; cases e
  refine { h' with there := (hd _).mpr (Or.inr (Or.inr h'.there)), yearName := ?_, dirName := ?_, deck := ?_, voyage := ?_, list := ?_ }
  · rw [hf, h'.yearName]
    intro x hx
    exact inMonth_not_year _ _ _ _ _ h'.yearPos hx.symm
  · rw [hf, h'.dirName]
    intro x hx
    exact inMonth_not_month _ _ _ _ _ _ hy h'.yearPos hx.symm
  · intro pre; exact free _ (h'.deck pre)
  · intro pre i; exact free _ (h'.voyage pre i)
  · exact free "ID_file.txt".toList h'.list

theorem hiresLeft_keep {runid dir : List Char} {year month : Int} {tracking : Bool} {reps : List Report} {fs fs' : FileSys}
    (h : HiresLeft runid dir year month tracking reps fs) (hf : ∀ x, fs'.file (dir ++ '/' :: x) = fs.file (dir ++ '/' :: x)) :
    HiresLeft runid dir year month tracking reps fs' := by
  obtain ⟨⟨s, a1, a2⟩, a3⟩ := h
  refine ⟨⟨s, by rw [← a1]; exact hf _, a2⟩, fun ht => ?_⟩
  obtain ⟨ids, b1, b2, b3, b4⟩ := a3 ht
  refine ⟨ids, b1, b2, by rw [← b3]; exact hf "ID_file.txt".toList, fun i hi => ?_⟩
  obtain ⟨t, c1, c2⟩ := b4 i hi
  exact ⟨t, by rw [← c1]; exact hf _, c2⟩

theorem hiresRun_ok (E : RunEnv F) (clim : Arr3) (ho : ∀ l, (E.order l).Perm l) (deck : Int × Int → Deck) :
    ∀ (months : List (Int × Int)) (fs : FileSys) (_ : months.Nodup) (_ : ∀ m ∈ months, hiresChecked E clim m = .ok (deck m))
    (_ : ∀ m ∈ months, (deck m).Indexed) (_ : ∀ m ∈ months, OutputReady (hiresLabel E.runid) E.out m.1 m.2 (deck m).reps fs)
    (_ : ∀ m ∈ months, E.read.tracking = true → DriftersReady (deck m).reps),
    ∃ fs', hiresRun E clim months fs = (fs', none) ∧
      (∀ m ∈ months, HiresLeft E.runid (monthDir E.out m.1 m.2) m.1 m.2 E.read.tracking (deck m).reps fs') ∧
      ∀ p, (∀ m ∈ months, ∀ x, p ≠ monthDir E.out m.1 m.2 ++ '/' :: x) → fs'.file p = fs.file p := by
  intro months
  induction months with
  | nil => intro fs _ _ _ _ _; exact ⟨fs, rfl, by simp, fun _ _ => rfl⟩
  | cons m months ih =>
    intro fs hn hc hix hr ht
    obtain ⟨hn1, hn2⟩ := List.nodup_cons.mp hn
    obtain ⟨fs1, a1, a2, a3, a4⟩ := hiresOutput_ok E.geo E.runid E.out E.order ho E.read.tracking m.1 m.2 (deck m)
      (hix m (by simp)) fs (hr m (by simp)) (ht m (by simp))
    obtain ⟨fs2, b1, b2, b3⟩ := ih fs1 hn2 (fun k hk => hc k (by simp [hk])) (fun k hk => hix k (by simp [hk]))
      (fun k hk => hires_ready_after (hr m (by simp)).yearPos (hr k (by simp [hk])) a3 a4) (fun k hk => ht k (by simp [hk]))
    refine ⟨fs2, ?_, ?_, ?_⟩
    · rw [hiresRun, hc m (by simp)]
      simp only [a1, thenDo]
      exact b1
    · intro k hk
      rcases List.mem_cons.mp hk with rfl | hk
      · refine hiresLeft_keep a2 fun x => b3 _ ?_
        intro j hj x' hx
        have := inMonth_inj _ _ _ _ _ _ _ (hr k (by simp)).yearPos (hr j (by simp [hj])).yearPos hx
        exact hn1 (by rw [show k = j from this]; exact hj)
      · exact b2 k hk
    · intro p hp
      rw [b3 p fun k hk => hp k (by simp [hk]), a3 p (hp m (by simp))]

end MarineQC
