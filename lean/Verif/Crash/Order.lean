import Verif.Crash.Rerun
import Verif.Crash.Cut
import Verif.Base.RunHandover

/-! # The order in which the files of a drifter are written -/

namespace MarineQC

open Spec

/-! ## The operations on some files -/

/-- Is the operation on one of these files? -/
def opOn (S : List (List Char)) : FileOp → Bool
  | .mkdir _ => false
  | .openw p => decide (p ∈ S)
  | .put p _ => decide (p ∈ S)

/-- The operations on these files. -/
def onOps (S : List (List Char)) (l : List FileOp) : List FileOp := l.filter (opOn S)

/-- Opening a file and writing this text to it. -/
def blockOps (p : List Char) (s : List Char) : List FileOp := .openw p :: s.map (.put p)

theorem onOps_append (S : List (List Char)) (a b : List FileOp) : onOps S (a ++ b) = onOps S a ++ onOps S b := List.filter_append ..

theorem onOps_block {S : List (List Char)} {p : List Char} (h : p ∈ S) (s : List Char) : onOps S (blockOps p s) = blockOps p s := by
  unfold onOps blockOps
  rw [List.filter_eq_self]
  intro o ho
  rcases List.mem_cons.mp ho with rfl | ho
  · exact decide_eq_true h
  · obtain ⟨c, -, rfl⟩ := List.mem_map.mp ho
    exact decide_eq_true h

theorem onOps_puts {S : List (List Char)} {p : List Char} (h : p ∉ S) (s : List Char) : onOps S (s.map (.put p)) = [] := by
  unfold onOps
  rw [List.filter_eq_nil_iff]
  intro o ho
  obtain ⟨c, -, rfl⟩ := List.mem_map.mp ho
  simpa [opOn] using h

theorem onOps_other {S : List (List Char)} {p : List Char} (h : p ∉ S) (s : List Char) : onOps S (blockOps p s) = [] := by
  unfold onOps blockOps
  rw [List.filter_cons_of_neg (by simpa [opOn] using h)]
  exact onOps_puts h s

/-- The content of a file after these operations, if none of them fails. -/
def fileAfter (p : List Char) : List FileOp → Option (List Char) → Option (List Char)
  | [], x => x
  | .mkdir _ :: l, x => fileAfter p l x
  | .openw q :: l, x => fileAfter p l (if p = q then some [] else x)
  | .put q c :: l, x => fileAfter p l (if p = q then some (x.getD [] ++ [c]) else x)

theorem fileAfter_append (p : List Char) (a b : List FileOp) (x : Option (List Char)) :
    fileAfter p (a ++ b) x = fileAfter p b (fileAfter p a x) := by
  induction a generalizing x with
  | nil => rfl
  | cons o a ih => cases o <;> exact ih _

theorem runOps_file (l : List FileOp) (fs : FileSys) (h : (runOps l fs).2 = true) (p : List Char) :
    (runOps l fs).1.file p = fileAfter p l (fs.file p) := by
  induction l generalizing fs with
  | nil => rfl
  | cons o l ih =>
    rcases ho : o.run fs with _ | g
    · rw [runOps_fails ho] at h; cases h
    · rw [runOps_goes ho] at h ⊢
      rw [ih g h]
      cases o with
      | mkdir q =>
        simp only [FileOp.run, Option.some.injEq] at ho
        subst ho
        show fileAfter p l _ = fileAfter p l _
        rw [makeDir_file]
      | openw q =>
        rw [show FileOp.run (.openw q) fs = if canWrite fs q then some (fs.put q []) else none from rfl] at ho
        by_cases hc : canWrite fs q = true
        · rw [if_pos hc, Option.some.injEq] at ho
          subst ho
          rfl
        · rw [if_neg hc] at ho; cases ho
      | put q c =>
        simp only [FileOp.run, Option.some.injEq] at ho
        subst ho
        show fileAfter p l (if _ then _ else _) = fileAfter p l (if _ then _ else _)
        by_cases e : p = q
        · subst e; rfl
        · rw [if_neg e, if_neg e]

theorem fileAfter_on {S : List (List Char)} {p : List Char} (h : p ∈ S) (l : List FileOp) (x : Option (List Char)) :
    fileAfter p (onOps S l) x = fileAfter p l x := by
  induction l generalizing x with
  | nil => rfl
  | cons o l ih =>
    unfold onOps at ih ⊢
    by_cases ho : opOn S o = true
    · rw [List.filter_cons_of_pos ho]
      cases o <;> exact ih _
    · rw [List.filter_cons_of_neg ho]
      cases o with
      | mkdir q => exact ih _
      | openw q =>
        have : p ≠ q := by rintro rfl; simp [opOn, h] at ho
        rw [ih, fileAfter, if_neg this]
      | put q c =>
        have : p ≠ q := by rintro rfl; simp [opOn, h] at ho
        rw [ih, fileAfter, if_neg this]

theorem fileAfter_puts (p s : List Char) (t : List Char) : fileAfter p (s.map (.put p)) (some t) = some (t ++ s) := by
  induction s generalizing t with
  | nil => simp [fileAfter]
  | cons c s ih =>
    rw [List.map_cons, fileAfter, if_pos rfl]
    simp only [Option.getD_some]
    rw [ih]; simp

theorem fileAfter_block (p s : List Char) (x : Option (List Char)) : fileAfter p (blockOps p s) x = some s := by
  unfold blockOps
  rw [fileAfter, if_pos rfl, fileAfter_puts]
  rfl

theorem fileAfter_other {p q : List Char} (h : p ≠ q) (s : List Char) (x : Option (List Char)) : fileAfter p (blockOps q s) x = x := by
  have : p ∉ [q] := by simpa using h
  unfold blockOps
  rw [fileAfter, if_neg h]
  induction s with
  | nil => rfl
  | cons c s ih => rw [List.map_cons, fileAfter, if_neg h]; exact ih

theorem block_prefix {t : List FileOp} {p s : List Char} (h : t <+: blockOps p s) : t = [] ∨ ∃ u, u <+: s ∧ t = blockOps p u := by
  unfold blockOps at *
  rcases List.prefix_cons_iff.mp h with rfl | ⟨t, rfl, h'⟩
  · exact Or.inl rfl
  · refine Or.inr ?_
    obtain ⟨r, hr⟩ := h'
    obtain ⟨u, v, e, rfl, -⟩ := List.map_eq_append_iff.mp hr.symm
    exact ⟨u, ⟨v, e.symm⟩, rfl⟩

/-! ## The operations of the programs -/

theorem andThen_none {P Q : FileProg} (h : (P.andThen Q).err = none) :
    P.err = none ∧ Q.err = none ∧ (P.andThen Q).ops = P.ops ++ Q.ops := by
  unfold FileProg.andThen at *
  cases hP : P.err with
  | none => rw [hP] at h; exact ⟨rfl, h, rfl⟩
  | some e => rw [hP] at h; simp only [hP] at h; cases h

theorem deckQc_on {S : List (List Char)} (runid dir : List Char) (year month : Int) (reps : List Report)
    (hS : ∀ pre, pre ∈ deckFlags.map (fun b => b.1.toList ++ "_qc_".toList) → deckPath runid dir year month false pre ∉ S) :
    ∀ (flags : List (String × List String)), (∀ b ∈ flags, b ∈ deckFlags) → (deckQcProg runid dir year month reps flags).err = none →
      onOps S (deckQcProg runid dir year month reps flags).ops = []
  | [], _, _ => rfl
  | b :: l, hb, he => by
    rw [deckQcProg] at he ⊢
    obtain ⟨h1, h2, h3⟩ := andThen_none he
    rw [h3, onOps_append, deckQc_on runid dir year month reps hS l (fun c hc => hb c (by simp [hc])) h2, List.append_nil]
    exact onOps_other (hS _ (List.mem_map_of_mem (hb b (by simp)))) _

theorem voyageQc_ops (runid dir : List Char) (year month : Int) (r : Report) (v : List Report) (ident : String) (hr : r.id = some ident) :
    ∀ (flags : List (String × List String)), (voyageQcProg runid dir year month (r :: v) flags).err = none →
      ∃ t : String × List String → List Char, (voyageQcProg runid dir year month (r :: v) flags).ops =
        (flags.map fun b => blockOps (voyagePath runid dir year month (b.1.toList ++ "_qc_".toList) ident.toList) (t b)).flatten := by
  intro flags he
  refine ⟨fun b => (writeLines (tableLines (r :: v) ((r :: v).filter (inMonth year month)) (fun r => printQcBlock r b.1 b.2 true true)
    (fun r => printQcBlock r b.1 b.2 false true))).1, ?_⟩
  induction flags with
  | nil => rfl
  | cons b l ih =>
    rw [voyageQcProg] at he ⊢
    simp only [hr] at he ⊢
    obtain ⟨h1, h2, h3⟩ := andThen_none he
    rw [h3, ih h2]
    rfl

theorem voyage_ops (fmt : Rat → List Char) (flags : List (String × List String)) (runid dir : List Char) (year month : Int) (r : Report)
    (v : List Report) (ident : String) (hr : r.id = some ident) (he : (voyageProg fmt flags runid dir year month (r :: v)).err = none) :
    ∃ (a : List Char) (t : String × List String → List Char), (voyageProg fmt flags runid dir year month (r :: v)).ops =
      blockOps (voyagePath runid dir year month "Variables_".toList (safeFilename ident.toList)) a ++
        (flags.map fun b => blockOps (voyagePath runid dir year month (b.1.toList ++ "_qc_".toList) ident.toList) (t b)).flatten := by
  unfold voyageProg at he ⊢
  simp only [hr] at he ⊢
  obtain ⟨h1, h2, h3⟩ := andThen_none he
  obtain ⟨t, ht⟩ := voyageQc_ops runid dir year month r v ident hr flags h2
  exact ⟨_, t, by rw [h3, ht]; rfl⟩

/-- The paths of the three files of a drifter. -/
def drifterPaths (runid dir : List Char) (year month : Int) (ident : String) : List (List Char) :=
  voyagePath runid dir year month "Variables_".toList ident.toList ::
    voyageFlags.map fun b => voyagePath runid dir year month (b.1.toList ++ "_qc_".toList) ident.toList

/-- First the variables, then each table of flags. -/
def DrifterBlocks (flags : List (String × List String)) (runid dir : List Char) (year month : Int) (ident : String) (l : List FileOp) : Prop :=
  ∃ (a : List Char) (t : String × List String → List Char),
    l = blockOps (voyagePath runid dir year month "Variables_".toList ident.toList) a ++
      (flags.map fun b => blockOps (voyagePath runid dir year month (b.1.toList ++ "_qc_".toList) ident.toList) (t b)).flatten

theorem onOps_flatten (S : List (List Char)) (L : List (List FileOp)) : onOps S L.flatten = (L.map (onOps S)).flatten := by
  induction L with
  | nil => rfl
  | cons a L ih => rw [List.flatten_cons, onOps_append, ih]; rfl

theorem path_idFile (runid dir : List Char) (year month : Int) (ident : String) (dir' : List Char) :
    idFilePath dir' ∉ drifterPaths runid dir year month ident := by
  intro h
  have key : (idFilePath dir').getLast? = some 'v' := by
    rcases List.mem_cons.mp h with h | h
    · rw [h]; exact voyagePath_csv ..
    · obtain ⟨b, -, e⟩ := List.mem_map.mp h
      rw [← e]; exact voyagePath_csv ..
  rw [idFilePath_txt] at key
  cases key

theorem path_in_beginning {runid dir : List Char} {year month : Int} {ident : String} {p : List Char}
    (h : p ∈ drifterPaths runid dir year month ident) : ∃ pre, Beginning pre ∧ p = voyagePath runid dir year month pre ident.toList := by
  rcases List.mem_cons.mp h with rfl | h
  · exact ⟨_, deck_beginnings.1, rfl⟩
  · obtain ⟨b, hb, rfl⟩ := List.mem_map.mp h
    exact ⟨_, deck_beginnings.2.2 b hb, rfl⟩

theorem voyage_on (fmt : Rat → List Char) (flags : List (String × List String)) (hf : ∀ b ∈ flags, b ∈ voyageFlags)
    (runid dir : List Char) (year month : Int) (hy : 0 ≤ year) (hm : 0 ≤ month) (ident : String) (hsafe : safeFilename ident.toList = ident.toList)
    (r : Report) (v : List Report) (i : String) (hr : r.id = some i) (hi : safeFilename i.toList = ident.toList → i = ident)
    (he : (voyageProg fmt flags runid dir year month (r :: v)).err = none) :
    (i = ident → DrifterBlocks flags runid dir year month ident
      (onOps (drifterPaths runid dir year month ident) (voyageProg fmt flags runid dir year month (r :: v)).ops)) ∧
    (i ≠ ident → onOps (drifterPaths runid dir year month ident) (voyageProg fmt flags runid dir year month (r :: v)).ops = []) := by
  obtain ⟨a, t, h⟩ := voyage_ops fmt flags runid dir year month r v i hr he
  rw [h, onOps_append, onOps_flatten, List.map_map]
  constructor
  · rintro rfl
    refine ⟨a, t, ?_⟩
    rw [hsafe, onOps_block (by simp [drifterPaths])]
    congr 2
    apply List.map_congr_left
    intro b hb
    exact onOps_block (List.mem_cons_of_mem _ (List.mem_map.mpr ⟨b, hf b hb, rfl⟩)) _
  · intro hne
    rw [onOps_other, List.nil_append, List.flatten_eq_nil_iff]
    · intro l hl
      obtain ⟨b, hb, rfl⟩ := List.mem_map.mp hl
      refine onOps_other ?_ _
      intro hp
      obtain ⟨pre, hpre, e⟩ := path_in_beginning hp
      obtain ⟨-, e⟩ := voyagePath_inj runid _ _ _ _ _ _ _ (deck_beginnings.2.2 b (hf b hb)) hpre hy hm e
      exact hne (String.toList_inj.mp e)
    · intro hp
      obtain ⟨pre, hpre, e⟩ := path_in_beginning hp
      obtain ⟨-, e⟩ := voyagePath_inj runid _ _ _ _ _ _ _ deck_beginnings.1 hpre hy hm e
      exact hne (hi e)

theorem rounds_on (fmt : Rat → List Char) (flags : List (String × List String)) (hf : ∀ b ∈ flags, b ∈ voyageFlags) (G : Geo)
    (runid dir : List Char) (year month : Int) (hy : 0 ≤ year) (hm : 0 ≤ month) (ident : String) (hsafe : safeFilename ident.toList = ident.toList)
    (d : Deck) (hq : d.filter = drifterFilter)
    (hinj : ∀ r ∈ d.reps, DriftsNow r → ∀ j, r.id = some j → safeFilename j.toList = ident.toList → j = ident)
    (es : List (Option String × List Nat))
    (hes : ∀ e ∈ es, e.2 = (d.reps.zipIdx.filter fun p => decide (p.1.id = e.1)).map (·.2)) (hn : (es.map (·.1)).Nodup)
    (he : (drifterRoundsProg fmt flags G runid dir year month d es).err = none) :
    onOps (drifterPaths runid dir year month ident) (drifterRoundsProg fmt flags G runid dir year month d es).ops = [] ∨
      some ident ∈ es.map (·.1) ∧ DrifterBlocks flags runid dir year month ident
        (onOps (drifterPaths runid dir year month ident) (drifterRoundsProg fmt flags G runid dir year month d es).ops) := by
  induction es with
  | nil => exact Or.inl rfl
  | cons e es ih =>
    rw [drifterRoundsProg] at he ⊢
    obtain ⟨h1, h2, h3⟩ := andThen_none he
    rw [List.map_cons, List.nodup_cons] at hn
    have ih := ih (fun x hx => hes x (by simp [hx])) hn.2 h2
    rw [h3, onOps_append]
    have hv := voyage_eq G d e.1 e.2 (hes e (by simp))
    rw [hq, driftOf_eq] at hv
    have skip : (drifterRoundProg fmt flags G runid dir year month d e.2).ops = [] →
        onOps (drifterPaths runid dir year month ident) (drifterRoundProg fmt flags G runid dir year month d e.2).ops ++
          onOps (drifterPaths runid dir year month ident) (drifterRoundsProg fmt flags G runid dir year month d es).ops = [] ∨
        some ident ∈ (e :: es).map (·.1) ∧ DrifterBlocks flags runid dir year month ident
          (onOps (drifterPaths runid dir year month ident) (drifterRoundProg fmt flags G runid dir year month d e.2).ops ++
            onOps (drifterPaths runid dir year month ident) (drifterRoundsProg fmt flags G runid dir year month d es).ops) := by
      intro hz
      rw [hz]
      exact ih.imp id fun h => ⟨List.mem_cons_of_mem _ h.1, h.2⟩
    cases hd : d.voyage G e.2 with
    | error x =>
      unfold drifterRoundProg at h1
      rw [hd] at h1
      cases h1
    | ok v =>
      cases v with
      | nil =>
        apply skip
        unfold drifterRoundProg
        rw [hd]
      | cons r v =>
        cases hri : r.id with
        | none =>
          apply skip
          unfold drifterRoundProg
          rw [hd]
          simp only [hri]
        | some i =>
          rw [hd] at hv
          have ov := build_only G _ _ hv.symm
          obtain ⟨q, q1, q2⟩ := forall2_get ov.flip 0 r rfl
          obtain ⟨m1, m2⟩ := List.mem_filter.mp (List.mem_of_getElem? q1)
          obtain ⟨m3, m4⟩ := of_decide_eq_true m2
          have hqi : q.id = some i := by rw [← q2.id, hri]
          have hei : e.1 = some i := by rw [← m3, hqi]
          have hround : drifterRoundProg fmt flags G runid dir year month d e.2 =
              FileProg.andThen ⟨(idFileLine i.toList).map (.put (idFilePath dir)), none⟩
                (voyageProg fmt flags runid dir year month (r :: v)) := by
            unfold drifterRoundProg
            rw [hd]
            simp only [hri]
          rw [hround] at h1 ⊢
          obtain ⟨-, g2, g3⟩ := andThen_none h1
          rw [g3, onOps_append, onOps_puts (path_idFile _ _ _ _ _ _), List.nil_append]
          obtain ⟨k1, k2⟩ := voyage_on fmt flags hf runid dir year month hy hm ident hsafe r v i hri (hinj q m1 m4 i hqi) g2
          by_cases hii : i = ident
          · subst hii
            right
            refine ⟨by rw [List.map_cons, hei]; simp, ?_⟩
            rcases ih with ih | ⟨ih, -⟩
            · rw [ih, List.append_nil]
              exact k1 rfl
            · rw [hei] at hn
              exact absurd ih hn.1
          · rw [k2 hii, List.nil_append]
            exact ih.imp id fun h => ⟨List.mem_cons_of_mem _ h.1, h.2⟩

/-! ## The operations of a month -/

theorem completions_eq {runid out : List Char} {year month : Int} {reps : List Report} {fs : FileSys}
    (h : OutputReady runid out year month reps fs) :
    buildCompletions out [intText year, zeroPad 2 month] = [out ++ '/' :: intText year, monthDir out year month] := by
  rw [C81_completions out _ h.base (by
    intro s hs
    simp only [List.mem_cons, List.not_mem_nil, or_false] at hs
    rcases hs with rfl | rfl
    · exact (zeroPad_name _ h.yearPos).2
    · exact (zeroPad_name _ h.monthPos).1)]
  simp [List.range_succ, monthDir]

theorem onOps_dirs (S : List (List Char)) (l : List (List Char)) : onOps S (l.map .mkdir) = [] := by
  unfold onOps
  rw [List.filter_eq_nil_iff]
  intro o ho
  obtain ⟨p, -, rfl⟩ := List.mem_map.mp ho
  simp [opOn]

theorem output_on (fmt : Rat → List Char) (dflags vflags : List (String × List String)) (hdf : dflags.Perm deckFlags)
    (hvf : vflags.Perm voyageFlags) (G : Geo) (runid out : List Char)
    (order : List (Option String × List Nat) → List (Option String × List Nat)) (ho : ∀ l, (order l).Perm l)
    (year month : Int) (d : Deck) (hix : d.Indexed) (fs : FileSys) (hr : OutputReady runid out year month d.reps fs)
    (ident : String) (hsafe : safeFilename ident.toList = ident.toList)
    (hinj : ∀ r ∈ d.reps, DriftsNow r → ∀ j, r.id = some j → safeFilename j.toList = ident.toList → j = ident)
    (he : (outputProg fmt dflags vflags G runid out order true year month d).err = none) :
    onOps (drifterPaths runid (monthDir out year month) year month ident)
        (outputProg fmt dflags vflags G runid out order true year month d).ops = [] ∨
      DrifterBlocks vflags runid (monthDir out year month) year month ident
        (onOps (drifterPaths runid (monthDir out year month) year month ident)
          (outputProg fmt dflags vflags G runid out order true year month d).ops) := by
  unfold outputProg at he ⊢
  simp only [completions_eq hr, List.getLast?_cons_cons, List.getLast?_singleton, if_true] at he ⊢
  obtain ⟨-, h2, h3⟩ := andThen_none he
  obtain ⟨k1, k2, k3⟩ := andThen_none h2
  have hdeck : onOps (drifterPaths runid (monthDir out year month) year month ident)
      (deckProg fmt dflags runid (monthDir out year month) year month d.reps).ops = [] := by
    have hno : ∀ pre, Beginning pre → deckPath runid (monthDir out year month) year month false pre ∉
        drifterPaths runid (monthDir out year month) year month ident := by
      intro pre hpre hp
      obtain ⟨pre', hpre', e⟩ := path_in_beginning hp
      exact deck_voyage_path _ _ _ _ _ _ _ hpre hpre' hr.yearPos hr.monthPos e
    unfold deckProg at k1 ⊢
    obtain ⟨-, l2, l3⟩ := andThen_none k1
    rw [l3, onOps_append, deckQc_on _ _ _ _ _ (by
      intro pre hpre
      obtain ⟨b, hb, rfl⟩ := List.mem_map.mp hpre
      exact hno _ (deck_beginnings.2.1 b hb)) _ (fun b hb => hdf.mem_iff.mp hb) l2, List.append_nil]
    exact onOps_other (hno _ deck_beginnings.1) _
  rw [h3, onOps_append, onOps_dirs, List.nil_append, k3, onOps_append, hdeck, List.nil_append]
  unfold drifterProg at k2 ⊢
  obtain ⟨-, l2, l3⟩ := andThen_none k2
  rw [l3, onOps_append, show onOps (drifterPaths runid (monthDir out year month) year month ident)
    [.openw (idFilePath (monthDir out year month))] = [] from onOps_other (path_idFile _ _ _ _ _ _) [], List.nil_append]
  refine (rounds_on fmt vflags (fun b hb => hvf.mem_iff.mp hb) G runid _ year month hr.yearPos hr.monthPos ident hsafe
    (d.addFilter drifterFilter) rfl hinj (order d.idtracker) (fun e he => hix.2.2 e ((ho _).mem_iff.mp he))
    (((ho d.idtracker).map (·.1)).nodup_iff.mpr hix.1) l2).imp id fun h => h.2

end MarineQC
