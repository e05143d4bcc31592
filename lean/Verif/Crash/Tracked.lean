import Verif.Crash.Order

/-! # The tracking program after a run of the main program that was killed (C127) -/

namespace MarineQC

open Spec

variable {F : Type} [LinearOrder F] [Zero F]

/-! ## One month -/

theorem readMonth_congr (num : List Char → Option Rat) (ord : List (List Char) → List (List Char)) (f g : FileSys)
    (out runid target : List Char) (year month : Int)
    (h : ∀ pre ∈ openedFiles, f.file (inputPath out runid target year month pre) = g.file (inputPath out runid target year month pre)) :
    readMonth num ord f out runid target year month = readMonth num ord g out runid target year month := by
  unfold readMonth
  rw [h "Variables_" (by decide), h "POS_qc_" (by decide), h "SST_qc_" (by decide)]

/-- A month whose tables of flags may be cut off. -/
theorem readMonth_cut (fmt : Rat → List Char) (num : List Char → Option Rat) (rnd : Rat → Rat) (h : Numerals fmt num rnd)
    (ord : List (List Char) → List (List Char)) (hord : ∀ l, (ord l).Perm l) (f g : FileSys) (out runid target : List Char)
    (year month : Int) (Q : List Report) (hq : ∀ q ∈ Q, Storable rnd q)
    (hv : f.file (inputPath out runid target year month "Variables_") = some (variableText fmt voyageVars Q))
    (hb : ∀ b ∈ voyageFlags, f.file (inputPath out runid target year month (b.1 ++ "_qc_")) = some (flagText b Q))
    (gv : g.file (inputPath out runid target year month "Variables_") = some (variableText fmt voyageVars Q))
    (gb : ∀ b ∈ voyageFlags, ∃ t, g.file (inputPath out runid target year month (b.1 ++ "_qc_")) = some t ∧ t <+: flagText b Q) :
    (∃ e, readMonth num ord g out runid target year month = .error e) ∨
      readMonth num ord g out runid target year month = readMonth num ord f out runid target year month := by
  have hp := hb ("POS", ["day", "isship", "trk", "date", "time", "pos", "blklst", "isbuoy", "iquam_track", "isdrifter"])
    (by decide)
  have hs := hb ("SST", ["bud", "clim", "nonorm", "freez", "noval", "nbud", "bbud", "rep", "spike", "hardlimit"])
    (by decide)
  obtain ⟨p, gp, pp⟩ := gb ("POS", ["day", "isship", "trk", "date", "time", "pos", "blklst", "isbuoy", "iquam_track", "isdrifter"])
    (by decide)
  obtain ⟨s, gs, ps⟩ := gb ("SST", ["bud", "clim", "nonorm", "freez", "noval", "nbud", "bbud", "rep", "spike", "hardlimit"])
    (by decide)
  obtain ⟨R, g1, -⟩ := csvVariables_ok fmt num rnd h ord hord Q hq
  unfold readMonth
  rw [gv, hv, show "POS_qc_" = "POS" ++ "_qc_" from by decide, show "SST_qc_" = "SST" ++ "_qc_" from by decide, hp, hs, gp, gs]
  dsimp only
  rw [variable_lines fmt num rnd h Q hq, flag_lines rnd _ (by decide) Q hq, flag_lines rnd _ (by decide) Q hq,
    if_neg (c := (_ = 0 ∨ List.length (_ :: Q.map _) ≠ _ ∨ List.length (_ :: Q.map _) ≠ _)) (by simp), g1, except_bind_ok]
  split
  · exact Or.inl ⟨_, rfl⟩
  · rename_i hlen
    rw [not_or, not_or, not_not, not_not] at hlen
    obtain ⟨-, l1, l2⟩ := hlen
    rw [List.length_cons, List.length_map] at l1 l2
    rw [except_bind_ok]
    rcases cut_flags rnd ord hord _ (by decide) Q R hq p pp l1 with ⟨e, he⟩ | he
    · left
      exact ⟨e, by dsimp only at he; rw [he]; rfl⟩
    · dsimp only at he
      rw [he]
      cases csvFlags ord "POS" (flagText ("POS", ["day", "isship", "trk", "date", "time", "pos", "blklst", "isbuoy", "iquam_track", "isdrifter"]) Q) R with
      | error e => exact Or.inr rfl
      | ok R1 =>
        rw [except_bind_ok, except_bind_ok]
        exact cut_flags rnd ord hord _ (by decide) Q R1 hq s ps l2

/-- The contents of the files after a beginning of the operations. -/
theorem blocks_prefix {V A B : List Char} (h1 : V ≠ A) (h2 : V ≠ B) (h3 : A ≠ B) {t : List FileOp} {v a b : List Char}
    (h : t <+: blockOps V v ++ (blockOps A a ++ blockOps B b)) :
    (fileAfter V t none = none ∧ fileAfter A t none = none ∧ fileAfter B t none = none) ∨
    (fileAfter V t none ≠ none ∧ (fileAfter A t none = none ∨ fileAfter B t none = none)) ∨
    (fileAfter V t none = some v ∧ fileAfter A t none = some a ∧ ∃ b', b' <+: b ∧ fileAfter B t none = some b') := by
  rcases prefix_split h with ⟨h, -⟩ | ⟨t, rfl, h'⟩
  · rcases block_prefix h with rfl | ⟨u, -, rfl⟩
    · exact Or.inl ⟨rfl, rfl, rfl⟩
    · right; left
      rw [fileAfter_block, fileAfter_other h1.symm]
      simp
  · rcases prefix_split h' with ⟨h, -⟩ | ⟨t, rfl, h''⟩
    · right; left
      rcases block_prefix h with rfl | ⟨u, -, rfl⟩
      · rw [List.append_nil, fileAfter_block, fileAfter_other h1.symm]
        simp
      · rw [fileAfter_append, fileAfter_append, fileAfter_append, fileAfter_block, fileAfter_other h1, fileAfter_other h2.symm,
          fileAfter_other h3.symm]
        simp
    · rcases block_prefix h'' with rfl | ⟨u, hu, rfl⟩
      · right; left
        rw [List.append_nil, fileAfter_append, fileAfter_append, fileAfter_append, fileAfter_block, fileAfter_other h1, fileAfter_other h2.symm,
          fileAfter_other h3.symm]
        simp
      · right; right
        refine ⟨?_, ?_, u, hu, ?_⟩
        · rw [fileAfter_append, fileAfter_append, fileAfter_block, fileAfter_other h1, fileAfter_other h2]
        · rw [fileAfter_append, fileAfter_append, fileAfter_block, fileAfter_other h3]
        · rw [fileAfter_append, fileAfter_append, fileAfter_block]

theorem drifterPaths_mem {runid out : List Char} {year month : Int} {ident : String} {pre : String} (h : pre ∈ openedFiles) :
    inputPath out runid ident.toList year month pre ∈ drifterPaths runid (monthDir out year month) year month ident := by
  rw [inputPath_eq]
  unfold openedFiles at h
  simp only [List.mem_cons, List.not_mem_nil, or_false] at h
  have key : ∀ b ∈ voyageFlags, pre.toList = b.1.toList ++ "_qc_".toList →
      voyagePath runid (monthDir out year month) year month pre.toList ident.toList ∈
        drifterPaths runid (monthDir out year month) year month ident := by
    intro b hb e
    exact List.mem_cons_of_mem _ (List.mem_map.mpr ⟨b, hb, by rw [e]⟩)
  rcases h with rfl | rfl | rfl
  · exact List.mem_cons_self
  · exact key (voyageFlags.head (by decide)) (by decide) (by decide)
  · exact key (voyageFlags.getLast (by decide)) (by decide) (by decide)

theorem pair_perm {α : Type} {l : List α} {a b : α} (h : l.Perm [a, b]) : l = [a, b] ∨ l = [b, a] := by
  have hl := h.length_eq
  match l, hl with
  | [x, y], _ =>
    have hx : x ∈ [a, b] := h.mem_iff.mp List.mem_cons_self
    simp only [List.mem_cons, List.not_mem_nil, or_false] at hx
    rcases hx with rfl | rfl
    · have := List.perm_singleton.mp h.cons_inv
      left; rw [this]
    · have := List.perm_singleton.mp (h.trans (List.Perm.swap x a [])).cons_inv
      right; rw [this]

/-- A month whose files were being written. -/
theorem month_state (fmt : Rat → List Char) (num : List Char → Option Rat) (rnd : Rat → Rat) (h : Numerals fmt num rnd)
    (ord : List (List Char) → List (List Char)) (hord : ∀ l, (ord l).Perm l) (f g : FileSys) (out runid : List Char) (ident : String)
    (year month : Int) (Q : List Report) (hq : ∀ q ∈ Q, Storable rnd q)
    (hv : f.file (inputPath out runid ident.toList year month "Variables_") = some (variableText fmt voyageVars Q))
    (hb : ∀ b ∈ voyageFlags, f.file (inputPath out runid ident.toList year month (b.1 ++ "_qc_")) = some (flagText b Q))
    (vflags : List (String × List String)) (hvf : vflags.Perm voyageFlags) (l t : List FileOp) (ht : t <+: l)
    (hl : DrifterBlocks vflags runid (monthDir out year month) year month ident l)
    (hf : ∀ p ∈ drifterPaths runid (monthDir out year month) year month ident, f.file p = fileAfter p l none)
    (hg : ∀ p ∈ drifterPaths runid (monthDir out year month) year month ident, g.file p = fileAfter p t none) :
    (∀ pre ∈ openedFiles, g.file (inputPath out runid ident.toList year month pre) = none) ∨
    (∃ e, readMonth num ord g out runid ident.toList year month = .error e) ∨
      readMonth num ord g out runid ident.toList year month = readMonth num ord f out runid ident.toList year month := by
  obtain ⟨a, tx, rfl⟩ := hl
  have hvp : ∃ bP bS, voyageFlags = [bP, bS] ∧ bP.1.toList ++ "_qc_".toList = "POS_qc_".toList ∧
      bS.1.toList ++ "_qc_".toList = "SST_qc_".toList := ⟨_, _, rfl, by decide, by decide⟩
  obtain ⟨bP, bS, evf, eP, eS⟩ := hvp
  rw [evf] at hvf hb
  have mP := drifterPaths_mem (runid := runid) (out := out) (year := year) (month := month) (ident := ident) (pre := "POS_qc_") (by decide)
  have mS := drifterPaths_mem (runid := runid) (out := out) (year := year) (month := month) (ident := ident) (pre := "SST_qc_") (by decide)
  have mV := drifterPaths_mem (runid := runid) (out := out) (year := year) (month := month) (ident := ident) (pre := "Variables_") (by decide)
  have qP := hb bP (by simp)
  have qS := hb bS (by simp)
  have hb' : ∀ b ∈ voyageFlags, f.file (inputPath out runid ident.toList year month (b.1 ++ "_qc_")) = some (flagText b Q) := by
    rw [evf]; exact hb
  rw [inputPath_eq, String.toList_append, eP] at qP
  rw [inputPath_eq, String.toList_append, eS] at qS
  have qV := hv
  rw [inputPath_eq] at mP mS mV qV
  have nVP : voyagePath runid (monthDir out year month) year month "Variables_".toList ident.toList ≠
      voyagePath runid (monthDir out year month) year month "POS_qc_".toList ident.toList := fun e =>
    absurd (voyagePath_pre_inj _ _ _ _ _ _ _ e) (by decide)
  have nVS : voyagePath runid (monthDir out year month) year month "Variables_".toList ident.toList ≠
      voyagePath runid (monthDir out year month) year month "SST_qc_".toList ident.toList := fun e =>
    absurd (voyagePath_pre_inj _ _ _ _ _ _ _ e) (by decide)
  have nPS : voyagePath runid (monthDir out year month) year month "POS_qc_".toList ident.toList ≠
      voyagePath runid (monthDir out year month) year month "SST_qc_".toList ident.toList := fun e =>
    absurd (voyagePath_pre_inj _ _ _ _ _ _ _ e) (by decide)
  have fV := hf _ mV
  have fP := hf _ mP
  have fS := hf _ mS
  rw [qV] at fV
  rw [qP] at fP
  rw [qS] at fS
  have gV := hg _ mV
  have gP := hg _ mP
  have gS := hg _ mS
  have gone : g.file (voyagePath runid (monthDir out year month) year month "Variables_".toList ident.toList) ≠ none →
      (g.file (voyagePath runid (monthDir out year month) year month "POS_qc_".toList ident.toList) = none ∨
       g.file (voyagePath runid (monthDir out year month) year month "SST_qc_".toList ident.toList) = none) →
      ∃ e, readMonth num ord g out runid ident.toList year month = .error e := by
    intro h1 h2
    obtain ⟨x, hx⟩ := Option.ne_none_iff_exists'.mp h1
    unfold readMonth
    rw [inputPath_eq, inputPath_eq, inputPath_eq, hx]
    rcases h2 with h2 | h2
    · rw [h2]
      exact ⟨_, rfl⟩
    · rw [h2]
      cases g.file (voyagePath runid (monthDir out year month) year month "POS_qc_".toList ident.toList) <;> exact ⟨_, rfl⟩
  have empty : g.file (voyagePath runid (monthDir out year month) year month "Variables_".toList ident.toList) = none →
      g.file (voyagePath runid (monthDir out year month) year month "POS_qc_".toList ident.toList) = none →
      g.file (voyagePath runid (monthDir out year month) year month "SST_qc_".toList ident.toList) = none →
      ∀ pre ∈ openedFiles, g.file (inputPath out runid ident.toList year month pre) = none := by
    intro h1 h2 h3 pre hp
    unfold openedFiles at hp
    simp only [List.mem_cons, List.not_mem_nil, or_false] at hp
    rw [inputPath_eq]
    rcases hp with rfl | rfl | rfl
    · exact h1
    · exact h2
    · exact h3
  have full : ∀ p s, g.file (voyagePath runid (monthDir out year month) year month "Variables_".toList ident.toList) =
        some (variableText fmt voyageVars Q) →
      g.file (voyagePath runid (monthDir out year month) year month "POS_qc_".toList ident.toList) = some p → p <+: flagText bP Q →
      g.file (voyagePath runid (monthDir out year month) year month "SST_qc_".toList ident.toList) = some s → s <+: flagText bS Q →
      (∃ e, readMonth num ord g out runid ident.toList year month = .error e) ∨
      readMonth num ord g out runid ident.toList year month = readMonth num ord f out runid ident.toList year month := by
    intro p s h1 h2 h2' h3 h3'
    refine readMonth_cut fmt num rnd h ord hord f g out runid ident.toList year month Q hq hv hb' (by rw [inputPath_eq]; exact h1) ?_
    rw [evf]
    intro b hbm
    simp only [List.mem_cons, List.not_mem_nil, or_false] at hbm
    rcases hbm with rfl | rfl
    · exact ⟨p, by rw [inputPath_eq, String.toList_append, eP]; exact h2, h2'⟩
    · exact ⟨s, by rw [inputPath_eq, String.toList_append, eS]; exact h3, h3'⟩
  rcases pair_perm hvf with rfl | rfl
  · simp only [List.map_cons, List.map_nil, List.flatten_cons, List.flatten_nil, List.append_nil, eP, eS] at ht fV fP fS
    rw [fileAfter_append, fileAfter_append, fileAfter_block, fileAfter_other nVP, fileAfter_other nVS, Option.some.injEq] at fV
    rw [fileAfter_append, fileAfter_append, fileAfter_block, fileAfter_other nPS, Option.some.injEq] at fP
    rw [fileAfter_append, fileAfter_append, fileAfter_block, Option.some.injEq] at fS
    rcases blocks_prefix nVP nVS nPS ht with ⟨x1, x2, x3⟩ | ⟨x1, x2⟩ | ⟨x1, x2, s, x3, x4⟩
    · exact Or.inl (empty (gV.trans x1) (gP.trans x2) (gS.trans x3))
    · exact Or.inr (Or.inl (gone (by rw [gV]; exact x1) (by rw [gP, gS]; exact x2)))
    · exact Or.inr (full _ s (by rw [gV, x1, fV]) (by rw [gP, x2]) (by rw [fP]) (by rw [gS, x4]) (by rw [fS]; exact x3))
  · simp only [List.map_cons, List.map_nil, List.flatten_cons, List.flatten_nil, List.append_nil, eP, eS] at ht fV fP fS
    rw [fileAfter_append, fileAfter_append, fileAfter_block, fileAfter_other nVS, fileAfter_other nVP, Option.some.injEq] at fV
    rw [fileAfter_append, fileAfter_append, fileAfter_block, fileAfter_other nPS.symm, Option.some.injEq] at fS
    rw [fileAfter_append, fileAfter_append, fileAfter_block, Option.some.injEq] at fP
    rcases blocks_prefix nVS nVP nPS.symm ht with ⟨x1, x2, x3⟩ | ⟨x1, x2⟩ | ⟨x1, x2, s, x3, x4⟩
    · exact Or.inl (empty (gV.trans x1) (gP.trans x3) (gS.trans x2))
    · exact Or.inr (Or.inl (gone (by rw [gV]; exact x1) (by rw [gP, gS]; exact x2.symm)))
    · exact Or.inr (full s _ (by rw [gV, x1, fV]) (by rw [gP, x4]) (by rw [fP]; exact x3) (by rw [gS, x2]) (by rw [fS]))

/-! ## All operations of a month are on files in its directory -/

/-- The operation makes a directory, or is on a file in this one. -/
def InDir (dir : List Char) : FileOp → Prop
  | .mkdir _ => True
  | .openw p => ∃ x, p = dir ++ '/' :: x
  | .put p _ => ∃ x, p = dir ++ '/' :: x

theorem inDir_andThen {dir : List Char} {P Q : FileProg} (h1 : ∀ o ∈ P.ops, InDir dir o) (h2 : ∀ o ∈ Q.ops, InDir dir o) :
    ∀ o ∈ (P.andThen Q).ops, InDir dir o := by
  unfold FileProg.andThen
  split
  · intro o ho
    rcases List.mem_append.mp ho with ho | ho
    · exact h1 o ho
    · exact h2 o ho
  · exact h1

theorem inDir_file {dir p : List Char} (h : ∃ x, p = dir ++ '/' :: x) (s : List (Except Err (List Char))) : ∀ o ∈ (fileProg p s).ops, InDir dir o := by
  unfold fileProg
  intro o ho
  rcases List.mem_cons.mp ho with rfl | ho
  · exact h
  · obtain ⟨c, -, rfl⟩ := List.mem_map.mp ho
    exact h

theorem deckQc_in (runid dir : List Char) (year month : Int) (reps : List Report) (flags : List (String × List String)) :
    ∀ o ∈ (deckQcProg runid dir year month reps flags).ops, InDir dir o := by
  induction flags with
  | nil => simp [deckQcProg]
  | cons b l ih =>
    rw [deckQcProg]
    exact inDir_andThen (inDir_file ⟨_, rfl⟩ _) ih

theorem voyageQc_in (runid dir : List Char) (year month : Int) (reps : List Report) (flags : List (String × List String)) :
    ∀ o ∈ (voyageQcProg runid dir year month reps flags).ops, InDir dir o := by
  induction flags with
  | nil => simp [voyageQcProg]
  | cons b l ih =>
    rw [voyageQcProg.eq_def]
    cases reps with
    | nil => simp
    | cons r v =>
      cases hi : r.id with
      | none => simp [hi]
      | some i =>
        simp only [hi]
        exact inDir_andThen (inDir_file (voyagePath_in ..) _) ih

theorem rounds_in (fmt : Rat → List Char) (flags : List (String × List String)) (G : Geo)
    (runid dir : List Char) (year month : Int) (d : Deck) (es : List (Option String × List Nat)) :
    ∀ o ∈ (drifterRoundsProg fmt flags G runid dir year month d es).ops, InDir dir o := by
  induction es with
  | nil => simp [drifterRoundsProg]
  | cons e es ih =>
    rw [drifterRoundsProg]
    refine inDir_andThen ?_ ih
    unfold drifterRoundProg
    split
    · simp
    · simp
    · split
      · simp
      · refine inDir_andThen ?_ ?_
        · intro o ho
          obtain ⟨c, -, rfl⟩ := List.mem_map.mp ho
          exact idFile_in dir
        · unfold voyageProg
          split
          · simp
          · split
            · simp
            · exact inDir_andThen (inDir_file (voyagePath_in ..) _) (voyageQc_in _ _ _ _ _ _)

theorem output_in (fmt : Rat → List Char) (dflags vflags : List (String × List String)) (G : Geo) (runid out : List Char)
    (order : List (Option String × List Nat) → List (Option String × List Nat)) (tracking : Bool)
    (year month : Int) (d : Deck) (fs : FileSys) (hr : OutputReady runid out year month d.reps fs) :
    ∀ o ∈ (outputProg fmt dflags vflags G runid out order tracking year month d).ops, InDir (monthDir out year month) o := by
  unfold outputProg
  simp only [completions_eq hr, List.getLast?_cons_cons, List.getLast?_singleton]
  refine inDir_andThen ?_ (inDir_andThen (inDir_andThen (inDir_file ⟨_, rfl⟩ _) (deckQc_in _ _ _ _ _ _)) ?_)
  · intro o ho
    obtain ⟨c, -, rfl⟩ := List.mem_map.mp ho
    trivial
  · split
    · unfold drifterProg
      refine inDir_andThen ?_ (rounds_in _ _ _ _ _ _ _ _ _)
      intro o ho
      obtain rfl := List.mem_singleton.mp ho
      exact idFile_in _
    · simp

theorem onOps_far {S : List (List Char)} {dir : List Char} (hS : ∀ x, dir ++ '/' :: x ∉ S) {l : List FileOp}
    (h : ∀ o ∈ l, InDir dir o) : onOps S l = [] := by
  unfold onOps
  rw [List.filter_eq_nil_iff]
  intro o ho
  have := h o ho
  cases o with
  | mkdir p => simp [opOn]
  | openw p =>
    obtain ⟨x, rfl⟩ := this
    simpa [opOn] using hS x
  | put p c =>
    obtain ⟨x, rfl⟩ := this
    simpa [opOn] using hS x

/-! ## A run -/

/-- The operations of a month of a run. -/
def opsOf (E : RunEnv F) (deck : Int × Int → Deck) (m : Int × Int) : List FileOp :=
  (outputProg E.fmt E.dflags E.vflags E.geo E.runid E.out E.order E.read.tracking m.1 m.2 (deck m)).ops

theorem months_ops (E : RunEnv F) (deck : Int × Int → Deck) (months : List (Int × Int)) : ∀ (lib : ClimLib Arr3)
    (_ : ∀ m ∈ months, ∃ lib', checkedMonth E lib m = .ok (deck m, lib')) (_ : (monthsProg E months lib).err = none),
    (monthsProg E months lib).ops = (months.map (opsOf E deck)).flatten ∧
    ∀ m ∈ months, (outputProg E.fmt E.dflags E.vflags E.geo E.runid E.out E.order E.read.tracking m.1 m.2 (deck m)).err = none := by
  induction months with
  | nil => intro lib _ _; exact ⟨rfl, by simp⟩
  | cons m l ih =>
    intro lib hc he
    obtain ⟨lib', hm⟩ := hc m (by simp)
    rw [monthsProg, hm] at he ⊢
    simp only at he ⊢
    obtain ⟨e1, e2, e3⟩ := andThen_none he
    have hs := checkedMonth_clim E lib m _ lib' hm
    obtain ⟨i1, i2⟩ := ih lib' (by
      intro k hk
      obtain ⟨lk, hkk⟩ := hc k (by simp [hk])
      rcases checkedMonth_same E hs k with ⟨e, h1, -⟩ | ⟨a, b, h1, h2, h3, -⟩
      · rw [hkk] at h1; cases h1
      · rw [hkk] at h1
        injection h1 with h1
        exact ⟨b.2, by rw [h2, ← show b.1 = deck k by rw [h3, ← h1]]⟩) e2
    refine ⟨by rw [e3, i1]; rfl, ?_⟩
    intro k hk
    rcases List.mem_cons.mp hk with rfl | hk
    · exact e1
    · exact i2 k hk

theorem runOps_take (fs : FileSys) (a b : List FileOp) (h : (runOps (a ++ b) fs).2 = true) : (runOps a fs).2 = true := by
  induction a generalizing fs with
  | nil => rfl
  | cons o a ih =>
    cases ho : o.run fs with
    | none => rw [List.cons_append, runOps_fails ho] at h; cases h
    | some g => rw [List.cons_append, runOps_goes ho] at h; rw [runOps_goes ho]; exact ih g h

theorem run_goes {P : FileProg} {fs fs' : FileSys} (h : P.run fs = (fs', none)) :
    (runOps P.ops fs).2 = true ∧ P.err = none ∧ fs' = (runOps P.ops fs).1 := by
  unfold FileProg.run at h
  rw [Prod.mk.injEq] at h
  obtain ⟨h1, h2⟩ := h
  cases hb : (runOps P.ops fs).2 with
  | false => rw [hb] at h2; cases h2
  | true => rw [hb] at h2; exact ⟨rfl, h2, h1.symm⟩

theorem run_file (E : RunEnv F) (deck : Int × Int → Deck) (months : List (Int × Int)) (lib : ClimLib Arr3) (fs fs' : FileSys)
    (hc : ∀ m ∈ months, ∃ lib', checkedMonth E lib m = .ok (deck m, lib')) (h : runMonths E months lib fs = (fs', none)) (p : List Char) :
    fs'.file p = fileAfter p ((months.map (opsOf E deck)).flatten) (fs.file p) := by
  rw [← C125_operations] at h
  obtain ⟨h1, h2, h3⟩ := run_goes h
  rw [h3, runOps_file _ _ h1, (months_ops E deck months lib hc h2).1]

theorem months_far (E : RunEnv F) (deck : Int × Int → Deck) (fs : FileSys) (months : List (Int × Int))
    (hr : ∀ m ∈ months, OutputReady E.runid E.out m.1 m.2 (deck m).reps fs) (ident : String) (k : Int × Int) (hk : 0 ≤ k.1)
    (hkm : k ∉ months) :
    onOps (drifterPaths E.runid (monthDir E.out k.1 k.2) k.1 k.2 ident) ((months.map (opsOf E deck)).flatten) = [] := by
  rw [onOps_flatten, List.flatten_eq_nil_iff]
  intro l hl
  obtain ⟨l', hl', rfl⟩ := List.mem_map.mp hl
  obtain ⟨m, hm, rfl⟩ := List.mem_map.mp hl'
  refine onOps_far (dir := monthDir E.out m.1 m.2) ?_ (output_in _ _ _ _ _ _ _ _ _ _ _ fs (hr m hm))
  intro x hx
  obtain ⟨pre, -, e⟩ := path_in_beginning hx
  obtain ⟨x', hx'⟩ := voyagePath_in E.runid (monthDir E.out k.1 k.2) pre ident.toList k.1 k.2
  have e' : m = k := inMonth_inj _ _ _ _ _ _ _ (hr m hm).yearPos hk (e.trans hx')
  exact hkm (e' ▸ hm)

theorem months_near (E : RunEnv F) (deck : Int × Int → Deck) (fs : FileSys) (a b : List (Int × Int)) (k : Int × Int)
    (hr : ∀ m ∈ a ++ k :: b, OutputReady E.runid E.out m.1 m.2 (deck m).reps fs) (hn : (a ++ k :: b).Nodup) (ident : String) :
    onOps (drifterPaths E.runid (monthDir E.out k.1 k.2) k.1 k.2 ident) (((a ++ k :: b).map (opsOf E deck)).flatten) =
      onOps (drifterPaths E.runid (monthDir E.out k.1 k.2) k.1 k.2 ident) (opsOf E deck k) := by
  have hk := (hr k (by simp)).yearPos
  rw [List.nodup_append] at hn
  obtain ⟨n1, n2, n3⟩ := hn
  rw [List.map_append, List.flatten_append, List.map_cons, List.flatten_cons, onOps_append, onOps_append,
    months_far E deck fs a (fun m hm => hr m (by simp [hm])) ident k hk (fun h => n3 k h k (by simp) rfl),
    months_far E deck fs b (fun m hm => hr m (by simp [hm])) ident k hk (List.nodup_cons.mp n2).1, List.nil_append, List.append_nil]

theorem mapM_congr_ok {α β : Type} (f g : α → Except Err β) (l : List α) (h : ∀ a ∈ l, f a = g a) : l.mapM f = l.mapM g := by
  induction l with
  | nil => rfl
  | cons a l ih => rw [List.mapM_cons, List.mapM_cons, h a (by simp), ih fun b hb => h b (by simp [hb])]

theorem mapM_fails {α β : Type} (f : α → Except Err β) (l : List α) (a : α) (ha : a ∈ l) (e : Err) (he : f a = .error e) :
    ∃ e, l.mapM f = .error e := by
  induction l with
  | nil => cases ha
  | cons b l ih =>
    rw [List.mapM_cons]
    cases hb : f b with
    | error e => exact ⟨e, rfl⟩
    | ok y =>
      rcases List.mem_cons.mp ha with rfl | ha
      · rw [he] at hb; cases hb
      · obtain ⟨e, h⟩ := ih ha
        exact ⟨e, by rw [h]; rfl⟩

/-- A run that is killed between two operations on the file system, or with a part of its text not yet given to the system: the files
that it has closed are complete.  Of the file it is writing to, a text not yet given to the system is as if it had been killed earlier.
Only the files of identifiers stay open while others are written: nothing is said about them. -/
def Spec.Interrupted (P : FileProg) (fs g : FileSys) : Prop :=
  ∃ n, ∀ p, (∀ dir, p ≠ idFilePath dir) → g.file p = (runOps (P.ops.take n) fs).1.file p

theorem drifterPath_not_id {runid dir : List Char} {year month : Int} {ident : String} {p : List Char}
    (h : p ∈ drifterPaths runid dir year month ident) (dir' : List Char) : p ≠ idFilePath dir' := by
  rintro rfl
  exact path_idFile _ _ _ _ _ _ h

/-- Where a run was killed: some months are complete, of the next one there is a beginning. -/
theorem killed_at (E : RunEnv F) (deck : Int × Int → Deck) (months : List (Int × Int)) (t : List FileOp)
    (ht : t <+: (months.map (opsOf E deck)).flatten) :
    ∃ done rest w, months = done ++ rest ∧ t = (done.map (opsOf E deck)).flatten ++ w ∧
      (w = [] ∨ ∃ m l, rest = m :: l ∧ w <+: opsOf E deck m) := by
  rcases prefix_flatten _ _ ht with rfl | ⟨a, w, l, b, h1, h2, h3, -⟩
  · exact ⟨months, [], [], by simp, by simp, Or.inl rfl⟩
  · obtain ⟨done, rest, h4, rfl, h5⟩ := List.map_eq_append_iff.mp h1
    obtain ⟨m, l', h6, rfl, -⟩ := List.map_eq_cons_iff.mp h5
    exact ⟨done, rest, w, h4, h2, Or.inr ⟨m, l', h6, h3⟩⟩

theorem run_interrupted (E : RunEnv F) (num : List Char → Option Rat) (rnd : Rat → Rat)
    (h : Numerals E.fmt num rnd) (ord : List (List Char) → List (List Char)) (hord : ∀ l, (ord l).Perm l)
    (hdf : E.dflags.Perm deckFlags) (hvf : E.vflags.Perm voyageFlags) (ho : ∀ l, (E.order l).Perm l) (lib : ClimLib Arr3)
    (deck : Int × Int → Deck) (months chunk : List (Int × Int)) (fs g : FileSys) (hn : months.Nodup)
    (hb : ∀ m ∈ months, 1 ≤ m.2 ∧ m.2 ≤ 12)
    (hc : ∀ m ∈ months, ∃ lib', checkedMonth E lib m = .ok (deck m, lib'))
    (hr : ∀ m ∈ months, OutputReady E.runid E.out m.1 m.2 (deck m).reps fs) (htr : E.read.tracking = true)
    (ht : ∀ m ∈ months, DriftersReady (deck m).reps) (hch : ∀ m ∈ chunk, 0 ≤ m.1 ∧ 0 ≤ m.2)
    (arg : List Char) (ident : String) (harg : ident.toList = targetId arg) (hs : '/' ∉ ident.toList) (ha : '*' ∉ ident.toList)
    (hq : ∀ q ∈ handedOn deck months chunk ident, Storable rnd q)
    (hsafe : ∀ m ∈ months, ∀ r ∈ (deck m).reps, DriftsNow r → ∀ j, r.id = some j → safeFilename j.toList = ident.toList → j = ident)
    (hnew : ∀ m ∈ chunk, ∀ pre ∈ openedFiles, fs.file (inputPath E.out E.runid (targetId arg) m.1 m.2 pre) = none)
    (hg : Interrupted (monthsProg E months lib) fs g) :
    ∃ done fs', done <+: months ∧ runMonths E done lib fs = (fs', none) ∧
      (readChunk num ord g E.out E.runid arg chunk = readChunk num ord fs' E.out E.runid arg chunk ∨
        (∃ e, readChunk num ord g E.out E.runid arg chunk = .error e) ∧ ∃ m ∈ chunk, months[done.length]? = some m) := by
  have hplain : ∀ x, Plain (E.fmt x) := fun x => (h.plain x).1
  -- a run over some of the months
  have part : ∀ done, (∀ m ∈ done, m ∈ months) → done.Nodup → ∃ fs', runMonths E done lib fs = (fs', none) ∧
      (∀ m ∈ done, MonthText E m (deck m).reps fs') ∧
      (∀ p, (∀ m ∈ done, ¬ MonthFile E.runid (monthDir E.out m.1 m.2) m.1 m.2 E.read.tracking (deck m).reps p) →
        fs'.file p = fs.file p) ∧ ∀ p, fs'.file p = fileAfter p ((done.map (opsOf E deck)).flatten) (fs.file p) := by
    intro done hsub hnd
    obtain ⟨fs', h1, h2, h3, -⟩ := run_text E hplain hdf hvf ho lib deck done fs hnd (fun m hm => hb m (hsub m hm))
      (fun m hm => hc m (hsub m hm)) (fun m hm => hr m (hsub m hm)) (fun m hm _ => ht m (hsub m hm))
    exact ⟨fs', h1, h2, h3, run_file E deck done lib fs fs' (fun m hm => hc m (hsub m hm)) h1⟩
  obtain ⟨fsa, f1, -, -, -⟩ := part months (fun _ h => h) hn
  rw [← C125_operations] at f1
  obtain ⟨f2, f3, -⟩ := run_goes f1
  obtain ⟨o1, o2⟩ := months_ops E deck months lib hc f3
  obtain ⟨n, hg⟩ := hg
  have hfile : ∀ p, (∀ dir, p ≠ idFilePath dir) → g.file p = fileAfter p ((monthsProg E months lib).ops.take n) (fs.file p) := by
    intro p hp
    rw [hg p hp, runOps_file]
    refine runOps_take fs _ ((monthsProg E months lib).ops.drop n) ?_
    rw [List.take_append_drop]
    exact f2
  obtain ⟨done, rest, w, d1, d2, d3⟩ := killed_at E deck months ((monthsProg E months lib).ops.take n)
    (by rw [← o1]; exact List.take_prefix _ _)
  rw [d2] at hfile
  subst d1
  have hn' := hn
  rw [List.nodup_append] at hn'
  obtain ⟨n1, n2, n3⟩ := hn'
  obtain ⟨fsd, r1, -, -, r4⟩ := part done (fun m hm => by simp [hm]) n1
  -- the months that the killed run was not writing
  have others : ∀ k ∈ chunk, onOps (drifterPaths E.runid (monthDir E.out k.1 k.2) k.1 k.2 ident) w = [] →
      readMonth num ord g E.out E.runid (targetId arg) k.1 k.2 = readMonth num ord fsd E.out E.runid (targetId arg) k.1 k.2 := by
    intro k hk hw
    apply readMonth_congr
    intro pre hpre
    have hm := drifterPaths_mem (runid := E.runid) (out := E.out) (year := k.1) (month := k.2) (ident := ident) hpre
    rw [← harg, hfile _ (drifterPath_not_id hm), r4, fileAfter_append, ← fileAfter_on hm w, hw]
    rfl
  have same : (∀ k ∈ chunk, readMonth num ord g E.out E.runid (targetId arg) k.1 k.2 =
      readMonth num ord fsd E.out E.runid (targetId arg) k.1 k.2) → readChunk num ord g E.out E.runid arg chunk =
      readChunk num ord fsd E.out E.runid arg chunk := by
    intro hk
    unfold readChunk
    rw [mapM_congr_ok _ _ chunk hk]
  rcases d3 with rfl | ⟨m, l, rfl, hw⟩
  · exact ⟨done, fsd, List.prefix_append _ _, r1, Or.inl (same fun k hk => others k hk rfl)⟩
  have hmm : m ∈ done ++ m :: l := by simp
  have hfar : ∀ k ∈ chunk, k ≠ m → onOps (drifterPaths E.runid (monthDir E.out k.1 k.2) k.1 k.2 ident) w = [] := by
    intro k hk hkm
    have := months_far E deck fs [m] (fun j hj => by rw [List.mem_singleton.mp hj]; exact hr m hmm) ident k (hch k hk).1 (by simpa using hkm)
    rw [List.map_singleton, List.flatten_singleton] at this
    have hp : onOps (drifterPaths E.runid (monthDir E.out k.1 k.2) k.1 k.2 ident) w <+:
        onOps (drifterPaths E.runid (monthDir E.out k.1 k.2) k.1 k.2 ident) (opsOf E deck m) := hw.filter _
    rw [this] at hp
    exact List.prefix_nil.mp hp
  by_cases hmc : m ∈ chunk
  swap
  · exact ⟨done, fsd, List.prefix_append _ _, r1, Or.inl (same fun k hk => others k hk (hfar k hk fun e => hmc (e ▸ hk)))⟩
  -- the month it was writing
  obtain ⟨lm, hlm⟩ := hc m hmm
  obtain ⟨-, -, -, -, -, -, hix, -⟩ := checkedMonth_parts (hb m hmm) hlm
  have hon := output_on E.fmt E.dflags E.vflags hdf hvf E.geo E.runid E.out E.order ho m.1 m.2 (deck m) hix fs (hr m hmm) ident
    (safe_id _ hs ha) (hsafe m hmm) (by rw [← htr]; exact o2 m hmm)
  rw [← htr] at hon
  have hpre : onOps (drifterPaths E.runid (monthDir E.out m.1 m.2) m.1 m.2 ident) w <+:
    onOps (drifterPaths E.runid (monthDir E.out m.1 m.2) m.1 m.2 ident) (opsOf E deck m) := hw.filter _
  rcases hon with hon | hon
  · rw [show onOps _ (opsOf E deck m) = [] from hon] at hpre
    refine ⟨done, fsd, List.prefix_append _ _, r1, Or.inl (same fun k hk => others k hk ?_)⟩
    by_cases hkm : k = m
    · rw [hkm]; exact List.prefix_nil.mp hpre
    · exact hfar k hk hkm
  have hmd : m ∉ done := fun hd => n3 m hd m (by simp) rfl
  have nd1 : (done ++ [m]).Nodup := by
    rw [List.nodup_append]
    exact ⟨n1, by simp, fun a ha b hb => by rw [List.mem_singleton.mp hb]; exact n3 a ha m (by simp)⟩
  have sub1 : ∀ j ∈ done ++ [m], j ∈ done ++ m :: l := by
    intro j hj
    rcases List.mem_append.mp hj with hj | hj
    · simp [hj]
    · rw [List.mem_singleton.mp hj]; exact hmm
  obtain ⟨fse, s1, s2, s3, s4⟩ := part (done ++ [m]) sub1 nd1
  have fsnone : ∀ p ∈ drifterPaths E.runid (monthDir E.out m.1 m.2) m.1 m.2 ident, fs.file p = none := by
    have key : ∀ pre ∈ openedFiles, fs.file (voyagePath E.runid (monthDir E.out m.1 m.2) m.1 m.2 pre.toList ident.toList) = none := by
      intro pre hp
      rw [harg, ← inputPath_eq]
      exact hnew m hmc pre hp
    intro p hp
    rcases List.mem_cons.mp hp with rfl | hp
    · exact key _ (by decide)
    · obtain ⟨b, hbm, rfl⟩ := List.mem_map.mp hp
      have : b.1 ++ "_qc_" ∈ openedFiles := (by decide : ∀ b ∈ voyageFlags, b.1 ++ "_qc_" ∈ openedFiles) b hbm
      have := key _ this
      rwa [String.toList_append] at this
  have fsE : ∀ p ∈ drifterPaths E.runid (monthDir E.out m.1 m.2) m.1 m.2 ident, fse.file p =
      fileAfter p (onOps (drifterPaths E.runid (monthDir E.out m.1 m.2) m.1 m.2 ident) (opsOf E deck m)) none := by
    intro p hp
    rw [s4, ← fileAfter_on hp, months_near E deck fs done [] m (fun j hj => hr j (sub1 j hj)) nd1 ident, fsnone p hp]
  have fsG : ∀ p ∈ drifterPaths E.runid (monthDir E.out m.1 m.2) m.1 m.2 ident, g.file p =
      fileAfter p (onOps (drifterPaths E.runid (monthDir E.out m.1 m.2) m.1 m.2 ident) w) none := by
    intro p hp
    rw [hfile p (drifterPath_not_id hp), ← fileAfter_on hp, onOps_append,
      months_far E deck fs done (fun j hj => hr j (by simp [hj])) ident m (hr m hmm).yearPos hmd, List.nil_append, fsnone p hp]
  have hdrift : driftOf (some ident) (deck m).reps ≠ [] := by
    intro he
    have mV := drifterPaths_mem (runid := E.runid) (out := E.out) (year := m.1) (month := m.2) (ident := ident) (pre := "Variables_") (by decide)
    obtain ⟨a, tx, hon⟩ := hon
    have e1 := fsE _ mV
    rw [show onOps _ (opsOf E deck m) = _ from hon, s3, fsnone _ mV, fileAfter_append, inputPath_eq, fileAfter_block] at e1
    · have keep : ∀ (l : List FileOp) (p : List Char) (x : List Char), fileAfter p l (some x) ≠ none := by
        intro l
        induction l with
        | nil => intro p x; simp [fileAfter]
        | cons o l ih =>
          intro p x
          cases o with
          | mkdir q => exact ih p x
          | openw q =>
            rw [fileAfter]
            split
            · exact ih _ _
            · exact ih _ _
          | put q c =>
            rw [fileAfter]
            split
            · exact ih _ _
            · exact ih _ _
      exact keep _ _ _ e1.symm
    · intro j hj
      rw [inputPath_eq]
      refine not_monthFile ⟨(hr j (sub1 j hj)).yearPos, (hr j (sub1 j hj)).monthPos⟩ (hr m hmm).yearPos ha ?_ (hsafe j (sub1 j hj)) (opened_beginning _ (by decide))
      rintro rfl r hr' hdr hi
      have : r ∈ driftOf (some ident) (deck m).reps := List.mem_filter.mpr ⟨hr', decide_eq_true ⟨hi, hdr⟩⟩
      rw [he] at this
      cases this
  obtain ⟨-, htx⟩ := s2 m (by simp)
  obtain ⟨ids, -, i2, -, i4⟩ := htx htr
  obtain ⟨r, hrr⟩ := List.exists_mem_of_ne_nil _ hdrift
  obtain ⟨q1, q2⟩ := List.mem_filter.mp hrr
  obtain ⟨v, v1, v2, v3⟩ := i4 ident ((i2 ident).mpr ⟨r, q1, of_decide_eq_true q2⟩)
  have ov := ofMonth_only (year := m.1) (month := m.2) (build_only E.geo _ _ v1)
  rw [safe_id _ hs ha] at v2
  have state := month_state E.fmt num rnd h ord hord fse g E.out E.runid ident m.1 m.2 (ofMonth m.1 m.2 v)
    (by
      intro s hsm
      obtain ⟨i, hi⟩ := List.mem_iff_getElem?.mp hsm
      obtain ⟨q, q1, q2⟩ := forall2_get ov.flip i s hi
      refine storable_onlyFlags q2 (hq q (List.mem_flatMap.mpr ⟨m, hmc, ?_⟩))
      rw [if_pos hmm]
      exact List.mem_of_getElem? q1)
    (by rw [inputPath_eq]; exact v2)
    (by
      intro b hb
      rw [inputPath_eq, String.toList_append]
      exact v3 b hb)
    E.vflags hvf _ _ hpre hon fsE fsG
  rw [harg] at state
  rcases state with state | ⟨e, state⟩ | state
  · refine ⟨done, fsd, List.prefix_append _ _, r1, Or.inl (same fun k hk => ?_)⟩
    by_cases hkm : k = m
    · subst hkm
      apply readMonth_congr
      intro pre hp
      have hpm := drifterPaths_mem (runid := E.runid) (out := E.out) (year := k.1) (month := k.2) (ident := ident) hp
      rw [state pre hp, ← harg, r4, ← fileAfter_on hpm,
        months_far E deck fs done (fun j hj => hr j (by simp [hj])) ident k (hr k hmm).yearPos hmd, fsnone _ hpm]
      rfl
    · exact others k hk (hfar k hk hkm)
  · refine ⟨done, fsd, List.prefix_append _ _, r1, Or.inr ⟨?_, m, hmc, by simp⟩⟩
    obtain ⟨e', he'⟩ := mapM_fails (fun m : Int × Int => readMonth num ord g E.out E.runid (targetId arg) m.1 m.2) chunk m hmc e state
    refine ⟨e', ?_⟩
    unfold readChunk
    rw [he']
    rfl
  · refine ⟨done ++ [m], fse, ?_, s1, Or.inl ?_⟩
    · rw [show done ++ m :: l = (done ++ [m]) ++ l by simp]
      exact List.prefix_append _ _
    · unfold readChunk
      rw [mapM_congr_ok _ (fun m : Int × Int => readMonth num ord fse E.out E.runid (targetId arg) m.1 m.2) chunk]
      intro k hk
      by_cases hkm : k = m
      · subst hkm; exact state
      · rw [others k hk (hfar k hk hkm)]
        apply readMonth_congr
        intro pre hp
        have hpm := drifterPaths_mem (runid := E.runid) (out := E.out) (year := k.1) (month := k.2) (ident := ident) hp
        have hz := months_far E deck fs [m] (fun j hj => by rw [List.mem_singleton.mp hj]; exact hr m hmm) ident k (hch k hk).1 (by simpa using hkm)
        rw [← harg, r4, s4, List.map_append, List.flatten_append, fileAfter_append, ← fileAfter_on hpm ((List.map (opsOf E deck) [m]).flatten), hz]
        rfl

/-- **C127, part.**  A run of the main program over different months with tracking is killed while it writes the files of a drifter
for the first time.  The tracking program then reads the drifter's reports of the months that the run has completed and no others: the
months are those from the first one to some month, a month is read entirely or not at all, and the reports are exactly those that the run
has read and checked, in order, as if the run had been over these months only.  Or the tracking program stops with an error, and then
one of the months asked for is the one that was being written. -/
theorem C127_interrupted_partial (E : RunEnv F) (num : List Char → Option Rat) (rnd : Rat → Rat)
    (h : Numerals E.fmt num rnd) (ord : List (List Char) → List (List Char)) (hord : ∀ l, (ord l).Perm l)
    (hdf : E.dflags.Perm deckFlags) (hvf : E.vflags.Perm voyageFlags) (ho : ∀ l, (E.order l).Perm l) (lib : ClimLib Arr3)
    (deck : Int × Int → Deck) (months chunk : List (Int × Int)) (fs g : FileSys) (hn : months.Nodup)
    (hb : ∀ m ∈ months, 1 ≤ m.2 ∧ m.2 ≤ 12)
    (hc : ∀ m ∈ months, ∃ lib', checkedMonth E lib m = .ok (deck m, lib'))
    (hr : ∀ m ∈ months, OutputReady E.runid E.out m.1 m.2 (deck m).reps fs) (htr : E.read.tracking = true)
    (ht : ∀ m ∈ months, DriftersReady (deck m).reps) (hch : ∀ m ∈ chunk, 0 ≤ m.1 ∧ 0 ≤ m.2)
    (arg : List Char) (ident : String) (harg : ident.toList = targetId arg) (hs : '/' ∉ ident.toList) (ha : '*' ∉ ident.toList)
    (hq : ∀ q ∈ handedOn deck months chunk ident, Storable rnd q)
    (hsafe : ∀ m ∈ months, ∀ r ∈ (deck m).reps, DriftsNow r → ∀ j, r.id = some j → safeFilename j.toList = ident.toList → j = ident)
    (hnew : ∀ m ∈ chunk, ∀ pre ∈ openedFiles, fs.file (inputPath E.out E.runid (targetId arg) m.1 m.2 pre) = none)
    (hg : Interrupted (monthsProg E months lib) fs g) :
    ∃ done, done <+: months ∧
      ((∃ R, readChunk num ord g E.out E.runid arg chunk = .ok R ∧ List.Forall₂ (ReadBack rnd) (handedOn deck done chunk ident) R) ∨
        (∃ e, readChunk num ord g E.out E.runid arg chunk = .error e) ∧
          (handedOn deck done chunk ident = [] ∨ ∃ m ∈ chunk, months[done.length]? = some m)) ∧
      ∃ fs', runMonths E done lib fs = (fs', none) ∧ ∀ R, readChunk num ord g E.out E.runid arg chunk = .ok R →
        readChunk num ord fs' E.out E.runid arg chunk = .ok R := by
  obtain ⟨done, fs', d1, d2, d3⟩ := run_interrupted E num rnd h ord hord hdf hvf ho lib deck months chunk fs g hn hb hc hr htr ht hch
    arg ident harg hs ha hq hsafe hnew hg
  have sub : ∀ m ∈ done, m ∈ months := fun m hm => d1.subset hm
  have hsub : ∀ q ∈ handedOn deck done chunk ident, q ∈ handedOn deck months chunk ident := by
    intro q hq'
    obtain ⟨m, hm, hqm⟩ := List.mem_flatMap.mp hq'
    refine List.mem_flatMap.mpr ⟨m, hm, ?_⟩
    by_cases hd : m ∈ done
    · rw [if_pos hd] at hqm
      rw [if_pos (sub m hd)]
      exact hqm
    · rw [if_neg hd] at hqm
      cases hqm
  obtain ⟨fs'', e1, e2, e3⟩ := C115_readback_partial E num rnd h ord hord hdf hvf ho lib deck done chunk fs (d1.sublist.nodup hn)
    (fun m hm => hb m (sub m hm)) (fun m hm => hc m (sub m hm)) (fun m hm => hr m (sub m hm)) htr (fun m hm => ht m (sub m hm)) hch
    arg ident harg hs ha (fun q hq' => hq q (hsub q hq')) (fun m hm => hsafe m (sub m hm)) (fun m hm _ => hnew m hm)
  rw [d2, Prod.mk.injEq] at e1
  rw [← e1.1] at e2 e3
  refine ⟨done, d1, ?_, fs', d2, ?_⟩
  · rcases d3 with d3 | ⟨d3, d4⟩
    · by_cases hne : handedOn deck done chunk ident = []
      · exact Or.inr ⟨⟨_, d3.trans (e2 hne)⟩, Or.inl hne⟩
      · obtain ⟨R, r1, r2⟩ := e3 hne
        exact Or.inl ⟨R, d3.trans r1, r2⟩
    · exact Or.inr ⟨d3, Or.inr d4⟩
  · intro R hR
    rcases d3 with d3 | ⟨⟨e, d3⟩, -⟩
    · rw [← d3]; exact hR
    · rw [d3] at hR; cases hR

end MarineQC
