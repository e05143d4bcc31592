import Verif.Base.RunEnd
import Verif.Tracking.Handover

/-! # From a run of the main program to the tracking program (C115, C116) -/

namespace MarineQC

open Spec

variable {F : Type} [LinearOrder F] [Zero F]

theorem onlyFlags_getvar {r r' : Report} (h : OnlyFlags [] r r') (v : String) (hv : v ∉ linkNames) : r'.getvar v = r.getvar v := by
  unfold Report.getvar
  rw [h.data, h.ext v hv]

theorem onlyFlags_getint {r r' : Report} (h : OnlyFlags [] r r') (v : String) : r'.getint v = r.getint v := by
  unfold Report.getint
  rw [h.data]

theorem onlyFlags_getQc {r r' : Report} (h : OnlyFlags [] r r') (t f : String) : r'.getQc t f = r.getQc t f := by
  unfold Report.getQc
  rw [h.flags _ (by simp)]

theorem storable_onlyFlags {rnd : Rat → Rat} {r r' : Report} (h : OnlyFlags [] r r') (hs : Storable rnd r) : Storable rnd r' := by
  refine ⟨by rw [h.uid]; exact hs.uid, by rw [h.id]; exact hs.ident, fun t f => by rw [onlyFlags_getQc h]; exact hs.flags t f, ?_⟩
  intro y mo dy hr
  rw [onlyFlags_getint h, onlyFlags_getint h, onlyFlags_getint h,
    onlyFlags_getvar h _ (by decide)]
  exact hs.dated y mo dy hr

theorem readBack_onlyFlags {rnd : Rat → Rat} {r r' s : Report} (h : OnlyFlags [] r r') (hb : ReadBack rnd r' s) : ReadBack rnd r s where
  ident := by rw [hb.ident, h.id]
  uid := by rw [hb.uid, h.uid]
  date v hv := by
    rw [hb.date v hv, onlyFlags_getint h]
  vars v hv := by
    rw [hb.vars v hv, onlyFlags_getvar h]
    revert v; decide
  platform := hb.platform
  lost := hb.lost
  ext v hv := by
    rw [hb.ext v hv, onlyFlags_getvar h]
    revert v; decide
  flags k hk := by rw [hb.flags k hk, onlyFlags_getQc h]
  unset := hb.unset
  time := hb.time

/-- The reports of a drifter that a run over these months hands on for the months of a chunk: those of its deck, in order. -/
def Spec.handedOn (deck : Int × Int → Deck) (months chunk : List (Int × Int)) (ident : String) : List Report :=
  chunk.flatMap fun m => if m ∈ months then ofMonth m.1 m.2 (driftOf (some ident) (deck m).reps) else []

/-- The three files of a drifter that the tracking program opens. -/
def Spec.openedFiles : List String := ["Variables_", "POS_qc_", "SST_qc_"]

theorem opened_beginning : ∀ pre ∈ openedFiles, Beginning pre.toList := by
  unfold Beginning
  decide

/-- Files of an identifier that does not drift in a month are not among the files of that month. -/
theorem not_monthFile {runid out : List Char} {m k : Int × Int} (hm : 0 ≤ m.1 ∧ 0 ≤ m.2) (hk : 0 ≤ k.1) {tracking : Bool} {reps : List Report}
    {ident : String} (hs : '*' ∉ ident.toList)
    (hno : k = m → ∀ r ∈ reps, DriftsNow r → r.id ≠ some ident)
    (hsafe : ∀ r ∈ reps, DriftsNow r → ∀ j, r.id = some j → safeFilename j.toList = ident.toList → j = ident)
    {pre : List Char} (hp : Beginning pre) :
    ¬ MonthFile runid (monthDir out m.1 m.2) m.1 m.2 tracking reps (voyagePath runid (monthDir out k.1 k.2) k.1 k.2 pre ident.toList) := by
  intro h
  obtain ⟨x, hx⟩ := monthFile_in h
  obtain ⟨x', hx'⟩ := voyagePath_in runid (monthDir out k.1 k.2) pre ident.toList k.1 k.2
  have e : k = m := inMonth_inj _ _ _ _ _ _ _ hk hm.1 (hx'.symm.trans hx)
  subst e
  have hno := hno rfl
  generalize hq : voyagePath runid (monthDir out k.1 k.2) k.1 k.2 pre ident.toList = q at h
  cases h with
  | vars => exact deck_voyage_path runid _ _ _ _ _ _ deck_beginnings.1 hp hm.1 hm.2 hq.symm
  | flags b hb => exact deck_voyage_path runid _ _ _ _ _ _ (deck_beginnings.2.1 b hb) hp hm.1 hm.2 hq.symm
  | drifterVars r i _ hr hi hd =>
    obtain ⟨-, e⟩ := voyagePath_inj runid _ _ _ _ _ _ _ hp deck_beginnings.1 hm.1 hm.2 hq
    exact hno r hr hd (by rw [hi, hsafe r hr hd i hi e.symm])
  | drifterFlags r i b _ hr hi hd hb =>
    obtain ⟨-, e⟩ := voyagePath_inj runid _ _ _ _ _ _ _ hp (deck_beginnings.2.2 b hb) hm.1 hm.2 hq
    exact hno r hr hd (by rw [hi, String.toList_inj.mp e])
  | list _ =>
    have := congrArg List.getLast? hq
    rw [voyagePath_last, idFile_last] at this
    cases this

/-- The months of a chunk after a run, read back by the tracking program. -/
theorem run_readback (E : RunEnv F) (num : List Char → Option Rat) (rnd : Rat → Rat)
    (h : Numerals E.fmt num rnd) (ord : List (List Char) → List (List Char)) (hord : ∀ l, (ord l).Perm l)
    (deck : Int × Int → Deck) (months chunk : List (Int × Int)) (fs fs' : FileSys)
    (hpos : ∀ m ∈ months ++ chunk, 0 ≤ m.1 ∧ 0 ≤ m.2) (htr : E.read.tracking = true)
    (htext : ∀ m ∈ months, MonthText E m (deck m).reps fs')
    (hkeep : ∀ p, (∀ m ∈ months, ¬ MonthFile E.runid (monthDir E.out m.1 m.2) m.1 m.2 E.read.tracking (deck m).reps p) →
        fs'.file p = fs.file p)
    (arg : List Char) (ident : String) (harg : ident.toList = targetId arg) (hs : '/' ∉ ident.toList) (ha : '*' ∉ ident.toList)
    (hq : ∀ q ∈ handedOn deck months chunk ident, Storable rnd q)
    (hsafe : ∀ m ∈ months, ∀ r ∈ (deck m).reps, DriftsNow r → ∀ j, r.id = some j → safeFilename j.toList = ident.toList → j = ident)
    (hnew : ∀ m ∈ chunk, (m ∈ months → driftOf (some ident) (deck m).reps = []) → ∀ pre ∈ openedFiles,
      fs.file (inputPath E.out E.runid (targetId arg) m.1 m.2 pre) = none) :
    (handedOn deck months chunk ident = [] → readChunk num ord fs' E.out E.runid arg chunk = .error .other) ∧
    (handedOn deck months chunk ident ≠ [] → ∃ R, readChunk num ord fs' E.out E.runid arg chunk = .ok R ∧
      List.Forall₂ (ReadBack rnd) (handedOn deck months chunk ident) R) := by
  have each : ∀ m ∈ chunk, ∃ R, readMonth num ord fs' E.out E.runid (targetId arg) m.1 m.2 = .ok R ∧
      List.Forall₂ (ReadBack rnd) (if m ∈ months then ofMonth m.1 m.2 (driftOf (some ident) (deck m).reps) else []) R := by
    intro m hm
    by_cases hd : m ∈ months → driftOf (some ident) (deck m).reps = []
    · refine ⟨[], ?_, ?_⟩
      · have none' : ∀ pre ∈ openedFiles, fs'.file (inputPath E.out E.runid (targetId arg) m.1 m.2 pre) = none := by
          intro pre hpre
          rw [← hnew m hm hd pre hpre, inputPath_eq, ← harg]
          apply hkeep
          intro k hk
          refine not_monthFile (hpos k (by simp [hk])) (hpos m (by simp [hm])).1 ha ?_ (hsafe k hk) (opened_beginning pre hpre)
          rintro rfl r hr hdr hi
          have : r ∈ driftOf (some ident) (deck m).reps := List.mem_filter.mpr ⟨hr, decide_eq_true ⟨hi, hdr⟩⟩
          rw [hd hk] at this
          cases this
        unfold readMonth
        rw [none' _ (by decide), none' _ (by decide), none' _ (by decide)]
      · by_cases hk : m ∈ months
        · rw [if_pos hk, hd hk]; exact .nil
        · rw [if_neg hk]; exact .nil
    · rw [Classical.not_imp] at hd
      obtain ⟨hk, hd⟩ := hd
      obtain ⟨-, ht⟩ := htext m hk
      obtain ⟨ids, -, i2, -, i4⟩ := ht htr
      obtain ⟨r, hr⟩ := List.exists_mem_of_ne_nil _ hd
      obtain ⟨r1, r2⟩ := List.mem_filter.mp hr
      obtain ⟨v, v1, v2, v3⟩ := i4 ident ((i2 ident).mpr ⟨r, r1, of_decide_eq_true r2⟩)
      have ov := ofMonth_only (year := m.1) (month := m.2) (build_only E.geo _ _ v1)
      rw [safe_id _ hs ha, harg] at v2
      obtain ⟨R, g1, g2⟩ := readMonth_text E.fmt num rnd h ord hord fs' E.out E.runid (targetId arg) m.1 m.2 (ofMonth m.1 m.2 v)
        (by
          intro s hsm
          obtain ⟨n, hn⟩ := List.mem_iff_getElem?.mp hsm
          obtain ⟨q, q1, q2⟩ := forall2_get ov.flip n s hn
          refine storable_onlyFlags q2 (hq q (List.mem_flatMap.mpr ⟨m, hm, ?_⟩))
          rw [if_pos hk]
          exact List.mem_of_getElem? q1)
        (by rw [inputPath_eq]; exact v2)
        (by
          intro b hb
          rw [inputPath_eq, String.toList_append, ← harg]
          exact v3 b hb)
      refine ⟨R, g1, ?_⟩
      rw [if_pos hk]
      exact forall2_chain (R := OnlyFlags []) (S := ReadBack rnd) (T := ReadBack rnd) (fun a b c e f => readBack_onlyFlags e f) ov g2
  obtain ⟨L, l1, l2⟩ := mapM_forall2 (fun m R => List.Forall₂ (ReadBack rnd)
      (if m ∈ months then ofMonth m.1 m.2 (driftOf (some ident) (deck m).reps) else []) R)
    (fun m : Int × Int => readMonth num ord fs' E.out E.runid (targetId arg) m.1 m.2) chunk each
  have l3 : List.Forall₂ (ReadBack rnd) (handedOn deck months chunk ident) L.flatten := by
    unfold handedOn
    clear l1 each hnew hq hpos
    induction l2 with
    | nil => exact .nil
    | cons g _ ih =>
      rw [List.flatMap_cons, List.flatten_cons]
      exact forall2_append g ih
  constructor
  · intro he
    rw [he] at l3
    have hL : L.flatten = [] := List.forall₂_nil_left_iff.mp l3
    unfold readChunk
    rw [l1, except_bind_ok, if_pos hL]
  · intro he
    refine ⟨L.flatten, ?_, l3⟩
    unfold readChunk
    rw [l1, except_bind_ok, if_neg]
    · rfl
    · intro hc
      rw [hc] at l3
      exact he (List.forall₂_nil_right_iff.mp l3)

/-- **C115, part.**  After a run of the main program over different months with tracking, the tracking program reads a drifter
back from the files of any chunk of months: exactly the reports of the drifter that the run has read and checked in the months of
the chunk, in order, each with the same identity, date and flags, and the numbers as written.  Months without reports of the
drifter are passed over; a chunk without any is an error.  *Missing:* identifiers with a slash or an asterisk or of fewer than
nine characters (C91), and an identifier whose file name is that of another drifter; the conditions of C107 on drifters. -/
theorem C115_readback_partial (E : RunEnv F) (num : List Char → Option Rat) (rnd : Rat → Rat)
    (h : Numerals E.fmt num rnd) (ord : List (List Char) → List (List Char)) (hord : ∀ l, (ord l).Perm l)
    (hdf : E.dflags.Perm deckFlags) (hvf : E.vflags.Perm voyageFlags) (ho : ∀ l, (E.order l).Perm l) (lib : ClimLib Arr3)
    (deck : Int × Int → Deck) (months chunk : List (Int × Int)) (fs : FileSys) (hn : months.Nodup)
    (hb : ∀ m ∈ months, 1 ≤ m.2 ∧ m.2 ≤ 12)
    (hc : ∀ m ∈ months, ∃ lib', checkedMonth E lib m = .ok (deck m, lib'))
    (hr : ∀ m ∈ months, OutputReady E.runid E.out m.1 m.2 (deck m).reps fs) (htr : E.read.tracking = true)
    (ht : ∀ m ∈ months, DriftersReady (deck m).reps) (hch : ∀ m ∈ chunk, 0 ≤ m.1 ∧ 0 ≤ m.2)
    (arg : List Char) (ident : String) (harg : ident.toList = targetId arg) (hs : '/' ∉ ident.toList) (ha : '*' ∉ ident.toList)
    (hq : ∀ q ∈ handedOn deck months chunk ident, Storable rnd q)
    (hsafe : ∀ m ∈ months, ∀ r ∈ (deck m).reps, DriftsNow r → ∀ j, r.id = some j → safeFilename j.toList = ident.toList → j = ident)
    (hnew : ∀ m ∈ chunk, (m ∈ months → driftOf (some ident) (deck m).reps = []) → ∀ pre ∈ openedFiles,
      fs.file (inputPath E.out E.runid (targetId arg) m.1 m.2 pre) = none) :
    ∃ fs', runMonths E months lib fs = (fs', none) ∧
      (handedOn deck months chunk ident = [] → readChunk num ord fs' E.out E.runid arg chunk = .error .other) ∧
      (handedOn deck months chunk ident ≠ [] → ∃ R, readChunk num ord fs' E.out E.runid arg chunk = .ok R ∧
        List.Forall₂ (ReadBack rnd) (handedOn deck months chunk ident) R) := by
  obtain ⟨fs', h1, h2, h3, -⟩ := run_text E (fun x => (h.plain x).1) hdf hvf ho lib deck months fs hn hb hc hr (fun m hm _ => ht m hm)
  refine ⟨fs', h1, run_readback E num rnd h ord hord deck months chunk fs fs' ?_ htr h2 h3 arg ident harg hs ha hq hsafe hnew⟩
  intro m hm
  rcases List.mem_append.mp hm with hm | hm
  · exact ⟨(hr m hm).yearPos, (hr m hm).monthPos⟩
  · exact hch m hm

theorem yearDir_last (out : List Char) (y : Int) (hy : 0 ≤ y) : (out ++ '/' :: intText y).getLast? ≠ some 'v' := by
  intro h
  have := List.mem_of_getLast? h
  have hne : intText y ≠ [] := intText_ne_nil y
  rw [List.getLast?_append_of_ne_nil _ (by simp), List.getLast?_cons_of_ne_nil hne] at h
  exact absurd (intText_no_sep y hy 'v' (by decide) (List.mem_of_getLast? h)) (by simp)

theorem monthDir_last (out : List Char) (y m : Int) : (monthDir out y m).getLast? ≠ some 'v' := by
  intro h
  have hne : zeroPad 2 m ≠ [] := by
    have := natText_ne_nil m.natAbs
    unfold zeroPad
    split <;> simp [this]
  unfold monthDir at h
  rw [List.getLast?_append_of_ne_nil _ (by simp), List.getLast?_cons_of_ne_nil (by simp), List.getLast?_append_of_ne_nil _ (by simp),
    List.getLast?_cons_of_ne_nil hne] at h
  rcases zeroPad_chars 2 m 'v' (List.mem_of_getLast? h) with h | h <;> exact absurd h (by decide)

/-- **C116, part.**  A run of the main program over different months followed by the tracking program: for a drifter that
reported in the months of the chunk, at existing places and times and with valid background values where the checks were passed,
and not twice in the same minute, the tracking program completes, and each directory asked for holds the table of all its reports
of the chunk in the order of time, with the flags of the drifter checks.  *Missing:* as for C115 and C96. -/
theorem C116_tracked_partial (E : RunEnv F) (num : List Char → Option Rat) (rnd : Rat → Rat)
    (h : Numerals E.fmt num rnd) (hfe : ∀ x, NoBlankEnd (E.fmt x) ∧ E.fmt x ≠ [])
    (ord : List (List Char) → List (List Char)) (hord : ∀ l, (ord l).Perm l)
    (hdf : E.dflags.Perm deckFlags) (hvf : E.vflags.Perm voyageFlags) (ho : ∀ l, (E.order l).Perm l) (lib : ClimLib Arr3)
    (hG : IsDistance E.geo) (elev : Int → Int → Rat → Rat → Rat → Rat → ℝ) (P : DriftParams) (hP : TrackParamsOk P)
    (deck : Int × Int → Deck) (months chunk : List (Int × Int)) (fs : FileSys) (hn : months.Nodup)
    (hb : ∀ m ∈ months, 1 ≤ m.2 ∧ m.2 ≤ 12)
    (hc : ∀ m ∈ months, ∃ lib', checkedMonth E lib m = .ok (deck m, lib'))
    (hr : ∀ m ∈ months, OutputReady E.runid E.out m.1 m.2 (deck m).reps fs) (htr : E.read.tracking = true)
    (ht : ∀ m ∈ months, DriftersReady (deck m).reps) (hch : ∀ m ∈ chunk, 0 ≤ m.1 ∧ 0 ≤ m.2) (hid : '/' ∉ E.runid)
    (arg : List Char) (ident : String) (harg : ident.toList = targetId arg) (hs : '/' ∉ ident.toList) (ha : '*' ∉ ident.toList)
    (hq : ∀ q ∈ handedOn deck months chunk ident, Storable rnd q)
    (hsafe : ∀ m ∈ months, ∀ r ∈ (deck m).reps, DriftsNow r → ∀ j, r.id = some j → safeFilename j.toList = ident.toList → j = ident)
    (hnew : ∀ m ∈ chunk, (m ∈ months → driftOf (some ident) (deck m).reps = []) → ∀ pre ∈ openedFiles,
      fs.file (inputPath E.out E.runid (targetId arg) m.1 m.2 pre) = none)
    (hne : handedOn deck months chunk ident ≠ []) (hh : ∀ q ∈ handedOn deck months chunk ident, Handed rnd q)
    (hm : MinutesApart rnd (handedOn deck months chunk ident))
    (trackOut runmonthid : List Char) (hrm : '/' ∉ runmonthid) (hbase : IsBase trackOut) (year month : Int) (edge : List String)
    (hd : fs.dir trackOut = true)
    (hplace : ∀ a ∈ trackingDirs trackOut year month runmonthid, fs.file a = none ∧
      (∀ m ∈ months, ∀ x, a ≠ monthDir E.out m.1 m.2 ++ '/' :: x) ∧
      fs.dir (voyagePath E.runid a year month "Tracking_".toList (safeFilename ident.toList)) = false) :
    ∃ fs' fs'' R R' order v, runMonths E months lib fs = (fs', none) ∧
      trackingMain E.fmt num ord E.geo elev P E.out trackOut E.runid arg runmonthid chunk year month edge fs' = (fs'', none) ∧
      List.Forall₂ (ReadBack rnd) (handedOn deck months chunk ident) R ∧
      trackingChecks E.geo elev P R = .ok R' ∧ order.Perm (List.range R.length) ∧ InTime R' order ∧ VoyageOf E.geo R' order v ∧
      ∀ D, Wanted trackOut year month edge runmonthid D →
        HoldsTable fs'' (voyagePath E.runid D year month "Tracking_".toList (safeFilename ident.toList))
          (trackingTable E.fmt v) := by
  obtain ⟨fs', h1, h2, h3, h4⟩ := run_text E (fun x => (h.plain x).1) hdf hvf ho lib deck months fs hn hb hc hr (fun m hm _ => ht m hm)
  obtain ⟨-, hR⟩ := run_readback E num rnd h ord hord deck months chunk fs fs' (by
    intro m hm
    rcases List.mem_append.mp hm with hm | hm
    · exact ⟨(hr m hm).yearPos, (hr m hm).monthPos⟩
    · exact hch m hm) htr h2 h3 arg ident harg hs ha hq hsafe hnew
  obtain ⟨R, r1, r2⟩ := hR hne
  have hi : ∀ q ∈ handedOn deck months chunk ident, q.id = some ident := by
    intro q hqm
    obtain ⟨m, -, hm⟩ := List.mem_flatMap.mp hqm
    split at hm
    · have := (List.mem_filter.mp (List.mem_filter.mp hm).1).2
      exact (of_decide_eq_true this).1
    · cases hm
  obtain ⟨t1, t2, t3⟩ := handed_trackable r2 hh hm ident hi
  have hw : ∀ r ∈ R, Writable r := by
    intro r hr
    obtain ⟨n, hn⟩ := List.mem_iff_getElem?.mp hr
    obtain ⟨q, q1, q2⟩ := forall2_get r2.flip n r hn
    have := (hq q (List.mem_of_getElem? q1)).writable
    exact ⟨by rw [q2.uid]; exact this.uid, by rw [q2.ident]; exact this.ident⟩
  have hRne : R ≠ [] := by
    rintro rfl
    exact hne (List.forall₂_nil_right_iff.mp r2)
  obtain ⟨fs'', R', order, v, m1, m2, m3, m4, m5, m6, -⟩ := C97_main E.fmt (fun x => (h.plain x).1) hfe num ord E.geo hG elev P hP E.out
    trackOut E.runid arg runmonthid chunk year month edge hid hrm hbase fs' R r1 hRne t1 t2 ident t3 hw ((h4 _).mpr (Or.inr hd))
    (fun a ha => by
      rw [h3 a, (hplace a ha).1]
      intro k hk hmf
      obtain ⟨x, hx⟩ := monthFile_in hmf
      exact (hplace a ha).2.1 k hk x hx)
    (fun a ha => by
      rw [Bool.eq_false_iff, ne_eq, h4]
      rintro (⟨k, hk, e | e⟩ | e)
      · exact yearDir_last E.out k.1 (hr k hk).yearPos (by rw [← e]; exact voyagePath_last ..)
      · exact monthDir_last E.out k.1 k.2 (by rw [← e]; exact voyagePath_last ..)
      · rw [(hplace a ha).2.2] at e; cases e)
  exact ⟨fs', fs'', R, R', order, v, h1, m1, r2, m2, m3, m4, m5, m6⟩

end MarineQC
