import Verif.Tracking.Rerun
import Verif.Tracking.Former

/-!
# C157: the original and the new tracking checks side by side
-/

namespace MarineQC

open Spec

theorem oldqc_no_slash (runid : List Char) (hid : '/' ∉ runid) : '/' ∉ runid ++ "oldqc".toList := by
  rw [List.mem_append, not_or]
  exact ⟨hid, by decide⟩

/-- C157: with the original checks too, however the program ends, only files of tracking results change and no directory is
removed. -/
theorem C157_only_tracking (fmt : Rat → List Char) (num : List Char → Option Rat)
    (ord : List (List Char) → List (List Char)) (G : Geo) (elev : Int → Int → Rat → Rat → Rat → Rat → ℝ) (P : FormerParams)
    (out trackOut runid arg runmonthid : List Char) (hid : '/' ∉ runid) (months : List (Int × Int)) (year month : Int)
    (edge : List String) (fs : FileSys) :
    OnlyTrackingFiles fs
      (formerMain fmt num ord G elev P out trackOut runid arg runmonthid months year month edge fs).1 := by
  unfold formerMain
  split
  · exact onlyTracking_refl fs
  · exact trackingOutput_only fmt (runid ++ "oldqc".toList) trackOut (oldqc_no_slash runid hid) year month edge runmonthid _ fs

/-- C157: a later run of either program reads the same reports. -/
theorem C157_inputs (fmt : Rat → List Char) (num : List Char → Option Rat)
    (ord : List (List Char) → List (List Char)) (G : Geo) (elev : Int → Int → Rat → Rat → Rat → Rat → ℝ) (P : FormerParams)
    (out trackOut runid arg runmonthid : List Char) (hid : '/' ∉ runid) (months : List (Int × Int)) (year month : Int)
    (edge : List String) (fs : FileSys) (arg' : List Char) (harg : '/' ∉ arg') (months' : List (Int × Int)) :
    readChunk num ord
        (formerMain fmt num ord G elev P out trackOut runid arg runmonthid months year month edge fs).1 out runid arg' months' =
      readChunk num ord fs out runid arg' months' :=
  readChunk_files num ord _ _ (C157_only_tracking fmt num ord G elev P out trackOut runid arg runmonthid hid months year month
    edge fs) out runid arg' hid harg months'

/-- What is written for a voyage of the checked reports. -/
theorem voyage_of_checked (G : Geo) (reps reps' v : List Report) (hne : reps ≠ []) (l1 : reps'.length = reps.length)
    (l2 : ∀ (n : Nat) (r s : Report), reps[n]? = some r → reps'[n]? = some s → OnlyFlags
      ["POSdrf_agr", "POSdrf_spd", "SSTdrf_tail1", "SSTdrf_tail2", "SSTdrf_bias", "SSTdrf_noise", "SSTdrf_short"] r s)
    (hdt : ∀ r ∈ reps, r.dt ≠ none) (ident : String) (hi : ∀ r ∈ reps, r.id = some ident)
    (hw : ∀ r ∈ reps, Writable r) (h2 : wholeVoyage G reps' = .ok v) :
    (∃ order : List Nat, order.Perm (List.range reps.length) ∧ InTime reps' order ∧ VoyageOf G reps' order v) ∧
      ∃ s l, v = s :: l ∧ s.id = some ident ∧ ∀ q ∈ s :: l, Writable q := by
  have back : ∀ r ∈ reps', ∃ r0 ∈ reps, OnlyFlags
      ["POSdrf_agr", "POSdrf_spd", "SSTdrf_tail1", "SSTdrf_tail2", "SSTdrf_bias", "SSTdrf_noise", "SSTdrf_short"] r0 r := by
    intro r hr
    obtain ⟨n, hn⟩ := List.mem_iff_getElem?.mp hr
    have hlt : n < reps.length := by rw [← l1]; exact (List.getElem?_eq_some_iff.mp hn).1
    exact ⟨_, List.getElem_mem hlt, l2 n _ _ (List.getElem?_eq_getElem hlt) hn⟩
  obtain ⟨order, o1, o2, o3⟩ := C97_whole G reps' v
    (by
      intro r hr
      obtain ⟨r0, a1, a2⟩ := back r hr
      rw [a2.dt]; exact hdt r0 a1)
    (by
      intro a ha b hb
      obtain ⟨a0, a1, a2⟩ := back a ha
      obtain ⟨b0, b1, b2⟩ := back b hb
      rw [a2.id, b2.id, hi _ a1, hi _ b1]) h2
  have vback : ∀ s ∈ v, s.id = some ident ∧ Writable s := by
    intro s hs
    obtain ⟨n, hn⟩ := List.mem_iff_getElem?.mp hs
    have hlt : n < order.length := by rw [← o3.1]; exact (List.getElem?_eq_some_iff.mp hn).1
    obtain ⟨r, s', a1, a2, a3⟩ := o3.2.2 n _ (List.getElem?_eq_getElem hlt)
    rw [hn] at a2
    injection a2 with a2
    subst a2
    obtain ⟨r0, b1, b2⟩ := back r (List.mem_of_getElem? a1)
    exact ⟨by rw [a3.id, b2.id, hi _ b1], writable_only a3 (writable_only b2 (hw _ b1))⟩
  refine ⟨⟨order, by rw [← l1]; exact o1, o2, o3⟩, ?_⟩
  cases v with
  | nil =>
    exfalso
    apply hne
    have := o3.1
    rw [o1.length_eq, List.length_range, l1] at this
    exact List.length_eq_zero_iff.mp this.symm
  | cons s l => exact ⟨s, l, rfl, (vback s (by simp)).1, fun q hq => (vback q hq).2⟩

/-- C157: with the original checks too, running the program again after it has completed completes and leaves all files
and directories as they are. -/
theorem C157_rerun (fmt : Rat → List Char) (hf : ∀ x, Plain (fmt x)) (hfe : ∀ x, NoBlankEnd (fmt x) ∧ fmt x ≠ [])
    (num : List Char → Option Rat) (ord : List (List Char) → List (List Char)) (G : Geo)
    (elev : Int → Int → Rat → Rat → Rat → Rat → ℝ) (Q : FormerParams) (hQ : FormerParamsOk Q)
    (out trackOut runid arg runmonthid : List Char) (months : List (Int × Int)) (year month : Int) (edge : List String)
    (hid : '/' ∉ runid) (harg : '/' ∉ arg) (hrm : '/' ∉ runmonthid) (hb : IsBase trackOut) (fs : FileSys)
    (reps : List Report) (hread : readChunk num ord fs out runid arg months = .ok reps) (hne : reps ≠ [])
    (hr : Trackable reps) (hdt : ∀ r ∈ reps, r.dt ≠ none) (ident : String) (hi : ∀ r ∈ reps, r.id = some ident)
    (hw : ∀ r ∈ reps, Writable r) (hd : fs.dir trackOut = true)
    (hc : ∀ a ∈ trackingDirs trackOut year month runmonthid, fs.file a = none)
    (hfree : ∀ a ∈ trackingDirs trackOut year month runmonthid, fs.dir
      (voyagePath (runid ++ "oldqc".toList) a year month "Tracking_".toList (safeFilename ident.toList)) = false) :
    ∃ fs', formerMain fmt num ord G elev Q out trackOut runid arg runmonthid months year month edge fs = (fs', none) ∧
      formerMain fmt num ord G elev Q out trackOut runid arg runmonthid months year month edge fs' = (fs', none) := by
  obtain ⟨B, w, b1, b2⟩ := C154_completes G elev Q hQ reps hr
  obtain ⟨b3, b4⟩ := C154_only_flags G elev Q hQ.speed.2.1 reps B b1
  obtain ⟨-, t, k, rfl, b6, b7⟩ := voyage_of_checked G reps B w hne b3 b4 hdt ident hi hw b2
  obtain ⟨fs', e1, e2⟩ := trackingOutput_again fmt hf hfe (runid ++ "oldqc".toList) trackOut runmonthid
    (oldqc_no_slash runid hid) hrm hb year month edge t k ident b6 b7 fs hd hc hfree
  have run : ∀ f : FileSys, readChunk num ord f out runid arg months = .ok reps →
      formerMain fmt num ord G elev Q out trackOut runid arg runmonthid months year month edge f =
        trackingOutput fmt (runid ++ "oldqc".toList) trackOut year month edge runmonthid (t :: k) f := by
    intro f hfr
    unfold formerMain
    simp only [hfr, b1, b2, except_bind_ok]
  have r1 := run fs hread
  rw [e1] at r1
  have hin := C157_inputs fmt num ord G elev Q out trackOut runid arg runmonthid hid months year month edge fs arg harg months
  rw [r1] at hin
  exact ⟨fs', r1, (run fs' (hin.trans hread)).trans e2⟩

/-- The results of two runs with different names are different files. -/
theorem names_apart (runid ident : List Char) (hid : '/' ∉ runid) (year month : Int) (D D' : List Char) :
    voyagePath runid D year month "Tracking_".toList (safeFilename ident) ≠
      voyagePath (runid ++ "oldqc".toList) D' year month "Tracking_".toList (safeFilename ident) := by
  have pe : ∀ r D, voyagePath r D year month "Tracking_".toList (safeFilename ident) =
      D ++ '/' :: trackingName r ident year month := fun _ _ => rfl
  rw [pe, pe]
  intro h
  have hp := congrArg parentPath h
  rw [parent_of_join _ _ (trackingName_no_slash runid ident hid year month),
    parent_of_join _ _ (trackingName_no_slash _ ident (oldqc_no_slash runid hid) year month)] at hp
  subst hp
  have hl := congrArg List.length h
  have e : "oldqc".toList.length = 5 := by decide
  unfold trackingName at hl
  simp only [List.length_append, List.length_cons, e] at hl
  omega

/-- After a run that completed, the conditions for the output of a run of any other name still hold. -/
theorem ready_again (trackOut runid runid' runmonthid : List Char) (hid : '/' ∉ runid) (hid' : '/' ∉ runid')
    (hrm : '/' ∉ runmonthid) (year month : Int) (edge : List String) (ident : String) (fs fs' : FileSys)
    (hc : ∀ a ∈ trackingDirs trackOut year month runmonthid, fs.file a = none)
    (hfree : ∀ a ∈ trackingDirs trackOut year month runmonthid,
      fs.dir (voyagePath runid' a year month "Tracking_".toList (safeFilename ident.toList)) = false)
    (e3 : ∀ p, (∀ D, Wanted trackOut year month edge runmonthid D →
      p ≠ voyagePath runid D year month "Tracking_".toList (safeFilename ident.toList)) → fs'.file p = fs.file p)
    (e4 : ∀ q, fs'.dir q = true → q ∈ trackingDirs trackOut year month runmonthid ∨ fs.dir q = true) :
    (∀ a ∈ trackingDirs trackOut year month runmonthid, fs'.file a = none) ∧
    (∀ a ∈ trackingDirs trackOut year month runmonthid,
      fs'.dir (voyagePath runid' a year month "Tracking_".toList (safeFilename ident.toList)) = false) := by
  constructor
  · intro a ha
    rw [e3 a fun D _ h => path_ne_dir trackOut runid ident.toList runmonthid hid hrm year month D a ha h.symm]
    exact hc a ha
  · intro a ha
    rw [Bool.eq_false_iff]
    intro h
    rcases e4 _ h with h | h
    · exact path_ne_dir trackOut runid' ident.toList runmonthid hid' hrm year month a _ h rfl
    · rw [hfree a ha] at h
      cases h

/-- C157: the programs with the new and with the original checks may be run one after the other in either order.  Both
complete, and afterwards both results are there, each computed from the reports as the base program left them. -/
theorem C157_beside (fmt : Rat → List Char) (hf : ∀ x, Plain (fmt x)) (hfe : ∀ x, NoBlankEnd (fmt x) ∧ fmt x ≠ [])
    (num : List Char → Option Rat) (ord : List (List Char) → List (List Char)) (G : Geo) (hG : IsDistance G)
    (elev : Int → Int → Rat → Rat → Rat → Rat → ℝ) (P : DriftParams) (hP : TrackParamsOk P) (Q : FormerParams)
    (hQ : FormerParamsOk Q)
    (out trackOut runid arg runmonthid : List Char) (months : List (Int × Int)) (year month : Int) (edge : List String)
    (hid : '/' ∉ runid) (harg : '/' ∉ arg) (hrm : '/' ∉ runmonthid) (hb : IsBase trackOut) (fs : FileSys)
    (reps : List Report) (hread : readChunk num ord fs out runid arg months = .ok reps) (hne : reps ≠ [])
    (hr : Trackable reps) (hdt : ∀ r ∈ reps, r.dt ≠ none) (ident : String) (hi : ∀ r ∈ reps, r.id = some ident)
    (hw : ∀ r ∈ reps, Writable r) (hd : fs.dir trackOut = true)
    (hc : ∀ a ∈ trackingDirs trackOut year month runmonthid, fs.file a = none)
    (hfree : ∀ a ∈ trackingDirs trackOut year month runmonthid,
      fs.dir (voyagePath runid a year month "Tracking_".toList (safeFilename ident.toList)) = false)
    (hfree' : ∀ a ∈ trackingDirs trackOut year month runmonthid, fs.dir
      (voyagePath (runid ++ "oldqc".toList) a year month "Tracking_".toList (safeFilename ident.toList)) = false) :
    ∃ v w f1 f2 g1 g2,
      (∃ reps' order, trackingChecks G elev P reps = .ok reps' ∧ order.Perm (List.range reps.length) ∧ InTime reps' order ∧
        VoyageOf G reps' order v) ∧
      (∃ reps' order, formerChecks G elev Q reps = .ok reps' ∧ order.Perm (List.range reps.length) ∧ InTime reps' order ∧
        VoyageOf G reps' order w) ∧
      trackingMain fmt num ord G elev P out trackOut runid arg runmonthid months year month edge fs = (f1, none) ∧
      formerMain fmt num ord G elev Q out trackOut runid arg runmonthid months year month edge f1 = (f2, none) ∧
      formerMain fmt num ord G elev Q out trackOut runid arg runmonthid months year month edge fs = (g1, none) ∧
      trackingMain fmt num ord G elev P out trackOut runid arg runmonthid months year month edge g1 = (g2, none) ∧
      ∀ s ∈ [f2, g2],
        (∀ D, Wanted trackOut year month edge runmonthid D →
          HoldsTable s (voyagePath runid D year month "Tracking_".toList (safeFilename ident.toList)) (trackingTable fmt v) ∧
          HoldsTable s (voyagePath (runid ++ "oldqc".toList) D year month "Tracking_".toList (safeFilename ident.toList))
            (trackingTable fmt w)) ∧
        ∀ p, (∀ D, Wanted trackOut year month edge runmonthid D →
            p ≠ voyagePath runid D year month "Tracking_".toList (safeFilename ident.toList) ∧
            p ≠ voyagePath (runid ++ "oldqc".toList) D year month "Tracking_".toList (safeFilename ident.toList)) →
          s.file p = fs.file p := by
  have hid' := oldqc_no_slash runid hid
  obtain ⟨A, v, a1, a2⟩ := C96_completes_partial G hG elev P hP reps hr
  obtain ⟨a3, a4⟩ := C93_only_flags G elev P hP.speed.2 reps A a1
  obtain ⟨⟨oA, a5⟩, s, l, rfl, a6, a7⟩ := voyage_of_checked G reps A v hne a3 a4 hdt ident hi hw a2
  obtain ⟨B, w, b1, b2⟩ := C154_completes G elev Q hQ reps hr
  obtain ⟨b3, b4⟩ := C154_only_flags G elev Q hQ.speed.2.1 reps B b1
  obtain ⟨⟨oB, b5⟩, t, k, rfl, b6, b7⟩ := voyage_of_checked G reps B w hne b3 b4 hdt ident hi hw b2
  have runA : ∀ f : FileSys, readChunk num ord f out runid arg months = .ok reps →
      trackingMain fmt num ord G elev P out trackOut runid arg runmonthid months year month edge f =
        trackingOutput fmt runid trackOut year month edge runmonthid (s :: l) f := by
    intro f hfr
    unfold trackingMain
    simp only [hfr, a1, a2, except_bind_ok]
  have runB : ∀ f : FileSys, readChunk num ord f out runid arg months = .ok reps →
      formerMain fmt num ord G elev Q out trackOut runid arg runmonthid months year month edge f =
        trackingOutput fmt (runid ++ "oldqc".toList) trackOut year month edge runmonthid (t :: k) f := by
    intro f hfr
    unfold formerMain
    simp only [hfr, b1, b2, except_bind_ok]
  have outA := C97_output fmt hf hfe runid trackOut runmonthid hid hrm hb year month edge s l ident a6 a7
  have outB := C97_output fmt hf hfe (runid ++ "oldqc".toList) trackOut runmonthid hid' hrm hb year month edge t k ident b6 b7
  obtain ⟨f1, p1, p2, p3, p4, p5⟩ := outA fs hd hc hfree
  obtain ⟨g1, q1, q2, q3, q4, q5⟩ := outB fs hd hc hfree'
  obtain ⟨c1, c2⟩ := ready_again trackOut runid (runid ++ "oldqc".toList) runmonthid hid hid' hrm year month edge ident fs f1 hc
    hfree' p3 p4
  obtain ⟨d1, d2⟩ := ready_again trackOut (runid ++ "oldqc".toList) runid runmonthid hid' hid hrm year month edge ident fs g1 hc
    hfree q3 q4
  obtain ⟨f2, x1, x2, x3, -, -⟩ := outB f1 p5 c1 c2
  obtain ⟨g2, y1, y2, y3, -, -⟩ := outA g1 q5 d1 d2
  have r1 := runA fs hread
  rw [p1] at r1
  have r2 := runB fs hread
  rw [q1] at r2
  have i1 := C156_inputs fmt num ord G elev P out trackOut runid arg runmonthid hid months year month edge fs arg harg months
  rw [r1] at i1
  have i2 := C157_inputs fmt num ord G elev Q out trackOut runid arg runmonthid hid months year month edge fs arg harg months
  rw [r2] at i2
  refine ⟨s :: l, t :: k, f1, f2, g1, g2, ⟨A, oA, a1, a5⟩, ⟨B, oB, b1, b5⟩, r1, (runB f1 (i1.trans hread)).trans x1, r2,
    (runA g1 (i2.trans hread)).trans y1, ?_⟩
  intro u hu
  simp only [List.mem_cons, List.not_mem_nil, or_false] at hu
  rcases hu with rfl | rfl
  · refine ⟨fun D hD => ⟨?_, x2 D hD⟩, fun p hp => ?_⟩
    · have := p2 D hD
      unfold HoldsTable at this ⊢
      rwa [x3 _ fun D' _ => names_apart runid ident.toList hid year month D D']
    · rw [x3 p fun D hD => (hp D hD).2, p3 p fun D hD => (hp D hD).1]
  · refine ⟨fun D hD => ⟨y2 D hD, ?_⟩, fun p hp => ?_⟩
    · have := q2 D hD
      unfold HoldsTable at this ⊢
      rwa [y3 _ fun D' _ h => names_apart runid ident.toList hid year month D' D h.symm]
    · rw [y3 p fun D hD => (hp D hD).1, q3 p fun D hD => (hp D hD).2]

/-- C157: on what the base program has written (C98) both programs may be run in either order, and the one with the
original checks again; afterwards there is a table of each with a row for every report, the same in either order. -/
theorem C157_after_base (fmt : Rat → List Char) (num : List Char → Option Rat) (rnd : Rat → Rat)
    (h : Numerals fmt num rnd) (hfe : ∀ x, NoBlankEnd (fmt x) ∧ fmt x ≠ [])
    (ord : List (List Char) → List (List Char)) (ho : ∀ l, (ord l).Perm l)
    (flags : List (String × List String)) (hp : flags.Perm voyageFlags) (G : Geo) (hG : IsDistance G)
    (elev : Int → Int → Rat → Rat → Rat → Rat → ℝ) (P : DriftParams) (hP : TrackParamsOk P) (Q : FormerParams)
    (hQ : FormerParamsOk Q)
    (out trackOut runid arg runmonthid : List Char) (hid : '/' ∉ runid) (hrm : '/' ∉ runmonthid) (hb : IsBase trackOut)
    (ident : String) (harg : ident.toList = targetId arg) (hs : '/' ∉ ident.toList) (ha : '*' ∉ ident.toList)
    (voyage : Int × Int → List Report) (written months : List (Int × Int)) (hn : written.Nodup)
    (hmonths : ∀ m ∈ written ++ months, 0 ≤ m.1 ∧ 0 ≤ m.2 ∧ m.2 < 100) (hall : ∀ m ∈ months, voyage m ≠ [] → m ∈ written)
    (hi : ∀ m, ∀ r ∈ voyage m, r.id = some ident) (hq : ∀ m, ∀ q ∈ ofMonth m.1 m.2 (voyage m), Storable rnd q)
    (hne : (months.flatMap fun m => ofMonth m.1 m.2 (voyage m)) ≠ [])
    (hh : ∀ q ∈ months.flatMap fun m => ofMonth m.1 m.2 (voyage m), Handed rnd q)
    (hm : MinutesApart rnd (months.flatMap fun m => ofMonth m.1 m.2 (voyage m)))
    (fs : FileSys) (hdir : ∀ m ∈ written, fs.dir (monthDir out m.1 m.2) = true)
    (hfree : ∀ (m : Int × Int) pre i, fs.dir (voyagePath runid (monthDir out m.1 m.2) m.1 m.2 pre i) = false)
    (hnew : ∀ (m : Int × Int) pre, fs.file (inputPath out runid (targetId arg) m.1 m.2 pre) = none)
    (year month : Int) (edge : List String) (hd : fs.dir trackOut = true)
    (hc : ∀ a ∈ trackingDirs trackOut year month runmonthid, fs.file a = none ∧
      ∀ (m : Int × Int) pre i, a ≠ voyagePath runid (monthDir out m.1 m.2) m.1 m.2 pre i)
    (hfr : ∀ a ∈ trackingDirs trackOut year month runmonthid,
      fs.dir (voyagePath runid a year month "Tracking_".toList (safeFilename ident.toList)) = false)
    (hfr' : ∀ a ∈ trackingDirs trackOut year month runmonthid, fs.dir
      (voyagePath (runid ++ "oldqc".toList) a year month "Tracking_".toList (safeFilename ident.toList)) = false) :
    ∃ fs' f1 f2 g1 g2, writeMonths fmt flags out runid voyage written fs = (fs', none) ∧
      trackingMain fmt num ord G elev P out trackOut runid arg runmonthid months year month edge fs' = (f1, none) ∧
      formerMain fmt num ord G elev Q out trackOut runid arg runmonthid months year month edge f1 = (f2, none) ∧
      formerMain fmt num ord G elev Q out trackOut runid arg runmonthid months year month edge fs' = (g1, none) ∧
      formerMain fmt num ord G elev Q out trackOut runid arg runmonthid months year month edge g1 = (g1, none) ∧
      trackingMain fmt num ord G elev P out trackOut runid arg runmonthid months year month edge g1 = (g2, none) ∧
      ∀ D, Wanted trackOut year month edge runmonthid D → ∀ name ∈ [runid, runid ++ "oldqc".toList],
        ∃ tab : List (List (List Char)), tab.length = (months.flatMap fun m => ofMonth m.1 m.2 (voyage m)).length + 1 ∧
          ∀ s ∈ [f2, g2],
            HoldsTable s (voyagePath name D year month "Tracking_".toList (safeFilename ident.toList)) tab := by
  obtain ⟨fs', w1, -, w2⟩ := C92_chunk_partial fmt num rnd h ord ho flags hp out runid arg hid ident harg hs ha voyage written
    months hn hmonths hall hi hq fs hdir hfree hnew
  obtain ⟨R, r1, r2⟩ := w2 hne
  obtain ⟨o1, o2⟩ := writeMonths_other fmt flags hp out runid hid ident hs voyage written fs fs'
    (fun m hm => ⟨(hmonths m (by simp [hm])).1, (hmonths m (by simp [hm])).2.1⟩) (fun m _ => hi m)
    (fun m _ q hqm => (hq m q hqm).writable) hdir hfree w1
  have hiQ : ∀ q ∈ months.flatMap fun m => ofMonth m.1 m.2 (voyage m), q.id = some ident ∧ Storable rnd q := by
    intro q hqm
    obtain ⟨m, -, h2⟩ := List.mem_flatMap.mp hqm
    exact ⟨hi m q (List.mem_of_mem_filter h2), hq m q h2⟩
  obtain ⟨t1, t2, t3⟩ := handed_trackable r2 hh hm ident (fun q hq => (hiQ q hq).1)
  have hw : ∀ r ∈ R, Writable r := by
    intro r hr
    obtain ⟨n, hn⟩ := List.mem_iff_getElem?.mp hr
    obtain ⟨q, q1, q2⟩ := forall2_get r2.flip n r hn
    have := (hiQ q (List.mem_of_getElem? q1)).2.writable
    exact ⟨by rw [q2.uid]; exact this.uid, by rw [q2.ident]; exact this.ident⟩
  have hRne : R ≠ [] := by
    rintro rfl
    apply hne
    exact List.forall₂_nil_right_iff.mp r2
  have harg' : '/' ∉ arg := by
    intro hm
    apply hs
    rw [harg]
    unfold targetId
    exact List.mem_append_left _ hm
  have k1 : fs'.dir trackOut = true := by rw [o1]; exact hd
  have k2 : ∀ a ∈ trackingDirs trackOut year month runmonthid, fs'.file a = none := fun a ha => by
    rw [o2 a (hc a ha).2]; exact (hc a ha).1
  obtain ⟨v, w, f1, f2, g1, g2, ⟨A, oA, a1, a2, -, a3⟩, ⟨B, oB, b1, b2, -, b3⟩, m1, m2, m3, m4, m5⟩ :=
    C157_beside fmt (fun x => (h.plain x).1) hfe num ord G hG elev P hP Q hQ out trackOut runid arg runmonthid months year
      month edge hid harg' hrm hb fs' R r1 hRne t1 t2 ident t3 hw k1 k2 (fun a ha => by rw [o1]; exact hfr a ha)
      (fun a ha => by rw [o1]; exact hfr' a ha)
  obtain ⟨g, n1, n2⟩ := C157_rerun fmt (fun x => (h.plain x).1) hfe num ord G elev Q hQ out trackOut runid arg runmonthid
    months year month edge hid harg' hrm hb fs' R r1 hRne t1 t2 ident t3 hw k1 k2 (fun a ha => by rw [o1]; exact hfr' a ha)
  rw [m3] at n1
  simp only [Prod.mk.injEq, and_true] at n1
  subst n1
  have lR : R.length = (months.flatMap fun m => ofMonth m.1 m.2 (voyage m)).length := r2.length_eq.symm
  have tl : ∀ x : List Report, (trackingTable fmt x).length = x.length + 1 := fun x => by simp [trackingTable, table]
  refine ⟨fs', f1, f2, g1, g2, w1, m1, m2, m3, n2, m4, ?_⟩
  intro D hD name hname
  simp only [List.mem_cons, List.not_mem_nil, or_false] at hname
  rcases hname with rfl | rfl
  · exact ⟨trackingTable fmt v, by rw [tl, a3.1, a2.length_eq, List.length_range, lR], fun s hs => ((m5 s hs).1 D hD).1⟩
  · exact ⟨trackingTable fmt w, by rw [tl, b3.1, b2.length_eq, List.length_range, lR], fun s hs => ((m5 s hs).1 D hD).2⟩

/-- Non-vacuity of C157: two reports of a drifter in each of two months. -/
example (elev : Int → Int → Rat → Rat → Rat → Rat → ℝ) : ∃ fs' f1 f2 g1 g2, writeMonths (fun x => intText ⌊x⌋) voyageFlags "out".toList "r1".toList handedVoyage [(1999, 1), (1999, 3)] buoyFs = (fs', none) ∧
      trackingMain (fun x => intText ⌊x⌋) (fun s => match parseInt s with
      | .ok n => some (n : Rat)
      | .error _ => none) id blockGeo elev driftParams "out".toList "trk".toList "r1".toList "4400123".toList "199901".toList
      [(1999, 1), (1999, 2), (1999, 3)] 1999 1 ["new", "end_edge_case"] fs' = (f1, none) ∧
      formerMain (fun x => intText ⌊x⌋) (fun s => match parseInt s with
      | .ok n => some (n : Rat)
      | .error _ => none) id blockGeo elev formerParams "out".toList "trk".toList "r1".toList "4400123".toList "199901".toList
      [(1999, 1), (1999, 2), (1999, 3)] 1999 1 ["new", "end_edge_case"] f1 = (f2, none) ∧
      formerMain (fun x => intText ⌊x⌋) (fun s => match parseInt s with
      | .ok n => some (n : Rat)
      | .error _ => none) id blockGeo elev formerParams "out".toList "trk".toList "r1".toList "4400123".toList "199901".toList
      [(1999, 1), (1999, 2), (1999, 3)] 1999 1 ["new", "end_edge_case"] fs' = (g1, none) ∧
      formerMain (fun x => intText ⌊x⌋) (fun s => match parseInt s with
      | .ok n => some (n : Rat)
      | .error _ => none) id blockGeo elev formerParams "out".toList "trk".toList "r1".toList "4400123".toList "199901".toList
      [(1999, 1), (1999, 2), (1999, 3)] 1999 1 ["new", "end_edge_case"] g1 = (g1, none) ∧
      trackingMain (fun x => intText ⌊x⌋) (fun s => match parseInt s with
      | .ok n => some (n : Rat)
      | .error _ => none) id blockGeo elev driftParams "out".toList "trk".toList "r1".toList "4400123".toList "199901".toList
      [(1999, 1), (1999, 2), (1999, 3)] 1999 1 ["new", "end_edge_case"] g1 = (g2, none) := by
  have ends : ∀ (r d : List Char) (y m : Int) pre i, (voyagePath r d y m pre i).getLast? = some 'v' := by
    intro r d y m pre i
    unfold voyagePath
    have e : ∀ a b : List Char, (a ++ '/' :: (b ++ ".csv".toList)).getLast? = some 'v' := by
      intro a b
      rw [show a ++ '/' :: (b ++ ".csv".toList) = (a ++ '/' :: (b ++ ".cs".toList)) ++ ['v'] by simp, List.getLast?_concat]
    exact e _ _
  have nodir : ∀ p : List Char, p.getLast? = some 'v' → buoyFs.dir p = false := by
    intro p hp
    unfold buoyFs
    dsimp only
    rw [hp]
    decide
  have hfree : ∀ (m : Int × Int) pre i, buoyFs.dir (voyagePath "r1".toList (monthDir "out".toList m.1 m.2) m.1 m.2 pre i) = false := by
    intro m pre i
    exact nodir _ (ends _ _ _ _ _ _)
  have mem : ∀ q ∈ [(1999, 1), (1999, 2), (1999, 3)].flatMap fun m : Int × Int => ofMonth m.1 m.2 (handedVoyage m),
      ∃ m : Int × Int, q ∈ handedVoyage m := by
    intro q hq
    obtain ⟨m, -, h2⟩ := List.mem_flatMap.mp hq
    exact ⟨m, List.mem_of_mem_filter h2⟩
  have hl : ([(1999, 1), (1999, 2), (1999, 3)].flatMap fun m : Int × Int => ofMonth m.1 m.2 (handedVoyage m)).length = 4 := by
    decide +kernel
  have dirs : ∀ a ∈ trackingDirs "trk".toList 1999 1 "199901".toList, a.getLast? ≠ some 'v' := by decide +kernel
  obtain ⟨fs', f1, f2, g1, g2, h⟩ := C157_after_base _ _ _ floor_numerals
    (fun x => intText_end _) id (fun l => .refl l) voyageFlags (.refl _) blockGeo blockGeo_distance elev driftParams
    driftParams_ok formerParams formerParams_ok "out".toList "trk".toList "r1".toList "4400123".toList "199901".toList (by decide) (by decide)
    ⟨by decide, by decide⟩ "4400123  " (by decide) (by decide) (by decide) handedVoyage [(1999, 1), (1999, 3)]
    [(1999, 1), (1999, 2), (1999, 3)] (by decide) (by decide)
    (by
      intro m hm hv
      obtain ⟨q, hq⟩ := List.exists_mem_of_ne_nil _ hv
      obtain ⟨-, -, -, h, -⟩ := handedVoyage_mem m q hq
      rcases h with rfl | rfl <;> decide)
    (fun m r hr => (handedVoyage_storable m r hr).2)
    (fun m q hq => (handedVoyage_storable m q (List.mem_of_mem_filter hq)).1)
    (by intro he; rw [he] at hl; cases hl)
    (by
      intro q hq
      obtain ⟨m, hq⟩ := mem q hq
      obtain ⟨u, h, rfl, hm, hu⟩ := handedVoyage_mem m q hq
      obtain ⟨d1, d2, d3⟩ := handedReport_date m.2 u h
      refine ⟨⟨10, 20, 1999, m.2, 5, h, rfl, rfl, d1, d2, d3, rfl, ?_, ?_, ?_, ?_, ?_⟩, ?_, ?_⟩
      · rcases hm with rfl | rfl <;> decide
      · rcases hu with ⟨-, rfl⟩ | ⟨-, rfl⟩ <;> norm_num
      · rcases hu with ⟨-, rfl⟩ | ⟨-, rfl⟩ <;> norm_num
      · norm_num
      · norm_num
      · intro _ _
        exact .inr ⟨11, 10, 1 / 100, rfl, rfl, rfl, by norm_num, by norm_num, by norm_num, by norm_num⟩
      · intro x hx
        have hx : some 0 = some x := hx
        injection hx with hx
        subst hx
        norm_num)
    (by
      intro a ha b hb _ _ h h' e1 e2 _ e3
      obtain ⟨m, ha⟩ := mem a ha
      obtain ⟨m', hb⟩ := mem b hb
      obtain ⟨u, k, rfl, -, hu⟩ := handedVoyage_mem m a ha
      obtain ⟨u', k', rfl, -, hu'⟩ := handedVoyage_mem m' b hb
      have e1 : some k = some h := e1
      have e2 : some k' = some h' := e2
      injection e1 with e1
      injection e2 with e2
      subst e1 e2
      rcases hu with ⟨-, rfl⟩ | ⟨-, rfl⟩ <;> rcases hu' with ⟨-, rfl⟩ | ⟨-, rfl⟩ <;> first | rfl | (norm_num at e3; done))
    buoyFs (by decide) hfree (fun _ _ => rfl) 1999 1 ["new", "end_edge_case"] (by decide)
    (fun a ha => ⟨rfl, fun m pre i he => dirs a ha (he ▸ ends _ _ _ _ _ _)⟩)
    (fun a _ => nodir _ (ends _ _ _ _ _ _)) (fun a _ => nodir _ (ends _ _ _ _ _ _))
  exact ⟨fs', f1, f2, g1, g2, h.1, h.2.1, h.2.2.1, h.2.2.2.1, h.2.2.2.2.1, h.2.2.2.2.2.1⟩

/-- **C157.**  If the reports cannot be read, checked or put in order, the run with the original checks ends with that exception
and leaves every file as it was; so a run that ends without one has read and checked the reports. -/
theorem C157_stops (fmt : Rat → List Char) (num : List Char → Option Rat)
    (order : List (List Char) → List (List Char)) (G : Geo) (elev : Int → Int → Rat → Rat → Rat → Rat → ℝ) (P : FormerParams)
    (out trackOut runid arg runmonthid : List Char) (months : List (Int × Int)) (year month : Int) (edge : List String)
    (fs : FileSys) :
    (∀ e, readChunk num order fs out runid arg months = .error e →
      formerMain fmt num order G elev P out trackOut runid arg runmonthid months year month edge fs = (fs, some e)) ∧
    (∀ reps e, readChunk num order fs out runid arg months = .ok reps → formerChecks G elev P reps = .error e →
      formerMain fmt num order G elev P out trackOut runid arg runmonthid months year month edge fs = (fs, some e)) ∧
    ∀ reps reps' e, readChunk num order fs out runid arg months = .ok reps → formerChecks G elev P reps = .ok reps' →
      wholeVoyage G reps' = .error e →
      formerMain fmt num order G elev P out trackOut runid arg runmonthid months year month edge fs = (fs, some e) := by
  unfold formerMain
  refine ⟨fun e h => ?_, fun reps e h h' => ?_, fun reps reps' e h h' h'' => ?_⟩
  · rw [h]; rfl
  · rw [h, except_bind_ok, h']; rfl
  · rw [h, except_bind_ok, h', except_bind_ok, h'']

/-- Non-vacuity: there is no file for the drifter. -/
example (fmt : Rat → List Char) (num : List Char → Option Rat) (G : Geo) (elev : Int → Int → Rat → Rat → Rat → Rat → ℝ)
    (P : FormerParams) : ∃ e, formerMain fmt num id G elev P "/out".toList "/track".toList "base".toList "D1".toList "199901".toList
      [(1999, 1)] 1999 1 ["new"] (oneDir "/out".toList) = (oneDir "/out".toList, some e) := by
  have h : ∃ e, readChunk num id (oneDir "/out".toList) "/out".toList "base".toList "D1".toList [(1999, 1)] = .error e := ⟨_, rfl⟩
  obtain ⟨e, h⟩ := h
  exact ⟨e, (C157_stops _ _ _ _ _ _ _ _ _ _ _ _ _ _ _ _).1 e h⟩

end MarineQC
