import Verif.Tracking.Complete
import Verif.Tracking.Output

/-!
# C96, C97: the tracking program as a whole
-/

namespace MarineQC

open Spec

/-- **C97.**  The voyage that is written holds every report once, in time order. -/
theorem C97_whole (G : Geo) (reps v : List Report) (hdt : ∀ r ∈ reps, r.dt ≠ none)
    (hid : ∀ a ∈ reps, ∀ b ∈ reps, a.id = b.id) (h : wholeVoyage G reps = .ok v) :
    ∃ order : List Nat, order.Perm (List.range reps.length) ∧ InTime reps order ∧ VoyageOf G reps order v := by
  unfold wholeVoyage at h
  cases h1 : passVoyage G (fun _ => true) reps with
  | error e => rw [h1] at h; simp at h
  | ok w =>
    rw [h1] at h
    simp only [except_bind_ok, except_pure, Except.ok.injEq] at h
    subst h
    obtain ⟨⟨c1, c2⟩, c3, c4⟩ := passVoyage_chosen G _ reps w h1
    refine ⟨w.map (·.2), ?_, c4 (fun r hr _ => hdt r hr) hid, c3⟩
    rw [List.perm_ext_iff_of_nodup c1 List.nodup_range]
    intro k
    rw [c2, List.mem_range]
    constructor
    · rintro ⟨r, hr, -⟩
      exact (List.getElem?_eq_some_iff.mp hr).1
    · intro hk
      exact ⟨_, List.getElem?_eq_getElem hk, rfl⟩

theorem writable_only {keys : List String} {r s : Report} (h : OnlyFlags keys r s) (hr : Writable r) : Writable s :=
  ⟨by rw [h.uid]; exact hr.uid, by rw [h.id]; exact hr.ident⟩

/-- **C96, C97.**  For a drifter whose reports can be tracked the program completes: the results of the checks are in one
file in each wanted directory, in time order. -/
theorem C97_main (fmt : Rat → List Char) (hf : ∀ x, Plain (fmt x)) (hfe : ∀ x, NoBlankEnd (fmt x) ∧ fmt x ≠ [])
    (num : List Char → Option Rat) (ord : List (List Char) → List (List Char)) (G : Geo) (hG : IsDistance G)
    (elev : Int → Int → Rat → Rat → Rat → Rat → ℝ) (P : DriftParams) (hP : TrackParamsOk P)
    (out trackOut runid arg runmonthid : List Char) (months : List (Int × Int)) (year month : Int) (edge : List String)
    (hid : '/' ∉ runid) (hrm : '/' ∉ runmonthid) (hb : IsBase trackOut) (fs : FileSys) (reps : List Report)
    (hread : readChunk num ord fs out runid arg months = .ok reps) (hne : reps ≠ [])
    (hr : Trackable reps) (hdt : ∀ r ∈ reps, r.dt ≠ none) (ident : String) (hi : ∀ r ∈ reps, r.id = some ident)
    (hw : ∀ r ∈ reps, Writable r) (hd : fs.dir trackOut = true)
    (hc : ∀ a ∈ trackingDirs trackOut year month runmonthid, fs.file a = none)
    (hfree : ∀ a ∈ trackingDirs trackOut year month runmonthid,
      fs.dir (voyagePath runid a year month "Tracking_".toList (safeFilename ident.toList)) = false) :
    ∃ fs' reps' order v, trackingMain fmt num ord G elev P out trackOut runid arg runmonthid months year month edge fs =
        (fs', none) ∧
      trackingChecks G elev P reps = .ok reps' ∧ order.Perm (List.range reps.length) ∧ InTime reps' order ∧
      VoyageOf G reps' order v ∧
      (∀ D, Wanted trackOut year month edge runmonthid D →
        HoldsTable fs' (voyagePath runid D year month "Tracking_".toList (safeFilename ident.toList)) (trackingTable fmt v)) ∧
      (∀ p, (∀ D, Wanted trackOut year month edge runmonthid D →
          p ≠ voyagePath runid D year month "Tracking_".toList (safeFilename ident.toList)) → fs'.file p = fs.file p) ∧
      (∀ q, fs'.dir q = true → q ∈ trackingDirs trackOut year month runmonthid ∨ fs.dir q = true) ∧ fs'.dir trackOut = true := by
  obtain ⟨reps', v, h1, h2⟩ := C96_completes_partial G hG elev P hP reps hr
  obtain ⟨l1, l2⟩ := C93_only_flags G elev P hP.speed.2 reps reps' h1
  have back : ∀ r ∈ reps', ∃ r0 ∈ reps, OnlyFlags
      ["POSdrf_agr", "POSdrf_spd", "SSTdrf_tail1", "SSTdrf_tail2", "SSTdrf_bias", "SSTdrf_noise", "SSTdrf_short"] r0 r := by
    intro r hr
    obtain ⟨n, hn⟩ := List.mem_iff_getElem?.mp hr
    have hlt : n < reps.length := by rw [← l1]; exact (List.getElem?_eq_some_iff.mp hn).1
    exact ⟨_, List.getElem_mem hlt, l2 n _ _ (List.getElem?_eq_getElem hlt) hn⟩
  obtain ⟨order, o1, o2, o3⟩ := C97_whole G reps' v
    (by
      intro r hr
      obtain ⟨r0, a1, a2⟩ := back r hr
      rw [a2.dt]; exact hdt r0 a1)
    (by
      intro a ha b hb
      obtain ⟨a0, a1, a2⟩ := back a ha
      obtain ⟨b0, b1, b2⟩ := back b hb
      rw [a2.id, b2.id, hi _ a1, hi _ b1]) h2
  have vback : ∀ s ∈ v, s.id = some ident ∧ Writable s := by
    intro s hs
    obtain ⟨n, hn⟩ := List.mem_iff_getElem?.mp hs
    have hlt : n < order.length := by rw [← o3.1]; exact (List.getElem?_eq_some_iff.mp hn).1
    obtain ⟨r, s', a1, a2, a3⟩ := o3.2.2 n _ (List.getElem?_eq_getElem hlt)
    rw [hn] at a2
    injection a2 with a2
    subst a2
    obtain ⟨r0, b1, b2⟩ := back r (List.mem_of_getElem? a1)
    exact ⟨by rw [a3.id, b2.id, hi _ b1], writable_only a3 (writable_only b2 (hw _ b1))⟩
  cases v with
  | nil =>
    exfalso
    apply hne
    have := o3.1
    rw [o1.length_eq, List.length_range, l1] at this
    exact List.length_eq_zero_iff.mp this.symm
  | cons s l =>
    obtain ⟨fs', e1, e2, e3, e4⟩ := C97_output fmt hf hfe runid trackOut runmonthid hid hrm hb year month edge s l ident
      (vback s (by simp)).1 (fun q hq => (vback q hq).2) fs hd hc hfree
    refine ⟨fs', reps', order, s :: l, ?_, h1, by rw [← l1]; exact o1, o2, o3, e2, e3, e4⟩
    unfold trackingMain
    simp only [hread, h1, h2, except_bind_ok]
    exact e1

/-! ## When nothing is written -/

theorem foldlM_error (G : Geo) (l : List Report) : ∀ (v : List Report) (r : Report), v ≠ [] → r ∈ l → r.lat = none →
    ∃ e, l.foldlM (addReport G) v = .error e := by
  induction l with
  | nil => intro v r _ hr; simp at hr
  | cons q l ih =>
    intro v r hv hr hl
    rw [List.foldlM_cons]
    cases h : addReport G v q with
    | error e => exact ⟨e, rfl⟩
    | ok w =>
      rw [except_bind_ok]
      rcases addReport_some h with ⟨rfl, -⟩ | ⟨p, d, h1, h2, rfl⟩
      · exact absurd rfl hv
      · rcases List.mem_cons.mp hr with rfl | hr
        · rw [C40_difference_no_position G r p (.inl hl)] at h2
          cases h2
        · exact ih _ r (by simp) hr hl

theorem foldlM_unplaced (G : Geo) (l : List Report) (hl : 2 ≤ l.length) (r : Report) (hr : r ∈ l) (hlat : r.lat = none) :
    ∃ e, l.foldlM (addReport G) [] = .error e := by
  match l, hl with
  | a :: b :: l, _ =>
    rw [List.foldlM_cons]
    show ∃ e, (Except.ok [a.clearDiff] >>= fun v => (b :: l).foldlM (addReport G) v) = _
    rw [except_bind_ok]
    rcases List.mem_cons.mp hr with rfl | hr
    · rw [List.foldlM_cons]
      have : addReport G [r.clearDiff] b = .error .assertion := by
        unfold addReport
        rw [show [r.clearDiff].getLast? = some r.clearDiff from rfl]
        dsimp only
        rw [C40_difference_no_position G b _ (.inr (.inr (.inl (show r.clearDiff.lat = none from hlat))))]
        rfl
      rw [this]
      exact ⟨_, rfl⟩
    · exact foldlM_error G _ _ r (by simp) hr hlat

/-- **C96, violated.**  A single report without a position, although it is excluded from every check, keeps the results of
all the drifter's reports from being written: the program stops with an exception and no file changes. -/
theorem C96_unplaced_violation (fmt : Rat → List Char) (num : List Char → Option Rat)
    (ord : List (List Char) → List (List Char)) (G : Geo) (elev : Int → Int → Rat → Rat → Rat → Rat → ℝ) (P : DriftParams)
    (hP : 0 < P.speedPeriod) (out trackOut runid arg runmonthid : List Char) (months : List (Int × Int)) (year month : Int)
    (edge : List String) (fs : FileSys) (reps : List Report)
    (hread : readChunk num ord fs out runid arg months = .ok reps) (hlen : 2 ≤ reps.length) (r : Report) (hr : r ∈ reps)
    (hlat : r.lat = none) :
    ∃ e, trackingMain fmt num ord G elev P out trackOut runid arg runmonthid months year month edge fs = (fs, some e) := by
  unfold trackingMain
  rw [hread, except_bind_ok]
  cases h1 : trackingChecks G elev P reps with
  | error e => exact ⟨e, rfl⟩
  | ok reps' =>
    rw [except_bind_ok]
    obtain ⟨l1, l2⟩ := C93_only_flags G elev P hP reps reps' h1
    obtain ⟨n, hn⟩ := List.mem_iff_getElem?.mp hr
    have hlt : n < reps'.length := by rw [l1]; exact (List.getElem?_eq_some_iff.mp hn).1
    have ho := l2 n _ _ hn (List.getElem?_eq_getElem hlt)
    have hlat' : reps'[n].lat = none := by
      unfold Report.lat at hlat ⊢
      rw [getvar_data_eq ho.data (by decide)]
      exact hlat
    have hall : (reps'.zipIdx.filter fun p => (fun _ => true) p.1).map (·.1) = reps' := by
      rw [List.filter_eq_self.mpr (by simp)]
      exact List.zipIdx_map_fst 0 reps'
    obtain ⟨e, he⟩ := foldlM_unplaced G reps' (by omega) _ (List.getElem_mem hlt) hlat'
    refine ⟨e, ?_⟩
    have : wholeVoyage G reps' = .error e := by
      unfold wholeVoyage passVoyage buildTagged
      rw [hall, he]
      rfl
    rw [this]

/-! ## A concrete case -/

/-- A drifter's report made on 1 March 2005. -/
def driftReport (uid : String) (hr lat lon sst : Rat) : Report :=
  { Report.empty (some "123456789") (some uid) with
    data := fun k => if k = "YR" then some 2005 else if k = "MO" then some 3 else if k = "DY" then some 1 else
      if k = "HR" then some hr else if k = "LAT" then some lat else if k = "LON" then some lon else
      if k = "SST" then some sst else if k = "PT" then some 7 else none
    qc := fun k => if k = "POSisbuoy" then some 1 else
      if k ∈ ["POSdate", "POStime", "POSpos", "POSblklst", "SSTclim", "SSTnonorm", "SSTfreez", "SSTnoval", "SSTrep",
        "SSThardlimit", "SSTbbud"] then some 0 else none
    ext := fun k => if k = "OSTIA" then some (some 10) else if k = "ICE" then some none else
      if k = "BGVAR" then some (some (1 / 100)) else none
    dt := some ⟨2005, 3, 1, ⌊hr⌋, ⌊(hr - ⌊hr⌋) * 60⌋⟩ }

/-- Three reports, not in time order. -/
def driftReps : List Report :=
  [driftReport "A1" 12 10 20 11, driftReport "A2" 10 10 19 10, driftReport "A3" (23 / 2) 10 (39 / 2) 10]

def driftParams : DriftParams where
  win := 3
  groundPeriod := 8
  iquam := ⟨15, 60, 11, 1 / 100, 5⟩
  speedLimit := 3
  speedPeriod := 1
  tail := exampleTail
  bias := exampleBias

/-- Distances for the example. -/
def blockGeo : Geo := ⟨fun a b c d => |a - c| + |b - d|, fun _ _ _ _ => 0, fun _ _ _ _ => (0, 0), fun _ _ _ _ _ => (0, 0)⟩

theorem driftReport_good (u : String) (h la lo x : Rat) : GoodPosition (driftReport u h la lo x) := by
  refine ⟨?_, ?_, ?_, ?_, ?_⟩ <;> rfl

theorem driftReport_temperature (u : String) (h la lo x : Rat) : GoodTemperature (driftReport u h la lo x) := by
  refine ⟨?_, ?_, ?_, ?_, ?_, ?_, ?_⟩
  · rfl
  · rfl
  · rfl
  · rfl
  · rfl
  · rfl
  · show (0 : Int) < 4
    decide

theorem driftReport_observed (u : String) (h la lo x : Rat) (h0 : 0 ≤ h) (h1 : h < 24) (l0 : -90 ≤ la) (l1 : la ≤ 90)
    (o : lo ≤ 180) : Observed (driftReport u h la lo x) := by
  refine ⟨la, lo, 2005, 3, 1, h, ⟨rfl, ?_, ?_, ?_, ?_, rfl, by decide, h0, h1⟩, l0, l1, ?_⟩
  · show (match (driftReport u h la lo x).getvar "LON" with
      | none => none
      | some l => if l > 180 then some (l - 360) else some l) = _
    rw [show (driftReport u h la lo x).getvar "LON" = some lo from rfl]
    simp [not_lt.mpr o]
  · show Option.map Rat.floor (some (2005 : Rat)) = _
    decide +kernel
  · show Option.map Rat.floor (some (3 : Rat)) = _
    decide +kernel
  · show Option.map Rat.floor (some (1 : Rat)) = _
    decide +kernel
  · simp [timestamp, show IsDate 2005 3 1 by decide, driftReport]

theorem observed_placed {r : Report} (h : Observed r) : r.Placed := by
  obtain ⟨la, lo, y, m, d, hh, ⟨a1, a2, a3, a4, a5, a6, a7, a8, a9⟩, -⟩ := h
  have : monthLength y m ≤ 31 := by unfold monthLength; split_ifs <;> omega
  have := a7.2.2.2
  exact ⟨by rw [a1]; simp, by rw [a2]; simp, y, m, d, hh, a3, a4, a5, a6, a8, a9, a7.1, a7.2.1, a7.2.2.1, by omega⟩

theorem driftReport_background (u : String) (h la lo x : Rat) : HasBackground (driftReport u h la lo x) :=
  ⟨.inr ⟨x, 10, 1 / 100, rfl, rfl, rfl, by norm_num, by norm_num, by norm_num, by norm_num⟩,
    ⟨none, rfl, by norm_num, by norm_num⟩, ⟨_, rfl⟩⟩

theorem driftReps_trackable : Trackable driftReps := by
  have hobs : ∀ r ∈ driftReps, Observed r := by
    intro r hr
    simp only [driftReps, List.mem_cons, List.not_mem_nil, or_false] at hr
    rcases hr with rfl | rfl | rfl <;> apply driftReport_observed <;> norm_num
  refine ⟨fun r hr => observed_placed (hobs r hr), fun r hr _ => hobs r hr, ?_, ?_, ?_⟩
  · intro r hr _ _
    simp only [driftReps, List.mem_cons, List.not_mem_nil, or_false] at hr
    rcases hr with rfl | rfl | rfl <;> apply driftReport_background
  · intro a ha b hb
    simp only [driftReps, List.mem_cons, List.not_mem_nil, or_false] at ha hb
    rcases ha with rfl | rfl | rfl <;> rcases hb with rfl | rfl | rfl <;> rfl
  · intro a ha b hb _ _ hd
    have key : (driftReps.map fun r => (r.dt, r.getvar "HR")) =
        [(some ⟨2005, 3, 1, 12, 0⟩, some 12), (some ⟨2005, 3, 1, 10, 0⟩, some 10),
          (some ⟨2005, 3, 1, 11, 30⟩, some (23 / 2))] := by decide +kernel
    have ha' := List.mem_map_of_mem (f := fun r : Report => (r.dt, r.getvar "HR")) ha
    have hb' := List.mem_map_of_mem (f := fun r : Report => (r.dt, r.getvar "HR")) hb
    rw [key] at ha' hb'
    simp only [List.mem_cons, List.not_mem_nil, or_false, Prod.mk.injEq] at ha' hb'
    rcases ha' with ⟨a1, a2⟩ | ⟨a1, a2⟩ | ⟨a1, a2⟩ <;> rcases hb' with ⟨b1, b2⟩ | ⟨b1, b2⟩ | ⟨b1, b2⟩ <;>
      first
        | (exfalso; rw [a1, b1] at hd; simp at hd; done)
        | rw [a2, b2]

theorem driftParams_ok : TrackParamsOk driftParams :=
  ⟨⟨by decide, by decide⟩, by decide, ⟨by decide +kernel, by decide +kernel, by decide +kernel⟩,
    ⟨by decide +kernel, by decide +kernel⟩, by unfold TailParamsOk driftParams exampleTail; norm_num,
    by unfold BiasParamsOk driftParams exampleBias; norm_num⟩

theorem blockGeo_distance : IsDistance blockGeo := by
  refine ⟨fun a b c d => ?_, fun a b => ?_⟩
  · show |a - c| + |b - d| = |c - a| + |d - b|
    rw [abs_sub_comm a c, abs_sub_comm b d]
  · show |a - a| + |b - b| = 0
    simp

/-- Non-vacuity of C93, C94, C95 and C96: three reports of a drifter, which get all flags. -/
example (elev : Int → Int → Rat → Rat → Rat → Rat → ℝ) :
    ∃ reps' v, trackingChecks blockGeo elev driftParams driftReps = .ok reps' ∧ wholeVoyage blockGeo reps' = .ok v ∧
      (∀ r ∈ driftReps, r.dt ≠ none ∧ r.getvar "PT" = some 7 ∧ GoodPosition r ∧ GoodTemperature r) ∧
      (∀ a ∈ driftReps, ∀ b ∈ driftReps, a.id = b.id) ∧ 0 < driftParams.speedPeriod := by
  obtain ⟨reps', v, h1, h2⟩ := C96_completes_partial blockGeo blockGeo_distance elev driftParams driftParams_ok driftReps
    driftReps_trackable
  refine ⟨reps', v, h1, h2, ?_, driftReps_trackable.same, driftParams_ok.speed.2⟩
  intro r hr
  simp only [driftReps, List.mem_cons, List.not_mem_nil, or_false] at hr
  rcases hr with rfl | rfl | rfl <;>
    exact ⟨by simp [driftReport], by decide +kernel, driftReport_good .., driftReport_temperature ..⟩

/-- A pass that leaves the voyage in the order in which the reports were added. -/
def unsortedPass (G : Geo) (keep : Report → Bool) (check : List Report → Except Err (List Report)) (reps : List Report) :
    Except Err (List Report) := do
  let v ← buildTagged G (reps.zipIdx.filter fun p => keep p.1)
  let u ← relinkAll G (v.map (·.1))
  let w ← check ((u.zip (v.map (·.2))).map (·.1))
  return storeBack reps (w.zip ((u.zip (v.map (·.2))).map (·.2)))

def inOrder (G : Geo) (keep : Report → Bool) (reps : List Report) : Except Err Bool :=
  (buildTagged G (reps.zipIdx.filter fun p => keep p.1)).map fun v => decide (v.Pairwise fun a b => b.1.lt a.1 = false)

theorem trackPass_unsorted (G : Geo) (keep : Report → Bool) (check : List Report → Except Err (List Report))
    (reps : List Report) (h : inOrder G keep reps = .ok true) :
    trackPass G keep check reps = unsortedPass G keep check reps := by
  unfold inOrder at h
  unfold trackPass unsortedPass passVoyage sortTagged
  cases hb : buildTagged G (reps.zipIdx.filter fun p => keep p.1) with
  | error e => rfl
  | ok v =>
    rw [hb] at h
    simp only [Except.map, Except.ok.injEq, decide_eq_true_eq] at h
    simp only [except_bind_ok]
    rw [List.mergeSort_of_pairwise (h.imp fun h => by simp [h])]
    cases relinkAll G (v.map (·.1)) <;> rfl

/-- **C96, violated.**  Two reports of the same minute, the later one first in the file: sorting does not exchange them,
since it compares the times to the minute, and the speed check finds the record unsorted.  The reports have good
positions, times and background values, and the exception keeps all results from being written. -/
theorem C96_same_minute_violation : ∃ reps : List Report,
    (∀ r ∈ reps, Observed r ∧ GoodPosition r ∧ GoodTemperature r ∧ HasBackground r) ∧
    (reps.map fun r => r.getvar "HR") = [some (1001 / 100), some 10] ∧
    ∀ elev, trackingChecks blockGeo elev driftParams reps = .error .assertion := by
  refine ⟨[driftReport "A1" (1001 / 100) 10 20 11, driftReport "A2" 10 10 20 11], ?_, by decide +kernel, ?_⟩
  · intro r hr
    simp only [List.mem_cons, List.not_mem_nil, or_false] at hr
    rcases hr with rfl | rfl <;> refine ⟨?_, driftReport_good .., driftReport_temperature .., driftReport_background ..⟩ <;>
      apply driftReport_observed <;> norm_num
  · intro elev
    unfold trackingChecks
    rw [trackPass_unsorted _ _ _ _ (by decide +kernel)]
    have h1 : (unsortedPass blockGeo positionKept
        (newBuoyAgroundCheck blockGeo driftParams.win driftParams.groundPeriod false)
        [driftReport "A1" (1001 / 100) 10 20 11, driftReport "A2" 10 10 20 11] >>= inOrder blockGeo positionKept) =
          .ok true := by decide +kernel
    have h2 : ((unsortedPass blockGeo positionKept
        (newBuoyAgroundCheck blockGeo driftParams.win driftParams.groundPeriod false)
        [driftReport "A1" (1001 / 100) 10 20 11, driftReport "A2" 10 10 20 11] >>= unsortedPass blockGeo positionKept
          (newBuoySpeedCheck blockGeo driftParams.iquam driftParams.speedLimit driftParams.speedPeriod false)).map
          (fun _ => ())) = .error .assertion := by decide +kernel
    cases h3 : unsortedPass blockGeo positionKept
        (newBuoyAgroundCheck blockGeo driftParams.win driftParams.groundPeriod false)
        [driftReport "A1" (1001 / 100) 10 20 11, driftReport "A2" 10 10 20 11] with
    | error e => rw [h3] at h1; cases h1
    | ok l =>
      rw [h3, except_bind_ok] at h1 h2
      rw [except_bind_ok, trackPass_unsorted _ _ _ _ h1]
      cases h4 : unsortedPass blockGeo positionKept
          (newBuoySpeedCheck blockGeo driftParams.iquam driftParams.speedLimit driftParams.speedPeriod false) l with
      | error e =>
        rw [h4] at h2
        simp only [Except.map] at h2
        injection h2 with h2
        rw [h2]
        rfl
      | ok l => rw [h4] at h2; simp [Except.map] at h2

end MarineQC
