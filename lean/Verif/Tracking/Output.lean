import Verif.Tracking.Model
import Verif.Output.Tracking
import Verif.Files.Select
import Verif.Drifter.Props

/-!
# C97: the files written by the tracking program
-/

namespace MarineQC

open Spec

namespace Spec

/-- The directory of a month's tracking results. -/
def trackingDir (out : List Char) (year month : Int) : List Char :=
  out ++ "/TrackingQC/".toList ++ intText year ++ '/' :: zeroPad 2 month

/-- The directories in which the results are wanted. -/
def Wanted (out : List Char) (year month : Int) (edge : List String) (runmonthid D : List Char) : Prop :=
  (("new" ∈ edge ∨ "regular" ∈ edge) ∧ D = trackingDir out year month) ∨
  ("start_edge_case" ∈ edge ∧ D = trackingDir out year month ++ "/start_edge_case_".toList ++ runmonthid) ∨
  ("end_edge_case" ∈ edge ∧ D = trackingDir out year month ++ "/end_edge_case_".toList ++ runmonthid)

/-- The output directory and those below it. -/
def trackingDirs (out : List Char) (year month : Int) (runmonthid : List Char) : List (List Char) :=
  [out ++ "/TrackingQC".toList, out ++ "/TrackingQC/".toList ++ intText year, trackingDir out year month,
    trackingDir out year month ++ "/start_edge_case_".toList ++ runmonthid,
    trackingDir out year month ++ "/end_edge_case_".toList ++ runmonthid]

end Spec

theorem intText_ne_nil (n : Int) : intText n ≠ [] := (intText_end n).2

theorem isName_int (n : Int) : IsName (intText n) := ⟨intText_ne_nil n, no_slash_int n⟩

theorem isName_pad (n : Int) : IsName (zeroPad 2 n) := by
  refine ⟨?_, no_slash_pad n⟩
  unfold zeroPad
  split
  · simp
  · have : natText n.natAbs ≠ [] := by
      have h := (intText_end (n.natAbs : Int)).2
      unfold intText at h
      rw [if_neg (by omega), Int.natAbs_natCast] at h
      exact h
    simp [this]

/-- What holds before and after each file is written. -/
structure Tidied (out : List Char) (year month : Int) (runmonthid : List Char) (path : List Char → List Char) (fs : FileSys) :
    Prop where
  base : fs.dir out = true
  clear : ∀ a ∈ trackingDirs out year month runmonthid, fs.file a = none
  free : ∀ a ∈ trackingDirs out year month runmonthid, fs.dir (path a) = false

theorem trackingDir_eq (out : List Char) (year month : Int) :
    trackingDir out year month = out ++ (["TrackingQC".toList, intText year, zeroPad 2 month].map fun s => '/' :: s).flatten := by
  simp [trackingDir]

theorem mem_completions (out : List Char) (hb : IsBase out) (year month : Int) (q : List Char) :
    q ∈ buildCompletions out ["TrackingQC".toList, intText year, zeroPad 2 month] ↔
      q = out ++ "/TrackingQC".toList ∨ q = out ++ "/TrackingQC/".toList ++ intText year ∨ q = trackingDir out year month := by
  rw [C81_completions out _ hb (by
    intro s hs
    simp only [List.mem_cons, List.not_mem_nil, or_false] at hs
    rcases hs with rfl | rfl | rfl
    exacts [⟨by decide, by decide⟩, isName_int _, isName_pad _])]
  simp [List.range_succ, trackingDir]

theorem trackingDir_isBase (out : List Char) (year month : Int) : IsBase (trackingDir out year month) := by
  unfold trackingDir
  exact isBase_join _ _ (isName_pad _)

/-- The name of the output file. -/
def trackingName (runid ident : List Char) (year month : Int) : List Char :=
  "Tracking_".toList ++ intText year ++ zeroPad 2 month ++ '_' :: safeFilename ident ++ '_' :: runid ++ ".csv".toList

theorem trackingName_no_slash (runid ident : List Char) (hid : '/' ∉ runid) (year month : Int) :
    '/' ∉ trackingName runid ident year month :=
  voyageName_no_slash runid _ hid (C65_legal ident).1 year month _ (by decide)

/-- No output file has the path of one of the directories. -/
theorem path_ne_dir (out runid ident runmonthid : List Char) (hid : '/' ∉ runid) (hrm : '/' ∉ runmonthid) (year month : Int)
    (D a : List Char) (ha : a ∈ trackingDirs out year month runmonthid) :
    D ++ '/' :: trackingName runid ident year month ≠ a := by
  intro h
  have key : ∀ X s : List Char, '/' ∉ s → a = X ++ '/' :: s → trackingName runid ident year month = s := by
    intro X s hs e
    rw [e] at h
    have hp := congrArg parentOf h
    rw [parentOf_join _ _ (trackingName_no_slash runid ident hid year month), parentOf_join _ _ hs] at hp
    rw [hp] at h
    simpa using h
  have hT : ∀ s : List Char, trackingName runid ident year month = s → ∃ l, s = 'T' :: 'r' :: 'a' :: 'c' :: 'k' :: 'i' :: 'n' :: 'g' :: '_' :: l :=
    fun s e => ⟨_, e.symm⟩
  simp only [trackingDirs, List.mem_cons, List.not_mem_nil, or_false] at ha
  rcases ha with rfl | rfl | rfl | rfl | rfl
  · obtain ⟨l, e⟩ := hT _ (key out "TrackingQC".toList (by decide) (by simp))
    simp at e
  · obtain ⟨l, e⟩ := hT _ (key (out ++ "/TrackingQC".toList) (intText year) (no_slash_int _) (by simp))
    have : 'T' ∈ intText year := by rw [e]; simp
    unfold intText at this
    split at this
    · rcases List.mem_cons.mp this with h | h
      · revert h; decide
      · have := natText_digits _ _ h; revert this; decide
    · have := natText_digits _ _ this; revert this; decide
  · obtain ⟨l, e⟩ := hT _ (key (out ++ "/TrackingQC/".toList ++ intText year) (zeroPad 2 month) (no_slash_pad _)
      (by simp [trackingDir]))
    have : 'T' ∈ zeroPad 2 month := by rw [e]; simp
    rcases zeroPad_chars _ _ _ this with h | h <;> (revert h; decide)
  · obtain ⟨l, e⟩ := hT _ (key (trackingDir out year month) ("start_edge_case_".toList ++ runmonthid)
      (by simp only [List.mem_append, not_or]; exact ⟨by decide, hrm⟩) (by simp))
    simp at e
  · obtain ⟨l, e⟩ := hT _ (key (trackingDir out year month) ("end_edge_case_".toList ++ runmonthid)
      (by simp only [List.mem_append, not_or]; exact ⟨by decide, hrm⟩) (by simp))
    simp at e

theorem path_inj (name D D' : List Char) (h : D ++ '/' :: name = D' ++ '/' :: name) : D = D' := List.append_cancel_right h

/-- Writing one file into a directory just made. -/
theorem writeInto_step (fmt : Rat → List Char) (hf : ∀ x, Plain (fmt x)) (hfe : ∀ x, NoBlankEnd (fmt x) ∧ fmt x ≠ [])
    (runid out runmonthid : List Char) (hid : '/' ∉ runid) (hrm : '/' ∉ runmonthid) (year month : Int)
    (r : Report) (reps : List Report) (ident : String) (hi : r.id = some ident) (hr : ∀ q ∈ r :: reps, Writable q)
    (fs : FileSys)
    (ht : Tidied out year month runmonthid (fun D => D ++ '/' :: trackingName runid ident.toList year month) fs)
    (d : FileSys × Option (List Char)) (D : List Char) (hD : D ∈ trackingDirs out year month runmonthid)
    (h1 : d.2 = some D) (h2 : d.1.file = fs.file) (h3 : d.1.dir D = true) (hkeep : ∀ q, fs.dir q = true → d.1.dir q = true)
    (h4 : ∀ q, d.1.dir q = true → q ∈ trackingDirs out year month runmonthid ∨ fs.dir q = true) :
    ∃ fs', writeInto fmt runid year month (r :: reps) d = (fs', none) ∧
      Tidied out year month runmonthid (fun D => D ++ '/' :: trackingName runid ident.toList year month) fs' ∧
      HoldsTable fs' (D ++ '/' :: trackingName runid ident.toList year month) (trackingTable fmt (r :: reps)) ∧
      (∀ p, p ≠ D ++ '/' :: trackingName runid ident.toList year month → fs'.file p = fs.file p) ∧
      ∀ q, fs'.dir q = true → q ∈ trackingDirs out year month runmonthid ∨ fs.dir q = true := by
  have free : ∀ a ∈ trackingDirs out year month runmonthid,
      d.1.dir (a ++ '/' :: trackingName runid ident.toList year month) = false := by
    intro a ha
    rw [Bool.eq_false_iff]
    intro hc
    rcases h4 _ hc with h | h
    · exact path_ne_dir out runid ident.toList runmonthid hid hrm year month a _ h rfl
    · have := ht.free a ha
      rw [h] at this
      cases this
  obtain ⟨fs', e1, e2, e3, e4, -⟩ := C90_tracking fmt hf hfe runid D hid year month r reps ident hi hr d.1 h3 (free D hD)
  refine ⟨fs', ?_, ⟨?_, ?_, ?_⟩, e2, ?_, ?_⟩
  · unfold writeInto
    rw [h1]
    exact e1
  · rw [e4]; exact hkeep _ ht.base
  · intro a ha
    rw [e3 a (fun h => path_ne_dir out runid ident.toList runmonthid hid hrm year month D a ha h.symm), h2]
    exact ht.clear a ha
  · intro a ha
    rw [e4]; exact free a ha
  · intro p hp
    rw [e3 p hp, h2]
  · intro q hq
    rw [e4] at hq
    exact h4 q hq

theorem makeTracking_ok (out runmonthid : List Char) (hb : IsBase out) (year month : Int) (fs : FileSys)
    (hd : fs.dir out = true) (hc : ∀ a ∈ trackingDirs out year month runmonthid, fs.file a = none) :
    ∃ fs', safeMakeTrackingDir fs out year month = (fs', some (trackingDir out year month)) ∧ fs'.file = fs.file ∧
      fs'.dir (trackingDir out year month) = true ∧ (∀ q, fs.dir q = true → fs'.dir q = true) ∧
      ∀ q, fs'.dir q = true → q ∈ trackingDirs out year month runmonthid ∨ fs.dir q = true := by
  have hsub : ∀ q ∈ buildCompletions out ["TrackingQC".toList, intText year, zeroPad 2 month],
      q ∈ trackingDirs out year month runmonthid := by
    intro q hq
    rw [mem_completions out hb] at hq
    rcases hq with rfl | rfl | rfl <;> simp [trackingDirs]
  obtain ⟨fs', p, e1, e2, e3, e4, e5⟩ := C81_directories fs out ["TrackingQC".toList, intText year, zeroPad 2 month] hb (by
    intro s hs
    simp only [List.mem_cons, List.not_mem_nil, or_false] at hs
    rcases hs with rfl | rfl | rfl
    exacts [⟨by decide, by decide⟩, isName_int _, isName_pad _]) (by simp) hd (fun p hp => hc p (hsub p hp))
  rw [← trackingDir_eq] at e4
  subst e4
  refine ⟨fs', e1, e2, e5, fun q hq => (e3 q).mpr (.inr hq), fun q hq => ?_⟩
  rcases (e3 q).mp hq with h | h
  · exact .inl (hsub q h)
  · exact .inr h

theorem makeEdge_ok (out runmonthid edge : List Char) (hb : IsBase out) (hrm : '/' ∉ runmonthid) (he : '/' ∉ edge)
    (year month : Int) (fs : FileSys)
    (hm : trackingDir out year month ++ '/' :: (edge ++ '_' :: runmonthid) ∈ trackingDirs out year month runmonthid)
    (hd : fs.dir out = true) (hc : ∀ a ∈ trackingDirs out year month runmonthid, fs.file a = none) :
    ∃ fs', safeMakeEdgeDir fs out year month edge runmonthid =
        (fs', some (trackingDir out year month ++ '/' :: (edge ++ '_' :: runmonthid))) ∧ fs'.file = fs.file ∧
      fs'.dir (trackingDir out year month ++ '/' :: (edge ++ '_' :: runmonthid)) = true ∧
      (∀ q, fs.dir q = true → fs'.dir q = true) ∧
      ∀ q, fs'.dir q = true → q ∈ trackingDirs out year month runmonthid ∨ fs.dir q = true := by
  obtain ⟨fs1, a1, a2, a3, a4, a5⟩ := makeTracking_ok out runmonthid hb year month fs hd hc
  have hn : IsName (edge ++ '_' :: runmonthid) := by
    refine ⟨by simp, ?_⟩
    simp only [List.mem_append, List.mem_cons, not_or]
    exact ⟨he, by decide, hrm⟩
  have hcomp : buildCompletions (trackingDir out year month) [edge ++ '_' :: runmonthid] =
      [trackingDir out year month ++ '/' :: (edge ++ '_' :: runmonthid)] := by
    simp [buildCompletions, pathJoin_name _ _ (trackingDir_isBase out year month) hn]
  obtain ⟨fs', p, e1, e2, e3, e4, e5⟩ := C81_directories fs1 (trackingDir out year month) [edge ++ '_' :: runmonthid]
    (trackingDir_isBase out year month) (by simpa using hn) (by simp) a3 (by
      intro p hp
      rw [hcomp, List.mem_singleton] at hp
      subst hp
      rw [a2]
      exact hc _ hm)
  have e4' : p = trackingDir out year month ++ '/' :: (edge ++ '_' :: runmonthid) := by simpa using e4
  subst e4'
  refine ⟨fs', ?_, e2.trans a2, e5, fun q hq => (e3 q).mpr (.inr (a4 q hq)), fun q hq => ?_⟩
  · unfold safeMakeEdgeDir
    rw [a1]
    exact e1
  · rcases (e3 q).mp hq with h | h
    · rw [hcomp, List.mem_singleton] at h
      subst h
      exact .inl hm
    · exact a5 q h

/-- **C97.**  The tracking program writes one file into each directory that the edge words ask for, and nothing else: the
file holds one line for every report of the voyage, in order. -/
theorem C97_output (fmt : Rat → List Char) (hf : ∀ x, Plain (fmt x)) (hfe : ∀ x, NoBlankEnd (fmt x) ∧ fmt x ≠ [])
    (runid out runmonthid : List Char) (hid : '/' ∉ runid) (hrm : '/' ∉ runmonthid) (hb : IsBase out) (year month : Int)
    (edge : List String) (r : Report) (reps : List Report) (ident : String) (hi : r.id = some ident)
    (hr : ∀ q ∈ r :: reps, Writable q) (fs : FileSys) (hd : fs.dir out = true)
    (hc : ∀ a ∈ trackingDirs out year month runmonthid, fs.file a = none)
    (hfree : ∀ a ∈ trackingDirs out year month runmonthid,
      fs.dir (voyagePath runid a year month "Tracking_".toList (safeFilename ident.toList)) = false) :
    ∃ fs', trackingOutput fmt runid out year month edge runmonthid (r :: reps) fs = (fs', none) ∧
      (∀ D, Wanted out year month edge runmonthid D →
        HoldsTable fs' (voyagePath runid D year month "Tracking_".toList (safeFilename ident.toList))
          (trackingTable fmt (r :: reps))) ∧
      (∀ p, (∀ D, Wanted out year month edge runmonthid D →
          p ≠ voyagePath runid D year month "Tracking_".toList (safeFilename ident.toList)) → fs'.file p = fs.file p) ∧
      (∀ q, fs'.dir q = true → q ∈ trackingDirs out year month runmonthid ∨ fs.dir q = true) ∧ fs'.dir out = true := by
  have pe : ∀ D, voyagePath runid D year month "Tracking_".toList (safeFilename ident.toList) =
      D ++ '/' :: trackingName runid ident.toList year month := fun D => rfl
  simp only [pe] at hfree ⊢
  have t0 : Tidied out year month runmonthid (fun D => D ++ '/' :: trackingName runid ident.toList year month) fs :=
    ⟨hd, hc, hfree⟩
  -- one conditional step
  have step : ∀ (b : Bool) (D : List Char) (make : FileSys → FileSys × Option (List Char)),
      D ∈ trackingDirs out year month runmonthid →
      (∀ fs : FileSys, fs.dir out = true → (∀ a ∈ trackingDirs out year month runmonthid, fs.file a = none) →
        ∃ fs', make fs = (fs', some D) ∧ fs'.file = fs.file ∧ fs'.dir D = true ∧ (∀ q, fs.dir q = true → fs'.dir q = true) ∧
          ∀ q, fs'.dir q = true → q ∈ trackingDirs out year month runmonthid ∨ fs.dir q = true) →
      ∀ fs, Tidied out year month runmonthid (fun D => D ++ '/' :: trackingName runid ident.toList year month) fs →
      ∃ fs', whenDo b (fun fs => writeInto fmt runid year month (r :: reps) (make fs)) fs = (fs', none) ∧
        Tidied out year month runmonthid (fun D => D ++ '/' :: trackingName runid ident.toList year month) fs' ∧
        (b = true → HoldsTable fs' (D ++ '/' :: trackingName runid ident.toList year month) (trackingTable fmt (r :: reps))) ∧
        (∀ p, (b = true → p ≠ D ++ '/' :: trackingName runid ident.toList year month) → fs'.file p = fs.file p) ∧
        ∀ q, fs'.dir q = true → q ∈ trackingDirs out year month runmonthid ∨ fs.dir q = true := by
    intro b D make hD hmake fs ht
    cases b with
    | false => exact ⟨fs, rfl, ht, by simp, fun _ _ => rfl, fun _ h => .inr h⟩
    | true =>
      obtain ⟨fs1, m1, m2, m3, m4, m5⟩ := hmake fs ht.base ht.clear
      obtain ⟨fs', w1, w2, w3, w4, w5⟩ := writeInto_step fmt hf hfe runid out runmonthid hid hrm year month r reps ident hi hr fs ht
        (make fs) D hD (by rw [m1]) (by rw [m1]; exact m2) (by rw [m1]; exact m3) (by rw [m1]; exact m4) (by rw [m1]; exact m5)
      exact ⟨fs', w1, w2, fun _ => w3, fun p hp => w4 p (hp rfl), w5⟩
  have mD : trackingDir out year month ∈ trackingDirs out year month runmonthid := by simp [trackingDirs]
  have eS : trackingDir out year month ++ '/' :: ("start_edge_case".toList ++ '_' :: runmonthid) =
      trackingDir out year month ++ "/start_edge_case_".toList ++ runmonthid := by simp
  have eE : trackingDir out year month ++ '/' :: ("end_edge_case".toList ++ '_' :: runmonthid) =
      trackingDir out year month ++ "/end_edge_case_".toList ++ runmonthid := by simp
  have mS : trackingDir out year month ++ '/' :: ("start_edge_case".toList ++ '_' :: runmonthid) ∈
      trackingDirs out year month runmonthid := by rw [eS]; simp [trackingDirs]
  have mE : trackingDir out year month ++ '/' :: ("end_edge_case".toList ++ '_' :: runmonthid) ∈
      trackingDirs out year month runmonthid := by rw [eE]; simp [trackingDirs]
  obtain ⟨f1, a1, a2, a3, a4, a5⟩ := step (edge.contains "new" || edge.contains "regular") _
    (fun fs => safeMakeTrackingDir fs out year month) mD
    (fun fs h1 h2 => makeTracking_ok out runmonthid hb year month fs h1 h2) fs t0
  obtain ⟨f2, b1, b2, b3, b4, b5⟩ := step (edge.contains "start_edge_case") _
    (fun fs => safeMakeEdgeDir fs out year month "start_edge_case".toList runmonthid) mS
    (fun fs h1 h2 => makeEdge_ok out runmonthid _ hb hrm (by decide) year month fs mS h1 h2) f1 a2
  obtain ⟨f3, c1, c2, c3, c4, c5⟩ := step (edge.contains "end_edge_case") _
    (fun fs => safeMakeEdgeDir fs out year month "end_edge_case".toList runmonthid) mE
    (fun fs h1 h2 => makeEdge_ok out runmonthid _ hb hrm (by decide) year month fs mE h1 h2) f2 b2
  rw [eS] at b3 b4
  rw [eE] at c3 c4
  have ne1 : trackingDir out year month ≠ trackingDir out year month ++ "/start_edge_case_".toList ++ runmonthid := by
    intro h
    have := congrArg List.length h
    simp at this
  have ne2 : trackingDir out year month ≠ trackingDir out year month ++ "/end_edge_case_".toList ++ runmonthid := by
    intro h
    have := congrArg List.length h
    simp at this
  have ne3 : trackingDir out year month ++ "/start_edge_case_".toList ++ runmonthid ≠
      trackingDir out year month ++ "/end_edge_case_".toList ++ runmonthid := by
    intro h
    rw [List.append_assoc, List.append_assoc] at h
    have := List.append_cancel_left h
    simp at this
  have cn : ∀ w : String, edge.contains w = true ↔ w ∈ edge := fun w => by simp
  refine ⟨f3, ?_, ?_, ?_, ?_, c2.base⟩
  · unfold trackingOutput
    rw [a1]
    simp only [thenDo]
    rw [b1]
    exact c1
  · rintro D (⟨hw, rfl⟩ | ⟨hw, rfl⟩ | ⟨hw, rfl⟩)
    · obtain ⟨s, s1, s2⟩ := a3 (by simpa using hw)
      refine ⟨s, ?_, s2⟩
      rw [c4 _ (fun _ h => ne2 (path_inj _ _ _ h)), b4 _ (fun _ h => ne1 (path_inj _ _ _ h)), s1]
    · obtain ⟨s, s1, s2⟩ := b3 (by simpa using hw)
      refine ⟨s, ?_, s2⟩
      rw [c4 _ (fun _ h => ne3 (path_inj _ _ _ h)), s1]
    · exact c3 (by simpa using hw)
  · intro p hp
    rw [c4 p (fun h => hp _ (.inr (.inr ⟨by simpa using h, rfl⟩))), b4 p (fun h => hp _ (.inr (.inl ⟨by simpa using h, rfl⟩))),
      a4 p (fun h => hp _ (.inl ⟨by simpa using h, rfl⟩))]
  · intro q hq
    rcases c5 q hq with h | h
    · exact .inl h
    rcases b5 q h with h | h
    · exact .inl h
    exact a5 q h

end MarineQC
