import Verif.Tracking.Handover

/-!
# C156: running the tracking program again
-/

namespace MarineQC

open Spec

namespace Spec

/-- The path of a file with tracking results, in whatever directory. -/
def IsTrackingFile (p : List Char) : Prop := ∃ D name : List Char, p = D ++ '/' :: ("Tracking_".toList ++ name) ∧ '/' ∉ name

/-- Nothing is lost: every directory is still there, and every file that holds no tracking results is as it was. -/
def OnlyTrackingFiles (fs fs' : FileSys) : Prop :=
  (∀ p, ¬ IsTrackingFile p → fs'.file p = fs.file p) ∧ ∀ q, fs.dir q = true → fs'.dir q = true

end Spec

theorem onlyTracking_refl (fs : FileSys) : OnlyTrackingFiles fs fs := ⟨fun _ _ => rfl, fun _ h => h⟩

theorem onlyTracking_trans {a b c : FileSys} (h : OnlyTrackingFiles a b) (h' : OnlyTrackingFiles b c) :
    OnlyTrackingFiles a c :=
  ⟨fun p hp => (h'.1 p hp).trans (h.1 p hp), fun q hq => h'.2 q (h.2 q hq)⟩

theorem makeDirs_only (l : List (List Char)) (fs : FileSys) : OnlyTrackingFiles fs (l.foldl makeDir fs) := by
  induction l generalizing fs with
  | nil => exact onlyTracking_refl fs
  | cons p l ih =>
    refine onlyTracking_trans ?_ (ih _)
    unfold makeDir
    split
    · exact onlyTracking_refl fs
    · exact ⟨fun _ _ => rfl, fun q hq => by simp [hq]⟩

theorem writeInto_only (fmt : Rat → List Char) (runid : List Char) (hid : '/' ∉ runid) (year month : Int) (v : List Report)
    (d : FileSys × Option (List Char)) : OnlyTrackingFiles d.1 (writeInto fmt runid year month v d).1 := by
  unfold writeInto
  split
  · exact onlyTracking_refl _
  · rename_i p _
    unfold writeTracking
    split
    · exact onlyTracking_refl _
    · rename_i r _
      split
      · exact onlyTracking_refl _
      · rename_i ident _
        unfold writeFile
        split
        · refine ⟨fun q hq => ?_, fun _ h => h⟩
          show (if q = _ then _ else _) = _
          rw [if_neg]
          rintro rfl
          refine hq ⟨p, intText year ++ zeroPad 2 month ++ '_' :: safeFilename ident.toList ++ '_' :: runid ++ ".csv".toList,
            by simp [voyagePath], ?_⟩
          have := voyageName_no_slash runid (safeFilename ident.toList) hid (C65_legal ident.toList).1 year month [] (by simp)
          simpa using this
        · exact onlyTracking_refl _

theorem safeMakeTracking_only (fs : FileSys) (out : List Char) (year month : Int) :
    OnlyTrackingFiles fs (safeMakeTrackingDir fs out year month).1 := makeDirs_only _ _

theorem safeMakeEdge_only (fs : FileSys) (out : List Char) (year month : Int) (edge runmonthid : List Char) :
    OnlyTrackingFiles fs (safeMakeEdgeDir fs out year month edge runmonthid).1 := by
  unfold safeMakeEdgeDir
  simp only
  split
  · exact safeMakeTracking_only ..
  · exact onlyTracking_trans (safeMakeTracking_only ..) (makeDirs_only _ _)

theorem whenDo_only (b : Bool) (f : FileSys → FileSys × Option Err) (hf : ∀ fs, OnlyTrackingFiles fs (f fs).1) (fs : FileSys) :
    OnlyTrackingFiles fs (whenDo b f fs).1 := by
  unfold whenDo
  split
  · exact hf fs
  · exact onlyTracking_refl fs

theorem thenDo_only (fs : FileSys) (s : FileSys × Option Err) (f : FileSys → FileSys × Option Err)
    (hs : OnlyTrackingFiles fs s.1) (hf : ∀ fs, OnlyTrackingFiles fs (f fs).1) : OnlyTrackingFiles fs (thenDo s f).1 := by
  unfold thenDo
  split
  · exact onlyTracking_trans hs (hf _)
  · exact hs

theorem trackingOutput_only (fmt : Rat → List Char) (runid out : List Char) (hid : '/' ∉ runid) (year month : Int)
    (edge : List String) (runmonthid : List Char) (v : List Report) (fs : FileSys) :
    OnlyTrackingFiles fs (trackingOutput fmt runid out year month edge runmonthid v fs).1 := by
  unfold trackingOutput
  refine thenDo_only _ _ _ (whenDo_only _ _ (fun fs => ?_) fs) fun fs => thenDo_only _ _ _ (whenDo_only _ _ (fun fs => ?_) fs)
    fun fs => whenDo_only _ _ (fun fs => ?_) fs
  · exact onlyTracking_trans (safeMakeTracking_only ..) (writeInto_only fmt runid hid ..)
  · exact onlyTracking_trans (safeMakeEdge_only ..) (writeInto_only fmt runid hid ..)
  · exact onlyTracking_trans (safeMakeEdge_only ..) (writeInto_only fmt runid hid ..)

/-- C156: whether it completes or stops with an exception, the tracking program removes no directory and changes no file
but files of tracking results. -/
theorem C156_only_tracking (fmt : Rat → List Char) (num : List Char → Option Rat)
    (ord : List (List Char) → List (List Char)) (G : Geo) (elev : Int → Int → Rat → Rat → Rat → Rat → ℝ) (P : DriftParams)
    (out trackOut runid arg runmonthid : List Char) (hid : '/' ∉ runid) (months : List (Int × Int)) (year month : Int)
    (edge : List String) (fs : FileSys) :
    OnlyTrackingFiles fs
      (trackingMain fmt num ord G elev P out trackOut runid arg runmonthid months year month edge fs).1 := by
  unfold trackingMain
  split
  · exact onlyTracking_refl fs
  · exact trackingOutput_only fmt runid trackOut hid year month edge runmonthid _ fs

theorem input_not_tracking (out runid target : List Char) (hid : '/' ∉ runid) (ht : '/' ∉ target) (year month : Int)
    (pre : String) (hp : pre = "Variables_" ∨ pre = "POS_qc_" ∨ pre = "SST_qc_") :
    ¬ IsTrackingFile (inputPath out runid target year month pre) := by
  rintro ⟨D, name, h, hn⟩
  have hp' : '/' ∉ pre.toList := by rcases hp with rfl | rfl | rfl <;> decide
  have e : inputPath out runid target year month pre = (out ++ '/' :: (intText year ++ '/' :: zeroPad 2 month)) ++
      '/' :: (pre.toList ++ intText year ++ zeroPad 2 month ++ '_' :: target ++ '_' :: runid ++ ".csv".toList) := by
    simp [inputPath]
  have ns := voyageName_no_slash runid target hid ht year month pre.toList hp'
  rw [e] at h
  have hq := congrArg parentOf h
  have hn' : '/' ∉ "Tracking_".toList ++ name := by
    rw [List.mem_append, not_or]
    exact ⟨by decide, hn⟩
  rw [parentOf_join _ _ ns, parentOf_join _ _ hn'] at hq
  rw [hq] at h
  have h := List.append_cancel_left h
  rcases hp with rfl | rfl | rfl <;> simp at h

theorem readChunk_files (num : List Char → Option Rat) (ord : List (List Char) → List (List Char)) (fs fs' : FileSys)
    (h : OnlyTrackingFiles fs fs') (out runid arg : List Char) (hid : '/' ∉ runid) (harg : '/' ∉ arg)
    (months : List (Int × Int)) :
    readChunk num ord fs' out runid arg months = readChunk num ord fs out runid arg months := by
  have ht : '/' ∉ targetId arg := by
    unfold targetId
    rw [List.mem_append, not_or]
    refine ⟨harg, fun hm => ?_⟩
    have := (List.mem_replicate.mp hm).2
    revert this
    decide
  have key : ∀ m : Int × Int, readMonth num ord fs' out runid (targetId arg) m.1 m.2 =
      readMonth num ord fs out runid (targetId arg) m.1 m.2 := by
    intro m
    unfold readMonth
    rw [h.1 _ (input_not_tracking out runid _ hid ht m.1 m.2 "Variables_" (by simp)),
      h.1 _ (input_not_tracking out runid _ hid ht m.1 m.2 "POS_qc_" (by simp)),
      h.1 _ (input_not_tracking out runid _ hid ht m.1 m.2 "SST_qc_" (by simp))]
  unfold readChunk
  rw [funext key]

/-- C156: however a run of the tracking program ended, for this or another drifter, a later run reads the same reports as
if it had not been made. -/
theorem C156_inputs (fmt : Rat → List Char) (num : List Char → Option Rat)
    (ord : List (List Char) → List (List Char)) (G : Geo) (elev : Int → Int → Rat → Rat → Rat → Rat → ℝ) (P : DriftParams)
    (out trackOut runid arg runmonthid : List Char) (hid : '/' ∉ runid) (months : List (Int × Int)) (year month : Int)
    (edge : List String) (fs : FileSys) (arg' : List Char) (harg : '/' ∉ arg') (months' : List (Int × Int)) :
    readChunk num ord
        (trackingMain fmt num ord G elev P out trackOut runid arg runmonthid months year month edge fs).1 out runid arg' months' =
      readChunk num ord fs out runid arg' months' :=
  readChunk_files num ord _ _ (C156_only_tracking fmt num ord G elev P out trackOut runid arg runmonthid hid months year month
    edge fs) out runid arg' hid harg months'

/-! ## The output of a second run -/

theorem makeDirs_known (l : List (List Char)) (fs : FileSys) (h : ∀ q ∈ l, fs.dir q = true) : l.foldl makeDir fs = fs := by
  induction l with
  | nil => rfl
  | cons p l ih =>
    have hp : makeDir fs p = fs := by
      unfold makeDir
      rw [h p (by simp)]
      simp
    rw [List.foldl_cons, hp]
    exact ih fun q hq => h q (by simp [hq])

theorem put_known (fs : FileSys) (p s : List Char) (h : fs.file p = some s) : fs.put p s = fs := by
  unfold FileSys.put
  cases fs with
  | mk file dir =>
    simp only [FileSys.mk.injEq, and_true]
    funext q
    split
    · rename_i e; rw [e]; exact h.symm
    · rfl

theorem writeInto_eq (fmt : Rat → List Char) (runid : List Char) (year month : Int) (r : Report) (reps : List Report)
    (ident : String) (hi : r.id = some ident) (fs : FileSys) (D : List Char) :
    writeInto fmt runid year month (r :: reps) (fs, some D) =
      writeFile fs (D ++ '/' :: trackingName runid ident.toList year month)
        (tableLines (r :: reps) (r :: reps) (trackingLine fmt true) (trackingLine fmt false)) := by
  show writeTracking fmt runid D year month (r :: reps) fs = _
  unfold writeTracking
  simp only [hi]
  rfl

/-- The directories needed are there, and so is the file with this text. -/
def Settled (need : List (List Char)) (path text : List Char) (fs : FileSys) : Prop :=
  (∀ q ∈ need, fs.dir q = true) ∧ fs.file path = some text

theorem makeTracking_known (out runmonthid : List Char) (hb : IsBase out) (year month : Int) (fs : FileSys)
    (hd : fs.dir out = true) (hc : ∀ a ∈ trackingDirs out year month runmonthid, fs.file a = none) :
    (∀ q ∈ buildCompletions out ["TrackingQC".toList, intText year, zeroPad 2 month],
      (safeMakeTrackingDir fs out year month).1.dir q = true) ∧
    ((∀ q ∈ buildCompletions out ["TrackingQC".toList, intText year, zeroPad 2 month], fs.dir q = true) →
      safeMakeTrackingDir fs out year month = (fs, some (trackingDir out year month))) := by
  obtain ⟨fs', e1, -⟩ := makeTracking_ok out runmonthid hb year month fs hd hc
  constructor
  · obtain ⟨fs2, p, g1, -, g3, -⟩ := C81_directories fs out ["TrackingQC".toList, intText year, zeroPad 2 month] hb (by
      intro s hs
      simp only [List.mem_cons, List.not_mem_nil, or_false] at hs
      rcases hs with rfl | rfl | rfl
      exacts [⟨by decide, by decide⟩, isName_int _, isName_pad _]) (by simp) hd (fun p hp => hc p (by
        rw [mem_completions out hb] at hp
        rcases hp with rfl | rfl | rfl <;> simp [trackingDirs]))
    intro q hq
    unfold safeMakeTrackingDir
    rw [g1]
    exact (g3 q).mpr (.inl hq)
  · intro hk
    have h1 : (safeMakeTrackingDir fs out year month).1 = fs := makeDirs_known _ _ hk
    rw [e1] at h1 ⊢
    exact congrArg (fun x => (x, some (trackingDir out year month))) h1

theorem makeEdge_known (out runmonthid edge : List Char) (hb : IsBase out) (hrm : '/' ∉ runmonthid) (he : '/' ∉ edge)
    (year month : Int) (fs : FileSys)
    (hm : trackingDir out year month ++ '/' :: (edge ++ '_' :: runmonthid) ∈ trackingDirs out year month runmonthid)
    (hd : fs.dir out = true) (hc : ∀ a ∈ trackingDirs out year month runmonthid, fs.file a = none) :
    (∀ q ∈ buildCompletions out ["TrackingQC".toList, intText year, zeroPad 2 month],
      (safeMakeEdgeDir fs out year month edge runmonthid).1.dir q = true) ∧
    ((∀ q ∈ buildCompletions out ["TrackingQC".toList, intText year, zeroPad 2 month], fs.dir q = true) →
      fs.dir (trackingDir out year month ++ '/' :: (edge ++ '_' :: runmonthid)) = true →
      safeMakeEdgeDir fs out year month edge runmonthid =
        (fs, some (trackingDir out year month ++ '/' :: (edge ++ '_' :: runmonthid)))) := by
  obtain ⟨k1, k2⟩ := makeTracking_known out runmonthid hb year month fs hd hc
  obtain ⟨fs', e1, -⟩ := makeEdge_ok out runmonthid edge hb hrm he year month fs hm hd hc
  constructor
  · intro q hq
    unfold safeMakeEdgeDir
    simp only
    split
    · exact k1 q hq
    · exact (makeDirs_only _ _).2 q (k1 q hq)
  · intro hk hD
    have hn : IsName (edge ++ '_' :: runmonthid) := by
      refine ⟨by simp, ?_⟩
      simp only [List.mem_append, List.mem_cons, not_or]
      exact ⟨he, by decide, hrm⟩
    have hcomp : buildCompletions (trackingDir out year month) [edge ++ '_' :: runmonthid] =
        [trackingDir out year month ++ '/' :: (edge ++ '_' :: runmonthid)] := by
      simp [buildCompletions, pathJoin_name _ _ (trackingDir_isBase out year month) hn]
    unfold safeMakeEdgeDir
    rw [k2 hk]
    show safeMakeDirGeneric fs _ _ = _
    unfold safeMakeDirGeneric
    rw [hcomp, makeDirs_known _ _ (by simpa using hD)]
    rfl

/-- The output of the tracking program written again over itself: nothing changes. -/
theorem trackingOutput_again (fmt : Rat → List Char) (hf : ∀ x, Plain (fmt x)) (hfe : ∀ x, NoBlankEnd (fmt x) ∧ fmt x ≠ [])
    (runid out runmonthid : List Char) (hid : '/' ∉ runid) (hrm : '/' ∉ runmonthid) (hb : IsBase out) (year month : Int)
    (edge : List String) (r : Report) (reps : List Report) (ident : String) (hi : r.id = some ident)
    (hr : ∀ q ∈ r :: reps, Writable q) (fs : FileSys) (hd : fs.dir out = true)
    (hc : ∀ a ∈ trackingDirs out year month runmonthid, fs.file a = none)
    (hfree : ∀ a ∈ trackingDirs out year month runmonthid,
      fs.dir (voyagePath runid a year month "Tracking_".toList (safeFilename ident.toList)) = false) :
    ∃ fs', trackingOutput fmt runid out year month edge runmonthid (r :: reps) fs = (fs', none) ∧
      trackingOutput fmt runid out year month edge runmonthid (r :: reps) fs' = (fs', none) := by
  have pe : ∀ D, voyagePath runid D year month "Tracking_".toList (safeFilename ident.toList) =
      D ++ '/' :: trackingName runid ident.toList year month := fun D => rfl
  simp only [pe] at hfree
  generalize hW : writeLines (tableLines (r :: reps) (r :: reps) (trackingLine fmt true) (trackingLine fmt false)) = W
  have t0 : Tidied out year month runmonthid (fun D => D ++ '/' :: trackingName runid ident.toList year month) fs :=
    ⟨hd, hc, hfree⟩
  have step : ∀ (b : Bool) (D : List Char) (need : List (List Char)) (make : FileSys → FileSys × Option (List Char)),
      D ∈ trackingDirs out year month runmonthid →
      (∀ fs : FileSys, fs.dir out = true → (∀ a ∈ trackingDirs out year month runmonthid, fs.file a = none) →
        (∃ fs', make fs = (fs', some D) ∧ fs'.file = fs.file ∧ fs'.dir D = true ∧ (∀ q, fs.dir q = true → fs'.dir q = true) ∧
          ∀ q, fs'.dir q = true → q ∈ trackingDirs out year month runmonthid ∨ fs.dir q = true) ∧
        (∀ q ∈ need, (make fs).1.dir q = true) ∧
        ((∀ q ∈ D :: need, fs.dir q = true) → make fs = (fs, some D))) →
      ∀ fs, Tidied out year month runmonthid (fun D => D ++ '/' :: trackingName runid ident.toList year month) fs →
      (∃ fs', whenDo b (fun fs => writeInto fmt runid year month (r :: reps) (make fs)) fs = (fs', none) ∧
        Tidied out year month runmonthid (fun D => D ++ '/' :: trackingName runid ident.toList year month) fs' ∧
        (b = true → W.2 = none ∧ Settled (D :: need) (D ++ '/' :: trackingName runid ident.toList year month) W.1 fs') ∧
        ∀ D' need', Settled need' (D' ++ '/' :: trackingName runid ident.toList year month) W.1 fs →
          Settled need' (D' ++ '/' :: trackingName runid ident.toList year month) W.1 fs') ∧
      ((b = true → W.2 = none ∧ Settled (D :: need) (D ++ '/' :: trackingName runid ident.toList year month) W.1 fs) →
        whenDo b (fun fs => writeInto fmt runid year month (r :: reps) (make fs)) fs = (fs, none)) := by
    intro b D need make hD hmake fs ht
    cases b with
    | false => exact ⟨⟨fs, rfl, ht, by simp, fun _ _ h => h⟩, fun _ => rfl⟩
    | true =>
      obtain ⟨⟨fs1, m1, m2, m3, m4, m5⟩, m6, m7⟩ := hmake fs ht.base ht.clear
      constructor
      · obtain ⟨fs', w1, w2, -, -, -⟩ := writeInto_step fmt hf hfe runid out runmonthid hid hrm year month r reps ident hi hr
          fs ht (make fs) D hD (by rw [m1]) (by rw [m1]; exact m2) (by rw [m1]; exact m3) (by rw [m1]; exact m4)
          (by rw [m1]; exact m5)
        have e := w1
        rw [m1, writeInto_eq fmt runid year month r reps ident hi fs1 D] at e
        unfold writeFile at e
        rw [hW] at e
        split at e
        · simp only [Prod.mk.injEq] at e
          obtain ⟨e1, e2⟩ := e
          rw [m1] at m6
          have hk : ∀ q, fs1.dir q = true → fs'.dir q = true := by rw [← e1]; exact fun _ h => h
          refine ⟨fs', w1, w2, fun _ => ⟨e2, fun q hq => ?_, ?_⟩, fun D' need' hs => ⟨fun q hq => ?_, ?_⟩⟩
          · rcases List.mem_cons.mp hq with rfl | hq
            · exact hk _ m3
            · exact hk _ (m6 q hq)
          · rw [← e1]
            simp [FileSys.put]
          · exact hk _ (m4 _ (hs.1 q hq))
          · rw [← e1]
            show (if _ = _ then some W.1 else fs1.file _) = _
            split
            · rfl
            · rw [m2]; exact hs.2
        · cases e
      · intro hs
        obtain ⟨s1, s2, s3⟩ := hs rfl
        show writeInto fmt runid year month (r :: reps) (make fs) = _
        rw [m7 s2, writeInto_eq fmt runid year month r reps ident hi fs D]
        unfold writeFile
        rw [hW, if_pos, put_known _ _ _ s3, s1]
        unfold canWrite
        rw [parent_of_join _ _ (trackingName_no_slash runid ident.toList hid year month), s2 D (by simp), ht.free D hD]
        rfl
  have mD : trackingDir out year month ∈ trackingDirs out year month runmonthid := by simp [trackingDirs]
  have eS : trackingDir out year month ++ '/' :: ("start_edge_case".toList ++ '_' :: runmonthid) =
      trackingDir out year month ++ "/start_edge_case_".toList ++ runmonthid := by simp
  have eE : trackingDir out year month ++ '/' :: ("end_edge_case".toList ++ '_' :: runmonthid) =
      trackingDir out year month ++ "/end_edge_case_".toList ++ runmonthid := by simp
  have mS : trackingDir out year month ++ '/' :: ("start_edge_case".toList ++ '_' :: runmonthid) ∈
      trackingDirs out year month runmonthid := by rw [eS]; simp [trackingDirs]
  have mE : trackingDir out year month ++ '/' :: ("end_edge_case".toList ++ '_' :: runmonthid) ∈
      trackingDirs out year month runmonthid := by rw [eE]; simp [trackingDirs]
  have sA := step (edge.contains "new" || edge.contains "regular") _
    (buildCompletions out ["TrackingQC".toList, intText year, zeroPad 2 month])
    (fun fs => safeMakeTrackingDir fs out year month) mD
    (fun fs h1 h2 => ⟨makeTracking_ok out runmonthid hb year month fs h1 h2,
      (makeTracking_known out runmonthid hb year month fs h1 h2).1,
      fun h => (makeTracking_known out runmonthid hb year month fs h1 h2).2 fun q hq => h q (List.mem_cons_of_mem _ hq)⟩)
  have sB := step (edge.contains "start_edge_case") _
    (buildCompletions out ["TrackingQC".toList, intText year, zeroPad 2 month])
    (fun fs => safeMakeEdgeDir fs out year month "start_edge_case".toList runmonthid) mS
    (fun fs h1 h2 => ⟨makeEdge_ok out runmonthid _ hb hrm (by decide) year month fs mS h1 h2,
      (makeEdge_known out runmonthid _ hb hrm (by decide) year month fs mS h1 h2).1,
      fun h => (makeEdge_known out runmonthid _ hb hrm (by decide) year month fs mS h1 h2).2 (fun q hq => h q (List.mem_cons_of_mem _ hq))
        (h _ List.mem_cons_self)⟩)
  have sC := step (edge.contains "end_edge_case") _
    (buildCompletions out ["TrackingQC".toList, intText year, zeroPad 2 month])
    (fun fs => safeMakeEdgeDir fs out year month "end_edge_case".toList runmonthid) mE
    (fun fs h1 h2 => ⟨makeEdge_ok out runmonthid _ hb hrm (by decide) year month fs mE h1 h2,
      (makeEdge_known out runmonthid _ hb hrm (by decide) year month fs mE h1 h2).1,
      fun h => (makeEdge_known out runmonthid _ hb hrm (by decide) year month fs mE h1 h2).2 (fun q hq => h q (List.mem_cons_of_mem _ hq))
        (h _ List.mem_cons_self)⟩)
  obtain ⟨f1, a1, a2, a3, -⟩ := (sA fs t0).1
  obtain ⟨f2, b1, b2, b3, b4⟩ := (sB f1 a2).1
  obtain ⟨f3, c1, c2, c3, c4⟩ := (sC f2 b2).1
  refine ⟨f3, ?_, ?_⟩
  · unfold trackingOutput
    rw [a1]
    simp only [thenDo]
    rw [b1]
    exact c1
  · unfold trackingOutput
    rw [(sA f3 c2).2 fun h => ⟨(a3 h).1, c4 _ _ (b4 _ _ (a3 h).2)⟩]
    simp only [thenDo]
    rw [(sB f3 c2).2 fun h => ⟨(b3 h).1, c4 _ _ (b3 h).2⟩]
    exact (sC f3 c2).2 c3

/-- C156: for a drifter whose reports can be tracked, running the program again after it has completed completes too and
leaves all files and directories as they are. -/
theorem C156_rerun (fmt : Rat → List Char) (hf : ∀ x, Plain (fmt x)) (hfe : ∀ x, NoBlankEnd (fmt x) ∧ fmt x ≠ [])
    (num : List Char → Option Rat) (ord : List (List Char) → List (List Char)) (G : Geo) (hG : IsDistance G)
    (elev : Int → Int → Rat → Rat → Rat → Rat → ℝ) (P : DriftParams) (hP : TrackParamsOk P)
    (out trackOut runid arg runmonthid : List Char) (months : List (Int × Int)) (year month : Int) (edge : List String)
    (hid : '/' ∉ runid) (harg : '/' ∉ arg) (hrm : '/' ∉ runmonthid) (hb : IsBase trackOut) (fs : FileSys)
    (reps : List Report) (hread : readChunk num ord fs out runid arg months = .ok reps) (hne : reps ≠ [])
    (hr : Trackable reps) (hdt : ∀ r ∈ reps, r.dt ≠ none) (ident : String) (hi : ∀ r ∈ reps, r.id = some ident)
    (hw : ∀ r ∈ reps, Writable r) (hd : fs.dir trackOut = true)
    (hc : ∀ a ∈ trackingDirs trackOut year month runmonthid, fs.file a = none)
    (hfree : ∀ a ∈ trackingDirs trackOut year month runmonthid,
      fs.dir (voyagePath runid a year month "Tracking_".toList (safeFilename ident.toList)) = false) :
    ∃ fs', trackingMain fmt num ord G elev P out trackOut runid arg runmonthid months year month edge fs = (fs', none) ∧
      trackingMain fmt num ord G elev P out trackOut runid arg runmonthid months year month edge fs' = (fs', none) := by
  obtain ⟨reps', v, h1, h2⟩ := C96_completes_partial G hG elev P hP reps hr
  obtain ⟨l1, l2⟩ := C93_only_flags G elev P hP.speed.2 reps reps' h1
  have back : ∀ r ∈ reps', ∃ r0 ∈ reps, OnlyFlags
      ["POSdrf_agr", "POSdrf_spd", "SSTdrf_tail1", "SSTdrf_tail2", "SSTdrf_bias", "SSTdrf_noise", "SSTdrf_short"] r0 r := by
    intro r hr
    obtain ⟨n, hn⟩ := List.mem_iff_getElem?.mp hr
    have hlt : n < reps.length := by rw [← l1]; exact (List.getElem?_eq_some_iff.mp hn).1
    exact ⟨_, List.getElem_mem hlt, l2 n _ _ (List.getElem?_eq_getElem hlt) hn⟩
  obtain ⟨order, o1, -, o3⟩ := C97_whole G reps' v
    (by
      intro r hr
      obtain ⟨r0, a1, a2⟩ := back r hr
      rw [a2.dt]; exact hdt r0 a1)
    (by
      intro a ha b hb
      obtain ⟨a0, a1, a2⟩ := back a ha
      obtain ⟨b0, b1, b2⟩ := back b hb
      rw [a2.id, b2.id, hi _ a1, hi _ b1]) h2
  have vback : ∀ s ∈ v, s.id = some ident ∧ Writable s := by
    intro s hs
    obtain ⟨n, hn⟩ := List.mem_iff_getElem?.mp hs
    have hlt : n < order.length := by rw [← o3.1]; exact (List.getElem?_eq_some_iff.mp hn).1
    obtain ⟨r, s', a1, a2, a3⟩ := o3.2.2 n _ (List.getElem?_eq_getElem hlt)
    rw [hn] at a2
    injection a2 with a2
    subst a2
    obtain ⟨r0, b1, b2⟩ := back r (List.mem_of_getElem? a1)
    exact ⟨by rw [a3.id, b2.id, hi _ b1], writable_only a3 (writable_only b2 (hw _ b1))⟩
  cases v with
  | nil =>
    exfalso
    apply hne
    have := o3.1
    rw [o1.length_eq, List.length_range, l1] at this
    exact List.length_eq_zero_iff.mp this.symm
  | cons s l =>
    obtain ⟨fs', e1, e2⟩ := trackingOutput_again fmt hf hfe runid trackOut runmonthid hid hrm hb year month edge s l ident
      (vback s (by simp)).1 (fun q hq => (vback q hq).2) fs hd hc hfree
    have run : ∀ f : FileSys, readChunk num ord f out runid arg months = .ok reps →
        trackingMain fmt num ord G elev P out trackOut runid arg runmonthid months year month edge f =
          trackingOutput fmt runid trackOut year month edge runmonthid (s :: l) f := by
      intro f hfr
      unfold trackingMain
      simp only [hfr, h1, h2, except_bind_ok]
    have r1 := run fs hread
    rw [e1] at r1
    refine ⟨fs', r1, ?_⟩
    have hin := C156_inputs fmt num ord G elev P out trackOut runid arg runmonthid hid months year month edge fs arg harg months
    rw [r1] at hin
    rw [run fs' (hin.trans hread), e2]

/-- C156: on what the base program has written (C98) the tracking program completes, and running it again changes
nothing. -/
theorem C156_after_base (fmt : Rat → List Char) (num : List Char → Option Rat) (rnd : Rat → Rat)
    (h : Numerals fmt num rnd) (hfe : ∀ x, NoBlankEnd (fmt x) ∧ fmt x ≠ [])
    (ord : List (List Char) → List (List Char)) (ho : ∀ l, (ord l).Perm l)
    (flags : List (String × List String)) (hp : flags.Perm voyageFlags) (G : Geo) (hG : IsDistance G)
    (elev : Int → Int → Rat → Rat → Rat → Rat → ℝ) (P : DriftParams) (hP : TrackParamsOk P)
    (out trackOut runid arg runmonthid : List Char) (hid : '/' ∉ runid) (hrm : '/' ∉ runmonthid) (hb : IsBase trackOut)
    (ident : String) (harg : ident.toList = targetId arg) (hs : '/' ∉ ident.toList) (ha : '*' ∉ ident.toList)
    (voyage : Int × Int → List Report) (written months : List (Int × Int)) (hn : written.Nodup)
    (hmonths : ∀ m ∈ written ++ months, 0 ≤ m.1 ∧ 0 ≤ m.2 ∧ m.2 < 100) (hall : ∀ m ∈ months, voyage m ≠ [] → m ∈ written)
    (hi : ∀ m, ∀ r ∈ voyage m, r.id = some ident) (hq : ∀ m, ∀ q ∈ ofMonth m.1 m.2 (voyage m), Storable rnd q)
    (hne : (months.flatMap fun m => ofMonth m.1 m.2 (voyage m)) ≠ [])
    (hh : ∀ q ∈ months.flatMap fun m => ofMonth m.1 m.2 (voyage m), Handed rnd q)
    (hm : MinutesApart rnd (months.flatMap fun m => ofMonth m.1 m.2 (voyage m)))
    (fs : FileSys) (hdir : ∀ m ∈ written, fs.dir (monthDir out m.1 m.2) = true)
    (hfree : ∀ (m : Int × Int) pre i, fs.dir (voyagePath runid (monthDir out m.1 m.2) m.1 m.2 pre i) = false)
    (hnew : ∀ (m : Int × Int) pre, fs.file (inputPath out runid (targetId arg) m.1 m.2 pre) = none)
    (year month : Int) (edge : List String) (hd : fs.dir trackOut = true)
    (hc : ∀ a ∈ trackingDirs trackOut year month runmonthid, fs.file a = none ∧
      ∀ (m : Int × Int) pre i, a ≠ voyagePath runid (monthDir out m.1 m.2) m.1 m.2 pre i)
    (hfr : ∀ a ∈ trackingDirs trackOut year month runmonthid,
      fs.dir (voyagePath runid a year month "Tracking_".toList (safeFilename ident.toList)) = false) :
    ∃ fs' fs'', writeMonths fmt flags out runid voyage written fs = (fs', none) ∧
      trackingMain fmt num ord G elev P out trackOut runid arg runmonthid months year month edge fs' = (fs'', none) ∧
      trackingMain fmt num ord G elev P out trackOut runid arg runmonthid months year month edge fs'' = (fs'', none) := by
  obtain ⟨fs', w1, -, w2⟩ := C92_chunk_partial fmt num rnd h ord ho flags hp out runid arg hid ident harg hs ha voyage written
    months hn hmonths hall hi hq fs hdir hfree hnew
  obtain ⟨R, r1, r2⟩ := w2 hne
  obtain ⟨o1, o2⟩ := writeMonths_other fmt flags hp out runid hid ident hs voyage written fs fs'
    (fun m hm => ⟨(hmonths m (by simp [hm])).1, (hmonths m (by simp [hm])).2.1⟩) (fun m _ => hi m)
    (fun m _ q hqm => (hq m q hqm).writable) hdir hfree w1
  have hiQ : ∀ q ∈ months.flatMap fun m => ofMonth m.1 m.2 (voyage m), q.id = some ident ∧ Storable rnd q := by
    intro q hqm
    obtain ⟨m, -, h2⟩ := List.mem_flatMap.mp hqm
    exact ⟨hi m q (List.mem_of_mem_filter h2), hq m q h2⟩
  obtain ⟨t1, t2, t3⟩ := handed_trackable r2 hh hm ident (fun q hq => (hiQ q hq).1)
  have hw : ∀ r ∈ R, Writable r := by
    intro r hr
    obtain ⟨n, hn⟩ := List.mem_iff_getElem?.mp hr
    obtain ⟨q, q1, q2⟩ := forall2_get r2.flip n r hn
    have := (hiQ q (List.mem_of_getElem? q1)).2.writable
    exact ⟨by rw [q2.uid]; exact this.uid, by rw [q2.ident]; exact this.ident⟩
  have hRne : R ≠ [] := by
    rintro rfl
    apply hne
    exact List.forall₂_nil_right_iff.mp r2
  have harg' : '/' ∉ arg := by
    intro hm
    apply hs
    rw [harg]
    unfold targetId
    exact List.mem_append_left _ hm
  obtain ⟨fs'', m1, m2⟩ := C156_rerun fmt (fun x => (h.plain x).1) hfe num ord G hG elev P hP out
    trackOut runid arg runmonthid months year month edge hid harg' hrm hb fs' R r1 hRne t1 t2 ident t3 hw (by rw [o1]; exact hd)
    (fun a ha => by rw [o2 a (hc a ha).2]; exact (hc a ha).1) (fun a ha => by rw [o1]; exact hfr a ha)
  exact ⟨fs', fs'', w1, m1, m2⟩

/-- Non-vacuity of C156: two reports of a drifter in each of two months. -/
example (elev : Int → Int → Rat → Rat → Rat → Rat → ℝ) : ∃ fs' fs'',
    writeMonths (fun x => intText ⌊x⌋) voyageFlags "out".toList "r1".toList handedVoyage [(1999, 1), (1999, 3)] buoyFs =
      (fs', none) ∧
    trackingMain (fun x => intText ⌊x⌋) (fun s => match parseInt s with
      | .ok n => some (n : Rat)
      | .error _ => none) id blockGeo elev driftParams "out".toList "trk".toList "r1".toList "4400123".toList "199901".toList
      [(1999, 1), (1999, 2), (1999, 3)] 1999 1 ["new", "end_edge_case"] fs' = (fs'', none) ∧
    trackingMain (fun x => intText ⌊x⌋) (fun s => match parseInt s with
      | .ok n => some (n : Rat)
      | .error _ => none) id blockGeo elev driftParams "out".toList "trk".toList "r1".toList "4400123".toList "199901".toList
      [(1999, 1), (1999, 2), (1999, 3)] 1999 1 ["new", "end_edge_case"] fs'' = (fs'', none) := by
  have ends : ∀ (d : List Char) (y m : Int) pre i, (voyagePath "r1".toList d y m pre i).getLast? = some 'v' := by
    intro d y m pre i
    unfold voyagePath
    have e : ∀ a b : List Char, (a ++ '/' :: (b ++ ".csv".toList)).getLast? = some 'v' := by
      intro a b
      rw [show a ++ '/' :: (b ++ ".csv".toList) = (a ++ '/' :: (b ++ ".cs".toList)) ++ ['v'] by simp, List.getLast?_concat]
    exact e _ _
  have nodir : ∀ p : List Char, p.getLast? = some 'v' → buoyFs.dir p = false := by
    intro p hp
    unfold buoyFs
    dsimp only
    rw [hp]
    decide
  have hfree : ∀ (m : Int × Int) pre i, buoyFs.dir (voyagePath "r1".toList (monthDir "out".toList m.1 m.2) m.1 m.2 pre i) = false := by
    intro m pre i
    exact nodir _ (ends _ _ _ _ _)
  have mem : ∀ q ∈ [(1999, 1), (1999, 2), (1999, 3)].flatMap fun m : Int × Int => ofMonth m.1 m.2 (handedVoyage m),
      ∃ m : Int × Int, q ∈ handedVoyage m := by
    intro q hq
    obtain ⟨m, -, h2⟩ := List.mem_flatMap.mp hq
    exact ⟨m, List.mem_of_mem_filter h2⟩
  have hl : ([(1999, 1), (1999, 2), (1999, 3)].flatMap fun m : Int × Int => ofMonth m.1 m.2 (handedVoyage m)).length = 4 := by
    decide +kernel
  have dirs : ∀ a ∈ trackingDirs "trk".toList 1999 1 "199901".toList, a.getLast? ≠ some 'v' := by decide +kernel
  exact C156_after_base _ _ _ floor_numerals
    (fun x => intText_end _) id (fun l => .refl l) voyageFlags (.refl _) blockGeo blockGeo_distance elev driftParams
    driftParams_ok "out".toList "trk".toList "r1".toList "4400123".toList "199901".toList (by decide) (by decide)
    ⟨by decide, by decide⟩ "4400123  " (by decide) (by decide) (by decide) handedVoyage [(1999, 1), (1999, 3)]
    [(1999, 1), (1999, 2), (1999, 3)] (by decide) (by decide)
    (by
      intro m hm hv
      obtain ⟨q, hq⟩ := List.exists_mem_of_ne_nil _ hv
      obtain ⟨-, -, -, h, -⟩ := handedVoyage_mem m q hq
      rcases h with rfl | rfl <;> decide)
    (fun m r hr => (handedVoyage_storable m r hr).2)
    (fun m q hq => (handedVoyage_storable m q (List.mem_of_mem_filter hq)).1)
    (by intro he; rw [he] at hl; cases hl)
    (by
      intro q hq
      obtain ⟨m, hq⟩ := mem q hq
      obtain ⟨u, h, rfl, hm, hu⟩ := handedVoyage_mem m q hq
      obtain ⟨d1, d2, d3⟩ := handedReport_date m.2 u h
      refine ⟨⟨10, 20, 1999, m.2, 5, h, rfl, rfl, d1, d2, d3, rfl, ?_, ?_, ?_, ?_, ?_⟩, ?_, ?_⟩
      · rcases hm with rfl | rfl <;> decide
      · rcases hu with ⟨-, rfl⟩ | ⟨-, rfl⟩ <;> norm_num
      · rcases hu with ⟨-, rfl⟩ | ⟨-, rfl⟩ <;> norm_num
      · norm_num
      · norm_num
      · intro _ _
        exact .inr ⟨11, 10, 1 / 100, rfl, rfl, rfl, by norm_num, by norm_num, by norm_num, by norm_num⟩
      · intro x hx
        have hx : some 0 = some x := hx
        injection hx with hx
        subst hx
        norm_num)
    (by
      intro a ha b hb _ _ h h' e1 e2 _ e3
      obtain ⟨m, ha⟩ := mem a ha
      obtain ⟨m', hb⟩ := mem b hb
      obtain ⟨u, k, rfl, -, hu⟩ := handedVoyage_mem m a ha
      obtain ⟨u', k', rfl, -, hu'⟩ := handedVoyage_mem m' b hb
      have e1 : some k = some h := e1
      have e2 : some k' = some h' := e2
      injection e1 with e1
      injection e2 with e2
      subst e1 e2
      rcases hu with ⟨-, rfl⟩ | ⟨-, rfl⟩ <;> rcases hu' with ⟨-, rfl⟩ | ⟨-, rfl⟩ <;> first | rfl | (norm_num at e3; done))
    buoyFs (by decide) hfree (fun _ _ => rfl) 1999 1 ["new", "end_edge_case"] (by decide)
    (fun a ha => ⟨rfl, fun m pre i he => dirs a ha (he ▸ ends _ _ _ _ _)⟩)
    (fun a _ => nodir _ (ends _ _ _ _ _))

/-- **C156.**  If the reports cannot be read, checked or put in order, the run with the new checks ends with that exception
and leaves every file as it was; so a run that ends without one has read and checked the reports. -/
theorem C156_stops (fmt : Rat → List Char) (num : List Char → Option Rat)
    (order : List (List Char) → List (List Char)) (G : Geo) (elev : Int → Int → Rat → Rat → Rat → Rat → ℝ) (P : DriftParams)
    (out trackOut runid arg runmonthid : List Char) (months : List (Int × Int)) (year month : Int) (edge : List String)
    (fs : FileSys) :
    (∀ e, readChunk num order fs out runid arg months = .error e →
      trackingMain fmt num order G elev P out trackOut runid arg runmonthid months year month edge fs = (fs, some e)) ∧
    (∀ reps e, readChunk num order fs out runid arg months = .ok reps → trackingChecks G elev P reps = .error e →
      trackingMain fmt num order G elev P out trackOut runid arg runmonthid months year month edge fs = (fs, some e)) ∧
    ∀ reps reps' e, readChunk num order fs out runid arg months = .ok reps → trackingChecks G elev P reps = .ok reps' →
      wholeVoyage G reps' = .error e →
      trackingMain fmt num order G elev P out trackOut runid arg runmonthid months year month edge fs = (fs, some e) := by
  unfold trackingMain
  refine ⟨fun e h => ?_, fun reps e h h' => ?_, fun reps reps' e h h' h'' => ?_⟩
  · rw [h]; rfl
  · rw [h, except_bind_ok, h']; rfl
  · rw [h, except_bind_ok, h', except_bind_ok, h'']

/-- Non-vacuity: there is no file for the drifter. -/
example (fmt : Rat → List Char) (num : List Char → Option Rat) (G : Geo) (elev : Int → Int → Rat → Rat → Rat → Rat → ℝ)
    (P : DriftParams) : ∃ e, trackingMain fmt num id G elev P "/out".toList "/track".toList "base".toList "D1".toList "199901".toList
      [(1999, 1)] 1999 1 ["new"] (oneDir "/out".toList) = (oneDir "/out".toList, some e) := by
  have h : ∃ e, readChunk num id (oneDir "/out".toList) "/out".toList "base".toList "D1".toList [(1999, 1)] = .error e := ⟨_, rfl⟩
  obtain ⟨e, h⟩ := h
  exact ⟨e, (C156_stops _ _ _ _ _ _ _ _ _ _ _ _ _ _ _ _).1 e h⟩

end MarineQC
