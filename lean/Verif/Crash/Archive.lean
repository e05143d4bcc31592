import Verif.Crash.Tracked
import Verif.Crash.Sample
import Verif.Base.RunTrackSample

/-! # From an archive to the tracking program, with the main program killed (C127) -/

namespace MarineQC

open Spec

variable {F : Type} [LinearOrder F] [Zero F]

/-- **C127, part.**  The same with conditions on the archive only: whatever the moment at which the main program is killed, the tracking
program reads exactly the records that the archive holds of the drifter in the months completed, in order; or it stops with an error, and
then there are no such records or one of the months asked for was being written. -/
theorem C127_archive_partial (E : RunEnv F) (num : List Char → Option Rat) (rnd : Rat → Rat)
    (h : Numerals E.fmt num rnd) (ord : List (List Char) → List (List Char)) (hord : ∀ l, (ord l).Perm l)
    (lib : ClimLib Arr3) (hE : RunReady E lib)
    (months chunk : List (Int × Int)) (fs g : FileSys) (hn : months.Nodup) (htr : E.read.tracking = true)
    (ha : ∀ m ∈ months, ArchiveReady E.read m) (hd : ∀ m ∈ months, DriftersArchived E.read m)
    (ho : ∀ m ∈ months, OutputPlace E.runid E.out m.1 m.2 fs) (hbg : SoundBackground rnd E.read)
    (hch : ∀ m ∈ chunk, 0 ≤ m.1 ∧ 0 ≤ m.2)
    (arg : List Char) (ident : String) (harg : ident.toList = targetId arg) (hs : '/' ∉ ident.toList) (hst : '*' ∉ ident.toList)
    (hi : '"' ∉ ident.toList ∧ Tidy ident.toList ∧ ident.toList ≠ missing)
    (hrec : ∀ m ∈ months, DrifterRecords rnd E.read ident m)
    (hsafe : ∀ m ∈ months, ∀ rec ∈ recordsIn E.read.excl m (linesOfFile E.read m), FromDrifter rec →
      ∀ j, textOf (rec.data "ID") = some j → safeFilename j.toList = ident.toList → j = ident)
    (hnew : ∀ m ∈ chunk, ∀ pre ∈ openedFiles, fs.file (inputPath E.out E.runid (targetId arg) m.1 m.2 pre) = none)
    (hg : Interrupted (monthsProg E months lib) fs g) :
    ∃ done, done <+: months ∧
      ((∃ R, readChunk num ord g E.out E.runid arg chunk = .ok R ∧
          List.Forall₂ (TrackedAs rnd) (trackedRecords E.read done chunk ident) R) ∨
        (∃ e, readChunk num ord g E.out E.runid arg chunk = .error e) ∧
          (trackedRecords E.read done chunk ident = [] ∨ ∃ m ∈ chunk, months[done.length]? = some m)) := by
  have hex : ∀ m : Int × Int, ∃ d, m ∈ months → ∃ lib', checkedMonth E lib m = .ok (d, lib') := by
    intro m
    by_cases hm : m ∈ months
    · obtain ⟨d, lib', h⟩ := archive_checked E lib hE m (ha m hm)
      exact ⟨d, fun _ => ⟨lib', h⟩⟩
    · exact ⟨⟨[], [], []⟩, fun h => absurd h hm⟩
  choose deck hdeck using hex
  have hb : ∀ m ∈ months, 1 ≤ m.2 ∧ m.2 ≤ 12 := fun m hm => (ha m hm).month
  obtain ⟨done, d1, d2, -⟩ := C127_interrupted_partial E num rnd h ord hord hE.dflags hE.vflags hE.order lib
    deck months chunk fs g hn hb hdeck
    (fun m hm => by
      obtain ⟨lib', hk⟩ := hdeck m hm
      exact archive_output E lib lib' m (ha m hm) _ hk fs (ho m hm))
    htr
    (fun m hm => by
      obtain ⟨lib', hk⟩ := hdeck m hm
      exact archive_drifters E lib lib' m (ha m hm) (hd m hm) _ hk)
    hch arg ident harg hs hst
    (fun q hq => by
      obtain ⟨m, -, hm, h1, h2, h3⟩ := handedOn_mem hq
      obtain ⟨lib', hk⟩ := hdeck m hm
      obtain ⟨rec, -, -, -, -, -, -, -, k, -⟩ := record_handed E hE.geo hE.ships.toGoodShipParams lib lib' m (ha m hm) _ hk rnd ident hi hbg
        (hrec m hm) q h1 h2 h3
      exact k)
    (fun m hm r hr hdn j hj hsj => by
      obtain ⟨lib', hk⟩ := hdeck m hm
      obtain ⟨n, hn'⟩ := List.mem_iff_getElem?.mp hr
      obtain ⟨p, hp, r0, c1, c2⟩ := forall2_get (checkedMonth_records E lib lib' m (hb m hm) _ hk).flip n r hn'
      obtain ⟨e1, e2⟩ := recordsFor_source (List.mem_of_getElem? hp)
      obtain ⟨e3, e4⟩ := (after_drifts c1 c2).mp hdn
      rw [e3] at e2
      exact hsafe m hm _ e2 e4 j (by rw [← (C104_contents c1).1, ← c2.id, hj]) hsj)
    hnew hg
  have hrows := handedOn_records E lib deck done chunk (fun m hm => hb m (d1.subset hm)) (fun m hm => hdeck m (d1.subset hm)) ident
  refine ⟨done, d1, ?_⟩
  rcases d2 with ⟨R, r1, r2⟩ | ⟨r1, r2⟩
  · exact Or.inl ⟨R, r1, forall2_chain (R := fun rec r => ∃ (m : Int × Int) (r0 : Report),
      ReadAs E.read.hum E.read.elev E.read.params lib m.1 m.2 m rec r0 ∧ AfterChecks r0 r) (S := ReadBack rnd) (T := TrackedAs rnd)
      (fun _ _ _ ⟨_, _, x, y⟩ z => tracked_back x y z) hrows r2⟩
  · refine Or.inr ⟨r1, r2.imp (fun e => ?_) id⟩
    rw [e] at hrows
    exact List.forall₂_nil_right_iff.mp hrows

/-- Non-vacuity of C127: the sample run, killed after any number of operations.  The tracking program stops with an error,
or reads both reports of the drifter in February.  (That it reads both if the run is not killed is the example of C115.) -/
example : (∀ n, (∃ e, readChunk (fun s => match parseInt s with
        | .ok n => some (n : Rat)
        | .error _ => none) (fun l => l)
        (runOps ((monthsProg sampleTrackRun [(1990, 2), (1990, 3)] sampleLib).ops.take n) (oneDir "/out".toList)).1
        "/out".toList "base".toList "D1".toList [(1990, 1), (1990, 2), (1990, 3)] = .error e) ∨
      ∃ R, readChunk (fun s => match parseInt s with
        | .ok n => some (n : Rat)
        | .error _ => none) (fun l => l)
        (runOps ((monthsProg sampleTrackRun [(1990, 2), (1990, 3)] sampleLib).ops.take n) (oneDir "/out".toList)).1
        "/out".toList "base".toList "D1".toList [(1990, 1), (1990, 2), (1990, 3)] = .ok R ∧
        R.map (fun r => r.uid) = [some "UID002", some "UID005"]) := by
  intro n
  have key := C127_archive_partial sampleTrackRun _ _ floor_numerals (fun l => l)
    (fun _ => List.Perm.refl _) sampleLib sampleTrackRun_ready
    [(1990, 2), (1990, 3)] [(1990, 1), (1990, 2), (1990, 3)] (oneDir "/out".toList)
    (runOps ((monthsProg sampleTrackRun [(1990, 2), (1990, 3)] sampleLib).ops.take n) (oneDir "/out".toList)).1 (by decide) rfl
    (fun m hm => { (sampleRun_archive m hm).1 with }) (fun m hm => { (sampleRun_archive m hm).2 with })
    (fun m hm => sampleRun_place m hm) sampleTrackRun_background (by decide) "D1".toList "D1       "
    (by decide) (by decide) (by decide) (by unfold Tidy missing; decide) (sampleTrackRun_records _)
    (by
      intro m hm rec hrec _ j hj hs
      have hsub : m ∈ [((1990 : Int), (1 : Int)), (1990, 2), (1990, 3), (1990, 4)] := by
        clear hrec hj hs
        revert m; decide
      obtain ⟨-, -, -, -, -, i, hi, e⟩ := (fourFiles_facts m hsub).2.2 rec hrec
      rw [hj, Option.some.injEq] at e
      subst e
      clear hj
      have := (show ∀ j ∈ ["D1       ", "D2       ", "S        "], safeFilename j.toList = "D1       ".toList → j = "D1       " by decide)
      exact this j hi hs)
    (fun _ _ _ _ => rfl) ⟨n, fun _ _ => rfl⟩
  obtain ⟨done, d1, d2⟩ := key
  rcases d2 with ⟨R, r1, r2⟩ | ⟨r1, -⟩
  · right
    refine ⟨R, r1, ?_⟩
    have uids : ∀ {l : List Imma} {R : List Report}, List.Forall₂ (TrackedAs (fun x => (⌊x⌋ : Rat))) l R →
        R.map (fun r => r.uid) = l.map fun rec => textOf (rec.data "UID") := by
      intro l R h
      induction h with
      | nil => rfl
      | cons a _ ih => rw [List.map_cons, List.map_cons, a.uid, ih]
    rw [uids r2]
    have : done ∈ [((1990 : Int), (2 : Int)), (1990, 3)].inits := (List.mem_inits _ _).mpr d1
    simp only [List.inits, List.map_cons, List.map_nil, List.mem_cons, List.not_mem_nil, or_false] at this
    rcases this with rfl | rfl | rfl
    · have : R = [] := List.forall₂_nil_left_iff.mp r2
      rw [this] at r1
      unfold readChunk at r1
      rw [bind_ok_iff] at r1
      obtain ⟨L, -, hL⟩ := r1
      split at hL
      · cases hL
      · rename_i hne
        injection hL with hL
        exact absurd hL hne
    · exact show (trackedRecords (sampleEnv fourFiles) [(1990, 2)] [(1990, 1), (1990, 2), (1990, 3)] "D1       ").map
        (fun rec => textOf (rec.data "UID")) = [some "UID002", some "UID005"] by decide +kernel
    · exact fourFiles_tracked
  · exact Or.inl r1

end MarineQC
