import Verif.Crash.Rerun
import Verif.Wrapper.Sample

/-! # A sample run of the main program that is killed -/

namespace MarineQC

open Spec

theorem sampleTrackRun_run : ∃ fs', runMonths sampleTrackRun [(1990, 2), (1990, 3)] sampleLib (oneDir "/out".toList) = (fs', none) := by
  obtain ⟨fs', _, h, -⟩ := C111_run_partial sampleTrackRun sampleLib sampleTrackRun_ready [(1990, 2), (1990, 3)] (oneDir "/out".toList)
    (by decide) (fun m hm => { (sampleRun_archive m hm).1 with }) (fun m hm _ => { (sampleRun_archive m hm).2 with })
    (fun m hm => sampleRun_place m hm)
  exact ⟨fs', h⟩

theorem andThen_take {P Q : FileProg} {l : List FileOp} (h : P.ops.take l.length = l) : (P.andThen Q).ops.take l.length = l := by
  unfold FileProg.andThen
  split
  · show (P.ops ++ Q.ops).take _ = _
    have : l.length ≤ P.ops.length := by
      have := congrArg List.length h
      rw [List.length_take] at this
      omega
    rw [List.take_append_of_le_length this, h]
  · exact h

theorem outputProg_first (fmt : Rat → List Char) (dflags vflags : List (String × List String)) (G : Geo) (runid out : List Char)
    (order : List (Option String × List Nat) → List (Option String × List Nat)) (tracking : Bool) (year month : Int) (d : Deck)
    {a b : List Char} (h : buildCompletions out [intText year, zeroPad 2 month] = [a, b]) :
    (outputProg fmt dflags vflags G runid out order tracking year month d).ops.take 3 =
      [.mkdir a, .mkdir b, .openw (deckPath runid b year month false "Variables_".toList)] := by
  unfold outputProg
  dsimp only
  rw [h]
  show _ :: _ :: List.take 1 (FileProg.andThen _ _).ops = _
  congr 2
  exact andThen_take (l := [_]) (andThen_take (l := [_]) rfl)

/-- The first three operations of the sample run. -/
theorem sampleTrackRun_first : (monthsProg sampleTrackRun [(1990, 2), (1990, 3)] sampleLib).ops.take 3 =
    [.mkdir "/out/1990".toList, .mkdir "/out/1990/02".toList, .openw "/out/1990/02/Variables_199002_base.csv".toList] := by
  have hm : ((1990 : Int), (2 : Int)) ∈ [((1990 : Int), (2 : Int)), (1990, 3)] := by decide
  obtain ⟨d, lib', h⟩ := archive_checked sampleTrackRun sampleLib sampleTrackRun_ready (1990, 2)
    { (sampleRun_archive (1990, 2) hm).1 with }
  rw [monthsProg, h]
  refine andThen_take (l := [_, _, _]) (Eq.trans (outputProg_first _ _ _ _ _ _ _ _ _ _ _
    (a := "/out/1990".toList) (b := "/out/1990/02".toList) (by decide +kernel)) ?_)
  rw [show deckPath sampleTrackRun.runid "/out/1990/02".toList 1990 2 false "Variables_".toList =
      "/out/1990/02/Variables_199002_base.csv".toList by decide +kernel]

/-- Non-vacuity of C125 and C126: the sample run completes.  Killed after three operations, it leaves a file that is empty, and so is not
as it will be; started again and killed before the first operation, then started again, it completes. -/
example : ∃ fs' g g', runMonths sampleTrackRun [(1990, 2), (1990, 3)] sampleLib (oneDir "/out".toList) = (fs', none) ∧
    Killed (monthsProg sampleTrackRun [(1990, 2), (1990, 3)] sampleLib) (oneDir "/out".toList) g ∧
    Killed (monthsProg sampleTrackRun [(1990, 2), (1990, 3)] sampleLib) g g ∧
    g.file "/out/1990/02/Variables_199002_base.csv".toList = some [] ∧
    runMonths sampleTrackRun [(1990, 2), (1990, 3)] sampleLib g = (g', none) ∧ g'.file = fs'.file := by
  obtain ⟨fs', h⟩ := sampleTrackRun_run
  have k1 : Killed (monthsProg sampleTrackRun [(1990, 2), (1990, 3)] sampleLib) (oneDir "/out".toList) _ :=
    ⟨3, rfl, fun _ => Or.inl rfl⟩
  have k2 : ∀ g, Killed (monthsProg sampleTrackRun [(1990, 2), (1990, 3)] sampleLib) g g := fun g => ⟨0, rfl, fun _ => Or.inl rfl⟩
  obtain ⟨g', r1, r2⟩ := C126_restart _ _ _ _ _ _ h (Relation.ReflTransGen.tail (Relation.ReflTransGen.single k1) (k2 _))
  refine ⟨fs', _, g', h, k1, k2 _, ?_, r1, r2⟩
  rw [sampleTrackRun_first]
  decide +kernel

end MarineQC
