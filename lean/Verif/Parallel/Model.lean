import Verif.Crash.Model
import Verif.Wrapper.StepModel
import Mathlib.Logic.Relation

/-!
# Runs of the main program (`/repo/marine_qc.py`) at the same time

The operations of a run on the file system (`monthsProg`) as a program of the pool that also models the tracking jobs
(`runSchedule`).  Two programs that write to the same file at the same time are modelled as if each wrote at the end of the
file; the theorems are about programs that do not do this.
-/

namespace MarineQC

/-- One operation on the file system after the other; a file that cannot be opened stops the program. -/
def opsAct (k : Act) : List FileOp → Act
  | [] => k
  | .mkdir p :: l => .mkdir p (opsAct k l)
  | .openw p :: l => .openw p fun b => if b then opsAct k l else .stop (some .other)
  | .put p c :: l => .write p [c] (opsAct k l)

/-- A program that writes, as a program of the pool. -/
def FileProg.act (P : FileProg) : Act := opsAct (.stop P.err) P.ops

variable {F : Type} [LinearOrder F] [Zero F]

/-- marine_qc.py:132-352: runs over the months of `parts`, one program for each part, all started at the same time.  `sched` are the
numbers of the programs in the order in which they do their next operation. -/
noncomputable def runTogether (E : RunEnv F) (lib : ClimLib Arr3) (parts : List (List (Int × Int))) (sched : List Nat) (fs : FileSys) :
    List Act × FileSys :=
  runSchedule sched (parts.map fun l => (monthsProg E l lib).act) fs

/-- No month is given to two of the programs. -/
def Spec.Divided (parts : List (List (Int × Int))) : Prop := parts.Pairwise fun l l' => ∀ m ∈ l, m ∉ l'

/-- What programs that run at the same time and are all killed may leave: they have done some of their operations, in some order, and of a text
that was written to a file a part from some place on may not have come to the file. -/
def Spec.KilledTogether (E : RunEnv F) (lib : ClimLib Arr3) (parts : List (List (Int × Int))) (fs g : FileSys) : Prop :=
  ∃ sched, g.dir = (runTogether E lib parts sched fs).2.dir ∧
    ∀ p, g.file p = (runTogether E lib parts sched fs).2.file p ∨
      (∃ l ∈ parts, .openw p ∈ (monthsProg E l lib).ops) ∧
        ∃ s t, (runTogether E lib parts sched fs).2.file p = some t ∧ s <+: t ∧ g.file p = some s

/-- What several rounds may leave, the months being divided anew each time and all programs being killed at the end of a round. -/
def Spec.KilledRounds (E : RunEnv F) (lib : ClimLib Arr3) (months : List (Int × Int)) : FileSys → FileSys → Prop :=
  Relation.ReflTransGen fun fs g => ∃ parts, Spec.Divided parts ∧ (∀ l ∈ parts, ∀ m ∈ l, m ∈ months) ∧ Spec.KilledTogether E lib parts fs g

end MarineQC
