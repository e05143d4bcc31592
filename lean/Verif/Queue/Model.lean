import Verif.Wrapper.Model

/-!
# Model of the waiting for the queue in `/repo/Tracking_QC_wrapper.py`
-/

namespace MarineQC

/-- `str.count` for a text that is not empty: from left to right, `skip` characters belong to the last occurrence found. -/
def countFrom (sub : List Char) : Nat → List Char → Nat
  | _, [] => 0
  | skip + 1, _ :: s => countFrom sub skip s
  | 0, c :: s => if sub.isPrefixOf (c :: s) then countFrom sub (sub.length - 1) s + 1 else countFrom sub 0 s

/-- `s.count(sub)`: the number of occurrences that do not overlap. -/
def pyCount (sub s : List Char) : Nat := countFrom sub 0 s

/-- Tracking_QC_wrapper.py:27-37 `checkload`, with the text that `squeue -l` printed. -/
def checkload (uname text : List Char) : Nat := pyCount uname text

/-- The name in lines 109 and 113 of Tracking_QC_wrapper.py. -/
def queueUser : List Char := "hadjj".toList

/-- Tracking_QC_wrapper.py:109-113: the loop, run for at most `fuel` rounds, with the number of the next look at the queue.
`look k` is what `squeue -l` prints at the look number `k`; the result is the number of the look after the loop. -/
def waitLoop (look : Nat → List Char) : Nat → Nat → Option Nat
  | 0, _ => none
  | fuel + 1, k => if checkload queueUser (look k) > 250 then waitLoop look fuel (k + 1) else some (k + 1)

/-- Tracking_QC_wrapper.py:107-113 for one script after the other: the scripts submitted with the number of looks taken before
each; `none` if a loop has not ended within `fuel` rounds. -/
def submitWaiting (look : Nat → List Char) (fuel : Nat) : List (List Char) → Nat → Option (List (List Char × Nat))
  | [], _ => some []
  | j :: l, k => do
    let k' ← waitLoop look fuel k
    let r ← submitWaiting look fuel l k'
    return (j, k) :: r

/-! ## The queue and everybody who uses it -/

/-- A job in the queue: its user, and what is before and after the user in its line of the output of `squeue -l`. -/
structure QueueJob where
  user : List Char
  before : List Char
  after : List Char

/-- The output of `squeue -l`: two lines of headings, here one text, and a line for every job. -/
def squeueText (heading : List Char) (q : List QueueJob) : List Char :=
  heading ++ '\n' :: q.flatMap fun j => j.before ++ j.user ++ j.after ++ ['\n']

/-- Where the wrapper is: before a submission (or at the end), or between a submission and the end of the loop. -/
inductive WrapperAt
  | ready
  | waiting

/-- The wrapper, the scripts it has submitted and has still to submit, and the queue. -/
structure QueueState where
  pc : WrapperAt
  done : List (List Char)
  todo : List (List Char)
  queue : List QueueJob

/-- What can happen next.  Tracking_QC_wrapper.py:107 (`submit`, as a job of the user `queueUser`), one round of the loop of
lines 109-113 (`full`, `free`), and anything else in the system (`other`): jobs of the user end, jobs of others come and go. -/
inductive QueueStep (heading : List Char) : QueueState → QueueState → Prop
  | submit (done todo : List (List Char)) (script : List Char) (q q' : List QueueJob) (j : QueueJob)
      (hj : j.user = queueUser) (hq : q'.Perm (j :: q)) :
      QueueStep heading ⟨.ready, done, script :: todo, q⟩ ⟨.waiting, done ++ [script], todo, q'⟩
  | full (done todo : List (List Char)) (q : List QueueJob) (h : checkload queueUser (squeueText heading q) > 250) :
      QueueStep heading ⟨.waiting, done, todo, q⟩ ⟨.waiting, done, todo, q⟩
  | free (done todo : List (List Char)) (q : List QueueJob) (h : ¬ checkload queueUser (squeueText heading q) > 250) :
      QueueStep heading ⟨.waiting, done, todo, q⟩ ⟨.ready, done, todo, q⟩
  | other (pc : WrapperAt) (done todo : List (List Char)) (q q' : List QueueJob)
      (h : (q'.filter fun j => j.user == queueUser).length ≤ (q.filter fun j => j.user == queueUser).length) :
      QueueStep heading ⟨pc, done, todo, q⟩ ⟨pc, done, todo, q'⟩

end MarineQC
