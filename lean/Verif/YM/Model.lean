import Verif.Calendar.Model

/-!
# Model of `/repo/YMCounter.py` and of the chunk selection in `/repo/Tracking_QC_wrapper.py`
-/

namespace MarineQC

/-- The object of YMCounter.py:5-19.  The parallel arrays `years` and `months` are one list of pairs; the
length `n` is the length of the lists. -/
structure YMCounter where
  /-- `self.years` and `self.months` -/
  months : List (Int × Int)
  /-- `self.counter` -/
  counter : List Int
deriving DecidableEq, Repr

/-- `self.n` (YMCounter.py:9). -/
def YMCounter.n (c : YMCounter) : Nat := c.counter.length

/-- YMCounter.py:7-19 `__init__`.  `np.zeros` of a negative length raises ValueError; storing more than `n`
months raises IndexError, so looking at `n + 1` rounds of the generator decides the outcome. -/
def YMCounter.init (y1 m1 y2 m2 : Int) : Except Err YMCounter := do
  let n := 12 * (y2 - y1) + m2 - m1 + 1
  if n < 0 then .error .value
  else do
    let r ← yearMonthGen (n.toNat + 1) y1 m1 y2 m2
    match r with
    | none => .error .index
    | some l =>
      if l.length ≤ n.toNat then
        return { months := l ++ List.replicate (n.toNat - l.length) (0, 0),
                 counter := List.replicate n.toNat 0 }
      else .error .index

/-- YMCounter.py:21-22 `setym`: store `flag` at every position whose year and month match. -/
def YMCounter.setym (c : YMCounter) (y m flag : Int) : YMCounter :=
  { c with counter := List.zipWith (fun t x => if t.1 = y ∧ t.2 = m then flag else x) c.months c.counter }

/-- The local variables of `get_chunks` (YMCounter.py:26-31), `i` being the loop index. -/
structure ChunkState where
  i : Int
  starts : List Int
  ends : List Int
  zeros : Int
  lastdata : Int
deriving DecidableEq, Repr

/-- YMCounter.py:26-29. -/
def ChunkState.init : ChunkState := { i := 0, starts := [], ends := [], zeros := 10, lastdata := -1 }

/-- One round of the loop YMCounter.py:31-45; `x` is `self.counter[i]`. -/
def chunkStep (gap : Int) (st : ChunkState) (x : Int) : ChunkState :=
  -- lines 33-34
  let st := if x = 0 then { st with zeros := st.zeros + 1 } else st
  -- lines 36-41
  let st :=
    if x = 1 ∧ st.zeros ≥ gap then
      let st := { st with starts := st.starts ++ [st.i], zeros := 0 }
      if st.lastdata ≠ -1 then { st with ends := st.ends ++ [st.lastdata], lastdata := -1 } else st
    else st
  -- lines 43-45
  let st := if x = 1 ∧ st.zeros < gap then { st with lastdata := st.i, zeros := 0 } else st
  { st with i := st.i + 1 }

/-- YMCounter.py:24-50 `get_chunks`. -/
def getChunks (counter : List Int) (gap : Int) : List Int × List Int :=
  let st := counter.foldl (chunkStep gap) ChunkState.init
  let ends := if st.ends.length < st.starts.length then st.ends ++ [st.lastdata] else st.ends
  (st.starts, ends)

/-- YMCounter.py:52-63 `index`: the array of positions of a year and month. -/
def YMCounter.index (c : YMCounter) (y m : Int) : List Int :=
  (c.months.zipIdx.filter fun t => t.1.1 = y ∧ t.1.2 = m).map fun t => (t.2 : Int)

/-- Truth value of the comparison of an index array with a number, as used in the `if`s of
YMCounter.py:84-88: an array of one element has that element's truth value, an empty array is false, a
longer one raises ValueError. -/
def truthArray (p : Int → Bool) (l : List Int) : Except Err Bool :=
  match l with
  | [] => .ok false
  | [a] => .ok (p a)
  | _ => .error .value

/-- The body of the loop YMCounter.py:74-94 for start index `val` and end index `e`. -/
def YMCounter.describe (c : YMCounter) (gap : Int) (val e : Int) :
    Except Err (Int × Int × Int × Int × List String) := do
  let t1 ← pyIndex c.months val
  let t2 ← pyIndex c.months e
  let i1 := c.index t1.1 t1.2
  let i2 := c.index t2.1 t2.2
  let b1 ← truthArray (fun i => decide (i < gap)) i1
  let b2 ← truthArray (fun i => decide (i > c.n - gap - 1)) i2
  let b3 ← truthArray (fun i => decide (i = c.n - gap - 1)) i2
  let cl : List String := []
  let cl := if b1 then cl ++ ["start_edge_case"] else cl
  let cl := if b2 then cl ++ ["end_edge_case"] else cl
  let cl := if b3 then cl ++ ["new"] else cl
  let cl := if ¬ ("start_edge_case" ∈ cl ∨ "end_edge_case" ∈ cl) then cl ++ ["regular"] else cl
  return (t1.1, t1.2, t2.1, t2.2, cl)

/-- YMCounter.py:65-94 `yield_start_and_end_dates`, as the list of everything yielded. -/
def YMCounter.yieldDates (c : YMCounter) (gap : Int) :
    Except Err (List (Int × Int × Int × Int × List String)) :=
  let se := getChunks c.counter gap
  (se.1.zipIdx).mapM fun t => do
    let e ← pyIndex se.2 t.2
    c.describe gap t.1 e

/-- Tracking_QC_wrapper.py:215-249: is a chunk with classification `cl` submitted in mode `edge`? -/
def submitted (edge : String) (cl : List String) : Bool :=
  edge == "all" || (edge == "standard" && cl.contains "regular") ||
  (edge == "new" && cl.contains "new") ||
  (edge == "noend" && (cl.contains "regular" || cl.contains "start_edge_case"))

/-- Tracking_QC_wrapper.py:185-186 and 209-249 for one identifier: the submissions made, in order.  (In the
program the mode is tested once, before any identifier is looked at.) -/
def submissions (edge : String) (c : YMCounter) (gap : Int) :
    Except Err (List (Int × Int × Int × Int × List String)) := do
  if ¬ (edge = "standard" ∨ edge = "all" ∨ edge = "new" ∨ edge = "noend") then .error .other
  else do
    let l ← c.yieldDates gap
    return l.filter fun t => submitted edge t.2.2.2.2

/-- Tracking_QC_wrapper.py:201-207: one line of an ID file (first column `id`) for `year`, `month`.  The
dictionary is an association list in order of insertion. -/
def recordId (y1 m1 y2 m2 : Int) (year month : Int) (id : String) :
    List (String × YMCounter) → Except Err (List (String × YMCounter))
  | [] => do
    let c ← YMCounter.init y1 m1 y2 m2
    return [(id, c.setym year month 1)]
  | (k, c) :: rest =>
    if k = id then .ok ((k, c.setym year month 1) :: rest)
    else do
      let r ← recordId y1 m1 y2 m2 year month id rest
      return (k, c) :: r

/-- Tracking_QC_wrapper.py:194-209: all lines of all the months' ID files, as a list of
(year, month, identifier) in reading order. -/
def buildIds (y1 m1 y2 m2 : Int) (lines : List (Int × Int × String)) :
    Except Err (List (String × YMCounter)) :=
  lines.foldlM (fun d t => recordId y1 m1 y2 m2 t.1 t.2.1 t.2.2 d) []

end MarineQC
