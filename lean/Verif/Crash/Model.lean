import Verif.Base.RunModel

/-!
# Model of the main program (`/repo/marine_qc.py`), one operation on the file system at a time

What a run of the main program does to the file system is a list of operations that does not depend on the file system: it
makes directories, opens files for writing and writes to them.  Text is written one character at a time, so that a run that is killed
may leave any beginning of a text (Python keeps text back until there is enough of it or the file is closed, which leaves fewer
possibilities; `Spec.Killed` allows for it in the file of identifiers, which is open for longer).
-/

namespace MarineQC

/-- An operation on the file system. -/
inductive FileOp where
  /-- `os.mkdir(p)` with OSError ignored -/
  | mkdir (p : List Char)
  /-- `open(p, 'w')` -/
  | openw (p : List Char)
  /-- one character of `write` -/
  | put (p : List Char) (c : Char)
deriving DecidableEq

/-- One operation; `none` if it fails. -/
def FileOp.run : FileOp → FileSys → Option FileSys
  | .mkdir p, fs => some (makeDir fs p)
  | .openw p, fs => if canWrite fs p then some (fs.put p []) else none
  | .put p c, fs => some (fs.put p ((fs.file p).getD [] ++ [c]))

/-- One operation after the other until one fails: the file system, and whether all succeeded. -/
def runOps : List FileOp → FileSys → FileSys × Bool
  | [], fs => (fs, true)
  | o :: l, fs =>
    match o.run fs with
    | some fs => runOps l fs
    | none => (fs, false)

/-- A program that writes: its operations, and the exception raised after them, if any. -/
structure FileProg where
  ops : List FileOp
  err : Option Err

/-- A program that is not killed: the file system it leaves and the exception that stopped it. -/
def FileProg.run (P : FileProg) (fs : FileSys) : FileSys × Option Err :=
  ((runOps P.ops fs).1, if (runOps P.ops fs).2 then P.err else some .other)

/-- One program after the other, unless the first raises an exception. -/
def FileProg.andThen (P Q : FileProg) : FileProg :=
  match P.err with
  | none => ⟨P.ops ++ Q.ops, Q.err⟩
  | some _ => P

/-- `open`, `write` of the lines and `close`. -/
def fileProg (p : List Char) (l : List (Except Err (List Char))) : FileProg :=
  ⟨.openw p :: (writeLines l).1.map (.put p), (writeLines l).2⟩

/-- Extended_IMMA.py:3135-3160 `Deck.write_qc`. -/
def deckQcProg (runid dir : List Char) (year month : Int) (reps : List Report) : List (String × List String) → FileProg
  | [] => ⟨[], none⟩
  | b :: l =>
    (fileProg (deckPath runid dir year month false (b.1.toList ++ "_qc_".toList))
      (tableLines reps (reps.filter (inMonth year month)) (fun r => printQcBlock r b.1 b.2 true true)
        (fun r => printQcBlock r b.1 b.2 false true))).andThen (deckQcProg runid dir year month reps l)

/-- Extended_IMMA.py:3162-3216 `Deck.write_output`. -/
def deckProg (fmt : Rat → List Char) (flags : List (String × List String)) (runid dir : List Char) (year month : Int)
    (reps : List Report) : FileProg :=
  (fileProg (deckPath runid dir year month false "Variables_".toList)
    (tableLines reps (reps.filter (inMonth year month)) (fun r => printVariableBlock fmt r deckVars true true)
      (fun r => printVariableBlock fmt r deckVars false true))).andThen (deckQcProg runid dir year month reps flags)

/-- Extended_IMMA.py:2439-2459 `Voyage.write_qc`. -/
def voyageQcProg (runid dir : List Char) (year month : Int) (reps : List Report) : List (String × List String) → FileProg
  | [] => ⟨[], none⟩
  | b :: l =>
    match reps with
    | [] => ⟨[], some .index⟩
    | r :: _ =>
      match r.id with
      | none => ⟨[], some .type⟩
      | some ident =>
        (fileProg (voyagePath runid dir year month (b.1.toList ++ "_qc_".toList) ident.toList)
          (tableLines reps (reps.filter (inMonth year month)) (fun r => printQcBlock r b.1 b.2 true true)
            (fun r => printQcBlock r b.1 b.2 false true))).andThen (voyageQcProg runid dir year month reps l)

/-- Extended_IMMA.py:2513-2550 `Voyage.write_output`. -/
def voyageProg (fmt : Rat → List Char) (flags : List (String × List String)) (runid dir : List Char) (year month : Int)
    (reps : List Report) : FileProg :=
  match reps with
  | [] => ⟨[], some .index⟩
  | r :: _ =>
    match r.id with
    | none => ⟨[], some .other⟩
    | some ident =>
      (fileProg (voyagePath runid dir year month "Variables_".toList (safeFilename ident.toList))
        (tableLines reps (reps.filter (inMonth year month)) (fun r => printVariableBlock fmt r voyageVars true true)
          (fun r => printVariableBlock fmt r voyageVars false true))).andThen (voyageQcProg runid dir year month reps flags)

/-- marine_qc.py:344-349, one round of the loop; the line for `ID_file.txt` comes first. -/
def drifterRoundProg (fmt : Rat → List Char) (flags : List (String × List String)) (G : Geo) (runid dir : List Char)
    (year month : Int) (d : Deck) (l : List Nat) : FileProg :=
  match d.voyage G l with
  | .error e => ⟨[], some e⟩
  | .ok [] => ⟨[], none⟩
  | .ok (r :: v) =>
    match r.id with
    | none => ⟨[], none⟩
    | some ident =>
      FileProg.andThen ⟨(idFileLine ident.toList).map (.put (idFilePath dir)), none⟩
        (voyageProg fmt flags runid dir year month (r :: v))

/-- marine_qc.py:342-349, the loop over the entries of the index. -/
def drifterRoundsProg (fmt : Rat → List Char) (flags : List (String × List String)) (G : Geo) (runid dir : List Char)
    (year month : Int) (d : Deck) : List (Option String × List Nat) → FileProg
  | [] => ⟨[], none⟩
  | e :: es => (drifterRoundProg fmt flags G runid dir year month d e.2).andThen
      (drifterRoundsProg fmt flags G runid dir year month d es)

/-- marine_qc.py:335-350. -/
def drifterProg (fmt : Rat → List Char) (flags : List (String × List String)) (G : Geo) (runid dir : List Char)
    (year month : Int) (order : List (Option String × List Nat) → List (Option String × List Nat)) (d : Deck) : FileProg :=
  FileProg.andThen ⟨[.openw (idFilePath dir)], none⟩
    (drifterRoundsProg fmt flags G runid dir year month (d.addFilter drifterFilter) (order d.idtracker))

/-- marine_qc.py:331-350, the output of a month. -/
def outputProg (fmt : Rat → List Char) (dflags vflags : List (String × List String)) (G : Geo) (runid out : List Char)
    (order : List (Option String × List Nat) → List (Option String × List Nat)) (tracking : Bool) (year month : Int)
    (d : Deck) : FileProg :=
  let dirs := buildCompletions out [intText year, zeroPad 2 month]
  FileProg.andThen ⟨dirs.map .mkdir, none⟩
    (match dirs.getLast? with
    | none => ⟨[], some .other⟩
    | some dir => (deckProg fmt dflags runid dir year month d.reps).andThen
        (if tracking then drifterProg fmt vflags G runid dir year month order d else ⟨[], none⟩))

variable {F : Type} [LinearOrder F] [Zero F]

/-- marine_qc.py:132-352, the loop over months. -/
noncomputable def monthsProg (E : RunEnv F) : List (Int × Int) → ClimLib Arr3 → FileProg
  | [], _ => ⟨[], none⟩
  | ym :: l, lib =>
    match checkedMonth E lib ym with
    | .error e => ⟨[], some e⟩
    | .ok (d, lib) =>
      (outputProg E.fmt E.dflags E.vflags E.geo E.runid E.out E.order E.read.tracking ym.1 ym.2 d).andThen (monthsProg E l lib)

/-- What a run that is killed may leave: it has done some of its operations, from the first one on, and of a text that it has written to
a file a part from some place on may not have come to the file. -/
def Spec.Killed (P : FileProg) (fs g : FileSys) : Prop :=
  ∃ n, g.dir = (runOps (P.ops.take n) fs).1.dir ∧
    ∀ p, g.file p = (runOps (P.ops.take n) fs).1.file p ∨
      .openw p ∈ P.ops.take n ∧ ∃ s t, (runOps (P.ops.take n) fs).1.file p = some t ∧ s <+: t ∧ g.file p = some s

end MarineQC
