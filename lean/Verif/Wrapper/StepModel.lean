import Verif.Wrapper.Model

/-!
# Model of `/repo/tracking_qc.py` one operation on the file system at a time, and of programs that run at the same time

The operations are atomic; what the program computes in between is not a step of its own.  A text file that is read is
read in one step.  A text is written one character at a time, so that a program that is killed may leave any beginning of it
(Python keeps text back until there is enough of it or the file is closed, which leaves fewer possibilities).
-/

namespace MarineQC

/-- A program, as what it does to the file system next.  `stop` is its end, with the exception raised, if any. -/
inductive Act where
  | stop (e : Option Err)
  /-- `os.path.isfile(p)` -/
  | isfile (p : List Char) (k : Bool → Act)
  /-- `open(p, 'r')` and the text of the file; `none` if it cannot be opened -/
  | read (p : List Char) (k : Option (List Char) → Act)
  /-- `os.mkdir(p)` with OSError ignored -/
  | mkdir (p : List Char) (k : Act)
  /-- `open(p, 'w')`, and whether it succeeded -/
  | openw (p : List Char) (k : Bool → Act)
  /-- `write(s)` on a file opened for writing -/
  | write (p s : List Char) (k : Act)

/-- The file system with a text added at the end of a file. -/
def FileSys.append (fs : FileSys) (p s : List Char) : FileSys := fs.put p ((fs.file p).getD [] ++ s)

/-- The next operation: the rest of the program and the file system. -/
def Act.step : Act → FileSys → Act × FileSys
  | .stop e, fs => (.stop e, fs)
  | .isfile p k, fs => (k (fs.file p).isSome, fs)
  | .read p k, fs => (k (fs.file p), fs)
  | .mkdir p k, fs => (k, makeDir fs p)
  | .openw p k, fs => if canWrite fs p then (k true, fs.put p []) else (k false, fs)
  | .write p s k, fs => (k, fs.append p s)

/-- A program that runs alone until its end. -/
def Act.run : Act → FileSys → FileSys × Option Err
  | .stop e, fs => (fs, e)
  | .isfile p k, fs => (k (fs.file p).isSome).run fs
  | .read p k, fs => (k (fs.file p)).run fs
  | .mkdir p k, fs => k.run (makeDir fs p)
  | .openw p k, fs => if canWrite fs p then (k true).run (fs.put p []) else (k false).run fs
  | .write p s k, fs => k.run (fs.append p s)

/-- One program after the other, whether or not the first fails. -/
def Act.andThen : Act → Act → Act
  | .stop _, b => b
  | .isfile p k, b => .isfile p fun x => (k x).andThen b
  | .read p k, b => .read p fun x => (k x).andThen b
  | .mkdir p k, b => .mkdir p (k.andThen b)
  | .openw p k, b => .openw p fun x => (k x).andThen b
  | .write p s k, b => .write p s (k.andThen b)

/-! ## Reading -/

/-- tracking_qc.py:174-177: `yes` if one of the files is there. -/
def anyFileAct (no yes : Act) : List (List Char) → Act
  | [] => no
  | p :: ps => .isfile p fun b => if b then yes else anyFileAct no yes ps

/-- Go on with a value or stop with an exception. -/
def orStop {α : Type} (x : Except Err α) (k : α → Act) : Act :=
  match x with
  | .ok a => k a
  | .error e => .stop (some e)

/-- `open(p, 'r')` of a file that has to be there. -/
def readAct (p : List Char) (k : List Char → Act) : Act :=
  .read p fun c =>
    match c with
    | some s => k s
    | none => .stop (some .other)

/-- tracking_qc.py:182-202: the files have to be there, be not empty and have the same number of lines. -/
def countsRight : Option (List Char) → Option (List Char) → Option (List Char) → Bool
  | some v, some p, some s => decide ((fileLines v).length ≠ 0) && decide ((fileLines p).length = (fileLines v).length) &&
      decide ((fileLines s).length = (fileLines v).length)
  | _, _, _ => false

/-- tracking_qc.py:163-282: the reports of a month; `k` goes on with them. -/
def monthAct (num : List Char → Option Rat) (order : List (List Char) → List (List Char))
    (out runid target : List Char) (year month : Int) (k : List Report → Act) : Act :=
  let v := inputPath out runid target year month "Variables_"
  let p := inputPath out runid target year month "POS_qc_"
  let s := inputPath out runid target year month "SST_qc_"
  anyFileAct (k [])
    (.read v fun cv => .read p fun cp => .read s fun cs =>
      if countsRight cv cp cs then
        readAct v fun tv => orStop (csvVariables num order tv) fun reps =>
        readAct p fun tp => orStop (csvFlags order "POS" tp reps) fun reps =>
        readAct s fun ts => orStop (csvFlags order "SST" ts reps) k
      else .stop (some .other)) [v, p, s]

/-- tracking_qc.py:160-282: the reports of all months, `l` being those of the months before. -/
def monthsAct (num : List Char → Option Rat) (order : List (List Char) → List (List Char)) (out runid target : List Char)
    (k : List Report → Act) : List (Int × Int) → List Report → Act
  | [], l => k l
  | m :: ms, l => monthAct num order out runid target m.1 m.2 fun reps => monthsAct num order out runid target k ms (l ++ reps)

/-! ## Writing -/

/-- `write(s)`: the characters come to the file one after the other. -/
def textAct (p : List Char) (k : Act) : List Char → Act
  | [] => k
  | c :: s => .write p [c] (textAct p k s)

/-- `write` of one line after the other; an exception stops the program. -/
def linesAct (p : List Char) (k : Act) : List (Except Err (List Char)) → Act
  | [] => k
  | .ok s :: l => textAct p (linesAct p k l) s
  | .error e :: _ => .stop (some e)

/-- BackgroundField.py:48-68 `safe_make_dir_generic`. -/
def mkdirsAct (k : Act) : List (List Char) → Act
  | [] => k
  | p :: ps => .mkdir p (mkdirsAct k ps)

/-- Extended_IMMA.py:2461-2511 `write_tracking_output`. -/
def tableAct (fmt : Rat → List Char) (runid dir : List Char) (year month : Int) (reps : List Report) (k : Act) : Act :=
  match reps with
  | [] => .stop (some .index)
  | r :: _ =>
    match r.id with
    | none => .stop (some .other)
    | some ident =>
      let p := voyagePath runid dir year month "Tracking_".toList (safeFilename ident.toList)
      .openw p fun x =>
        if x then linesAct p k (tableLines reps reps (trackingLine fmt true) (trackingLine fmt false)) else .stop (some .other)

/-- tracking_qc.py:28-44 `safe_make_tracking_dir` and the file in it. -/
def plainAct (fmt : Rat → List Char) (runid out : List Char) (year month : Int) (v : List Report) (k : Act) : Act :=
  let l := buildCompletions out ["TrackingQC".toList, intText year, zeroPad 2 month]
  mkdirsAct (tableAct fmt runid (l.getLast?.getD []) year month v k) l

/-- tracking_qc.py:47-65 `safe_make_edge_dir` and the file in it. -/
def edgeAct (fmt : Rat → List Char) (runid out : List Char) (year month : Int) (edge : String) (runmonthid : List Char)
    (v : List Report) (k : Act) : Act :=
  let l := buildCompletions out ["TrackingQC".toList, intText year, zeroPad 2 month]
  let e := buildCompletions (l.getLast?.getD []) [edge.toList ++ '_' :: runmonthid]
  mkdirsAct (mkdirsAct (tableAct fmt runid (e.getLast?.getD []) year month v k) e) l

/-- An `if` without `else`. -/
def whenAct (b : Bool) (f : Act → Act) (k : Act) : Act := if b then f k else k

/-- tracking_qc.py:68-419 `main` for one identifier. -/
noncomputable def trackingAct (fmt : Rat → List Char) (num : List Char → Option Rat)
    (order : List (List Char) → List (List Char)) (G : Geo) (elev : Int → Int → Rat → Rat → Rat → Rat → ℝ) (P : DriftParams)
    (out trackOut runid arg runmonthid : List Char) (months : List (Int × Int)) (year month : Int) (edge : List String) : Act :=
  monthsAct num order out runid (targetId arg) (fun reps =>
    if reps = [] then .stop (some .other)
    else orStop (do
        let reps ← trackingChecks G elev P reps
        wholeVoyage G reps) fun v =>
      whenAct (edge.contains "new" || edge.contains "regular") (plainAct fmt runid trackOut year month v) <|
      whenAct (edge.contains "start_edge_case") (edgeAct fmt runid trackOut year month "start_edge_case" runmonthid v) <|
      whenAct (edge.contains "end_edge_case") (edgeAct fmt runid trackOut year month "end_edge_case" runmonthid v) <| .stop none)
    months []

/-- tracking_qc.py:68-419 `main` with the arguments `ws`. -/
noncomputable def programAct (fmt : Rat → List Char) (num : List Char → Option Rat)
    (order : List (List Char) → List (List Char)) (G : Geo) (elev : Int → Int → Rat → Rat → Rat → Rat → ℝ)
    (conf : List Char → Option TrackSettings) (ws : List (List Char)) : Act :=
  match parseArgs ws with
  | .error e => .stop (some e)
  | .ok a =>
    match conf a.config, monthsBetween a.yr1 a.mn1 a.yr2 a.mn2 with
    | some S, .ok (some months) =>
      trackingAct fmt num order G elev S.params S.out S.trackOut S.runid a.ident a.runmonthid months a.yr2 a.mn2 a.edge
    | _, _ => .stop (some .other)

/-- A script (Tracking_QC_wrapper.py:94-103): its calls one after the other. -/
noncomputable def scriptAct (fmt : Rat → List Char) (num : List Char → Option Rat)
    (order : List (List Char) → List (List Char)) (G : Geo) (elev : Int → Int → Rat → Rat → Rat → Rat → ℝ)
    (conf : List Char → Option TrackSettings) (script : List Char) : Act :=
  (scriptCalls script).foldl (fun a ws => a.andThen (
    if ws.head? = some (codeDir ++ "tracking_qc.py".toList) then programAct fmt num order G elev conf ws.tail
    else .stop (some .other))) (.stop none)

/-! ## Programs that run at the same time -/

/-- The next operation of the program with this number. -/
def poolStep (s : List Act × FileSys) (i : Nat) : List Act × FileSys :=
  match s.1[i]? with
  | none => s
  | some a => (s.1.set i (a.step s.2).1, (a.step s.2).2)

/-- Programs that run at the same time (Tracking_QC_wrapper.py:107 submits them to the scheduler): the numbers of the programs in
the order in which they do their next operation.  A program whose number does not come up any more has been killed. -/
def runSchedule (sched : List Nat) (progs : List Act) (fs : FileSys) : List Act × FileSys := sched.foldl poolStep (progs, fs)

/-- Scripts started several times over: in each round some scripts run at the same time, and what has not come to its end at the
end of a round is killed. -/
noncomputable def runRounds (fmt : Rat → List Char) (num : List Char → Option Rat)
    (order : List (List Char) → List (List Char)) (G : Geo) (elev : Int → Int → Rat → Rat → Rat → Rat → ℝ)
    (conf : List Char → Option TrackSettings) (rounds : List (List (List Char) × List Nat)) (fs : FileSys) : FileSys :=
  rounds.foldl (fun fs r => (runSchedule r.2 (r.1.map (scriptAct fmt num order G elev conf)) fs).2) fs

end MarineQC
