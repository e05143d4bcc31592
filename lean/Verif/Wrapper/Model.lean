import Verif.YM.Model
import Verif.Base.OutModel
import Verif.Tracking.Model

/-!
# Model of `/repo/Tracking_QC_wrapper.py`: the lists of identifiers and the jobs

What the program submits to the scheduler is a list of scripts.  The second half of the file is about what becomes of a script:
the words of its command line, and the arguments that `tracking_qc.py` makes of them.
-/

namespace MarineQC

/-- qc.py:1680-1710 `year_month_gen`, exhausted.  It ends after this number of rounds or never (C07). -/
def monthsBetween (y1 m1 y2 m2 : Int) : Except Err (Option (List (Int × Int))) :=
  yearMonthGen ((12 * (y2 - y1) + m2 - m1).toNat + 1) y1 m1 y2 m2

/-! ## The lists of identifiers -/

/-- Tracking_QC_wrapper.py:12-24 `safe_dir`, without the slash at the end: the path of the file opened in line 202 has two
slashes, which mean the same as one. -/
def safeDir (out : List Char) (year month : Int) : List Char := out ++ '/' :: (intText year ++ '/' :: zeroPad 2 month)

/-- Tracking_QC_wrapper.py:205-206: what a line of a list is before its first comma. -/
def idOfLine (line : List Char) : List Char := (splitCommas [] (line.reverse.dropWhile (· == '\n')).reverse).headD []

/-- Tracking_QC_wrapper.py:199-206: the entries of the list of a month. -/
def monthIds (fs : FileSys) (out : List Char) (m : Int × Int) : Except Err (List (Int × Int × String)) :=
  match fs.file (idFilePath (safeDir out m.1 m.2)) with
  | none => .error .other
  | some s => .ok ((fileLines s).map fun line => (m.1, m.2, String.ofList (idOfLine line)))

/-- Tracking_QC_wrapper.py:195-213: the dictionary of identifiers.  All lists are read before the dictionary is filled.  If
the months never end the program does not either; the model has an error there. -/
def wrapperIds (fs : FileSys) (out : List Char) (y1 m1 y2 m2 : Int) : Except Err (List (String × YMCounter)) := do
  match ← monthsBetween y1 m1 y2 m2 with
  | none => .error .other
  | some months =>
    let lines ← months.mapM (monthIds fs out)
    buildIds y1 m1 y2 m2 lines.flatten

/-! ## The jobs -/

/-- The arguments of `write_submission` that differ from job to job. -/
structure Job where
  ident : String
  yr1 : Int
  mn1 : Int
  yr2 : Int
  mn2 : Int
  edge : List String
deriving DecidableEq

/-- What all jobs share: the configuration file, the two directories and the name of the run from it, and the orders in which
the dictionaries of options and of identifiers are iterated. -/
structure WrapperEnv where
  config : List Char
  out : List Char
  trackOut : List Char
  runid : List Char
  options : List (String × List Char) → List (String × List Char)
  ids : List (String × YMCounter) → List (String × YMCounter)

/-- Tracking_QC_wrapper.py:183. -/
def runMonthId (y1 m1 y2 m2 : Int) : List Char := intText y1 ++ zeroPad 2 m1 ++ '-' :: (intText y2 ++ zeroPad 2 m2)

/-- Tracking_QC_wrapper.py:215-249: the calls of `write_submission`, in order.  (The program computes the chunks of an
identifier when it comes to it; for a range of months that is valid this does not fail.) -/
def wrapperJobs (W : WrapperEnv) (gap : Int) (edge : String) (d : List (String × YMCounter)) : Except Err (List Job) := do
  let l ← (W.ids d).mapM fun (e : String × YMCounter) => do
    let s ← submissions edge e.2 gap
    return s.map fun t => (⟨e.1, t.1, t.2.1, t.2.2.1, t.2.2.2.1, t.2.2.2.2⟩ : Job)
  return l.flatten

/-- Tracking_QC_wrapper.py:72. -/
def codeDir : List Char := "/net/home/h04/hadjj/PyWorkspace/Marine_QC/".toList

/-- `targetid.replace(" ", "")`. -/
def withoutBlanks (s : List Char) : List Char := s.filter (· != ' ')

/-- Tracking_QC_wrapper.py:74-75: the name of the script. -/
def jobName (runid runmonthid : List Char) (j : Job) : List Char :=
  "Tracking_job_".toList ++ withoutBlanks j.ident.toList ++ '_' :: (intText j.yr1 ++ zeroPad 2 j.mn1 ++
    '_' :: (intText j.yr2 ++ zeroPad 2 j.mn2 ++ '_' :: (runmonthid ++ '_' :: runid)))

/-- Tracking_QC_wrapper.py:77-79: the dictionary of options. -/
def jobOptions (config runmonthid : List Char) (j : Job) : List (String × List Char) :=
  [("id", j.ident.toList), ("config", config), ("yr1", intText j.yr1), ("mn1", intText j.mn1), ("yr2", intText j.yr2),
    ("mn2", intText j.mn2), ("edge", [' '].intercalate (j.edge.map String.toList)), ("runmonthid", runmonthid)]

/-- Tracking_QC_wrapper.py:81-83. -/
def jobCommand (W : WrapperEnv) (runmonthid : List Char) (j : Job) : List Char :=
  "python ".toList ++ codeDir ++ "tracking_qc.py".toList ++
    (W.options (jobOptions W.config runmonthid j)).flatMap fun o => ' ' :: '-' :: (o.1.toList ++ ' ' :: o.2)

/-- Tracking_QC_wrapper.py:97-98 and 102-103: the names of the two logs. -/
def logName (W : WrapperEnv) (pre : String) (j : Job) : List Char :=
  W.trackOut ++ "/TrackingQC/logs".toList ++ '/' :: (pre.toList ++ intText j.yr2 ++ zeroPad 2 j.mn2 ++ withoutBlanks j.ident.toList ++
    '_' :: W.runid)

/-- Tracking_QC_wrapper.py:94-103: the text of the script. -/
def jobScript (W : WrapperEnv) (runmonthid : List Char) (j : Job) : List Char :=
  ["#!/bin/bash -l".toList, "#SBATCH --mem=8000".toList, "#SBATCH --ntasks=1".toList,
    "#SBATCH --output=".toList ++ logName W "SPICE_trackqc_errout" j, "#SBATCH --time=30".toList, [],
    "module load scitools/default_legacy-current".toList,
    jobCommand W runmonthid j ++ " > ".toList ++ logName W "SPICE_trackqc_genout" j].flatMap fun l => l ++ ['\n']

/-- Tracking_QC_wrapper.py:40-49 `safemake`. -/
def safemake (folder : List Char) (fs : FileSys) : FileSys × Option Err :=
  if fs.dir folder || (fs.file folder).isSome then (fs, none)
  else if fs.dir (parentOf folder) then (makeDir fs folder, none)
  else (fs, some .other)

/-- Tracking_QC_wrapper.py:85-105 of `write_submission`: the directories and the script. -/
def writeScript (W : WrapperEnv) (runmonthid : List Char) (j : Job) (fs : FileSys) : FileSys × Option Err :=
  thenDo (safemake (W.trackOut ++ "/TrackingQC".toList) fs) fun fs =>
  thenDo (safemake (W.trackOut ++ "/TrackingQC/logs".toList) fs) fun fs =>
  thenDo (safemake (W.trackOut ++ "/TrackingQC/jobs".toList) fs) fun fs =>
    writeFile fs (W.trackOut ++ "/TrackingQC/jobs".toList ++ '/' :: jobName W.runid runmonthid j) [.ok (jobScript W runmonthid j)]

/-- Tracking_QC_wrapper.py:52-113 `write_submission` for one job after the other: the scripts submitted, in order, and the file
system.  The scheduler takes its copy of a script when it is submitted.  Waiting for the queue (lines 109-112) is not modelled. -/
def submitAll (W : WrapperEnv) (runmonthid : List Char) : List Job → FileSys → List (List Char) × FileSys × Option Err
  | [], fs => ([], fs, none)
  | j :: js, fs =>
    match writeScript W runmonthid j fs with
    | (fs, none) =>
      let r := submitAll W runmonthid js fs
      (jobScript W runmonthid j :: r.1, r.2)
    | (fs, some e) => ([], fs, some e)

/-- Tracking_QC_wrapper.py:116-251 `main`. -/
def wrapperMain (W : WrapperEnv) (y1 m1 y2 m2 gap : Int) (edge : String) (fs : FileSys) : List (List Char) × FileSys × Option Err :=
  if ¬ (edge = "standard" ∨ edge = "all" ∨ edge = "new" ∨ edge = "noend") then ([], fs, some .other)
  else
    match (do
      let d ← wrapperIds fs W.out y1 m1 y2 m2
      wrapperJobs W gap edge d : Except Err (List Job)) with
    | .error e => ([], fs, some e)
    | .ok jobs => submitAll W (runMonthId y1 m1 y2 m2) jobs fs

/-! ## What becomes of a script -/

/-- The words of a line: what is between blanks. -/
def lineWordsFrom : List Char → List Char → List (List Char)
  | acc, [] => if acc = [] then [] else [acc]
  | acc, c :: s =>
    if c = ' ' then (if acc = [] then lineWordsFrom [] s else acc :: lineWordsFrom [] s) else lineWordsFrom (acc ++ [c]) s

/-- The words of a line. -/
def lineWords (s : List Char) : List (List Char) := lineWordsFrom [] s

/-- A character that means nothing but itself to the shell. -/
def shellPlain (c : Char) : Bool := c.isAlphanum || c == '_' || c == '-' || c == '.' || c == '/'

/-- The shell on a line of a script that runs `python` with the output sent to a file: the words after `python`.  Of the shell's
language only this is modelled: blanks part words, and a line with any other character that means something to the shell is
not understood. -/
def shellPython (line : List Char) : Option (List (List Char)) :=
  match lineWords line with
  | w :: ws =>
    if w = "python".toList ∧ ws.all (fun w => w.all shellPlain || w == ['>']) then some (ws.takeWhile (· != ['>'])) else none
  | [] => none

/-- The calls of `python` in a script. -/
def scriptCalls (text : List Char) : List (List (List Char)) :=
  (fileLines text).filterMap fun l => shellPython (l.reverse.dropWhile (· == '\n')).reverse

/-- `argparse`: the words that begin with a hyphen are options, and those that follow are theirs; the first component has
the words before the first option. -/
def argGroups (ws : List (List Char)) : List (List Char) × List (List Char × List (List Char)) :=
  ws.foldr (fun w s => if w.head? = some '-' then ([], (w, s.1) :: s.2) else (w :: s.1, s.2)) ([], [])

/-- tracking_qc.py:124-133: the options with one value. -/
def plainOptions : List String := ["-config", "-id", "-yr1", "-mn1", "-yr2", "-mn2", "-runmonthid"]

/-- tracking_qc.py:124-133: all options are known and have the right number of values, and there is nothing else.  (Options
may not be abbreviated in the model, and a negative number is an unknown option.) -/
def argsRight (g : List (List Char) × List (List Char × List (List Char))) : Bool :=
  decide (g.1 = []) && g.2.all fun o =>
    (decide (String.ofList o.1 ∈ plainOptions) && decide (o.2.length = 1)) || (decide (o.1 = "-edge".toList) && decide (o.2 ≠ []))

/-- The values of an option: those given last. -/
def argValues (g : List (List Char × List (List Char))) (name : String) : Option (List (List Char)) :=
  (g.reverse.find? fun o => o.1 == name.toList).map (·.2)

/-- An argument that has to be a number. -/
def argNumber (g : List (List Char × List (List Char))) (name : String) : Except Err Int :=
  match argValues g name with
  | some [w] => parseInt w
  | _ => .error .other

/-- The arguments of `tracking_qc.py`. -/
structure TrackArgs where
  config : List Char
  ident : List Char
  yr1 : Int
  mn1 : Int
  yr2 : Int
  mn2 : Int
  edge : List String
  runmonthid : List Char
deriving DecidableEq

/-- tracking_qc.py:123-142: the arguments, with their defaults.  Without an identifier, a date or an edge word the program stops. -/
def parseArgs (ws : List (List Char)) : Except Err TrackArgs :=
  let g := argGroups ws
  if argsRight g then do
    let y1 ← argNumber g.2 "-yr1"
    let m1 ← argNumber g.2 "-mn1"
    let y2 ← argNumber g.2 "-yr2"
    let m2 ← argNumber g.2 "-mn2"
    match argValues g.2 "-id", argValues g.2 "-edge" with
    | some [i], some e =>
      return ⟨((argValues g.2 "-config").getD ["configuration.txt".toList]).headD [], i, y1, m1, y2, m2, e.map String.ofList,
        ((argValues g.2 "-runmonthid").getD [[]]).headD []⟩
    | _, _ => .error .other
  else .error .other

/-- What `tracking_qc.py` takes from the configuration file and the file of parameters. -/
structure TrackSettings where
  out : List Char
  trackOut : List Char
  runid : List Char
  params : DriftParams

/-- tracking_qc.py:68-419 `main` with the arguments `ws`; `conf` has the settings in the configuration file of a name. -/
noncomputable def trackingProgram (fmt : Rat → List Char) (num : List Char → Option Rat)
    (order : List (List Char) → List (List Char)) (G : Geo) (elev : Int → Int → Rat → Rat → Rat → Rat → ℝ)
    (conf : List Char → Option TrackSettings) (ws : List (List Char)) (fs : FileSys) : FileSys × Option Err :=
  match parseArgs ws with
  | .error e => (fs, some e)
  | .ok a =>
    match conf a.config, monthsBetween a.yr1 a.mn1 a.yr2 a.mn2 with
    | some S, .ok (some months) =>
      trackingMain fmt num order G elev S.params S.out S.trackOut S.runid a.ident a.runmonthid months a.yr2 a.mn2 a.edge fs
    | _, _ => (fs, some .other)

/-- The scheduler runs a script: every call of `tracking_qc.py` in it, one after the other, whether or not one fails; the
exceptions are listed.  (The logs are not modelled, and nor is any other program.) -/
noncomputable def runScript (fmt : Rat → List Char) (num : List Char → Option Rat)
    (order : List (List Char) → List (List Char)) (G : Geo) (elev : Int → Int → Rat → Rat → Rat → Rat → ℝ)
    (conf : List Char → Option TrackSettings) (script : List Char) (fs : FileSys) : FileSys × List (Option Err) :=
  (scriptCalls script).foldl (fun (s : FileSys × List (Option Err)) ws =>
    if ws.head? = some (codeDir ++ "tracking_qc.py".toList) then
      let r := trackingProgram fmt num order G elev conf ws.tail s.1
      (r.1, s.2 ++ [r.2])
    else (s.1, s.2 ++ [some .other])) (fs, [])

/-- The scripts are run one after the other.  (The scheduler may also run several at the same time; that is not modelled.) -/
noncomputable def runScripts (fmt : Rat → List Char) (num : List Char → Option Rat)
    (order : List (List Char) → List (List Char)) (G : Geo) (elev : Int → Int → Rat → Rat → Rat → Rat → ℝ)
    (conf : List Char → Option TrackSettings) : List (List Char) → FileSys → FileSys × List (Option Err)
  | [], fs => (fs, [])
  | script :: scripts, fs =>
    let r := runScript fmt num order G elev conf script fs
    let q := runScripts fmt num order G elev conf scripts r.1
    (q.1, r.2 ++ q.2)

end MarineQC
