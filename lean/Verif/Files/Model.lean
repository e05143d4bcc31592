import Verif.Imma.Model
import Verif.Calendar.Model

/-!
# Model of the file-name and directory functions (`/repo/BackgroundField.py`, `/repo/Extended_IMMA.py` 24-61)

A path is a list of characters.  The file system maps paths to the contents of plain files and says which paths are
directories; paths that differ in spelling are taken to be different files (no links, no doubled slashes).
-/

namespace MarineQC

/-- Contents of plain files, and directories. -/
structure FileSys where
  file : List Char → Option (List Char)
  dir : List Char → Bool

/-! ## Strings -/

/-- `s.replace(pat, rep)` for a pattern that is not empty: `k` characters of the text belong to the last match and are
skipped. -/
def replaceFrom (pat rep : List Char) : Nat → List Char → List Char
  | _, [] => []
  | k + 1, _ :: s => replaceFrom pat rep k s
  | 0, c :: s => if pat.isPrefixOf (c :: s) then rep ++ replaceFrom pat rep (pat.length - 1) s
    else c :: replaceFrom pat rep 0 s

/-- `s.replace(pat, rep)`. -/
def pyReplace (pat rep s : List Char) : List Char := replaceFrom pat rep 0 s

/-- `"{:0<w>}".format(n)`: the sign, if any, then zeros, then the digits. -/
def zeroPad (w : Nat) (n : Int) : List Char :=
  if n < 0 then '-' :: (List.replicate (w - 1 - (natText n.natAbs).length) '0' ++ natText n.natAbs)
  else List.replicate (w - (natText n.natAbs).length) '0' ++ natText n.natAbs

/-- `os.path.join(a, b)` on POSIX systems. -/
def pathJoin (a b : List Char) : List Char :=
  if b.head? = some '/' then b else if a = [] ∨ a.getLast? = some '/' then a ++ b else a ++ '/' :: b

/-- `sub in s` for strings. -/
def strContains (s sub : List Char) : Bool := s.tails.any fun t => sub.isPrefixOf t

/-! ## BackgroundField.py -/

/-- The padding loop of BackgroundField.py:19-20, with the number of rounds it needs. -/
def padNine : Nat → List Char → List Char
  | 0, s => s
  | k + 1, s => if s.length < 9 then padNine k (s ++ [' ']) else s

/-- BackgroundField.py:10-24 `process_bad_id_file`, given the lines of the file. -/
def processBadIdFile (lines : List (List Char)) : List (List Char) :=
  lines.filterMap fun line =>
    let s := padNine 9 (pyRstrip line)
    if s ≠ List.replicate 9 ' ' then some s else none

/-- BackgroundField.py:27-45 `build_completions`. -/
def buildCompletions (base : List Char) : List (List Char) → List (List Char)
  | [] => []
  | s :: l => pathJoin base s :: buildCompletions (pathJoin base s) l

/-- The directory a path lies in. -/
def parentOf (p : List Char) : List Char := ((p.reverse.dropWhile (· != '/')).drop 1).reverse

/-- `os.mkdir(p)` with OSError ignored (BackgroundField.py:62-66): nothing happens if the path exists or its parent
directory does not. -/
def makeDir (fs : FileSys) (p : List Char) : FileSys :=
  if fs.dir p || (fs.file p).isSome || !fs.dir (parentOf p) then fs else ⟨fs.file, fun q => q == p || fs.dir q⟩

/-- BackgroundField.py:48-68 `safe_make_dir_generic`: the file system afterwards and the name returned. -/
def safeMakeDirGeneric (fs : FileSys) (out : List Char) (subs : List (List Char)) : FileSys × Option (List Char) :=
  ((buildCompletions out subs).foldl makeDir fs, (buildCompletions out subs).getLast?)

/-- BackgroundField.py:71-85 `safe_make_dir`. -/
def safeMakeDir (fs : FileSys) (out : List Char) (year month : Int) : FileSys × Option (List Char) :=
  safeMakeDirGeneric fs out [intText year, zeroPad 2 month]

/-- BackgroundField.py:149-167 `process_string`. -/
def processString (s : List Char) (year month day : Int) : List Char :=
  pyReplace "DDDD".toList (zeroPad 2 day)
    (pyReplace "MMMM".toList (zeroPad 2 month) (pyReplace "YYYY".toList (zeroPad 4 year) s))

/-- BackgroundField.py:170-188 `make_filename`. -/
def makeFilename (dirstub filestub : List Char) (year month day : Int) : List Char :=
  pathJoin (processString dirstub year month day) (processString filestub year month day)

/-- The candidates of BackgroundField.py:103-107 and 216-218. -/
def candidates (dirs files : List (List Char)) (year month day : Int) : List (List Char) :=
  (dirs.zip files).map fun p => makeFilename p.1 p.2 year month day

/-- The loop of BackgroundField.py:109-113. -/
def firstFile (fs : FileSys) : List (List Char) → Option (List Char) → Option (List Char)
  | [], out => out
  | f :: l, out => firstFile fs l (if out.isNone && (fs.file f).isSome then some f else out)

/-- BackgroundField.py:88-115 `icoads_filename_from_stub`. -/
def icoadsFilenameFromStub (fs : FileSys) (dirs files : List (List Char)) (year month : Option Int) :
    Except Err (Option (List Char)) :=
  match year, month with
  | some y, some m => do
    pyAssert (dirs.length == files.length)
    return firstFile fs (candidates dirs files y m 1) none
  | _, _ => .ok none

/-- BackgroundField.py:118-146 `icoads_filename`. -/
def icoadsFilename (icoads : List Char) (year month : Int) (version : String) : Except Err (Option (List Char)) := do
  pyAssert (version == "2.5" || version == "3.0")
  return if version = "2.5" then
      if year > 2007 ∧ year < 2015 then
        some (icoads ++ "/R2.5.2.".toList ++ intText year ++ '.' :: zeroPad 2 month ++ ".gz".toList)
      else some (icoads ++ "/ICOADS.2.5.1/R2.5.1.".toList ++ intText year ++ '.' :: zeroPad 2 month ++ ".gz".toList)
    else
      if year ≤ 2014 then
        some (icoads ++ "/ICOADS.3.0.0/IMMA1_R3.0.0_".toList ++ intText year ++ '-' :: zeroPad 2 month ++ ".gz".toList)
      else some (icoads ++ "/ICOADS.3.0.1/IMMA1_R3.0.1_".toList ++ intText year ++ '-' :: zeroPad 2 month ++ ".gz".toList)

/-- `os.path.isfile(f) and os.stat(f).st_size != 0`. -/
def isNonEmptyFile (fs : FileSys) (f : List Char) : Bool :=
  match fs.file f with
  | some s => !s.isEmpty
  | none => false

/-- The loop of BackgroundField.py:222-231: the file chosen and the scratch file that goes with it. -/
def chooseBackground (fs : FileSys) : List (List Char × List Char) → Option (List Char × List Char) →
    Option (List Char × List Char)
  | [], c => c
  | _ :: l, some c => chooseBackground fs l (some c)
  | (f, n) :: l, none =>
    let c := if isNonEmptyFile fs f then some (f, n) else none
    let c := if isNonEmptyFile fs (f ++ ".bz2".toList) then some (f ++ ".bz2".toList, n) else c
    chooseBackground fs l c

/-- The shell command of BackgroundField.py:243: the output file is created or emptied, and receives what `bunzip2`
makes of the input file, if there is one.  Paths are taken to contain no characters special to the shell. -/
def shellBunzip (bunzip : List Char → List Char) (fs : FileSys) (src dst : List Char) : FileSys :=
  ⟨fun p => if p = dst then some (match fs.file src with
    | some s => bunzip s
    | none => []) else fs.file p, fs.dir⟩

/-- BackgroundField.py:233-249: the name returned and the file system afterwards. -/
def openBackground (bunzip : List Char → List Char) (fs : FileSys) (orig new : List Char) : FileSys × List Char :=
  if strContains orig ".bz2".toList then
    if (fs.file new).isSome then (fs, new)
    else (shellBunzip bunzip fs (orig ++ ".bz2".toList) new, new)
  else (fs, orig)

/-- BackgroundField.py:191-249 `get_background_filename`; `scratch` is the environment variable SCRATCH, if set. -/
def getBackgroundFilename (bunzip : List Char → List Char) (scratch : Option (List Char)) (fs : FileSys)
    (dirs files : List (List Char)) (year month day : Option Int) : Except Err (FileSys × Option (List Char)) :=
  match year, month, day with
  | some y, some m, some d => do
    pyAssert (dirs.length == files.length)
    match scratch with
    | none => .error .key
    | some sc =>
      match chooseBackground fs ((dirs.zip files).map fun p =>
          (makeFilename p.1 p.2 y m d, makeFilename sc p.2 y m d)) none with
      | none => return (fs, none)
      | some c =>
        let r := openBackground bunzip fs c.1 c.2
        return (r.1, some r.2)
  | _, _, _ => .ok (fs, none)

/-! ## Extended_IMMA.py -/

/-- Extended_IMMA.py:24-37 `safe_filename`. -/
def safeFilename (s : List Char) : List Char := pyReplace ['*'] ['_'] (pyReplace ['/'] ['_'] s)

/-- Extended_IMMA.py:40-61 `datestring`: `strptime` with '%Y %m %d' takes years of exactly four digits. -/
def datestring (year month day : Int) : List Char :=
  if 1000 ≤ year && year ≤ 9999 && datetimeOk year month day then
    zeroPad 4 year ++ '-' :: zeroPad 2 month ++ '-' :: zeroPad 2 day
  else "0000-00-00".toList

end MarineQC
