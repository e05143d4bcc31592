import Verif.Imma.Tables
import Verif.Py
import Verif.Grid.Model
import Mathlib.Data.Nat.Digits.Defs

/-!
# Model of reading and writing IMMA records (`/repo/IMMA1.py` 12-206)

Text is a list of characters.  Numbers, whether Python integers or floats, are rational numbers and arithmetic on them
is exact.  When decoding raises, values already stored stay stored; the model does not keep them.
-/

namespace MarineQC

/-- A value of a parameter. -/
inductive Val where
  | num (q : Rat)
  | str (s : List Char)
deriving DecidableEq

/-- `IMMA` (IMMA1.py:6-15): the attachments and the dictionary of parameters, whose values may be `None`. -/
structure Imma where
  attachments : List Int
  data : String → Option (Option Val)

/-- IMMA1.py:13-26 `__init__`. -/
def Imma.empty : Imma := ⟨[], fun _ => none⟩

/-! ## Python strings -/

/-- The characters for which `str.isspace` holds. -/
def isBlank (c : Char) : Bool := c == ' ' || c == '\t' || c == '\n' || c == '\r' || c == '\x0b' || c == '\x0c'

/-- `s.isspace()`. -/
def pyIsspace (s : List Char) : Bool := !s.isEmpty && s.all isBlank

/-- `s.rstrip()`. -/
def pyRstrip (s : List Char) : List Char := (s.reverse.dropWhile isBlank).reverse

/-- `s.rstrip("\n")`. -/
def stripNewlines (s : List Char) : List Char := (s.reverse.dropWhile (· == '\n')).reverse

/-- `s[n:len(s)]`. -/
def sliceFrom (s : List Char) (n : Int) : List Char :=
  if n < 0 then s.drop ((s.length : Int) + n).toNat else s.drop n.toNat

/-- The decimal digits of a natural number. -/
def natText (n : Nat) : List Char := if n = 0 then ['0'] else ((Nat.digits 10 n).map Nat.digitChar).reverse

/-- `"%d" % n`. -/
def intText (n : Int) : List Char := if n < 0 then '-' :: natText n.natAbs else natText n.natAbs

/-- `"%<w>d" % n` and `"%<w>s" % s`. -/
def padLeft (w : Nat) (s : List Char) : List Char := List.replicate (w - s.length) ' ' ++ s

/-- `"%-<w>s" % s`. -/
def padRight (w : Nat) (s : List Char) : List Char := s ++ List.replicate (w - s.length) ' '

/-- The number with these decimal digits. -/
def digitsValue (s : List Char) : Nat := s.foldl (fun a c => 10 * a + (c.toNat - 48)) 0

/-- Digits, at least one. -/
def parseDigits (s : List Char) : Except Err Nat :=
  if !s.isEmpty && s.all Char.isDigit then .ok (digitsValue s) else .error .value

/-- Digits with an optional sign. -/
def parseSigned : List Char → Except Err Int
  | [] => .error .value
  | c :: t =>
    if c = '-' then do
      let n ← parseDigits t
      return -(n : Int)
    else if c = '+' then do
      let n ← parseDigits t
      return (n : Int)
    else do
      let n ← parseDigits (c :: t)
      return (n : Int)

/-- `int(s)` of a string. -/
def parseInt (s : List Char) : Except Err Int := parseSigned (pyRstrip (s.dropWhile isBlank))

/-- The digits of IMMA1.py:202 and 206. -/
def base36 : List Char := "0123456789ABCDEFGHIJKLMNOPQRSTUVWXYZ".toList

/-- IMMA1.py:201-204 `decode_base36`: the first place where the text occurs among the digits, or -1. -/
def decodeBase36 (t : List Char) : Int :=
  match (List.range (base36.length + 1)).find? fun i => t.isPrefixOf (base36.drop i) with
  | some i => i
  | none => -1

/-- IMMA1.py:205-206 `encode_base36`.  A negative number counts from the end, with nothing at -1. -/
def encodeBase36 (t : Int) : List Char :=
  if 0 ≤ t then (base36.drop t.toNat).take 1
  else if t = -1 then [] else if -37 ≤ t then (base36.drop (36 + t).toNat).take (if t = -37 then 0 else 1) else []

/-! ## Attachments -/

/-- IMMA1.py:193-198 `getAttachment`, `getParameters` and `getDefinitions`; unknown attachments raise KeyError. -/
def layoutOf (a : Int) : Except Err (List Field) :=
  match layouts.find? fun p => p.1 == a with
  | some p => .ok p.2
  | none => .error .key

/-- IMMA1.py:116-120: the number or text of a field that is not blank. -/
def rawValue (f : Field) (s : List Char) : Except Err Val :=
  if f.enc = 2 then .ok (.num (decodeBase36 s))
  else if f.enc = 1 then (parseInt s).map fun (n : Int) => .num n
  else .ok (.str s)

/-- IMMA1.py:122-124: the value in its units. -/
def inUnits (f : Field) (v : Val) : Except Err Val :=
  match f.scale with
  | none => .ok v
  | some c =>
    if c = 1 then .ok v
    else match v with
      | .num q => .ok (.num (pyInt q * c))
      | .str t => (parseInt t).map fun (n : Int) => .num (n * c)

/-- The loop body of IMMA1.py:102-124 after the text of the field has been cut out. -/
def decodeField (f : Field) (s : List Char) : Except Err (Option Val) :=
  if pyIsspace s then .ok none
  else do
    let v ← rawValue f s
    let v ← inUnits f v
    return some v

/-- IMMA1.py:103-108: the text of the field; a field of undefined width takes all. -/
def fieldText (f : Field) (s : List Char) : List Char :=
  match f.width with
  | some w => s.take w
  | none => stripNewlines s

/-- IMMA1.py:105 and 109: the text after the field. -/
def afterField (f : Field) (s : List Char) : List Char :=
  match f.width with
  | some w => s.drop w
  | none => []

/-- IMMA1.py:93-124 `decode`. -/
def decodeFields : List Field → List Char → (String → Option (Option Val)) → Except Err (String → Option (Option Val))
  | [], _, d => .ok d
  | f :: fs, s, d => do
    let v ← decodeField f (fieldText f s)
    decodeFields fs (afterField f s) (fun k => if k = f.name then some v else d k)

/-- IMMA1.py:137-140: the scaled value. -/
def scaleValue (f : Field) (v : Val) : Except Err Val :=
  match f.scale with
  | none => .ok v
  | some c =>
    match v with
    | .num q => if c = 0 then .error .zeroDiv else .ok (.num (pyInt (q / c + 1 / 2)))
    | .str _ => .error .type

/-- IMMA1.py:142-144: as a digit in base 36.  Only integers occur here. -/
def digitValue (f : Field) (v : Val) : Except Err Val :=
  if f.enc = 2 then
    match v with
    | .num q => .ok (.str (encodeBase36 (pyInt q)))
    | .str _ => .error .type
  else .ok v

/-- IMMA1.py:146-164: as text.  A number under a character encoding is taken to be an integer. -/
def textValue (f : Field) (v : Val) : Except Err (List Char) :=
  if f.enc = 1 then
    match v with
    | .num q => .ok (padLeft (f.width.getD 0) (intText (pyInt q)))
    | .str _ => .error .type
  else
    match v with
    | .num q => .ok (padRight (f.width.getD 0) (intText (pyInt q)))
    | .str s => .ok (padRight (f.width.getD 0) s)

/-- The loop body of IMMA1.py:134-173. -/
def encodeField (f : Field) (v : Option Val) : Except Err (List Char) :=
  match v with
  | none => .ok (padLeft (f.width.getD 1) [' '])
  | some v => do
    let v ← scaleValue f v
    let v ← digitValue f v
    textValue f v

/-- The loop of IMMA1.py:133-173.  A parameter that is not in the dictionary raises KeyError. -/
def encodeFields (d : String → Option (Option Val)) : List Field → Except Err (List Char)
  | [] => .ok []
  | f :: fs =>
    match d f.name with
    | none => .error .key
    | some v => do
      let s ← encodeField f v
      let t ← encodeFields d fs
      return s ++ t

/-- IMMA1.py:175-181: number and length in front of the text. -/
def addHeader (a : Int) (s : List Char) : List Char :=
  if a = 0 then s
  else if a ≠ 99 then padLeft 2 (intText a) ++ padLeft 2 (intText (s.length + 4)) ++ s
  else padLeft 2 (intText a) ++ [' ', '0'] ++ s

/-- IMMA1.py:128-183 `encode`, with the look-up of parameters and definitions in 82-86. -/
def encodeAttachment (d : String → Option (Option Val)) (a : Int) : Except Err (List Char) := do
  let fs ← layoutOf a
  let s ← encodeFields d fs
  return addHeader a s

/-- IMMA1.py:79-89 `write`: the line written. -/
def Imma.write (r : Imma) : Except Err (List Char) := do
  let l ← r.attachments.mapM (encodeAttachment r.data)
  return pyRstrip l.flatten ++ ['\n']

/-- IMMA1.py:45-48: padding with blanks. -/
def padLine (len : Option Int) (line : List Char) : List Char :=
  match len with
  | some n => if n > 0 ∧ (line.length : Int) < n then padRight n.toNat line else line
  | none => line

/-- IMMA1.py:66-71: length of the next attachment, and the rest of the line. -/
def readLength (t line : List Char) : Except Err (Option Int × List Char) :=
  if pyIsspace t then .ok (none, line)
  else do
    let n ← parseInt t
    if n ≠ 0 then return (some (n - 4), line.drop 4) else return (some 0, line)

/-- IMMA1.py:61-74: number and length of the next attachment, and the rest of the line. -/
def readHeader (line : List Char) : Except Err (Int × Option Int × List Char) := do
  let a ← parseInt (line.take 2)
  let r ← readLength (if a = 8 then ['1', '0', '2'] else (line.drop 2).take 2) line
  let _ ← layoutOf a
  return (a, r)

/-- The loop of IMMA1.py:43-74, with a bound on the number of attachments; a theorem below shows that the length of the
line is enough. -/
def readLoop : Nat → Int → Option Int → List Char → Imma → Except Err Imma
  | 0, _, _, _, _ => .error .recursion
  | k + 1, a, len, line, r =>
    if line.length = 0 then .ok r
    else do
      let line := padLine len line
      let fs ← layoutOf a
      let d ← decodeFields fs line r.data
      let r : Imma := ⟨r.attachments ++ [a], d⟩
      match len with
      | none => return r
      | some n =>
        if n = 0 then return r
        else
          let rest := sliceFrom line n
          if rest.length > 0 then do
            let h ← readHeader rest
            readLoop k h.1 h.2.1 h.2.2 r
          else return r

/-- IMMA1.py:27-76 `readstr`. -/
def Imma.readstr (r : Imma) (line : List Char) : Except Err Imma :=
  if line = [] then .ok r
  else readLoop (line.length + 1) 0 (some 108) (stripNewlines line) r

end MarineQC
