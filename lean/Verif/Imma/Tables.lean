import Mathlib.Data.Rat.Floor

/-!
# The attachment tables of `/repo/IMMA1.py` 213-828

Generated from the text of IMMA1.py; the numbers are the decimal numbers written there, read exactly.
-/

namespace MarineQC

/-- A parameter of an attachment: `definitions` with the name in front.  `width` is the number of characters, `lo`, `hi`,
`lo2` and `hi2` are the limits of the value in its two representations (not used by the code), `scale` its units and
`enc` its encoding (1 integer, 2 base 36, 3 characters). -/
structure Field where
  name : String
  width : Option Nat
  lo : Option Rat
  hi : Option Rat
  lo2 : Option Rat
  hi2 : Option Rat
  scale : Option Rat
  enc : Nat
deriving DecidableEq

/-- IMMA1.py:224-229 and 239-288: `parameters['00']` and `definitions['00']`. -/
def fields00 : List Field := [
  ⟨"YR", some 4, some 1600, some 2024, none, none, some 1, 1⟩,
  ⟨"MO", some 2, some 1, some 12, none, none, some 1, 1⟩,
  ⟨"DY", some 2, some 1, some 31, none, none, some 1, 1⟩,
  ⟨"HR", some 4, some 0, some (2399 / 100), none, none, some (1 / 100), 1⟩,
  ⟨"LAT", some 5, some (-90), some 90, none, none, some (1 / 100), 1⟩,
  ⟨"LON", some 6, some 0, some (35999 / 100), some (-(17999 / 100)), some 180, some (1 / 100), 1⟩,
  ⟨"IM", some 2, some 0, some 99, none, none, some 1, 1⟩,
  ⟨"ATTC", some 1, some 0, some 36, none, none, some 1, 2⟩,
  ⟨"TI", some 1, some 0, some 3, none, none, some 1, 1⟩,
  ⟨"LI", some 1, some 0, some 6, none, none, some 1, 1⟩,
  ⟨"DS", some 1, some 0, some 9, none, none, some 1, 1⟩,
  ⟨"VS", some 1, some 0, some 9, none, none, some 1, 1⟩,
  ⟨"NID", some 2, some 0, some 99, none, none, some 1, 1⟩,
  ⟨"II", some 2, some 0, some 10, none, none, some 1, 1⟩,
  ⟨"ID", some 9, none, none, none, none, none, 3⟩,
  ⟨"C1", some 2, none, none, none, none, none, 3⟩,
  ⟨"DI", some 1, some 0, some 6, none, none, some 1, 1⟩,
  ⟨"D", some 3, some 1, some 362, none, none, some 1, 1⟩,
  ⟨"WI", some 1, some 0, some 8, none, none, some 1, 1⟩,
  ⟨"W", some 3, some 0, some (999 / 10), none, none, some (1 / 10), 1⟩,
  ⟨"VI", some 1, some 0, some 2, none, none, some 1, 1⟩,
  ⟨"VV", some 2, some 90, some 99, none, none, some 1, 1⟩,
  ⟨"WW", some 2, some 0, some 99, none, none, some 1, 1⟩,
  ⟨"W1", some 1, some 0, some 9, none, none, some 1, 1⟩,
  ⟨"SLP", some 5, some 870, some (5373 / 5), none, none, some (1 / 10), 1⟩,
  ⟨"A", some 1, some 0, some 8, none, none, some 1, 1⟩,
  ⟨"PPP", some 3, some 0, some 51, none, none, some (1 / 10), 1⟩,
  ⟨"IT", some 1, some 0, some 9, none, none, some 1, 1⟩,
  ⟨"AT", some 4, some (-(999 / 10)), some (999 / 10), none, none, some (1 / 10), 1⟩,
  ⟨"WBTI", some 1, some 0, some 3, none, none, some 1, 1⟩,
  ⟨"WBT", some 4, some (-(999 / 10)), some (999 / 10), none, none, some (1 / 10), 1⟩,
  ⟨"DPTI", some 1, some 0, some 3, none, none, some 1, 1⟩,
  ⟨"DPT", some 4, some (-(999 / 10)), some (999 / 10), none, none, some (1 / 10), 1⟩,
  ⟨"SI", some 2, some 0, some 12, none, none, some 1, 1⟩,
  ⟨"SST", some 4, some (-(999 / 10)), some (999 / 10), none, none, some (1 / 10), 1⟩,
  ⟨"N", some 1, some 0, some 9, none, none, some 1, 1⟩,
  ⟨"NH", some 1, some 0, some 9, none, none, some 1, 1⟩,
  ⟨"CL", some 1, some 0, some 10, none, none, some 1, 2⟩,
  ⟨"HI", some 1, some 0, some 1, none, none, some 1, 1⟩,
  ⟨"H", some 1, some 0, some 10, none, none, some 1, 2⟩,
  ⟨"CM", some 1, some 0, some 10, none, none, some 1, 2⟩,
  ⟨"CH", some 1, some 0, some 10, none, none, some 1, 2⟩,
  ⟨"WD", some 2, some 0, some 38, none, none, some 1, 1⟩,
  ⟨"WP", some 2, some 0, some 30, some 99, some 99, some 1, 1⟩,
  ⟨"WH", some 2, some 0, some 99, none, none, some 1, 1⟩,
  ⟨"SD", some 2, some 0, some 38, none, none, some 1, 1⟩,
  ⟨"SP", some 2, some 0, some 30, some 99, some 99, some 1, 1⟩,
  ⟨"SH", some 2, some 0, some 99, none, none, some 1, 1⟩]

/-- IMMA1.py:298-303 and 313-363: `parameters['01']` and `definitions['01']`. -/
def fields01 : List Field := [
  ⟨"BSI", some 1, none, none, none, none, some 1, 1⟩,
  ⟨"B10", some 3, some 1, some 648, none, none, some 1, 1⟩,
  ⟨"B1", some 2, some 0, some 99, none, none, some 1, 1⟩,
  ⟨"DCK", some 3, some 0, some 999, none, none, some 1, 1⟩,
  ⟨"SID", some 3, some 0, some 999, none, none, some 1, 1⟩,
  ⟨"PT", some 2, some 0, some 21, none, none, some 1, 1⟩,
  ⟨"DUPS", some 2, some 0, some 14, none, none, some 1, 1⟩,
  ⟨"DUPC", some 1, some 0, some 2, none, none, some 1, 1⟩,
  ⟨"TC", some 1, some 0, some 1, none, none, some 1, 1⟩,
  ⟨"PB", some 1, some 0, some 2, none, none, some 1, 1⟩,
  ⟨"WX", some 1, some 1, some 1, none, none, some 1, 1⟩,
  ⟨"SX", some 1, some 1, some 1, none, none, some 1, 1⟩,
  ⟨"C2", some 2, some 0, some 40, none, none, some 1, 1⟩,
  ⟨"SQZ", some 1, some 1, some 35, none, none, some 1, 2⟩,
  ⟨"SQA", some 1, some 1, some 21, none, none, some 1, 2⟩,
  ⟨"AQZ", some 1, some 1, some 35, none, none, some 1, 2⟩,
  ⟨"AQA", some 1, some 1, some 21, none, none, some 1, 2⟩,
  ⟨"UQZ", some 1, some 1, some 35, none, none, some 1, 2⟩,
  ⟨"UQA", some 1, some 1, some 21, none, none, some 1, 2⟩,
  ⟨"VQZ", some 1, some 1, some 35, none, none, some 1, 2⟩,
  ⟨"VQA", some 1, some 1, some 21, none, none, some 1, 2⟩,
  ⟨"PQZ", some 1, some 1, some 35, none, none, some 1, 2⟩,
  ⟨"PQA", some 1, some 1, some 21, none, none, some 1, 2⟩,
  ⟨"DQZ", some 1, some 1, some 35, none, none, some 1, 2⟩,
  ⟨"DQA", some 1, some 1, some 21, none, none, some 1, 2⟩,
  ⟨"ND", some 1, some 1, some 2, none, none, some 1, 1⟩,
  ⟨"SF", some 1, some 1, some 15, none, none, some 1, 2⟩,
  ⟨"AF", some 1, some 1, some 15, none, none, some 1, 2⟩,
  ⟨"UF", some 1, some 1, some 15, none, none, some 1, 2⟩,
  ⟨"VF", some 1, some 1, some 15, none, none, some 1, 2⟩,
  ⟨"PF", some 1, some 1, some 15, none, none, some 1, 2⟩,
  ⟨"RF", some 1, some 1, some 15, none, none, some 1, 2⟩,
  ⟨"ZNC", some 1, some 1, some 10, none, none, some 1, 2⟩,
  ⟨"WNC", some 1, some 1, some 10, none, none, some 1, 2⟩,
  ⟨"BNC", some 1, some 1, some 10, none, none, some 1, 2⟩,
  ⟨"XNC", some 1, some 1, some 10, none, none, some 1, 2⟩,
  ⟨"YNC", some 1, some 1, some 10, none, none, some 1, 2⟩,
  ⟨"PNC", some 1, some 1, some 10, none, none, some 1, 2⟩,
  ⟨"ANC", some 1, some 1, some 10, none, none, some 1, 2⟩,
  ⟨"GNC", some 1, some 1, some 10, none, none, some 1, 2⟩,
  ⟨"DNC", some 1, some 1, some 10, none, none, some 1, 2⟩,
  ⟨"SNC", some 1, some 1, some 10, none, none, some 1, 2⟩,
  ⟨"CNC", some 1, some 1, some 10, none, none, some 1, 2⟩,
  ⟨"ENC", some 1, some 1, some 10, none, none, some 1, 2⟩,
  ⟨"FNC", some 1, some 1, some 10, none, none, some 1, 2⟩,
  ⟨"TNC", some 1, some 1, some 10, none, none, some 1, 2⟩,
  ⟨"QCE", some 2, some 0, some 63, none, none, some 1, 1⟩,
  ⟨"LZ", some 1, some 1, some 1, none, none, some 1, 1⟩,
  ⟨"QCZ", some 2, some 0, some 31, none, none, some 1, 1⟩]

/-- IMMA1.py:373-379 and 389-442: `parameters['02']` and `definitions['02']`. -/
def fields02 : List Field := [
  ⟨"OS", some 1, some 0, some 6, none, none, some 1, 1⟩,
  ⟨"OP", some 1, some 0, some 9, none, none, some 1, 1⟩,
  ⟨"FM", some 2, some 0, some 8, none, none, some 1, 1⟩,
  ⟨"IX", some 1, some 1, some 7, none, none, some 1, 1⟩,
  ⟨"W2", some 1, some 0, some 9, none, none, some 1, 1⟩,
  ⟨"SGN", some 1, some 0, some 9, none, none, some 1, 1⟩,
  ⟨"SGT", some 1, some 0, some 10, none, none, some 1, 2⟩,
  ⟨"SGH", some 2, some 0, some 50, some 56, some 99, some 1, 1⟩,
  ⟨"WMI", some 1, some 0, some 9, none, none, some 1, 1⟩,
  ⟨"SD2", some 2, some 0, some 38, none, none, some 1, 1⟩,
  ⟨"SP2", some 2, some 0, some 30, some 99, some 99, some 1, 1⟩,
  ⟨"SH2", some 2, some 0, some 99, none, none, some 1, 1⟩,
  ⟨"IS", some 1, some 1, some 5, none, none, some 1, 1⟩,
  ⟨"ES", some 2, some 0, some 99, none, none, some 1, 1⟩,
  ⟨"RS", some 1, some 0, some 4, none, none, some 1, 1⟩,
  ⟨"IC1", some 1, some 0, some 10, none, none, some 1, 2⟩,
  ⟨"IC2", some 1, some 0, some 10, none, none, some 1, 2⟩,
  ⟨"IC3", some 1, some 0, some 10, none, none, some 1, 2⟩,
  ⟨"IC4", some 1, some 0, some 10, none, none, some 1, 2⟩,
  ⟨"IC5", some 1, some 0, some 10, none, none, some 1, 2⟩,
  ⟨"IR", some 1, some 0, some 4, none, none, some 1, 1⟩,
  ⟨"RRR", some 3, some 0, some 999, none, none, some 1, 1⟩,
  ⟨"TR", some 1, some 1, some 9, none, none, some 1, 1⟩,
  ⟨"QCI", some 1, some 0, some 9, none, none, some 1, 1⟩,
  ⟨"QI1", some 1, some 0, some 9, none, none, some 1, 1⟩,
  ⟨"QI2", some 1, some 0, some 9, none, none, some 1, 1⟩,
  ⟨"QI3", some 1, some 0, some 9, none, none, some 1, 1⟩,
  ⟨"QI4", some 1, some 0, some 9, none, none, some 1, 1⟩,
  ⟨"QI5", some 1, some 0, some 9, none, none, some 1, 1⟩,
  ⟨"QI6", some 1, some 0, some 9, none, none, some 1, 1⟩,
  ⟨"QI7", some 1, some 0, some 9, none, none, some 1, 1⟩,
  ⟨"QI8", some 1, some 0, some 9, none, none, some 1, 1⟩,
  ⟨"QI9", some 1, some 0, some 9, none, none, some 1, 1⟩,
  ⟨"QI10", some 1, some 0, some 9, none, none, some 1, 1⟩,
  ⟨"QI11", some 1, some 0, some 9, none, none, some 1, 1⟩,
  ⟨"QI12", some 1, some 0, some 9, none, none, some 1, 1⟩,
  ⟨"QI13", some 1, some 0, some 9, none, none, some 1, 1⟩,
  ⟨"QI14", some 1, some 0, some 9, none, none, some 1, 1⟩,
  ⟨"QI15", some 1, some 0, some 9, none, none, some 1, 1⟩,
  ⟨"QI16", some 1, some 0, some 9, none, none, some 1, 1⟩,
  ⟨"QI17", some 1, some 0, some 9, none, none, some 1, 1⟩,
  ⟨"QI18", some 1, some 0, some 9, none, none, some 1, 1⟩,
  ⟨"QI19", some 1, some 0, some 9, none, none, some 1, 1⟩,
  ⟨"QI20", some 1, some 0, some 9, none, none, some 1, 1⟩,
  ⟨"QI21", some 1, some 0, some 9, none, none, some 1, 1⟩,
  ⟨"HDG", some 3, some 0, some 360, none, none, some 1, 1⟩,
  ⟨"COG", some 3, some 0, some 360, none, none, some 1, 1⟩,
  ⟨"SOG", some 2, some 0, some 99, none, none, some 1, 1⟩,
  ⟨"SLL", some 2, some 0, some 99, none, none, some 1, 1⟩,
  ⟨"SLHH", some 3, some (-99), some 99, none, none, some 1, 1⟩,
  ⟨"RWD", some 3, some 1, some 362, none, none, some 1, 1⟩,
  ⟨"RWS", some 3, some 0, some (999 / 10), none, none, some (1 / 10), 1⟩]

/-- IMMA1.py:452-454 and 464-484: `parameters['03']` and `definitions['03']`. -/
def fields03 : List Field := [
  ⟨"CCCC", some 4, some 65, some 90, none, none, none, 3⟩,
  ⟨"BUID", some 6, some 48, some 57, some 65, some 90, none, 3⟩,
  ⟨"BMP", some 5, some 870, some (5373 / 5), none, none, some (1 / 10), 1⟩,
  ⟨"BSWU", some 4, some (-(999 / 10)), some (999 / 10), none, none, some (1 / 10), 1⟩,
  ⟨"SWU", some 4, some (-(999 / 10)), some (999 / 10), none, none, some (1 / 10), 1⟩,
  ⟨"BSWV", some 4, some (-(999 / 10)), some (999 / 10), none, none, some (1 / 10), 1⟩,
  ⟨"SWV", some 4, some (-(999 / 10)), some (999 / 10), none, none, some (1 / 10), 1⟩,
  ⟨"BSAT", some 4, some (-(999 / 10)), some (999 / 10), none, none, some (1 / 10), 1⟩,
  ⟨"BSRH", some 3, some 0, some 100, none, none, some 1, 1⟩,
  ⟨"SRH", some 3, some 0, some 100, none, none, some 1, 1⟩,
  ⟨"SIX", some 1, some 2, some 3, none, none, some 1, 1⟩,
  ⟨"BSST", some 4, some (-(999 / 10)), some (999 / 10), none, none, some (1 / 10), 1⟩,
  ⟨"MST", some 1, some 0, some 9, none, none, some 1, 1⟩,
  ⟨"MSH", some 3, some 0, some 999, none, none, some 1, 1⟩,
  ⟨"BY", some 4, some 0, some 9999, none, none, some 1, 1⟩,
  ⟨"BM", some 2, some 1, some 12, none, none, some 1, 1⟩,
  ⟨"BD", some 2, some 1, some 31, none, none, some 1, 1⟩,
  ⟨"BH", some 2, some 0, some 23, none, none, some 1, 1⟩,
  ⟨"BFL", some 2, some 0, some 99, none, none, some 1, 1⟩]

/-- IMMA1.py:494-495 and 505-526: `parameters['04']` and `definitions['04']`. -/
def fields04 : List Field := [
  ⟨"C1M", some 2, some 65, some 90, none, none, none, 3⟩,
  ⟨"OPM", some 2, some 0, some 99, none, none, some 1, 1⟩,
  ⟨"KOV", some 2, some 32, some 126, none, none, none, 3⟩,
  ⟨"COR", some 2, some 65, some 90, none, none, none, 3⟩,
  ⟨"TOB", some 3, some 32, some 126, none, none, none, 3⟩,
  ⟨"TOT", some 3, some 32, some 126, none, none, none, 3⟩,
  ⟨"EOT", some 2, some 32, some 126, none, none, none, 3⟩,
  ⟨"LOT", some 2, some 32, some 126, none, none, none, 3⟩,
  ⟨"TOH", some 1, some 32, some 126, none, none, none, 3⟩,
  ⟨"EOH", some 2, some 32, some 126, none, none, none, 3⟩,
  ⟨"SIM", some 3, some 32, some 126, none, none, none, 3⟩,
  ⟨"LOV", some 3, some 0, some 999, none, none, some 1, 1⟩,
  ⟨"DOS", some 2, some 0, some 99, none, none, some 1, 1⟩,
  ⟨"HOP", some 3, some 0, some 999, none, none, some 1, 1⟩,
  ⟨"HOT", some 3, some 0, some 999, none, none, some 1, 1⟩,
  ⟨"HOB", some 3, some 0, some 999, none, none, some 1, 1⟩,
  ⟨"HOA", some 3, some 0, some 999, none, none, some 1, 1⟩,
  ⟨"SMF", some 5, some 0, some 99999, none, none, some 1, 1⟩,
  ⟨"SME", some 5, some 0, some 99999, none, none, some 1, 1⟩,
  ⟨"SMV", some 2, some 0, some 99, none, none, some 1, 1⟩]

/-- IMMA1.py:533-538 and 540-604: `parameters['05']` and `definitions['05']`. -/
def fields05 : List Field := [
  ⟨"OS", some 1, some 0, some 6, none, none, some 1, 1⟩,
  ⟨"OP", some 1, some 0, some 9, none, none, some 1, 1⟩,
  ⟨"FM", some 1, some 0, some 36, none, none, some 1, 2⟩,
  ⟨"IMMV", some 1, some 0, some 36, none, none, some 1, 2⟩,
  ⟨"IX", some 1, some 1, some 7, none, none, some 1, 1⟩,
  ⟨"W2", some 1, some 0, some 9, none, none, some 1, 1⟩,
  ⟨"WMI", some 1, some 0, some 9, none, none, some 1, 1⟩,
  ⟨"SD2", some 2, some 0, some 38, none, none, some 1, 1⟩,
  ⟨"SP2", some 2, some 0, some 30, some 0, some 99, some 1, 1⟩,
  ⟨"SH2", some 2, some 0, some 99, none, none, some 1, 1⟩,
  ⟨"IS", some 1, some 1, some 5, none, none, some 1, 1⟩,
  ⟨"ES", some 2, some 0, some 99, none, none, some 1, 1⟩,
  ⟨"RS", some 1, some 0, some 4, none, none, some 1, 1⟩,
  ⟨"IC1", some 1, some 0, some 10, none, none, some 1, 2⟩,
  ⟨"IC2", some 1, some 0, some 10, none, none, some 1, 2⟩,
  ⟨"IC3", some 1, some 0, some 10, none, none, some 1, 2⟩,
  ⟨"IC4", some 1, some 0, some 10, none, none, some 1, 2⟩,
  ⟨"IC5", some 1, some 0, some 10, none, none, some 1, 2⟩,
  ⟨"IR", some 1, some 0, some 4, none, none, some 1, 1⟩,
  ⟨"RRR", some 3, some 0, some 999, none, none, some 1, 1⟩,
  ⟨"TR", some 1, some 1, some 9, none, none, some 1, 1⟩,
  ⟨"NU", some 1, none, none, none, none, some 1, 3⟩,
  ⟨"QCI", some 1, some 0, some 9, none, none, some 1, 1⟩,
  ⟨"QI1", some 1, some 0, some 9, none, none, some 1, 1⟩,
  ⟨"QI2", some 1, some 0, some 9, none, none, some 1, 1⟩,
  ⟨"QI3", some 1, some 0, some 9, none, none, some 1, 1⟩,
  ⟨"QI4", some 1, some 0, some 9, none, none, some 1, 1⟩,
  ⟨"QI5", some 1, some 0, some 9, none, none, some 1, 1⟩,
  ⟨"QI6", some 1, some 0, some 9, none, none, some 1, 1⟩,
  ⟨"QI7", some 1, some 0, some 9, none, none, some 1, 1⟩,
  ⟨"QI8", some 1, some 0, some 9, none, none, some 1, 1⟩,
  ⟨"QI9", some 1, some 0, some 9, none, none, some 1, 1⟩,
  ⟨"QI10", some 1, some 0, some 9, none, none, some 1, 1⟩,
  ⟨"QI11", some 1, some 0, some 9, none, none, some 1, 1⟩,
  ⟨"QI12", some 1, some 0, some 9, none, none, some 1, 1⟩,
  ⟨"QI13", some 1, some 0, some 9, none, none, some 1, 1⟩,
  ⟨"QI14", some 1, some 0, some 9, none, none, some 1, 1⟩,
  ⟨"QI15", some 1, some 0, some 9, none, none, some 1, 1⟩,
  ⟨"QI16", some 1, some 0, some 9, none, none, some 1, 1⟩,
  ⟨"QI17", some 1, some 0, some 9, none, none, some 1, 1⟩,
  ⟨"QI18", some 1, some 0, some 9, none, none, some 1, 1⟩,
  ⟨"QI19", some 1, some 0, some 9, none, none, some 1, 1⟩,
  ⟨"QI20", some 1, some 0, some 9, none, none, some 1, 1⟩,
  ⟨"QI21", some 1, some 0, some 9, none, none, some 1, 1⟩,
  ⟨"HDG", some 3, some 0, some 360, none, none, some 1, 1⟩,
  ⟨"COG", some 3, some 0, some 360, none, none, some 1, 1⟩,
  ⟨"SOG", some 2, some 0, some 99, none, none, some 1, 1⟩,
  ⟨"SLL", some 2, some 0, some 99, none, none, some 1, 1⟩,
  ⟨"SLHH", some 3, some (-99), some 99, none, none, some 1, 1⟩,
  ⟨"RWD", some 3, some 1, some 362, none, none, some 1, 1⟩,
  ⟨"RWS", some 3, some 0, some (999 / 10), none, none, some (1 / 10), 1⟩,
  ⟨"QI22", some 1, some 0, some 9, none, none, some 1, 1⟩,
  ⟨"QI23", some 1, some 0, some 9, none, none, some 1, 1⟩,
  ⟨"QI24", some 1, some 0, some 9, none, none, some 1, 1⟩,
  ⟨"QI25", some 1, some 0, some 9, none, none, some 1, 1⟩,
  ⟨"QI26", some 1, some 0, some 9, none, none, some 1, 1⟩,
  ⟨"QI27", some 1, some 0, some 9, none, none, some 1, 1⟩,
  ⟨"QI28", some 1, some 0, some 9, none, none, some 1, 1⟩,
  ⟨"QI29", some 1, some 0, some 9, none, none, some 1, 1⟩,
  ⟨"RH", some 4, some 0, some 100, none, none, some (1 / 10), 1⟩,
  ⟨"RHI", some 1, some 0, some 4, none, none, some 1, 1⟩,
  ⟨"AWSI", some 1, some 0, some 2, none, none, some 1, 1⟩,
  ⟨"IMONO", some 7, some 0, some 9999999, none, none, some 1, 1⟩]

/-- IMMA1.py:610-611 and 613-633: `parameters['06']` and `definitions['06']`. -/
def fields06 : List Field := [
  ⟨"CCCC", some 4, some 65, some 90, none, none, none, 3⟩,
  ⟨"BUID", some 6, some 48, some 57, some 65, some 90, none, 3⟩,
  ⟨"FBSRC", some 1, some 0, some 0, none, none, some 1, 1⟩,
  ⟨"BMP", some 5, some 870, some (5373 / 5), none, none, some (1 / 10), 1⟩,
  ⟨"BSWU", some 4, some (-(999 / 10)), some (999 / 10), none, none, some (1 / 10), 1⟩,
  ⟨"SWU", some 4, some (-(999 / 10)), some (999 / 10), none, none, some (1 / 10), 1⟩,
  ⟨"BSWV", some 4, some (-(999 / 10)), some (999 / 10), none, none, some (1 / 10), 1⟩,
  ⟨"SWV", some 4, some (-(999 / 10)), some (999 / 10), none, none, some (1 / 10), 1⟩,
  ⟨"BSAT", some 4, some (-(999 / 10)), some (999 / 10), none, none, some (1 / 10), 1⟩,
  ⟨"BSRH", some 3, some 0, some 100, none, none, some 1, 1⟩,
  ⟨"SRH", some 3, some 0, some 100, none, none, some 1, 1⟩,
  ⟨"BSST", some 5, some (-(999 / 10)), some (999 / 10), none, none, some (1 / 10), 1⟩,
  ⟨"MST", some 1, some 0, some 9, none, none, some 1, 1⟩,
  ⟨"MSH", some 4, some (-999), some 9999, none, none, some 1, 1⟩,
  ⟨"BY", some 4, some 0, some 9999, none, none, some 1, 1⟩,
  ⟨"BM", some 2, some 1, some 12, none, none, some 1, 1⟩,
  ⟨"BD", some 2, some 1, some 31, none, none, some 1, 1⟩,
  ⟨"BH", some 2, some 0, some 23, none, none, some 1, 1⟩,
  ⟨"BFL", some 2, some 0, some 99, none, none, some 1, 1⟩]

/-- IMMA1.py:639-640 and 642-664: `parameters['07']` and `definitions['07']`. -/
def fields07 : List Field := [
  ⟨"MDS", some 1, some 0, some 1, none, none, some 1, 1⟩,
  ⟨"C1M", some 2, none, none, none, none, none, 3⟩,
  ⟨"OPM", some 2, some 0, some 99, none, none, some 1, 1⟩,
  ⟨"KOV", some 2, none, none, none, none, none, 3⟩,
  ⟨"COR", some 2, none, none, none, none, none, 3⟩,
  ⟨"TOB", some 3, none, none, none, none, none, 3⟩,
  ⟨"TOT", some 3, none, none, none, none, none, 3⟩,
  ⟨"EOT", some 2, none, none, none, none, none, 3⟩,
  ⟨"LOT", some 2, none, none, none, none, none, 3⟩,
  ⟨"TOH", some 1, none, none, none, none, none, 3⟩,
  ⟨"EOH", some 2, none, none, none, none, none, 3⟩,
  ⟨"SIM", some 3, none, none, none, none, none, 3⟩,
  ⟨"LOV", some 3, some 0, some 999, none, none, some 1, 1⟩,
  ⟨"DOS", some 2, some 0, some 99, none, none, some 1, 1⟩,
  ⟨"HOP", some 3, some 0, some 999, none, none, some 1, 1⟩,
  ⟨"HOT", some 3, some 0, some 999, none, none, some 1, 1⟩,
  ⟨"HOB", some 3, some 0, some 999, none, none, some 1, 1⟩,
  ⟨"HOA", some 3, some 0, some 999, none, none, some 1, 1⟩,
  ⟨"SMF", some 5, some 0, some 99999, none, none, some 1, 1⟩,
  ⟨"SME", some 5, some 0, some 99999, none, none, some 1, 1⟩,
  ⟨"SMV", some 2, some 0, some 99, none, none, some 1, 1⟩]

/-- IMMA1.py:670-671 and 673-697: `parameters['08']` and `definitions['08']`. -/
def fields08 : List Field := [
  ⟨"OTV", some 5, some (-3), some (38999 / 1000), none, none, some (1 / 1000), 1⟩,
  ⟨"OTZ", some 4, some 0, some (9999 / 100), none, none, some (1 / 100), 1⟩,
  ⟨"OSV", some 5, some 0, some (40999 / 1000), none, none, some (1 / 100), 1⟩,
  ⟨"OSZ", some 4, some 0, some (9999 / 100), none, none, some (1 / 100), 1⟩,
  ⟨"OOV", some 4, some 0, some (1299 / 100), none, none, some (1 / 100), 1⟩,
  ⟨"OOZ", some 4, some 0, some (9999 / 100), none, none, some (1 / 100), 1⟩,
  ⟨"OPV", some 4, some 0, some (3099 / 100), none, none, some (1 / 100), 1⟩,
  ⟨"OPZ", some 4, some 0, some (9999 / 100), none, none, some (1 / 100), 1⟩,
  ⟨"OSIV", some 5, some 0, some (25099 / 100), none, none, some (1 / 100), 1⟩,
  ⟨"OSIZ", some 4, some 0, some (9999 / 100), none, none, some (1 / 100), 1⟩,
  ⟨"ONV", some 5, some 0, some (50099 / 100), none, none, some (1 / 100), 1⟩,
  ⟨"ONZ", some 4, some 0, some (9999 / 100), none, none, some (1 / 100), 1⟩,
  ⟨"OPHV", some 3, some (31 / 5), some (46 / 5), none, none, some (1 / 100), 1⟩,
  ⟨"OPHZ", some 4, some 0, some (9999 / 100), none, none, some (1 / 100), 1⟩,
  ⟨"OCV", some 4, some 0, some (5099 / 100), none, none, some (1 / 100), 1⟩,
  ⟨"OCZ", some 4, some 0, some (9999 / 100), none, none, some (1 / 100), 1⟩,
  ⟨"OAV", some 3, some 0, some (31 / 10), none, none, some (1 / 100), 1⟩,
  ⟨"OAZ", some 4, some 0, some (9999 / 100), none, none, some (1 / 100), 1⟩,
  ⟨"OPCV", some 4, some 0, some 999, none, none, some (1 / 10), 1⟩,
  ⟨"OPCZ", some 4, some 0, some (9999 / 100), none, none, some (1 / 100), 1⟩,
  ⟨"ODV", some 2, some 0, some 4, none, none, some (1 / 10), 1⟩,
  ⟨"ODZ", some 4, some 0, some (9999 / 100), none, none, some (1 / 100), 1⟩,
  ⟨"PUID", some 10, none, none, none, none, none, 3⟩]

/-- IMMA1.py:703-703 and 705-721: `parameters['09']` and `definitions['09']`. -/
def fields09 : List Field := [
  ⟨"CCe", some 1, some 0, some 13, none, none, some 1, 2⟩,
  ⟨"WWe", some 2, some 0, some 99, none, none, some 1, 1⟩,
  ⟨"Ne", some 1, some 0, some 8, none, none, some 1, 1⟩,
  ⟨"NHe", some 1, some 0, some 8, none, none, some 1, 1⟩,
  ⟨"He", some 1, some 0, some 9, none, none, some 1, 1⟩,
  ⟨"CLe", some 2, some 0, some 11, none, none, some 1, 1⟩,
  ⟨"CMe", some 2, some 0, some 12, none, none, some 1, 1⟩,
  ⟨"CHe", some 1, some 0, some 9, none, none, some 1, 1⟩,
  ⟨"AM", some 3, some 0, some 8, none, none, some (1 / 100), 1⟩,
  ⟨"AH", some 3, some 0, some 8, none, none, some (1 / 100), 1⟩,
  ⟨"UM", some 1, some 0, some 8, none, none, some 1, 1⟩,
  ⟨"UH", some 1, some 0, some 8, none, none, some 1, 1⟩,
  ⟨"SBI", some 1, some 0, some 1, none, none, some 1, 1⟩,
  ⟨"SA", some 4, some (-90), some 90, none, none, some (1 / 10), 1⟩,
  ⟨"RI", some 4, some (-(11 / 10)), some (117 / 100), none, none, some (1 / 100), 1⟩]

/-- IMMA1.py:727-728 and 730-744: `parameters['95']` and `definitions['95']`. -/
def fields95 : List Field := [
  ⟨"ICNR", some 2, some 0, some 99, none, none, some 1, 1⟩,
  ⟨"FNR", some 2, some 1, some 99, none, none, some 1, 1⟩,
  ⟨"DPRO", some 2, some 1, some 99, none, none, some 1, 1⟩,
  ⟨"DPRP", some 2, some 1, some 99, none, none, some 1, 1⟩,
  ⟨"UFR", some 1, some 1, some 6, none, none, some 1, 1⟩,
  ⟨"MFGR", some 7, some (-999999), some 999999, none, none, some 1, 1⟩,
  ⟨"MFGSR", some 7, some (-999999), some 999999, none, none, some 1, 1⟩,
  ⟨"MAR", some 7, some (-999999), some 999999, none, none, some 1, 1⟩,
  ⟨"MASR", some 7, some (-999999), some 999999, none, none, some 1, 1⟩,
  ⟨"BCR", some 7, some (-999999), some 999999, none, none, some 1, 1⟩,
  ⟨"ARCR", some 4, none, none, none, none, none, 3⟩,
  ⟨"CDR", some 8, some 20140101, some 29991231, none, none, some 1, 1⟩,
  ⟨"ASIR", some 1, some 0, some 1, none, none, some 1, 1⟩]

/-- IMMA1.py:750-754 and 756-774: `parameters['96']` and `definitions['96']`. -/
def fields96 : List Field := [
  ⟨"ICNI", some 2, some 0, some 99, none, none, some 1, 1⟩,
  ⟨"FNI", some 2, some 1, some 99, none, none, some 1, 1⟩,
  ⟨"JVAD", some 1, some 0, some 36, none, none, some 1, 2⟩,
  ⟨"VAD", some 6, some (-99999), some 999999, none, none, some 1, 1⟩,
  ⟨"IVAU1", some 1, some 1, some 36, none, none, some 1, 2⟩,
  ⟨"JVAU1", some 1, some 0, some 36, none, none, some 1, 2⟩,
  ⟨"VAU1", some 6, some (-99999), some 999999, none, none, some 1, 1⟩,
  ⟨"IVAU2", some 1, some 1, some 36, none, none, some 1, 2⟩,
  ⟨"JVAU2", some 1, some 0, some 36, none, none, some 1, 2⟩,
  ⟨"VAU2", some 6, some (-99999), some 999999, none, none, some 1, 1⟩,
  ⟨"IVAU3", some 1, some 1, some 36, none, none, some 1, 2⟩,
  ⟨"JVAU3", some 1, some 0, some 36, none, none, some 1, 2⟩,
  ⟨"VAU3", some 6, some (-99999), some 999999, none, none, some 1, 1⟩,
  ⟨"VQC", some 1, some 1, some 9, none, none, some 1, 1⟩,
  ⟨"ARCI", some 4, none, none, none, none, none, 3⟩,
  ⟨"CDR", some 8, some 20140101, some 29991231, none, none, some 1, 1⟩,
  ⟨"ASII", some 1, some 0, some 1, none, none, some 1, 1⟩]

/-- IMMA1.py:780-780 and 782-790: `parameters['97']` and `definitions['97']`. -/
def fields97 : List Field := [
  ⟨"ICNE", some 2, some 0, some 99, none, none, some 1, 1⟩,
  ⟨"FNE", some 2, some 1, some 99, none, none, some 1, 1⟩,
  ⟨"CEF", some 1, some 0, some 1, none, none, some 1, 1⟩,
  ⟨"ERRD", none, none, none, none, none, none, 1⟩,
  ⟨"ARCE", some 4, none, none, none, none, none, 3⟩,
  ⟨"CDE", some 8, some 20140101, some 29991231, none, none, some 1, 1⟩,
  ⟨"ASIE", some 1, some 0, some 1, none, none, some 1, 1⟩]

/-- IMMA1.py:796-796 and 798-805: `parameters['98']` and `definitions['98']`. -/
def fields98 : List Field := [
  ⟨"UID", some 6, none, none, none, none, none, 3⟩,
  ⟨"RN1", some 1, some 0, some 36, none, none, some 1, 2⟩,
  ⟨"RN2", some 1, some 0, some 36, none, none, some 1, 2⟩,
  ⟨"RN3", some 1, some 0, some 36, none, none, some 1, 2⟩,
  ⟨"RSA", some 1, some 0, some 2, none, none, some 1, 1⟩,
  ⟨"IRF", some 1, some 0, some 1, none, none, some 1, 1⟩]

/-- IMMA1.py:815-815 and 825-828: `parameters['99']` and `definitions['99']`. -/
def fields99 : List Field := [
  ⟨"ATTE", some 1, none, none, none, none, none, 1⟩,
  ⟨"SUPD", none, none, none, none, none, none, 3⟩]

/-- `parameters` and `definitions`, by attachment. -/
def layouts : List (Int × List Field) := [
  (0, fields00), (1, fields01), (2, fields02), (3, fields03), (4, fields04), (5, fields05), (6, fields06), (7, fields07), (8, fields08), (9, fields09), (95, fields95), (96, fields96), (97, fields97), (98, fields98), (99, fields99)]

end MarineQC
