import Verif.Rest.Reader

/-!
# Cases of C137
-/

namespace MarineQC

/-- `Spec.Room` as a computation. -/
def roomFor : Spec.Meaning → Bool
  | .name _ _ _ => true
  | .number none _ _ => true
  | .number (some q) scale _ => decide (|q * scale| < 9999999)
  | .flags l _ => l.all fun f => decide (0 ≤ f) && decide (f ≤ 9)

theorem room_of (m : Spec.Meaning) (h : roomFor m = true) : Spec.Room m := by
  match m with
  | .name _ _ _ => trivial
  | .number none _ _ => intro q hq; simp at hq
  | .number (some q) s _ =>
    intro q' hq
    simp only [Option.some.injEq] at hq
    subst hq
    simpa [roomFor] using h
  | .flags l _ =>
    intro f hf
    simpa using List.all_eq_true.mp h f hf

/-- A report at 12.5 degrees East with a sea surface temperature and no air temperature: everything has room. -/
example : ∀ m ∈ Spec.shortLine (equatorReport 2 (25 / 2)), Spec.Room m := by
  intro m hm
  have : (Spec.shortLine (equatorReport 2 (25 / 2))).all roomFor = true := by decide +kernel
  exact room_of m (List.all_eq_true.mp this m hm)

example : ∀ m ∈ Spec.longLine (equatorReport 2 (25 / 2)), Spec.Room m := by
  intro m hm
  have : (Spec.longLine (equatorReport 2 (25 / 2))).all roomFor = true := by decide +kernel
  exact room_of m (List.all_eq_true.mp this m hm)

example : ((equatorReport 2 (25 / 2)).printReport.toOption.map fun l => String.ofList l) =
    some ("A         U1             0    1250    2000       1       1     200  -32768  -32768     153  -32768    9999     926" ++
      "  -32768 99999999 99999999 99999999 99999999 99999999\n") := by decide +kernel

example : ((equatorReport 2 (25 / 2)).printLongform.toOption.map fun l => l.length) = some 273 := by decide +kernel

/-- An air temperature of -3276.8 degrees and a missing one are printed alike: the code for missing values is not kept apart
from values (no temperature is that low). -/
example : pvar (some (-32768 / 10)) (-32768) 10 = pvar none (-32768) 10 := by decide +kernel

end MarineQC
