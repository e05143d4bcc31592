import Verif.Imma.Read
import Mathlib.Tactic.FinCases

/-!
# Concrete records for C61, C62 and C78, and the attachments that are not read back
-/

namespace MarineQC

/-- A report from 2000 with a sea temperature of 18.3, an ID and a unique identifier. -/
def sampleData : String → Option (Option Val) := fun k =>
  if k = "YR" then some (some (.num 2000)) else if k = "SST" then some (some (.num (183 / 10)))
  else if k = "ID" then some (some (.str "SHIP     ".toList)) else if k = "UID" then some (some (.str "ABC123".toList))
  else if k = "ATTC" then some (some (.num 2)) else some none

/-- The check that a layout fits the sample. -/
def sampleTest (f : Field) : Bool :=
  match f.width with
  | none => false
  | some w => decide (0 < w) && (match sampleData f.name with
    | none => false
    | some none => true
    | some (some (.num q)) => (f.enc == 1 && (match f.scale with
        | some c => decide (c ≠ 0) && decide (((q / c).num.toNat : Rat) * c = q) && decide ((q / c).num.toNat < 10 ^ w)
        | none => false)) ||
      (f.enc == 2 && decide (f.scale = some 1) && w == 1 && decide ((q.num.toNat : Rat) = q) && decide (q.num.toNat < 36))
    | some (some (.str s)) => f.enc == 3 && decide (f.scale = none) && decide (s.length = w) &&
        s.all (fun c => !isBlank c || c == ' ') && s.any (fun c => !isBlank c))

theorem sampleTest_fits (fs : List Field) (h : fs.all sampleTest = true) : Spec.Fits fs sampleData := by
  intro f hf
  have h := List.all_eq_true.mp h f hf
  unfold sampleTest at h
  split at h
  · simp at h
  · rename_i w hw
    rw [Bool.and_eq_true, decide_eq_true_eq] at h
    refine ⟨w, ⟨hw, h.1⟩, ?_⟩
    have h2 := h.2
    split at h2
    · simp at h2
    · rename_i hv
      exact ⟨none, hv, by simp⟩
    · rename_i q hv
      refine ⟨_, hv, ?_⟩
      intro x hx
      simp only [Option.some.injEq] at hx
      subst hx
      rw [Bool.or_eq_true] at h2
      rcases h2 with h2 | h2
      · left
        rw [Bool.and_eq_true] at h2
        obtain ⟨h3, h4⟩ := h2
        refine ⟨by simpa using h3, ?_⟩
        split at h4
        · rename_i c hc
          simp only [Bool.and_eq_true, decide_eq_true_eq] at h4
          exact ⟨c, hc, h4.1.1, _, h4.2, by rw [h4.1.2]⟩
        · simp at h4
      · right; left
        simp only [Bool.and_eq_true, decide_eq_true_eq, beq_iff_eq] at h2
        exact ⟨h2.1.1.1.1, h2.1.1.1.2, h2.1.1.2, _, h2.2, by rw [h2.1.2]⟩
    · rename_i s hv
      refine ⟨_, hv, ?_⟩
      intro x hx
      simp only [Option.some.injEq] at hx
      subst hx
      right; right
      simp only [Bool.and_eq_true, decide_eq_true_eq, beq_iff_eq] at h2
      refine ⟨h2.1.1.1.1, h2.1.1.1.2, s, rfl, h2.1.1.2, ?_, ?_⟩
      · intro c hc hb
        have := List.all_eq_true.mp h2.1.2 c hc
        rw [hb] at this
        simpa using this
      · obtain ⟨c, hc, hb⟩ := List.any_eq_true.mp h2.2
        exact ⟨c, hc, by simpa using hb⟩

theorem sample_fits (a : Int) (ha : a ∈ [(0 : Int), 1, 8, 98]) : Spec.FitsAttachment sampleData a := by
  have key : ∀ a ∈ [(0 : Int), 1, 8, 98], (match layoutOf a with
      | .ok fs => fs.all sampleTest
      | .error _ => false) = true := by decide +kernel
  have := key a ha
  split at this
  · rename_i fs hfs
    exact ⟨fs, hfs, sampleTest_fits fs this⟩
  · simp at this

theorem named_of (a : Int) (fs : List Field) (k : String) (h : layoutOf a = .ok fs)
    (hk : (fs.any fun f => f.name == k) = true) : Spec.Named a k := by
  obtain ⟨f, hf, he⟩ := List.any_eq_true.mp hk
  exact ⟨fs, h, f, hf, by simpa using he⟩

/-- The sample meets the hypotheses of C61 and C62: core, attachment 1 and attachment 98. -/
example : Spec.Fits fields00 sampleData ∧ (∀ a ∈ [(1 : Int), 98], a ∈ Spec.regular) ∧
    (∀ a ∈ [(0 : Int), 1, 98], Spec.FitsAttachment sampleData a) ∧
    Spec.Filled sampleData (([(0 : Int), 1, 98]).getLast (by simp)) := by
  refine ⟨?_, by decide, ?_, "UID", named_of 98 fields98 "UID" rfl (by decide +kernel), _, rfl⟩
  · obtain ⟨fs, h, hf⟩ := sample_fits 0 (by decide)
    have : fields00 = fs := by
      have e : layoutOf 0 = .ok fields00 := rfl
      rw [e] at h
      simpa using h
    rw [this]; exact hf
  · intro a ha
    apply sample_fits
    fin_cases ha <;> decide

/-- And, without the last attachment, those of the violation: attachment 1 is lost. -/
example : ∃ line r', (Imma.mk [0, 1] sampleData).write = .ok line ∧ Imma.empty.readstr line = .ok r' ∧
    r'.attachments = [0] ∧ r'.data "BSI" = none := by
  have hn : ¬ Spec.Filled sampleData (([(0 : Int), 1]).getLast (by simp)) := by
    rintro ⟨k, ⟨fs, hfs, f, hf, rfl⟩, x, hx⟩
    have e : fs = fields01 := by
      have e : layoutOf 1 = .ok fields01 := rfl
      simp only [List.getLast_cons_cons, List.getLast_singleton] at hfs
      rw [e] at hfs
      simpa using hfs.symm
    subst e
    have key : ∀ f ∈ fields01, sampleData f.name = some none := by decide +kernel
    rw [key f hf] at hx
    simp at hx
  obtain ⟨line, r', h1, h2, h3, h4⟩ := C62_trailing_violation (Imma.mk [0, 1] sampleData) [1] rfl (by decide)
    (fun a ha => sample_fits a (by fin_cases ha <;> decide)) hn
  refine ⟨line, r', h1, h2, h3, (h4 "BSI").2 ?_⟩
  rintro a ha ⟨fs, hfs, f, hf, he⟩
  have ha : a = 0 := by simpa using ha
  subst ha
  have e : fs = fields00 := by
    have e : layoutOf 0 = .ok fields00 := rfl
    rw [e] at hfs
    simpa using hfs.symm
  subst e
  have key : ∀ f ∈ fields00, f.name ≠ "BSI" := by decide +kernel
  exact key f hf he

/-! ## Attachments 8 and 99 -/

/-- A sea temperature profile value (attachment 8) of 12.345 degrees. -/
def sampleEight : Imma := ⟨[0, 8], fun k => if k = "OTV" then some (some (.num (12345 / 1000))) else sampleData k⟩

/-- Written and read back, as attachments and the value of one parameter. -/
def rereadValue (r : Imma) (k : String) : Except Err (List Int × Option (Option Val)) := do
  let line ← r.write
  let r' ← Imma.empty.readstr line
  return (r'.attachments, r'.data k)

/-- **C62, violated.** Attachment 8 is written with a three-digit length, but read as if the length had two digits: the
temperature 12.345 is read back as 21.234. -/
theorem C62_attachment8_violation : sampleEight.data "OTV" = some (some (.num (12345 / 1000))) ∧
    rereadValue sampleEight "OTV" = .ok ([0, 8], some (some (.num (21234 / 1000)))) := by
  constructor
  · rfl
  · decide +kernel

/-- A record with supplementary data (attachment 99). -/
def sampleSupp : Imma := ⟨[0, 99], fun k => if k = "SUPD" then some (some (.str "LOG".toList)) else sampleData k⟩

/-- **C62, violated.** The number and length in front of attachment 99 are read back as part of its values: the
supplementary data grow, and the missing encoding ATTE becomes 9. -/
theorem C62_attachment99_violation : sampleSupp.data "SUPD" = some (some (.str "LOG".toList)) ∧
    sampleSupp.data "ATTE" = some none ∧
    rereadValue sampleSupp "SUPD" = .ok ([0, 99], some (some (.str "9 0 LOG".toList))) ∧
    rereadValue sampleSupp "ATTE" = .ok ([0, 99], some (some (.num 9))) := by
  refine ⟨rfl, rfl, ?_, ?_⟩
  · decide +kernel
  · decide +kernel

theorem error_of {α : Type} (x : Except Err α) (e : Err) (h : x.map (fun _ => ()) = .error e) : x = .error e :=
  map_error x _ e h

/-- Lines that are read, that raise ValueError and that raise KeyError. -/
example : (Imma.empty.readstr "2000".toList).map (fun r => (r.attachments, r.data "YR", r.data "SST")) =
      .ok ([0], some (some (.num 2000)), some none) ∧
    Imma.empty.readstr "20x0".toList = .error .value ∧
    Imma.empty.readstr (List.replicate 108 ' ' ++ "5030".toList) = .error .key := by
  refine ⟨by decide +kernel, ?_, ?_⟩
  · exact error_of _ _ (by decide +kernel)
  · exact error_of _ _ (by decide +kernel)

end MarineQC
