import Verif.Near.Props
import Verif.Alone.Sample

/-! # A sample for C136 -/

namespace MarineQC

open Spec

/-- Who reported, and when. -/
def whenOf (r : Report) : Option String × Option Int × Option Int := (r.id, r.getint "MO", r.getint "DY")

theorem threeFiles_when : (readReports (sampleEnv threeFiles) sampleLib 1990 2).toOption.map (fun s => s.deck.reps.map whenOf) =
    some [(some "A        ", some 1, some 4), (some "B        ", some 1, some 5), (some "C        ", some 2, some 5),
      (some "D        ", some 2, some 6), (some "E        ", some 3, some 7)] := by decide +kernel

theorem withoutB_when : (readReports (sampleEnv withoutB) sampleLib 1990 2).toOption.map (fun s => s.deck.reps.map whenOf) =
    some [(some "A        ", some 1, some 4), (some "C        ", some 2, some 5),
      (some "D        ", some 2, some 6), (some "E        ", some 3, some 7)] := by decide +kernel

theorem runOver_when (files) {d : Deck} {lib' : ClimLib Arr3}
    (h : checkedMonth (runOver files) sampleLib (1990, 2) = .ok (d, lib')) :
    (readReports (sampleEnv files) sampleLib 1990 2).toOption.map (fun s => s.deck.reps.map whenOf) = some (d.reps.map whenOf) := by
  obtain ⟨_, reps, -, -, -, h1, -, s, h2, rfl⟩ := checkedMonth_parts (by decide) h
  have h2 : readReports (sampleEnv files) sampleLib 1990 2 = .ok s := h2
  rw [h2]
  simp only [Except.toOption, Option.map_some, Option.some.injEq]
  refine forall2_same_map h1 ?_
  intro a b hab
  unfold whenOf Report.getint
  rw [hab.id, hab.data]

theorem pentad_values : (∀ p, InPentad p 1 5 → p = 0) ∧ ∀ p, InPentad p 2 5 → p = 7 := by
  have k1 : ∀ n < 365, ((1 : Int), (5 : Int)) = Spec.dayOfYear n → n / 5 = 0 := by decide +kernel
  have k2 : ∀ n < 365, ((2 : Int), (5 : Int)) = Spec.dayOfYear n → n / 5 = 7 := by decide +kernel
  constructor
  · rintro p (⟨n, h1, h2, rfl⟩ | ⟨h, -⟩)
    · exact k1 n h1 h2
    · cases h
  · rintro p (⟨n, h1, h2, rfl⟩ | ⟨-, h, -⟩)
    · exact k2 n h1 h2
    · cases h

/-- Five weeks are too long for the buddy checks of the sample. -/
theorem not_near {r s : Report} (hr : whenOf r = (some "C        ", some 2, some 5)) (hs : whenOf s = (some "B        ", some 1, some 5)) :
    ¬ Near fullXspan (buddyRadii sampleBuddies) r s := by
  rintro ⟨c, c', ⟨_, _, m, d, -, -, h1, h2, -, -, h3⟩, ⟨_, _, m', d', -, -, h1', h2', -, -, h3'⟩, rx, ry, rp, o, hl, ho, hc⟩
  simp only [whenOf, Prod.mk.injEq] at hr hs
  simp only at h1 h2 h1' h2'
  rw [hr.2.1, Option.some.injEq] at h1
  rw [hr.2.2, Option.some.injEq] at h2
  rw [hs.2.1, Option.some.injEq] at h1'
  rw [hs.2.2, Option.some.injEq] at h2'
  subst h1 h2 h1' h2'
  have e := pentad_values.2 _ h3
  have e' := pentad_values.1 _ h3'
  have hrp : rp ≤ 4 := by
    simp only [buddyRadii, sampleBuddies, fixedParams, List.cons_append, List.nil_append, List.mem_cons, List.not_mem_nil, or_false,
      List.cons.injEq, and_true] at hl
    omega
  obtain ⟨-, -, h4, -⟩ := ho
  obtain ⟨-, -, -, -, -, h5⟩ := hc
  rw [e, e'] at h5
  rw [abs_le] at h4
  omega

/-- Non-vacuity of C136: in the sample month, with and without the record of B, only B's records differ, and B is not near C.
The report of C comes out the same with all its flags. -/
example : ∃ d d' l l', checkedMonth (runOver threeFiles) sampleLib (1990, 2) = .ok (d, l) ∧
    checkedMonth (runOver withoutB) sampleLib (1990, 2) = .ok (d', l') ∧ (reportsOf (some "C        ") d.reps).length = 1 ∧
    List.Forall₂ SameButBackground (reportsOf (some "C        ") d.reps) (reportsOf (some "C        ") d'.reps) := by
  obtain ⟨d, l, h⟩ := runOver_checked threeFiles (by simp)
  obtain ⟨d', l', h'⟩ := runOver_checked withoutB (by simp)
  have w := runOver_when _ h
  rw [threeFiles_when, Option.some.injEq] at w
  have w' := runOver_when _ h'
  rw [withoutB_when, Option.some.injEq] at w'
  refine ⟨d, d', l, l', h, h', ?_, ?_⟩
  · have e : ∀ k : List Report, (reportsOf (some "C        ") k).length =
        ((k.map whenOf).filter fun p => decide (p.1 = some "C        ")).length := by
      intro k
      unfold reportsOf
      rw [List.filter_map, List.length_map]
      rfl
    rw [e, ← w]
    decide
  refine C136_neighbours (runOver threeFiles) (sampleEnv withoutB).fs (sampleEnv withoutB).lines sampleLib sampleLib l l'
    (fun _ _ _ => rfl) (1990, 1) (1990, 2) (by decide) (by decide) (some "C        ") d d' h h'
    (threeFiles_platform _ (by simp)) ?_
  rintro j ⟨r, s, hr, hs, rfl, hn⟩
  refine threeFiles_platform _ ?_
  have hr2 : whenOf r = (some "C        ", some 2, some 5) := by
    unfold reportsOf at hr
    rw [List.mem_filter, decide_eq_true_eq] at hr
    have := List.mem_map_of_mem (f := whenOf) hr.1
    rw [← w] at this
    have e : (whenOf r).1 = some "C        " := hr.2
    generalize whenOf r = q at this e
    revert q
    decide
  have hs2 : whenOf s ∈ [(some "A        ", some 1, some 4), (some "B        ", some 1, some 5), (some "C        ", some 2, some 5),
      (some "D        ", some 2, some 6), (some "E        ", some 3, some 7)] := by
    rcases hs with hs | hs
    · rw [w]
      exact List.mem_map_of_mem hs
    · have := List.mem_map_of_mem (f := whenOf) hs
      rw [← w'] at this
      generalize whenOf s = q at this ⊢
      revert q
      decide
  have e : s.id = (whenOf s).1 := rfl
  have hb : whenOf s ≠ (some "B        ", some 1, some 5) := fun hb => not_near hr2 hb hn
  rw [e]
  generalize whenOf s = q at hs2 hb
  revert q
  decide

end MarineQC
