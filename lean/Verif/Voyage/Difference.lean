import Verif.Voyage.Links
import Verif.Calendar.Props

/-!
# C40: what the difference of two reports is

`C40_add_report` and `C40_sort` say that every report of a voyage holds its difference to the report before;
here is what that difference consists of.
-/

namespace MarineQC

namespace Spec

/-- The report was made at this place, date and hour. -/
def MadeAt (r : Report) (lat lon : Rat) (y m d : Int) (h : Rat) : Prop :=
  r.lat = some lat ∧ r.lon = some lon ∧ r.getint "YR" = some y ∧ r.getint "MO" = some m
    ∧ r.getint "DY" = some d ∧ r.getvar "HR" = some h ∧ IsDate y m d ∧ 0 ≤ h ∧ h < 24

/-- Kilometres per hour, or just the kilometres when no time has passed. -/
def speedOf (km hours : Rat) : Rat := if hours = 0 then km else km / hours

end Spec

open Spec

theorem sub_of_time (G : Geo) {a b : Report} {la oa lb ob t : Rat} (h1 : a.lat = some la) (h2 : a.lon = some oa)
    (h3 : b.lat = some lb) (h4 : b.lon = some ob) (ht : b.timeTo a = .ok (some t)) :
    a.sub G b = .ok ⟨speedOf (G.dist la oa lb ob) t, G.dist la oa lb ob, G.course lb ob la oa, t⟩ := by
  unfold Report.sub
  simp only [h1, h2, h3, h4, ht, except_bind_ok, except_pure]
  by_cases h0 : t = 0
  · subst h0
    simp [speedOf]
  · simp [speedOf, h0]

/-- C40: the difference from an earlier report to one made `n` days later (at a later or, for `n = 0`, any
hour): the distance between the places, the course from the earlier to the later place, 24 hours for each day
between the dates plus the difference of the hours, and the speed.  In the other direction the course is the
one back and the time is negative. -/
theorem C40_difference (G : Geo) (a b : Report) (n : Nat) (la oa lb ob : Rat) (y m d y' m' d' : Int)
    (h h' : Rat) (ha : MadeAt a la oa y m d h) (hb : MadeAt b lb ob y' m' d' h')
    (hn : daysLater n (y', m', d') = (y, m, d)) :
    a.sub G b = .ok {
      distance := G.dist la oa lb ob
      course := G.course lb ob la oa
      tdiff := 24 * n + (h - h')
      speed := speedOf (G.dist la oa lb ob) (24 * n + (h - h')) }
    ∧ b.sub G a = .ok {
      distance := G.dist lb ob la oa
      course := G.course la oa lb ob
      tdiff := -(24 * n + (h - h'))
      speed := speedOf (G.dist lb ob la oa) (-(24 * n + (h - h'))) } := by
  obtain ⟨a1, a2, a3, a4, a5, a6, a7, a8, a9⟩ := ha
  obtain ⟨b1, b2, b3, b4, b5, b6, b7, b8, b9⟩ := hb
  obtain ⟨t1, t2⟩ := C06_time_difference_exact y' m' d' h' n y m d h b7 hn b8 b9 a8 a9
  constructor
  · refine sub_of_time G a1 a2 b1 b2 ?_
    unfold Report.timeTo
    simp only [a3, a4, a5, a6, b3, b4, b5, b6, t1]
  · refine sub_of_time G b1 b2 a1 a2 ?_
    unfold Report.timeTo
    simp only [a3, a4, a5, a6, b3, b4, b5, b6, t2]

/-- C40: with an hour missing the time difference is 0 and the speed is the distance. -/
theorem C40_difference_no_hour (G : Geo) (a b : Report) (la oa lb ob : Rat)
    (h1 : a.lat = some la) (h2 : a.lon = some oa) (h3 : b.lat = some lb) (h4 : b.lon = some ob)
    (hh : a.getvar "HR" = none ∨ b.getvar "HR" = none) :
    a.sub G b = .ok {
      distance := G.dist la oa lb ob
      course := G.course lb ob la oa
      tdiff := 0
      speed := G.dist la oa lb ob } := by
  have ht : b.timeTo a = .ok none := by
    unfold Report.timeTo
    rcases hh with h | h
    · rw [h]; split <;> first | rfl | simp_all
    · rw [h]
  unfold Report.sub
  simp only [h1, h2, h3, h4, ht, except_bind_ok, except_pure]

/-- C40: without both positions there is no difference. -/
theorem C40_difference_no_position (G : Geo) (a b : Report)
    (hh : a.lat = none ∨ a.lon = none ∨ b.lat = none ∨ b.lon = none) : a.sub G b = .error .assertion := by
  unfold Report.sub
  split
  · simp_all
  · rfl

example : (sampleAt 13 3 4).sub ⟨fun a b c d => |a - c| + |b - d|, fun a b c d => (c - a) + 10 * (d - b),
      fun _ _ _ _ => (0, 0), fun _ _ _ _ _ => (0, 0)⟩ (sampleAt 11 1 2) =
    .ok { distance := 4, course := 22, tdiff := 2, speed := 2 } := by decide +kernel

example : MadeAt (sampleAt 13 3 4) 3 4 2000 1 1 13 ∧ daysLater 0 (2000, 1, 1) = (2000, 1, 1) := by
  refine ⟨⟨?_, ?_, ?_, ?_, ?_, ?_, ?_, ?_, ?_⟩, rfl⟩ <;> decide +kernel

end MarineQC
