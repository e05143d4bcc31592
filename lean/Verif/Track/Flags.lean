import Verif.Track.Speed
import Verif.Voyage.Pairs
import Mathlib.Tactic.Linarith
import Mathlib.Tactic.Positivity

/-!
# One pass of the track check: which reports are flagged
-/

namespace MarineQC

namespace Spec

/-- The value is present and above the limit. -/
def Above (x : Option Rat) (limit : Rat) : Prop := ∃ s, x = some s ∧ limit < s

/-- `d` is the distance between the position of `b` and the position estimated for it from `a`: the position
of `a` moved as `a` moves in half the time `t` and as `b` moves in half the time `t`, each at its reported
speed (in knots) and on its reported heading turned by `turn`. -/
def EstimateMiss (G : Geo) (turn : Rat) (a b : Report) (t d : Rat) : Prop :=
  ∃ lata lona latb lonb va vb da db, a.getvar "LAT" = some lata ∧ a.getvar "LON" = some lona
    ∧ b.getvar "LAT" = some latb ∧ b.getvar "LON" = some lonb
    ∧ a.getvar "vsi" = some va ∧ b.getvar "vsi" = some vb
    ∧ a.getvar "dsi" = some da ∧ b.getvar "dsi" = some db
    ∧ let pa := G.project lata lona (da - turn) (va / kmToNm * t / 2)
      let pb := G.project latb lonb (db - turn) (vb / kmToNm * t / 2)
      d = G.dist latb lonb (lata + (pa.1 - lata) + (pb.1 - latb)) (lona + (pa.2 - lona) + (pb.2 - lonb))

/-- The position of `b` is further both from the position estimated from the report `a` before it and from the
position estimated backwards from the report `c` after it than the ship can go between `a` and `b` at the
mean of the speeds reported. -/
def DistanceFails (G : Geo) (a b c : Report) : Prop :=
  ∃ va vb t t' f r, a.getvar "vsi" = some va ∧ b.getvar "vsi" = some vb ∧ b.getvar "time_diff" = some t
    ∧ c.getvar "time_diff" = some t' ∧ 0 < va ∧ 0 < vb ∧ 0 < t
    ∧ EstimateMiss G 0 a b t f ∧ EstimateMiss G 180 c b t' r
    ∧ t * ((vb + va) / 2) / kmToNm < f ∧ t * ((vb + va) / 2) / kmToNm < r

/-- The two directions are further apart than allowed, both in the sense of `|x - y|` and of `360 - |x - y|`. -/
def FarDirections (limit x y : Rat) : Prop := limit < |x - y| ∧ |x - y| < 360 - limit

/-- The course calculated is far from one of the headings reported by the two reports. -/
def DirectionFails (limit : Rat) (a b : Report) : Prop :=
  ∃ da db c, a.getvar "dsi" = some da ∧ b.getvar "dsi" = some db ∧ b.getvar "course" = some c
    ∧ (FarDirections limit db c ∨ FarDirections limit da c)

/-- The speed calculated differs from both speeds reported by more than the limit in knots. -/
def SpeedChangeFails (limit : Rat) (a b : Report) : Prop :=
  ∃ va vb s, a.getvar "vsi" = some va ∧ b.getvar "vsi" = some vb ∧ b.getvar "speed" = some s
    ∧ limit / kmToNm < |vb / kmToNm - s| ∧ limit / kmToNm < |va / kmToNm - s|

/-- Speeds around `b` exceed the limit: from `a` to `b` and between the neighbours of `a`, or from `b` to `c`
and between the neighbours of `c`, or from `a` to `b` and from `b` to `c`. -/
def SpeedFails (amax : Rat) (a b c : Report) : Prop :=
  (Above (b.getvar "speed") amax ∧ Above (a.getvar "alt_speed") amax)
    ∨ (Above (c.getvar "speed") amax ∧ Above (c.getvar "alt_speed") amax)
    ∨ (Above (b.getvar "speed") amax ∧ Above (c.getvar "speed") amax)

/-- The part of the time from `a` to `c` that is spent up to `b`, 0 if it is not known. -/
def TimePart (b c : Report) (f : Rat) : Prop :=
  (∃ t t', b.getvar "time_diff" = some t ∧ c.getvar "time_diff" = some t' ∧ t + t' ≠ 0 ∧ f = t / (t + t'))
    ∨ (f = 0 ∧ ∀ t t', b.getvar "time_diff" = some t → c.getvar "time_diff" = some t' → t + t' = 0)

/-- The position of `b` is further than `limit` nautical miles from the point on the great circle from `a` to
`c` that the ship would have reached at the time of `b` at constant speed. -/
def MidpointFails (G : Geo) (limit : Rat) (a b c : Report) : Prop :=
  ∃ lata lona latb lonb latc lonc f, a.getvar "LAT" = some lata ∧ a.getvar "LON" = some lona
    ∧ b.getvar "LAT" = some latb ∧ b.getvar "LON" = some lonb
    ∧ c.getvar "LAT" = some latc ∧ c.getvar "LON" = some lonc ∧ TimePart b c f
    ∧ limit / kmToNm < G.dist latb lonb (G.along lata lona latc lonc f).1 (G.along lata lona latc lonc f).2

/-- The track check fails `b`, between `a` and `c`: the midpoint test fails, the speed test fails and at least
one of the tests of distance, direction, change of speed and absolute speed fails. -/
def TrackFails (G : Geo) (P : TrackParams) (amax : Rat) (a b c : Report) : Prop :=
  MidpointFails G P.maxMidpoint a b c ∧ SpeedFails amax a b c
    ∧ (DistanceFails G a b c ∨ DirectionFails P.maxDirection a b ∨ SpeedChangeFails P.maxSpeedChange a b
      ∨ Above (b.getvar "speed") (P.maxSpeed / kmToNm))

end Spec

open Spec

theorem mapM_get {α β : Type} {f : α → Except Err β} {l : List α} {r : List β} (h : l.mapM f = .ok r) :
    r.length = l.length ∧ ∀ (i : Nat) (x : α), l[i]? = some x → ∃ y, f x = .ok y ∧ r[i]? = some y := by
  induction l generalizing r with
  | nil =>
    simp only [List.mapM_nil, except_pure, Except.ok.injEq] at h
    subst h
    exact ⟨rfl, by simp⟩
  | cons a l ih =>
    rw [List.mapM_cons] at h
    cases h1 : f a with
    | error e => simp [h1] at h
    | ok y =>
      cases h2 : l.mapM f with
      | error e => simp [h1, h2] at h
      | ok r' =>
        simp only [h1, h2, except_bind_ok, except_pure, Except.ok.injEq] at h
        subst h
        obtain ⟨i1, i2⟩ := ih h2
        refine ⟨by simp [i1], ?_⟩
        intro i x hx
        cases i with
        | zero =>
          simp only [List.getElem?_cons_zero, Option.some.injEq] at hx ⊢
          subst hx
          exact ⟨y, h1, rfl⟩
        | succ i =>
          simp only [List.getElem?_cons_succ] at hx ⊢
          exact i2 i x hx

theorem optGt_iff (x : Option Rat) (l : Rat) : optGt x l = true ↔ Above x l := by
  cases x with
  | none => simp [optGt, Above]
  | some s => simp [optGt, Above]

theorem speedTest_iff (amax : Rat) (a b c : Report) : speedTest amax a b c = true ↔ SpeedFails amax a b c := by
  unfold speedTest SpeedFails
  rw [← optGt_iff, ← optGt_iff, ← optGt_iff, ← optGt_iff]
  cases optGt (b.getvar "speed") amax <;> cases optGt (a.getvar "alt_speed") amax <;>
    cases optGt (c.getvar "speed") amax <;> cases optGt (c.getvar "alt_speed") amax <;> simp

theorem distrAt_above {G : Geo} {turn : Rat} {a b : Report} {t : Option Rat} {o : Option Rat}
    (h : distrAt G turn a b t = .ok o) (d : Rat) :
    o = some d ↔ ∃ t', t = some t' ∧ EstimateMiss G turn a b t' d := by
  unfold distrAt at h
  unfold EstimateMiss
  cases e1 : b.getvar "vsi" with
  | none => simp only [e1, except_pure, Except.ok.injEq] at h; subst h; simp
  | some vb =>
  cases e2 : a.getvar "vsi" with
  | none => simp only [e1, e2, except_pure, Except.ok.injEq] at h; subst h; simp
  | some va =>
  cases e3 : b.getvar "dsi" with
  | none => simp only [e1, e2, e3, except_pure, Except.ok.injEq] at h; subst h; simp
  | some db =>
  cases e4 : a.getvar "dsi" with
  | none => simp only [e1, e2, e3, e4, except_pure, Except.ok.injEq] at h; subst h; simp
  | some da =>
  cases t with
  | none => simp only [e1, e2, e3, e4, except_pure, Except.ok.injEq] at h; subst h; simp
  | some t =>
  cases f1 : a.getvar "LAT" with
  | none => simp [e1, e2, e3, e4, f1, incrementPosition] at h
  | some lata =>
  cases f2 : a.getvar "LON" with
  | none => simp [e1, e2, e3, e4, f1, f2, incrementPosition] at h
  | some lona =>
  cases f3 : b.getvar "LAT" with
  | none => simp [e1, e2, e3, e4, f1, f2, f3, incrementPosition] at h
  | some latb =>
  cases f4 : b.getvar "LON" with
  | none => simp [e1, e2, e3, e4, f1, f2, f3, f4, incrementPosition] at h
  | some lonb =>
    simp only [e1, e2, e3, e4, f1, f2, f3, f4, incrementPosition, except_bind_ok, shiftPosition, sphereDistanceOf,
      except_pure, Except.ok.injEq] at h
    subst h
    constructor
    · intro hd
      rw [Option.some.injEq] at hd
      exact ⟨t, rfl, lata, lona, latb, lonb, va, vb, da, db, rfl, rfl, rfl, rfl, rfl, rfl, rfl, rfl, hd.symm⟩
    · rintro ⟨t', ht, lata', lona', latb', lonb', va', vb', da', db', g1, g2, g3, g4, g5, g6, g7, g8, g9⟩
      simp only [Option.some.injEq] at ht g1 g2 g3 g4 g5 g6 g7 g8
      subst ht g1 g2 g3 g4 g5 g6 g7 g8
      rw [g9]

theorem timeFraction_iff (b c : Report) (f : Rat) :
    f = timeFraction (b.getvar "time_diff") (c.getvar "time_diff") ↔ TimePart b c f := by
  unfold timeFraction TimePart
  cases b.getvar "time_diff" with
  | none => simp
  | some t =>
    cases c.getvar "time_diff" with
    | none => simp
    | some t' =>
      by_cases h : t + t' = 0
      · simp [h]
      · simp [h]

theorem midptAt_above {G : Geo} {a b c : Report} {d : Rat} (h : midptAt G a b c = .ok d) (limit : Rat) :
    limit / kmToNm < d ↔ MidpointFails G limit a b c := by
  unfold midptAt intermediatePointOf at h
  unfold MidpointFails
  by_cases hf : timeFraction (b.getvar "time_diff") (c.getvar "time_diff") ≤ 1
  swap
  · simp [hf] at h
  simp only [hf, decide_true, pyAssert_true, except_bind_ok] at h
  cases f1 : a.getvar "LAT" with
  | none => simp [f1] at h
  | some lata =>
  cases f2 : a.getvar "LON" with
  | none => simp [f1, f2] at h
  | some lona =>
  cases f3 : c.getvar "LAT" with
  | none => simp [f1, f2, f3] at h
  | some latc =>
  cases f4 : c.getvar "LON" with
  | none => simp [f1, f2, f3, f4] at h
  | some lonc =>
  cases f5 : b.getvar "LAT" with
  | none => simp [f1, f2, f3, f4, f5, sphereDistanceOf] at h
  | some latb =>
  cases f6 : b.getvar "LON" with
  | none => simp [f1, f2, f3, f4, f5, f6, sphereDistanceOf] at h
  | some lonb =>
    simp only [f1, f2, f3, f4, f5, f6, except_bind_ok, sphereDistanceOf, Except.ok.injEq] at h
    subst h
    constructor
    · intro hd
      exact ⟨lata, lona, latb, lonb, latc, lonc, _, rfl, rfl, rfl, rfl, rfl, rfl, (timeFraction_iff b c _).1 rfl, hd⟩
    · rintro ⟨lata', lona', latb', lonb', latc', lonc', f, g1, g2, g3, g4, g5, g6, g7, g8⟩
      simp only [Option.some.injEq] at g1 g2 g3 g4 g5 g6
      subst g1 g2 g3 g4 g5 g6
      rw [← timeFraction_iff] at g7
      rw [← g7]
      exact g8

theorem directionContinuity_spec {a b : Report} {limit x : Rat}
    (h : directionContinuity (b.getvar "dsi") (a.getvar "dsi") (b.getvar "course") limit = .ok x) :
    0 ≤ x ∧ (0 < x ↔ DirectionFails limit a b) := by
  unfold directionContinuity at h
  unfold DirectionFails FarDirections
  by_cases h1 : b.getvar "dsi" ∈ dsConvert
  swap
  · simp [h1] at h
  by_cases h2 : a.getvar "dsi" ∈ dsConvert
  swap
  · simp [h1, h2] at h
  simp only [h1, h2, decide_true, pyAssert_true, except_bind_ok] at h
  cases e1 : b.getvar "dsi" with
  | none => simp only [e1, except_pure, Except.ok.injEq] at h; subst h; simp
  | some d =>
  cases e2 : a.getvar "dsi" with
  | none => simp only [e1, e2, except_pure, Except.ok.injEq] at h; subst h; simp
  | some p =>
  cases e3 : b.getvar "course" with
  | none => simp only [e1, e2, e3, except_pure, Except.ok.injEq] at h; subst h; simp
  | some c =>
    simp only [e1, e2, e3, except_pure] at h
    split at h
    · rename_i hc
      simp only [Except.ok.injEq] at h
      subst h
      exact ⟨by norm_num, by norm_num; exact hc⟩
    · rename_i hc
      simp only [Except.ok.injEq] at h
      subst h
      refine ⟨by norm_num, by norm_num, ?_⟩
      rintro ⟨da, db, c', g1, g2, g3, g4⟩
      simp only [Option.some.injEq] at g1 g2 g3
      subst g1 g2 g3
      exact absurd g4 hc

theorem speedContinuity_spec (a b : Report) (limit : Rat) :
    0 ≤ speedContinuity (b.getvar "vsi") (a.getvar "vsi") (b.getvar "speed") limit
      ∧ (0 < speedContinuity (b.getvar "vsi") (a.getvar "vsi") (b.getvar "speed") limit
        ↔ SpeedChangeFails limit a b) := by
  unfold speedContinuity SpeedChangeFails
  cases e1 : b.getvar "vsi" with
  | none => simp
  | some d =>
  cases e2 : a.getvar "vsi" with
  | none => simp
  | some p =>
  cases e3 : b.getvar "speed" with
  | none => simp
  | some c =>
    simp only
    split
    · rename_i hc
      exact ⟨by norm_num, by norm_num; exact hc⟩
    · rename_i hc
      refine ⟨by norm_num, by norm_num, ?_⟩
      rintro ⟨da, db, c', g1, g2, g3, g4⟩
      simp only [Option.some.injEq] at g1 g2 g3
      subst g1 g2 g3
      exact absurd g4 hc

theorem checkDistance_spec {G : Geo} {a b c : Report} {fwd rev : Option Rat}
    (hf : distrAt G 0 a b (b.getvar "time_diff") = .ok fwd)
    (hr : distrAt G 180 c b (c.getvar "time_diff") = .ok rev) :
    0 ≤ checkDistance (b.getvar "vsi") (a.getvar "vsi") (b.getvar "time_diff") fwd rev
      ∧ (0 < checkDistance (b.getvar "vsi") (a.getvar "vsi") (b.getvar "time_diff") fwd rev
        ↔ DistanceFails G a b c) := by
  have hf' := distrAt_above hf
  have hr' := distrAt_above hr
  unfold checkDistance DistanceFails
  cases e1 : b.getvar "vsi" with
  | none => simp
  | some vb =>
  cases e2 : a.getvar "vsi" with
  | none => simp
  | some va =>
  cases e3 : b.getvar "time_diff" with
  | none => simp
  | some t =>
    simp only
    split
    · rename_i hpos
      split
      · rename_i hc
        rw [Bool.and_eq_true, optGt_iff, optGt_iff] at hc
        obtain ⟨⟨f, c1, c2⟩, r, c3, c4⟩ := hc
        obtain ⟨t1, ht1, m1⟩ := (hf' f).1 c1
        obtain ⟨t2, ht2, m2⟩ := (hr' r).1 c3
        rw [e3, Option.some.injEq] at ht1
        subst ht1
        refine ⟨by norm_num, fun _ => ?_, fun _ => by norm_num⟩
        exact ⟨va, vb, t, t2, f, r, rfl, rfl, rfl, ht2, hpos.2.1, hpos.1, hpos.2.2, m1, m2, c2, c4⟩
      · rename_i hc
        refine ⟨by norm_num, by norm_num, ?_⟩
        rintro ⟨va', vb', t', t2, f, r, g1, g2, g3, g4, -, -, -, m1, m2, c2, c4⟩
        simp only [Option.some.injEq] at g1 g2 g3
        subst g1 g2 g3
        exfalso
        apply hc
        rw [Bool.and_eq_true, optGt_iff, optGt_iff]
        exact ⟨⟨f, (hf' f).2 ⟨t, e3, m1⟩, c2⟩, r, (hr' r).2 ⟨t2, g4, m2⟩, c4⟩
    · rename_i hpos
      refine ⟨by norm_num, by norm_num, ?_⟩
      rintro ⟨va', vb', t', t2, f, r, g1, g2, g3, g4, p1, p2, p3, -⟩
      simp only [Option.some.injEq] at g1 g2 g3
      subst g1 g2 g3
      exact absurd ⟨p2, p1, p3⟩ hpos

theorem otherTests_spec {G : Geo} {P : TrackParams} {a b c : Report} {fwd rev : Option Rat} {x : Rat}
    (hf : distrAt G 0 a b (b.getvar "time_diff") = .ok fwd)
    (hr : distrAt G 180 c b (c.getvar "time_diff") = .ok rev) (h : otherTests P a b fwd rev = .ok x) :
    0 < x ↔ (DistanceFails G a b c ∨ DirectionFails P.maxDirection a b ∨ SpeedChangeFails P.maxSpeedChange a b
      ∨ Above (b.getvar "speed") (P.maxSpeed / kmToNm)) := by
  unfold otherTests at h
  cases hd : directionContinuity (b.getvar "dsi") (a.getvar "dsi") (b.getvar "course") P.maxDirection with
  | error e => simp [hd] at h
  | ok y =>
    simp only [hd, except_bind_ok, except_pure, Except.ok.injEq] at h
    subst h
    obtain ⟨d1, d2⟩ := directionContinuity_spec hd
    obtain ⟨s1, s2⟩ := speedContinuity_spec a b P.maxSpeedChange
    obtain ⟨c1, c2⟩ := checkDistance_spec hf hr
    rw [← d2, ← s2, ← c2, ← optGt_iff]
    generalize checkDistance (b.getvar "vsi") (a.getvar "vsi") (b.getvar "time_diff") fwd rev = p at *
    generalize speedContinuity (b.getvar "vsi") (a.getvar "vsi") (b.getvar "speed") P.maxSpeedChange = q at *
    cases optGt (b.getvar "speed") (P.maxSpeed / kmToNm)
    · simp only [Bool.false_eq_true, if_false, or_false, add_zero]
      constructor
      · intro h
        by_contra hc
        push Not at hc
        linarith [hc.1, hc.2.1, hc.2.2]
      · rintro (h | h | h) <;> linarith
    · simp only [if_true, or_true, iff_true]
      linarith

/-- What one pass of the check computes: one flag per report, none at the ends, and in between exactly on the
reports that fail. -/
theorem trackFlags_spec {G : Geo} {P : TrackParams} {v : List Report} {fl : List Int} (hn : 2 ≤ v.length)
    (h : trackFlags G P v = .ok fl) :
    fl.length = v.length ∧ fl[0]? = some 0 ∧ fl[v.length - 1]? = some 0
      ∧ ∃ spd mode, getSpeed v = .ok spd ∧ modesp spd = .ok mode
      ∧ ∀ (i : Nat) (a b c : Report), v[i]? = some a → v[i + 1]? = some b → v[i + 2]? = some c →
        ∃ x, fl[i + 1]? = some x ∧ (x = 0 ∨ x = 1) ∧ (x = 1 ↔ TrackFails G P (setSpeedLimits mode).1 a b c) := by
  unfold trackFlags at h
  cases e0 : meansp v with
  | error e => simp [e0] at h
  | ok ms =>
  cases e1 : getSpeed v with
  | error e => simp [e0, e1] at h
  | ok spd =>
  cases e2 : modesp spd with
  | error e => simp [e0, e1, e2] at h
  | ok mode =>
  cases e3 : distr1 G v with
  | error e => simp [e0, e1, e2, e3] at h
  | ok fwd =>
  cases e4 : distr2 G v with
  | error e => simp [e0, e1, e2, e3, e4] at h
  | ok rev =>
  cases e5 : midpt G v with
  | error e => simp [e0, e1, e2, e3, e4, e5] at h
  | ok mid =>
  cases e6 : (List.range' 1 (v.length - 2)).mapM (trackFlag P (setSpeedLimits mode).1 v fwd rev mid) with
  | error e => simp [e0, e1, e2, e3, e4, e5, e6] at h
  | ok inner =>
    simp only [e0, e1, e2, e3, e4, e5, e6, except_bind_ok, except_pure, Except.ok.injEq] at h
    subst h
    obtain ⟨l6, g6⟩ := mapM_get e6
    rw [List.length_range'] at l6
    refine ⟨by simp [l6]; omega, rfl, ?_, spd, mode, rfl, e2, ?_⟩
    · rw [List.getElem?_append_right (by simp [l6]; omega)]
      have : v.length - 1 - (0 :: inner).length = 0 := by simp [l6]; omega
      rw [this]; rfl
    · intro i a b c ha hb hc
      have hi : i + 2 < v.length := by
        by_contra hh
        rw [List.getElem?_eq_none (by omega)] at hc; simp at hc
      -- the forward estimate
      unfold distr1 at e3
      cases m3 : (List.range' 1 (v.length - 1)).mapM (distr1At G v) with
      | error e => simp [m3] at e3
      | ok rest3 =>
      simp only [m3, except_bind_ok, except_pure, Except.ok.injEq] at e3
      obtain ⟨l3, g3⟩ := mapM_get m3
      unfold distr2 at e4
      cases m4 : (List.range' 1 (v.length - 1)).reverse.mapM (distr2At G v) with
      | error e => simp [m4] at e4
      | ok rest4 =>
      simp only [m4, except_bind_ok, except_pure, Except.ok.injEq] at e4
      obtain ⟨l4, g4⟩ := mapM_get m4
      unfold midpt at e5
      cases m5 : (List.range' 1 (v.length - 2)).mapM (midptOf G v) with
      | error e => simp [m5] at e5
      | ok rest5 =>
      simp only [m5, except_bind_ok, except_pure, Except.ok.injEq] at e5
      obtain ⟨l5, g5⟩ := mapM_get m5
      rw [List.length_range'] at l3 l5
      rw [List.length_reverse, List.length_range'] at l4
      have pa : pyIndex v (((1 + i : Nat) : Int) - 1) = .ok a := by
        have : ((1 + i : Nat) : Int) - 1 = (i : Nat) := by omega
        rw [this]; exact pyIndex_get ha
      have pb : pyIndex v ((1 + i : Nat) : Int) = .ok b := pyIndex_get (by rw [Nat.add_comm]; exact hb)
      have pc : pyIndex v (((1 + i : Nat) : Int) + 1) = .ok c := by
        have : ((1 + i : Nat) : Int) + 1 = ((i + 2 : Nat) : Int) := by omega
        rw [this]; exact pyIndex_get hc
      obtain ⟨f, f1, f2⟩ := g3 i (1 + i) (by rw [List.getElem?_range' (by omega)]; simp)
      obtain ⟨m, n1, n2⟩ := g5 i (1 + i) (by rw [List.getElem?_range' (by omega)]; simp)
      obtain ⟨r, r1, r2⟩ := g4 (v.length - 2 - (i + 1)) (2 + i) (by
        rw [List.getElem?_reverse (by simp; omega), List.length_range', List.getElem?_range' (by omega)]
        simp; omega)
      obtain ⟨x, x1, x2⟩ := g6 i (1 + i) (by rw [List.getElem?_range' (by omega)]; simp)
      simp only [distr1At, pa, pb, except_bind_ok] at f1
      simp only [midptOf, pa, pb, pc, except_bind_ok] at n1
      have pb' : pyIndex v (((2 + i : Nat) : Int) - 1) = .ok b := by
        have : ((2 + i : Nat) : Int) - 1 = ((1 + i : Nat) : Int) := by omega
        rw [this]; exact pb
      have pc' : pyIndex v ((2 + i : Nat) : Int) = .ok c := pyIndex_get (by rw [Nat.add_comm]; exact hc)
      simp only [distr2At, pb', pc', except_bind_ok] at r1
      cases n3 : midptAt G a b c with
      | error e => simp [n3] at n1
      | ok d =>
      simp only [n3, except_bind_ok, except_pure, Except.ok.injEq] at n1
      have hfwd : pyIndex fwd ((1 + i : Nat) : Int) = .ok f := by
        refine pyIndex_get ?_
        rw [← e3, Nat.add_comm, List.getElem?_cons_succ]; exact f2
      have hrev : pyIndex rev ((1 + i : Nat) : Int) = .ok r := by
        refine pyIndex_get ?_
        rw [← e4, List.reverse_cons, List.getElem?_append_left (by simp; omega),
          List.getElem?_reverse (by omega)]
        rw [← r2]; congr 1; omega
      have hmid : pyIndex mid ((1 + i : Nat) : Int) = .ok m := by
        refine pyIndex_get ?_
        rw [← e5, List.getElem?_append_left (by simp; omega), Nat.add_comm, List.getElem?_cons_succ]
        exact n2
      refine ⟨x, ?_, ?_⟩
      · rw [List.getElem?_append_left (by simp; omega), List.getElem?_cons_succ]; exact x2
      · unfold trackFlag at x1
        simp only [pa, pb, pc, hfwd, hrev, hmid, except_bind_ok] at x1
        cases ho : otherTests P a b f r with
        | error e => simp [ho] at x1
        | ok q =>
          have ho' := otherTests_spec f1 r1 ho
          simp only [ho, except_bind_ok, except_pure] at x1
          have key : (optGt m (P.maxMidpoint / kmToNm) && speedTest (setSpeedLimits mode).1 a b c
              && decide (q > 0)) = true ↔ TrackFails G P (setSpeedLimits mode).1 a b c := by
            rw [Bool.and_eq_true, Bool.and_eq_true, speedTest_iff, ← n1]
            unfold TrackFails
            rw [← midptAt_above n3, ← ho']
            simp [optGt, and_assoc]
          by_cases hk : TrackFails G P (setSpeedLimits mode).1 a b c
          · rw [if_pos (key.2 hk), Except.ok.injEq] at x1
            exact ⟨Or.inr x1.symm, fun _ => hk, fun _ => x1.symm⟩
          · rw [if_neg (fun h => hk (key.1 h)), Except.ok.injEq] at x1
            exact ⟨Or.inl x1.symm, fun h => by omega, fun h => absurd h hk⟩

end MarineQC
