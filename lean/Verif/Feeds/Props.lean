import Verif.Feeds.Model
import Verif.Report.BaseQc

/-!
# C141: near-real-time lines
-/

namespace MarineQC

namespace Spec

/-- What is on a near-real-time line: texts between commas, of which the second is not used. -/
structure NrtLine where
  id : List Char
  dud : List Char
  date : List Char
  lat : List Char
  lon : List Char
  sst : List Char

/-- The texts in order. -/
def NrtLine.texts (l : NrtLine) : List (List Char) := [l.id, l.dud, l.date, l.lat, l.lon, l.sst]

/-- `s` is the line with these texts, with any number of line ends after it. -/
def NrtLine.Writes (l : NrtLine) (s : List Char) : Prop :=
  (∀ t ∈ l.texts, ',' ∉ t) ∧ l.sst.getLast? ≠ some '\n' ∧
    ∃ n, s = l.id ++ ',' :: (l.dud ++ ',' :: (l.date ++ ',' :: (l.lat ++ ',' :: (l.lon ++ ',' :: l.sst))))
      ++ List.replicate n '\n'

/-- The texts mean: this minute, this place and this temperature, which may be missing. -/
def NrtLine.Means (num : List Char → Option Rat) (date : List Char → Option Dt) (l : NrtLine) (d : Dt) (lat lon : Rat)
    (sst : Option Rat) : Prop :=
  date l.date = some d ∧ num l.lat = some lat ∧ num l.lon = some lon ∧
    if l.sst = "nan".toList then sst = none else ∃ x, num l.sst = some x ∧ sst = some x

/-- A time that exists, as a `datetime` does. -/
def TimeExists (d : Dt) : Prop :=
  IsDate d.year d.month d.day ∧ 1 ≤ d.year ∧ d.year ≤ 9999 ∧ 0 ≤ d.hour ∧ d.hour ≤ 23 ∧ 0 ≤ d.minute ∧ d.minute ≤ 59

end Spec

open Spec

theorem splitCommas_ne (acc s : List Char) : splitCommas acc s ≠ [] := by
  induction s generalizing acc with
  | nil => simp [splitCommas]
  | cons c s ih =>
    unfold splitCommas
    split
    · simp
    · exact ih _

/-- The pieces of a text joined again. -/
theorem join_splitCommas (acc s : List Char) : commaJoin (splitCommas acc s) = acc ++ s := by
  induction s generalizing acc with
  | nil => simp [splitCommas, commaJoin]
  | cons c s ih =>
    unfold splitCommas
    split
    · rename_i h
      subst h
      cases h' : splitCommas [] s with
      | nil => exact absurd h' (splitCommas_ne _ _)
      | cons a l =>
        have := ih []
        rw [h'] at this
        simp only [commaJoin, this]
        simp
    · rw [ih]; simp

theorem splitCommas_mem (acc s : List Char) (h : ',' ∉ acc) : ∀ t ∈ splitCommas acc s, ',' ∉ t := by
  induction s generalizing acc with
  | nil => simpa [splitCommas] using h
  | cons c s ih =>
    unfold splitCommas
    split
    · intro t ht
      rcases List.mem_cons.1 ht with rfl | ht
      · exact h
      · exact ih [] (by simp) t ht
    · rename_i hc
      exact ih _ (by
        simp only [List.mem_append, List.mem_singleton, not_or]
        exact ⟨h, fun e => hc e.symm⟩)

/-- A text without its line ends at the end. -/
theorem chomp_iff (s t : List Char) : (s.reverse.dropWhile (· == '\n')).reverse = t ↔
    t.getLast? ≠ some '\n' ∧ ∃ n, s = t ++ List.replicate n '\n' := by
  have key : ∀ l : List Char, ∃ n, l = List.replicate n '\n' ++ l.dropWhile (· == '\n') := by
    intro l
    induction l with
    | nil => exact ⟨0, rfl⟩
    | cons c l ih =>
      by_cases hc : c = '\n'
      · obtain ⟨n, hn⟩ := ih
        refine ⟨n + 1, ?_⟩
        subst hc
        rw [List.dropWhile_cons_of_pos (by simp), List.replicate_succ, List.cons_append, ← hn]
      · refine ⟨0, ?_⟩
        rw [List.dropWhile_cons_of_neg (by simpa using hc)]
        rfl
  constructor
  · rintro rfl
    refine ⟨?_, ?_⟩
    · rw [List.getLast?_reverse]
      intro h
      have := List.head?_dropWhile_not (fun c : Char => c == '\n') s.reverse
      rw [h] at this
      simp at this
    · obtain ⟨n, hn⟩ := key s.reverse
      refine ⟨n, ?_⟩
      have := congrArg List.reverse hn
      rw [List.reverse_reverse, List.reverse_append, List.reverse_replicate] at this
      exact this
  · rintro ⟨h, n, rfl⟩
    rw [List.reverse_append, List.reverse_replicate]
    have h1 : (List.replicate n '\n' ++ t.reverse).dropWhile (· == '\n') = t.reverse := by
      induction n with
      | zero =>
        cases ht : t.reverse with
        | nil => rfl
        | cons c l =>
          have : t.getLast? = some c := by rw [← List.head?_reverse, ht]; rfl
          rw [this] at h
          simp only [List.replicate_zero, List.nil_append]
          rw [List.dropWhile_cons_of_neg]
          simpa using h
      | succ n ih =>
        rw [List.replicate_succ, List.cons_append, List.dropWhile_cons_of_pos (by simp)]
        exact ih
    rw [h1, List.reverse_reverse]

theorem parsed_ok {α : Type} (o : Option α) (x : α) : parsed o = .ok x ↔ o = some x := by
  cases o <;> simp [parsed]

theorem nrtTemp_iff (num : List Char → Option Rat) (s : List Char) (q : Option Rat) :
    nrtTemp num s = .ok q ↔ if s = "nan".toList then q = none else ∃ x, num s = some x ∧ q = some x := by
  unfold nrtTemp
  by_cases h : s = "nan".toList
  · simp only [h, if_true, Except.ok.injEq]
    exact eq_comm
  · simp only [h, if_false]
    cases num s with
    | none => simp [parsed, Except.map]
    | some x =>
      simp only [parsed, Except.map, Except.ok.injEq, Option.some.injEq, exists_eq_left']
      exact eq_comm

theorem texts_last (l : NrtLine) : (commaJoin l.texts).getLast? ≠ some '\n' ↔ l.sst.getLast? ≠ some '\n' := by
  have hcj : commaJoin l.texts
      = l.id ++ ',' :: (l.dud ++ ',' :: (l.date ++ ',' :: (l.lat ++ ',' :: (l.lon ++ ',' :: l.sst)))) := by
    simp [NrtLine.texts, commaJoin]
  rw [hcj]
  cases hq : l.sst with
  | nil =>
    have e : l.id ++ ',' :: (l.dud ++ ',' :: (l.date ++ ',' :: (l.lat ++ ',' :: (l.lon ++ [',']))))
        = (l.id ++ ',' :: (l.dud ++ ',' :: (l.date ++ ',' :: (l.lat ++ ',' :: l.lon)))) ++ [','] := by
      simp
    rw [e, List.getLast?_append_of_ne_nil _ (by simp)]
    simp
  | cons c t =>
    have e : l.id ++ ',' :: (l.dud ++ ',' :: (l.date ++ ',' :: (l.lat ++ ',' :: (l.lon ++ ',' :: (c :: t)))))
        = (l.id ++ ',' :: (l.dud ++ ',' :: (l.date ++ ',' :: (l.lat ++ ',' :: (l.lon ++ [',']))))) ++ (c :: t) := by
      simp
    rw [e, List.getLast?_append_of_ne_nil _ (by simp)]

theorem writes_unique {l l' : NrtLine} {s : List Char} (h : l.Writes s) (h' : l'.Writes s) : l = l' := by
  have key : ∀ l : NrtLine, l.Writes s → splitCommas [] (s.reverse.dropWhile (· == '\n')).reverse = l.texts := by
    rintro l ⟨h1, h2, n, h3⟩
    have hcj : commaJoin l.texts
        = l.id ++ ',' :: (l.dud ++ ',' :: (l.date ++ ',' :: (l.lat ++ ',' :: (l.lon ++ ',' :: l.sst)))) := by
      simp [NrtLine.texts, commaJoin]
    have : (s.reverse.dropWhile (· == '\n')).reverse = commaJoin l.texts := by
      rw [chomp_iff]
      exact ⟨(texts_last l).2 h2, n, by rw [hcj]; exact h3⟩
    rw [this]
    exact splitCommas_join _ (by simp [NrtLine.texts]) h1
  have e := (key l h).symm.trans (key l' h')
  obtain ⟨_, _, _, _, _, _⟩ := l
  obtain ⟨_, _, _, _, _, _⟩ := l'
  simp only [NrtLine.texts, List.cons.injEq, and_true] at e
  obtain ⟨rfl, rfl, rfl, rfl, rfl, rfl⟩ := e
  rfl

theorem means_unique {num : List Char → Option Rat} {date : List Char → Option Dt} {l : NrtLine} {d d' : Dt}
    {a a' b b' : Rat} {q q' : Option Rat} (h : l.Means num date d a b q) (h' : l.Means num date d' a' b' q') :
    d = d' ∧ a = a' ∧ b = b' ∧ q = q' := by
  obtain ⟨h1, h2, h3, h4⟩ := h
  obtain ⟨k1, k2, k3, k4⟩ := h'
  rw [h1, Option.some.injEq] at k1
  rw [h2, Option.some.injEq] at k2
  rw [h3, Option.some.injEq] at k3
  refine ⟨k1, k2, k3, ?_⟩
  split at h4
  · rename_i hn
    rw [if_pos hn] at k4
    rw [h4, k4]
  · rename_i hn
    rw [if_neg hn] at k4
    obtain ⟨x, hx, rfl⟩ := h4
    obtain ⟨y, hy, rfl⟩ := k4
    rw [hx] at hy
    exact hy

/-- C141. A record is read from a line exactly if the line has six texts between commas, with a date, a latitude and
a longitude that can be read, and a temperature that can be read or is `nan`.  The record has the identifier, the minute,
the place and the temperature of the line; the unique identifier is `NRT`, the identifier and the text of the date.  Only
latitudes above 200 and longitudes above 400 are replaced, by 200 and 400.  From an empty text nothing is read.  Otherwise
the reader raises ValueError. -/
theorem C141_record (num : List Char → Option Rat) (date : List Char → Option Dt) (s : List Char) :
    (nrtRead num date s = .ok none ↔ s = []) ∧
    (∀ r, nrtRead num date s = .ok (some r) ↔
      ∃ (l : NrtLine) (d : Dt) (lat lon : Rat) (sst : Option Rat), l.Writes s ∧ l.Means num date d lat lon sst ∧
        r.id = l.id ∧ r.uid = 'N' :: 'R' :: 'T' :: (l.id ++ l.date) ∧ r.yr = d.year ∧ r.mo = d.month ∧ r.dy = d.day ∧
        r.hr = d.hour + d.minute / 60 ∧ r.lat = min lat 200 ∧ r.lon = min lon 400 ∧ r.sst = sst) ∧
    ∀ e, nrtRead num date s = .error e → e = .value := by
  have hcap : ∀ t x : Rat, capAt t x = min x t := by
    intro t x
    unfold capAt
    split
    · rename_i h; rw [min_eq_right (le_of_lt h)]
    · rename_i h; rw [min_eq_left (not_lt.1 h)]
  by_cases h0 : s = []
  · subst h0
    refine ⟨by simp [nrtRead], fun r => ?_, by simp [nrtRead]⟩
    simp only [nrtRead, if_true, Except.ok.injEq, reduceCtorEq, false_iff]
    rintro ⟨l, d, lat, lon, sst, ⟨-, -, n, hn⟩, -⟩
    simp at hn
  · unfold nrtRead
    rw [if_neg h0]
    generalize hb : (s.reverse.dropWhile (· == '\n')).reverse = b
    have hs := (chomp_iff s b).1 hb
    have hj : commaJoin (splitCommas [] b) = b := by simpa using join_splitCommas [] b
    have hm := splitCommas_mem [] b (by simp)
    -- the line is written by `l` exactly if the pieces are its texts
    have hw : ∀ l : NrtLine, l.Writes s ↔ splitCommas [] b = l.texts := by
      intro l
      have hcj : commaJoin l.texts
          = l.id ++ ',' :: (l.dud ++ ',' :: (l.date ++ ',' :: (l.lat ++ ',' :: (l.lon ++ ',' :: l.sst)))) := by
        simp [NrtLine.texts, commaJoin]
      have hlast := texts_last l
      constructor
      · rintro ⟨h1, h2, n, h3⟩
        have : b = commaJoin l.texts := by
          rw [← hb, chomp_iff]
          exact ⟨hlast.2 h2, n, by rw [hcj]; exact h3⟩
        rw [this]
        exact splitCommas_join _ (by simp [NrtLine.texts]) h1
      · intro h
        rw [h] at hj hm
        rw [← hj] at hs
        obtain ⟨h2, n, h3⟩ := hs
        exact ⟨hm, hlast.1 h2, n, by rw [← hcj]; exact h3⟩
    generalize splitCommas [] b = ps at hw
    rcases ps with _ | ⟨p1, _ | ⟨p2, _ | ⟨p3, _ | ⟨p4, _ | ⟨p5, _ | ⟨p6, _ | ⟨p7, ps⟩⟩⟩⟩⟩⟩⟩
    case cons.cons.cons.cons.cons.cons.nil =>
      have hval : ∀ e, nrtTemp num p6 = .error e → e = .value := by
        intro e he
        unfold nrtTemp at he
        split at he
        · simp at he
        · cases hp : num p6 with
          | none => rw [hp] at he; simpa [parsed, Except.map] using he.symm
          | some x => rw [hp] at he; simp [parsed, Except.map] at he
      dsimp only
      refine ⟨?_, ?_, ?_⟩
      · simp only [h0, iff_false]
        intro h
        simp only [bind_ok_iff, except_pure, Except.ok.injEq, reduceCtorEq, and_false, exists_false] at h
      · intro r
        constructor
        · intro h
          refine ⟨⟨p1, p2, p3, p4, p5, p6⟩, ?_⟩
          simp only [bind_ok_iff, parsed_ok, except_pure, Except.ok.injEq, Option.some.injEq] at h
          obtain ⟨d, hd, la, hla, lo, hlo, q, hq, rfl⟩ := h
          refine ⟨d, la, lo, q, (hw _).2 rfl, ⟨hd, hla, hlo, (nrtTemp_iff num p6 q).1 hq⟩, rfl, by simp, rfl, rfl, rfl,
            rfl, hcap _ _, hcap _ _, rfl⟩
        · rintro ⟨l, d, la, lo, q, hl, ⟨hd, hla, hlo, hq⟩, e1, e2, e3, e4, e5, e6, e7, e8, e9⟩
          have := (hw l).1 hl
          simp only [NrtLine.texts, List.cons.injEq, and_true] at this
          obtain ⟨rfl, rfl, rfl, rfl, rfl, rfl⟩ := this
          have hq' := (nrtTemp_iff num l.sst q).2 hq
          simp only [hd, hla, hlo, parsed, except_bind_ok]
          rw [hq', except_bind_ok, except_pure, hcap, hcap]
          obtain ⟨_, _, _, _, _, _, _, _, _⟩ := r
          simp only at e1 e2 e3 e4 e5 e6 e7 e8 e9
          subst e1 e2 e3 e4 e5 e6 e7 e8 e9
          simp
      · intro e
        cases date p3 with
        | none => intro h; injection h with h; exact h.symm
        | some d =>
          cases num p4 with
          | none => intro h; injection h with h; exact h.symm
          | some la =>
            cases num p5 with
            | none => intro h; injection h with h; exact h.symm
            | some lo =>
              simp only [parsed, except_bind_ok]
              cases ht : nrtTemp num p6 with
              | error e' =>
                intro h
                injection h with h
                rw [← h]
                exact hval e' ht
              | ok q => intro h; cases h
    all_goals
      refine ⟨by simp [h0], fun r => ?_, fun e he => by simpa using he.symm⟩
      simp only [reduceCtorEq, false_iff]
      rintro ⟨l, d, lat, lon, sst, hl, -⟩
      have := (hw l).1 hl
      simp [NrtLine.texts] at this

/-- Numbers and dates of the examples. -/
def feedNum (s : List Char) : Option Rat :=
  if s = "95.5".toList then some (191 / 2) else if s = "900".toList then some 900
  else if s = "12.25".toList then some (49 / 4) else none

/-- One date. -/
def feedDate (s : List Char) : Option Dt := if s = "2019-02-03T04:30:10".toList then some ⟨2019, 2, 3, 4, 30⟩ else none

/-- A line with a latitude and a longitude that are both wrong. -/
def feedLine : NrtLine :=
  ⟨"62001".toList, "x".toList, "2019-02-03T04:30:10".toList, "95.5".toList, "900".toList, "12.25".toList⟩

example : feedLine.Writes "62001,x,2019-02-03T04:30:10,95.5,900,12.25\n".toList ∧
    feedLine.Means feedNum feedDate ⟨2019, 2, 3, 4, 30⟩ (191 / 2) 900 (some (49 / 4)) := by
  refine ⟨⟨by decide +kernel, by decide +kernel, 1, by decide +kernel⟩, by decide +kernel, by decide +kernel,
    by decide +kernel, ?_⟩
  rw [if_neg (by decide +kernel)]
  exact ⟨_, by decide +kernel, rfl⟩

example : nrtRead feedNum feedDate "62001,x,2019-02-03T04:30:10,95.5,900,12.25\n".toList =
    .ok (some ⟨"NRT620012019-02-03T04:30:10".toList, "62001".toList, 2019, 2, 3, 9 / 2, 191 / 2, 400, some (49 / 4)⟩) ∧
    nrtRead feedNum feedDate "62001,2019-02-03T04:30:10,95.5,900,12.25\n".toList = .error .value := by
  decide +kernel

/-- C141. Records of lines whose dates are written with the same number of characters have the same unique identifier
exactly if they have the same identifier and the same text of the date. -/
theorem C141_uid (num : List Char → Option Rat) (date : List Char → Option Dt) (s s' : List Char) (r r' : NrtRecord)
    (h : nrtRead num date s = .ok (some r)) (h' : nrtRead num date s' = .ok (some r')) (l l' : NrtLine)
    (hl : l.Writes s) (hl' : l'.Writes s') (hn : l.date.length = l'.date.length) :
    r.uid = r'.uid ↔ l.id = l'.id ∧ l.date = l'.date := by
  have key : ∀ (s : List Char) (r : NrtRecord) (l : NrtLine), nrtRead num date s = .ok (some r) → l.Writes s →
      r.uid = 'N' :: 'R' :: 'T' :: (l.id ++ l.date) := by
    intro s r l h hl
    obtain ⟨k, d, lat, lon, sst, hk, -, -, e, -⟩ := ((C141_record num date s).2.1 r).1 h
    rw [e, writes_unique hk hl]
  rw [key s r l h hl, key s' r' l' h' hl']
  simp only [List.cons.injEq, true_and]
  constructor
  · intro e
    have := List.append_inj' e hn
    exact this
  · rintro ⟨e1, e2⟩
    rw [e1, e2]

/-- Two lines of the same minute of two platforms. -/
example :
    let d := "2019-02-03T04:30:10".toList
    (NrtLine.mk "62001".toList [] d "95.5".toList "900".toList "nan".toList).Writes
        "62001,,2019-02-03T04:30:10,95.5,900,nan".toList ∧
      (NrtLine.mk "62002".toList [] d "95.5".toList "900".toList "nan".toList).Writes
        "62002,,2019-02-03T04:30:10,95.5,900,nan\n\n".toList ∧
      (nrtRead feedNum feedDate "62001,,2019-02-03T04:30:10,95.5,900,nan".toList).toOption.isSome ∧
      (nrtRead feedNum feedDate "62002,,2019-02-03T04:30:10,95.5,900,nan\n\n".toList).toOption.isSome := by
  refine ⟨⟨by decide +kernel, by decide +kernel, 0, by decide +kernel⟩,
    ⟨by decide +kernel, by decide +kernel, 2, by decide +kernel⟩, by decide +kernel, by decide +kernel⟩

/-- C141. A report made of the record of a near-real-time line has the time of the line to the minute.  The base checks
complete for it.  It counts as a drifter's; the position is flagged exactly if the position on the line is not on the
globe, although latitudes above 200 and longitudes above 400 are replaced; the date is flagged exactly if it is before
1850 or after 2024; the time never is; and a missing temperature is flagged exactly if the line has `nan`. -/
theorem C141_flags {F : Type} [LinearOrder F] [Zero F] (elev : Elev F) (p : BaseParams) (hp : GoodParams p)
    (num : List Char → Option Rat) (date : List Char → Option Dt) (hdate : ∀ t d, date t = some d → TimeExists d)
    (s : List Char) (r : NrtRecord) (h : nrtRead num date s = .ok (some r)) (l : NrtLine) (hl : l.Writes s) (d : Dt)
    (lat lon : Rat) (sst : Option Rat) (hm : l.Means num date d lat lon sst) :
    ∃ rep rep', r.report = .ok rep ∧ rep.performBaseQc elev p = .ok rep' ∧
      rep'.id = some (String.ofList l.id) ∧ rep'.dt = some d ∧ rep'.getvar "SST" = sst ∧
      rep'.getQc "POS" "isdrifter" = 1 ∧
      rep'.getQc "POS" "pos" = (if (-90 ≤ lat ∧ lat ≤ 90) ∧ (-180 ≤ lon ∧ lon ≤ 360) then 0 else 1) ∧
      rep'.getQc "POS" "date" = (if 1850 ≤ d.year ∧ d.year ≤ 2024 then 0 else 1) ∧
      rep'.getQc "POS" "time" = 0 ∧
      rep'.getQc "SST" "noval" = (if sst = none then 1 else 0) := by
  obtain ⟨k, d', lat', lon', sst', hk, hm', e1, e2, e3, e4, e5, e6, e7, e8, e9⟩ := ((C141_record num date s).2.1 r).1 h
  have hkl := writes_unique hk hl
  subst hkl
  obtain ⟨rfl, rfl, rfl, rfl⟩ := means_unique hm' hm
  obtain ⟨hd1, hy1, hy2, hh1, hh2, hn1, hn2⟩ := hdate _ _ hm.1
  have hnod : (r.items.map Prod.fst).Nodup := by
    change ["YR", "MO", "DY", "HR", "LAT", "LON", "SST", "AT", "DCK", "PT", "SIM", "DS", "VS", "DPT", "SID", "C1",
      "SI"].Nodup
    decide
  have hr0 := init_eq (some (String.ofList r.id)) (some (String.ofList r.uid)) r.items hnod
  have dYR : (rawReport (some (String.ofList r.id)) (some (String.ofList r.uid)) r.items).data "YR" = some (r.yr : Rat) := by
    simp [rawReport, recordValue, NrtRecord.items, VARLIST]
  have dMO : (rawReport (some (String.ofList r.id)) (some (String.ofList r.uid)) r.items).data "MO" = some (r.mo : Rat) := by
    simp [rawReport, recordValue, NrtRecord.items, VARLIST]
  have dDY : (rawReport (some (String.ofList r.id)) (some (String.ofList r.uid)) r.items).data "DY" = some (r.dy : Rat) := by
    simp [rawReport, recordValue, NrtRecord.items, VARLIST]
  have dHR : (rawReport (some (String.ofList r.id)) (some (String.ofList r.uid)) r.items).data "HR" = some r.hr := by
    simp [rawReport, recordValue, NrtRecord.items, VARLIST]
  have dDS : (rawReport (some (String.ofList r.id)) (some (String.ofList r.uid)) r.items).data "DS" = none := by
    simp [rawReport, recordValue, NrtRecord.items, VARLIST]
  have iYR : (rawReport (some (String.ofList r.id)) (some (String.ofList r.uid)) r.items).getint "YR" = some r.yr := by
    simp [Report.getint, dYR]
  have iMO : (rawReport (some (String.ofList r.id)) (some (String.ofList r.uid)) r.items).getint "MO" = some r.mo := by
    simp [Report.getint, dMO]
  have iDY : (rawReport (some (String.ofList r.id)) (some (String.ofList r.uid)) r.items).getint "DY" = some r.dy := by
    simp [Report.getint, dDY]
  have gHR : (rawReport (some (String.ofList r.id)) (some (String.ofList r.uid)) r.items).getvar "HR" = some r.hr := by
    rw [getvar_HR, dHR]
  have hmin0 : (0 : Rat) ≤ (d'.minute : Rat) / 60 := by
    have : (0 : Rat) ≤ d'.minute := by exact_mod_cast hn1
    positivity
  have hmin1 : (d'.minute : Rat) / 60 < 1 := by
    have : (d'.minute : Rat) ≤ 59 := by exact_mod_cast hn2
    rw [div_lt_one (by norm_num)]
    linarith
  have hfl : ⌊r.hr⌋ = d'.hour := by
    rw [e6, Int.floor_eq_iff]
    constructor <;> linarith
  have hhr0 : 0 ≤ r.hr := by
    have : (0 : Rat) ≤ d'.hour := by exact_mod_cast hh1
    rw [e6]; linarith
  have hhr1 : r.hr < 24 := by
    have : (d'.hour : Rat) ≤ 23 := by exact_mod_cast hh2
    rw [e6]; linarith
  obtain ⟨t, ht⟩ := C31_timestamp_defined (rawReport (some (String.ofList r.id)) (some (String.ofList r.uid)) r.items)
    (.inr ⟨r.yr, r.mo, r.dy, r.hr, iYR, iMO, iDY, gHR, by rw [e3, e4, e5]; exact hd1, by omega, by omega, hhr0, hhr1⟩)
  have htv : t = some d' := by
    rw [C31_timestamp_value _ _ ht, iYR, iMO, iDY, gHR]
    unfold timestamp
    simp only
    rw [if_pos (by rw [e3, e4, e5]; exact hd1), hfl]
    have : ⌊(r.hr - (d'.hour : Rat)) * 60⌋ = d'.minute := by
      rw [e6]
      have : ((d'.hour : Rat) + (d'.minute : Rat) / 60 - d'.hour) * 60 = (d'.minute : Rat) := by ring
      rw [this, Int.floor_intCast]
    rw [this, e3, e4, e5]
  subst htv
  rw [ht, except_bind_ok] at hr0
  have hdsi : ({ rawReport (some (String.ofList r.id)) (some (String.ofList r.uid)) r.items with dt := some d' } : Report).dsi
      = .ok none := by
    unfold Report.dsi Report.getint
    rw [dDS]
  obtain ⟨rep, hrep⟩ : ∃ rep, r.report = .ok rep := by
    unfold NrtRecord.report
    rw [hr0]
    unfold Report.calculateDsiVsi
    rw [hdsi]
    exact ⟨_, rfl⟩
  obtain ⟨hcons, hdata, hqc, hid, huid⟩ := C31_init _ _ _ hnod rep hrep
  have hclim : rep.clim = fun _ => none := by
    have h1 : Report.init (some (String.ofList r.id)) (some (String.ofList r.uid)) r.items = .ok rep := hrep
    rw [hr0] at h1
    unfold Report.calculateDsiVsi at h1
    rw [hdsi, except_bind_ok, except_pure, Except.ok.injEq] at h1
    rw [← h1]
    rfl
  have hdt : rep.dt = some d' := by
    have h1 : Report.init (some (String.ofList r.id)) (some (String.ofList r.uid)) r.items = .ok rep := hrep
    rw [hr0] at h1
    unfold Report.calculateDsiVsi at h1
    rw [hdsi, except_bind_ok, except_pure, Except.ok.injEq] at h1
    rw [← h1]
  have v (n : String) (hn : n ∈ VARLIST) : rep.data n = (r.items.find? fun t => decide (t.1 = n)).bind (·.2) := by
    rw [hdata n hn]
    unfold recordValue
    rw [if_pos hn]
  have vYR : rep.getint "YR" = some d'.year := by
    unfold Report.getint; rw [v "YR" (by decide)]; simp [NrtRecord.items, e3]
  have vMO : rep.getint "MO" = some d'.month := by
    unfold Report.getint; rw [v "MO" (by decide)]; simp [NrtRecord.items, e4]
  have vDY : rep.getint "DY" = some d'.day := by
    unfold Report.getint; rw [v "DY" (by decide)]; simp [NrtRecord.items, e5]
  have vDCK : rep.getint "DCK" = some 9999 := by
    unfold Report.getint; rw [v "DCK" (by decide)]; simp [NrtRecord.items, pyInt]
  have vPT : rep.getint "PT" = some 7 := by
    unfold Report.getint; rw [v "PT" (by decide)]; simp [NrtRecord.items, pyInt]
  have vHR : rep.getvar "HR" = some r.hr := by
    rw [getvar_HR, v "HR" (by decide)]; simp [NrtRecord.items]
  have vLAT : rep.getvar "LAT" = some (min lat' 200) := by
    rw [getvar_of_mem (by decide) (by decide), v "LAT" (by decide)]; simp [NrtRecord.items, e7]
  have vLON : rep.getvar "LON" = some (min lon' 400) := by
    rw [getvar_of_mem (by decide) (by decide), v "LON" (by decide)]; simp [NrtRecord.items, e8]
  have vSST : rep.getvar "SST" = sst' := by
    rw [getvar_of_mem (by decide) (by decide), v "SST" (by decide)]; simp [NrtRecord.items, e9]
  have hfix : rep.doFixMissingHour = .ok rep := by
    unfold Report.doFixMissingHour
    rw [vDCK]
    rfl
  obtain ⟨rep', hrep'⟩ := C34_completes elev p hp rep rep hfix _ _ vLAT vLON _ _ vYR vMO hd1.1 hd1.2.1 (by
    intro x hx
    exfalso
    unfold Report.getstdev at hx
    rw [hclim] at hx
    simp at hx)
  obtain ⟨s1, hs1, ⟨q, hq⟩, hf⟩ := C34_base_flags_partial elev p rep rep' hrep'
  rw [hfix, Except.ok.injEq] at hs1
  subst hs1
  obtain ⟨-, f2, -, -, f5, f6, f7, -, -, -, -, -, -, f14, -⟩ := hf
  have flag : ∀ (t f : String) (x : Int), rep'.qc (t ++ f) = some x → rep'.getQc t f = x := by
    intro t f x hx
    unfold Report.getQc
    rw [hx]
  refine ⟨rep, rep', hrep, hrep', ?_, ?_, ?_, flag "POS" "isdrifter" 1 (f2.1 vPT), ?_, ?_, ?_, ?_⟩
  · rw [hq]
    change rep.id = _
    rw [hid, e1]
  · rw [hq]; exact hdt
  · rw [hq]; exact vSST
  · obtain ⟨x, hx, -, hx'⟩ := f5
    rw [vLAT, vLON, C22_position, Except.ok.injEq] at hx
    rw [flag "POS" "pos" x hx', ← hx]
    have h1 : min lat' 200 ≤ 90 ↔ lat' ≤ 90 := by
      rw [min_le_iff]; constructor
      · rintro (h | h)
        · exact h
        · norm_num at h
      · exact .inl
    have h2 : -90 ≤ min lat' 200 ↔ -90 ≤ lat' := by
      rw [le_min_iff]; exact ⟨fun h => h.1, fun h => ⟨h, by norm_num⟩⟩
    have h3 : min lon' 400 ≤ 360 ↔ lon' ≤ 360 := by
      rw [min_le_iff]; constructor
      · rintro (h | h)
        · exact h
        · norm_num at h
      · exact .inl
    have h4 : -180 ≤ min lon' 400 ↔ -180 ≤ lon' := by
      rw [le_min_iff]; exact ⟨fun h => h.1, fun h => ⟨h, by norm_num⟩⟩
    simp only [h1, h2, h3, h4]
  · obtain ⟨x, hx, -, hx'⟩ := f6
    rw [vYR, vMO, vDY, C22_date _ _ _ ⟨hd1.1, hd1.2.1⟩, Except.ok.injEq] at hx
    rw [flag "POS" "date" x hx', ← hx]
    have : (∃ d'', some d'.day = some d'' ∧ IsDate d'.year d'.month d'') := ⟨_, rfl, hd1⟩
    simp only [this, and_true]
  · obtain ⟨x, hx, -, hx'⟩ := f7
    rw [vHR, C22_time, if_pos ⟨_, rfl, hhr0, hhr1⟩, Except.ok.injEq] at hx
    rw [flag "POS" "time" x hx', ← hx]
  · obtain ⟨x, hx, -, hx'⟩ := f14
    rw [vSST, Except.ok.injEq] at hx
    rw [flag "SST" "noval" x hx', ← hx]
    cases sst' with
    | none => rfl
    | some y => rfl

/-- The dates of the example exist; latitude 95.5 and longitude 900 are those of the line `feedLine` above. -/
example : ∀ t d, feedDate t = some d → TimeExists d := by
  intro t d h
  unfold feedDate at h
  split at h
  · rw [Option.some.injEq] at h
    subst h
    unfold TimeExists
    decide +kernel
  · cases h

end MarineQC
