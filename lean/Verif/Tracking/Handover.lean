import Verif.Tracking.Main
import Verif.Drifter.Props

/-!
# C98: from the base program to the tracking program
-/

namespace MarineQC

open Spec

namespace Spec

/-- A report of a drifter as the base program leaves it: it was made at an existing place and time, and if it passed its
checks it has valid background values or no background value.  Numbers are rounded when they are written. -/
structure Handed (rnd : Rat → Rat) (q : Report) : Prop where
  made : ∃ lat lon y m d h, q.getvar "LAT" = some lat ∧ q.getvar "LON" = some lon ∧ q.getint "YR" = some y ∧
    q.getint "MO" = some m ∧ q.getint "DY" = some d ∧ q.getvar "HR" = some h ∧ IsDate y m d ∧ 0 ≤ rnd h ∧ rnd h < 24 ∧
    -90 ≤ rnd lat ∧ rnd lat ≤ 90
  background : GoodPosition q → GoodTemperature q → q.getvar "OSTIA" = none ∨ ∃ x b v, q.getvar "SST" = some x ∧
    q.getvar "OSTIA" = some b ∧ q.getvar "BGVAR" = some v ∧ -5 ≤ rnd b ∧ rnd b ≤ 45 ∧ 0 ≤ rnd v ∧ rnd v ≤ 10
  ice : ∀ x, q.getvar "ICE" = some x → 0 ≤ rnd x ∧ rnd x ≤ 1

/-- Two reports of the same minute have the same time. -/
def MinutesApart (rnd : Rat → Rat) (Q : List Report) : Prop :=
  ∀ a ∈ Q, ∀ b ∈ Q, GoodPosition a → GoodPosition b → ∀ h h', a.getvar "HR" = some h → b.getvar "HR" = some h' →
    (∀ v ∈ ["YR", "MO", "DY"], a.getint v = b.getint v) → ⌊rnd h * 60⌋ = ⌊rnd h' * 60⌋ → rnd h = rnd h'

end Spec

theorem good_back {rnd : Rat → Rat} {q r : Report} (h : ReadBack rnd q r) (hg : GoodPosition r) : GoodPosition q := by
  obtain ⟨a, b, c, d, e⟩ := hg
  exact ⟨(h.flags ("POS", "isbuoy") (by decide)).symm.trans a, (h.flags ("POS", "date") (by decide)).symm.trans b,
    (h.flags ("POS", "time") (by decide)).symm.trans c, (h.flags ("POS", "pos") (by decide)).symm.trans d,
    (h.flags ("POS", "blklst") (by decide)).symm.trans e⟩

theorem temperature_back {rnd : Rat → Rat} {q r : Report} (h : ReadBack rnd q r) (hg : GoodTemperature r) :
    GoodTemperature q := by
  obtain ⟨a, b, c, d, e, f, g⟩ := hg
  exact ⟨(h.flags ("SST", "clim") (by decide)).symm.trans a, (h.flags ("SST", "nonorm") (by decide)).symm.trans b,
    (h.flags ("SST", "freez") (by decide)).symm.trans c, (h.flags ("SST", "noval") (by decide)).symm.trans d,
    (h.flags ("SST", "rep") (by decide)).symm.trans e, (h.flags ("SST", "hardlimit") (by decide)).symm.trans f,
    (h.flags ("SST", "bbud") (by decide)).symm ▸ g⟩

theorem handed_observed {rnd : Rat → Rat} {q r : Report} (h : ReadBack rnd q r) (hq : Handed rnd q) : Observed r := by
  obtain ⟨la, lo, y, m, d, hh, e1, e2, e3, e4, e5, e6, hd, h0, h1, l0, l1⟩ := hq.made
  have g1 : r.getvar "LAT" = some (rnd la) := by rw [h.vars _ (by decide), e1]; rfl
  have g2 : r.getvar "LON" = some (rnd lo) := by rw [h.vars _ (by decide), e2]; rfl
  have g6 : r.getvar "HR" = some (rnd hh) := by rw [h.vars _ (by decide), e6]; rfl
  have g3 : r.getint "YR" = some y := by rw [h.date _ (by decide), e3]
  have g4 : r.getint "MO" = some m := by rw [h.date _ (by decide), e4]
  have g5 : r.getint "DY" = some d := by rw [h.date _ (by decide), e5]
  have g7 : ∃ lo', r.lon = some lo' := by
    unfold Report.lon
    rw [g2]
    dsimp only
    split <;> exact ⟨_, rfl⟩
  obtain ⟨lo', g7⟩ := g7
  exact ⟨rnd la, lo', y, m, d, rnd hh, ⟨g1, g7, g3, g4, g5, g6, hd, h0, h1⟩, l0, l1, by rw [h.time, g3, g4, g5, g6]⟩

theorem handed_background {rnd : Rat → Rat} {q r : Report} (h : ReadBack rnd q r) (hq : Handed rnd q) (h1 : GoodPosition r)
    (h2 : GoodTemperature r) : HasBackground r := by
  refine ⟨?_, ⟨_, h.ext "ICE" (by decide), ?_⟩, ⟨_, h.ext "BGVAR" (by decide)⟩⟩
  · rcases hq.background (good_back h h1) (temperature_back h h2) with e | ⟨x, b, v, e1, e2, e3, e4⟩
    · left
      rw [h.ext _ (by decide), e]; rfl
    · right
      exact ⟨rnd x, rnd b, rnd v, by rw [h.vars _ (by decide), e1]; rfl, by rw [h.ext _ (by decide), e2]; rfl,
        by rw [h.ext _ (by decide), e3]; rfl, e4⟩
  · cases hi : q.getvar "ICE" with
    | none => simp
    | some x => exact hq.ice x hi

theorem handed_trackable {rnd : Rat → Rat} {Q R : List Report} (h : List.Forall₂ (ReadBack rnd) Q R)
    (hq : ∀ q ∈ Q, Handed rnd q) (hm : MinutesApart rnd Q) (ident : String) (hi : ∀ q ∈ Q, q.id = some ident) :
    Trackable R ∧ (∀ r ∈ R, r.dt ≠ none) ∧ ∀ r ∈ R, r.id = some ident := by
  have back : ∀ r ∈ R, ∃ q ∈ Q, ReadBack rnd q r := by
    clear hq hm hi
    induction h with
    | nil => simp
    | cons g _ ih =>
      intro r hr
      rcases List.mem_cons.mp hr with rfl | hr
      · exact ⟨_, by simp, g⟩
      · obtain ⟨q, q1, q2⟩ := ih r hr
        exact ⟨q, by simp [q1], q2⟩
  have obs : ∀ r ∈ R, Observed r := by
    intro r hr
    obtain ⟨q, q1, q2⟩ := back r hr
    exact handed_observed q2 (hq q q1)
  have ids : ∀ r ∈ R, r.id = some ident := by
    intro r hr
    obtain ⟨q, q1, q2⟩ := back r hr
    rw [q2.ident, hi q q1]
  refine ⟨⟨fun r hr => observed_placed (obs r hr), fun r hr _ => obs r hr, ?_, ?_, ?_⟩, ?_, ids⟩
  · intro r hr h1 h2
    obtain ⟨q, q1, q2⟩ := back r hr
    exact handed_background q2 (hq q q1) h1 h2
  · intro a ha b hb
    rw [ids a ha, ids b hb]
  · intro a ha b hb h1 h2 hd
    obtain ⟨p, p1, p2⟩ := back a ha
    obtain ⟨q, q1, q2⟩ := back b hb
    obtain ⟨la, lo, y, m, d, h, -, -, e3, e4, e5, e6, hda, h0, h24, -⟩ := (hq p p1).made
    obtain ⟨la', lo', y', m', d', h', -, -, f3, f4, f5, f6, hdb, h0', h24', -⟩ := (hq q q1).made
    have t1 := p2.time
    have t2 := q2.time
    rw [p2.date _ (by decide), p2.date _ (by decide), p2.date _ (by decide), p2.vars _ (by decide), e3, e4, e5, e6] at t1
    rw [q2.date _ (by decide), q2.date _ (by decide), q2.date _ (by decide), q2.vars _ (by decide), f3, f4, f5, f6] at t2
    simp only [timestamp, Option.map_some, if_pos hda] at t1
    simp only [timestamp, Option.map_some, if_pos hdb] at t2
    rw [t1, t2] at hd
    simp only [Option.some.injEq, Dt.mk.injEq] at hd
    obtain ⟨u1, u2, u3, u4, u5⟩ := hd
    rw [p2.vars _ (by decide), q2.vars _ (by decide), e6, f6]
    show some (rnd h) = some (rnd h')
    rw [hm p p1 q q1 (good_back p2 h1) (good_back q2 h2) h h' e6 f6 ?_ ?_]
    · intro v hv
      simp only [List.mem_cons, List.not_mem_nil, or_false] at hv
      rcases hv with rfl | rfl | rfl
      · rw [e3, f3, u1]
      · rw [e4, f4, u2]
      · rw [e5, f5, u3]
    · have key : ∀ x : Rat, ⌊x * 60⌋ = ⌊(x - ⌊x⌋) * 60⌋ + ⌊x⌋ * 60 := by
        intro x
        rw [← Int.floor_add_intCast]
        congr 1
        push_cast
        ring
      rw [key (rnd h), key (rnd h'), u5, u4]
  · intro r hr
    obtain ⟨la, lo, y, m, d, h, ⟨-, -, -, -, -, -, hd, -⟩, -, -, ht⟩ := obs r hr
    rw [ht]
    simp [timestamp, hd]

/-- Writing the months changes no other files, and no directories. -/
theorem writeMonths_other (fmt : Rat → List Char) (flags : List (String × List String)) (hp : flags.Perm voyageFlags)
    (out runid : List Char) (hid : '/' ∉ runid) (ident : String) (hs : '/' ∉ ident.toList)
    (voyage : Int × Int → List Report) (ms : List (Int × Int)) : ∀ (fs fs' : FileSys)
    (_ : ∀ m ∈ ms, 0 ≤ m.1 ∧ 0 ≤ m.2) (_ : ∀ m ∈ ms, ∀ r ∈ voyage m, r.id = some ident)
    (_ : ∀ m ∈ ms, ∀ q ∈ ofMonth m.1 m.2 (voyage m), Writable q)
    (_ : ∀ m ∈ ms, fs.dir (monthDir out m.1 m.2) = true)
    (_ : ∀ (m : Int × Int) pre i, fs.dir (voyagePath runid (monthDir out m.1 m.2) m.1 m.2 pre i) = false)
    (_ : writeMonths fmt flags out runid voyage ms fs = (fs', none)),
    fs'.dir = fs.dir ∧ ∀ p, (∀ (m : Int × Int) pre i, p ≠ voyagePath runid (monthDir out m.1 m.2) m.1 m.2 pre i) →
      fs'.file p = fs.file p := by
  induction ms with
  | nil =>
    intro fs fs' _ _ _ _ _ h
    simp only [writeMonths, Prod.mk.injEq, and_true] at h
    subst h
    exact ⟨rfl, fun _ _ => rfl⟩
  | cons m ms ih =>
    intro fs fs' hv hi hw hd hf h
    by_cases he : voyage m = []
    · rw [writeMonths, if_pos he] at h
      exact ih fs fs' (fun k hk => hv k (by simp [hk])) (fun k hk => hi k (by simp [hk]))
        (fun k hk => hw k (by simp [hk])) (fun k hk => hd k (by simp [hk])) hf h
    · obtain ⟨r, reps, hr⟩ := List.exists_cons_of_ne_nil he
      have hwm := hw m (by simp)
      have him := hi m (by simp)
      rw [hr] at hwm him
      obtain ⟨fs1, a1, -, -, a4, a5⟩ := voyage_text fmt flags hp runid (monthDir out m.1 m.2) hid m.1 m.2 r reps ident
        (him r (by simp)) hs hwm fs (hv m (by simp)).1 (hv m (by simp)).2 (hd m (by simp)) (hf m)
      rw [writeMonths, if_neg he, hr, a1, thenDo] at h
      obtain ⟨g1, g2⟩ := ih fs1 fs' (fun k hk => hv k (by simp [hk])) (fun k hk => hi k (by simp [hk]))
        (fun k hk => hw k (by simp [hk])) (fun k hk => by rw [a5]; exact hd k (by simp [hk]))
        (fun k pre i => by rw [a5]; exact hf k pre i) h
      refine ⟨g1.trans a5, fun p hp => ?_⟩
      rw [g2 p hp]
      exact a4 p (hp m _ _) fun b _ => hp m _ _

/-- **C98.**  What the base program has written for a drifter the tracking program takes up: if the reports it wrote for the
months of the chunk were made at existing places and times, with valid background values where the checks were passed, and
no two of them in the same minute at different times, then the tracking program reads them all back, completes its checks
and writes them in time order into each wanted directory.  Identifiers are as for `C91`. -/
theorem C98_handover_partial (fmt : Rat → List Char) (num : List Char → Option Rat) (rnd : Rat → Rat)
    (h : Numerals fmt num rnd) (hfe : ∀ x, NoBlankEnd (fmt x) ∧ fmt x ≠ [])
    (ord : List (List Char) → List (List Char)) (ho : ∀ l, (ord l).Perm l)
    (flags : List (String × List String)) (hp : flags.Perm voyageFlags) (G : Geo) (hG : IsDistance G)
    (elev : Int → Int → Rat → Rat → Rat → Rat → ℝ) (P : DriftParams) (hP : TrackParamsOk P)
    (out trackOut runid arg runmonthid : List Char) (hid : '/' ∉ runid) (hrm : '/' ∉ runmonthid) (hb : IsBase trackOut)
    (ident : String) (harg : ident.toList = targetId arg) (hs : '/' ∉ ident.toList) (ha : '*' ∉ ident.toList)
    (voyage : Int × Int → List Report) (written months : List (Int × Int)) (hn : written.Nodup)
    (hmonths : ∀ m ∈ written ++ months, 0 ≤ m.1 ∧ 0 ≤ m.2 ∧ m.2 < 100) (hall : ∀ m ∈ months, voyage m ≠ [] → m ∈ written)
    (hi : ∀ m, ∀ r ∈ voyage m, r.id = some ident) (hq : ∀ m, ∀ q ∈ ofMonth m.1 m.2 (voyage m), Storable rnd q)
    (hne : (months.flatMap fun m => ofMonth m.1 m.2 (voyage m)) ≠ [])
    (hh : ∀ q ∈ months.flatMap fun m => ofMonth m.1 m.2 (voyage m), Handed rnd q)
    (hm : MinutesApart rnd (months.flatMap fun m => ofMonth m.1 m.2 (voyage m)))
    (fs : FileSys) (hdir : ∀ m ∈ written, fs.dir (monthDir out m.1 m.2) = true)
    (hfree : ∀ (m : Int × Int) pre i, fs.dir (voyagePath runid (monthDir out m.1 m.2) m.1 m.2 pre i) = false)
    (hnew : ∀ (m : Int × Int) pre, fs.file (inputPath out runid (targetId arg) m.1 m.2 pre) = none)
    (year month : Int) (edge : List String) (hd : fs.dir trackOut = true)
    (hc : ∀ a ∈ trackingDirs trackOut year month runmonthid, fs.file a = none ∧
      ∀ (m : Int × Int) pre i, a ≠ voyagePath runid (monthDir out m.1 m.2) m.1 m.2 pre i)
    (hfr : ∀ a ∈ trackingDirs trackOut year month runmonthid,
      fs.dir (voyagePath runid a year month "Tracking_".toList (safeFilename ident.toList)) = false) :
    ∃ fs' fs'' R R' order v, writeMonths fmt flags out runid voyage written fs = (fs', none) ∧
      trackingMain fmt num ord G elev P out trackOut runid arg runmonthid months year month edge fs' = (fs'', none) ∧
      List.Forall₂ (ReadBack rnd) (months.flatMap fun m => ofMonth m.1 m.2 (voyage m)) R ∧
      trackingChecks G elev P R = .ok R' ∧ order.Perm (List.range R.length) ∧ InTime R' order ∧ VoyageOf G R' order v ∧
      ∀ D, Wanted trackOut year month edge runmonthid D →
        HoldsTable fs'' (voyagePath runid D year month "Tracking_".toList (safeFilename ident.toList))
          (trackingTable fmt v) := by
  obtain ⟨fs', w1, -, w2⟩ := C92_chunk_partial fmt num rnd h ord ho flags hp out runid arg hid ident harg hs ha voyage written
    months hn hmonths hall hi hq fs hdir hfree hnew
  obtain ⟨R, r1, r2⟩ := w2 hne
  obtain ⟨o1, o2⟩ := writeMonths_other fmt flags hp out runid hid ident hs voyage written fs fs'
    (fun m hm => ⟨(hmonths m (by simp [hm])).1, (hmonths m (by simp [hm])).2.1⟩) (fun m _ => hi m)
    (fun m _ q hqm => (hq m q hqm).writable) hdir hfree w1
  have hiQ : ∀ q ∈ months.flatMap fun m => ofMonth m.1 m.2 (voyage m), q.id = some ident ∧ Storable rnd q := by
    intro q hqm
    obtain ⟨m, -, h2⟩ := List.mem_flatMap.mp hqm
    exact ⟨hi m q (List.mem_of_mem_filter h2), hq m q h2⟩
  obtain ⟨t1, t2, t3⟩ := handed_trackable r2 hh hm ident (fun q hq => (hiQ q hq).1)
  have hw : ∀ r ∈ R, Writable r := by
    intro r hr
    obtain ⟨n, hn⟩ := List.mem_iff_getElem?.mp hr
    obtain ⟨q, q1, q2⟩ := forall2_get r2.flip n r hn
    have := (hiQ q (List.mem_of_getElem? q1)).2.writable
    exact ⟨by rw [q2.uid]; exact this.uid, by rw [q2.ident]; exact this.ident⟩
  have hRne : R ≠ [] := by
    rintro rfl
    apply hne
    exact List.forall₂_nil_right_iff.mp r2
  obtain ⟨fs'', R', order, v, m1, m2, m3, m4, m5, m6, -⟩ := C97_main fmt (fun x => (h.plain x).1) hfe num ord G hG elev P hP out
    trackOut runid arg runmonthid months year month edge hid hrm hb fs' R r1 hRne t1 t2 ident t3 hw (by rw [o1]; exact hd)
    (fun a ha => by rw [o2 a (hc a ha).2]; exact (hc a ha).1) (fun a ha => by rw [o1]; exact hfr a ha)
  exact ⟨fs', fs'', R, R', order, v, w1, m1, r2, m2, m3, m4, m5, m6⟩

/-! ## The hypotheses can be met -/

/-- A drifter's report as the base program leaves it. -/
def handedReport (m : Int) (u : String) (h : Rat) : Report :=
  { Report.empty (some "4400123  ") (some u) with
    data := fun k => if k = "YR" then some 1999 else if k = "MO" then some (m : Rat) else if k = "DY" then some 5 else
      if k = "HR" then some h else if k = "LAT" then some 10 else if k = "LON" then some 20 else
      if k = "SST" then some 11 else none
    ext := fun k => if k = "OSTIA" then some (some 10) else if k = "BGVAR" then some (some (1 / 100)) else
      if k = "ICE" then some (some 0) else none
    qc := fun k => if k = "POSisbuoy" then some 1 else
      if k ∈ ["POSdate", "POStime", "POSpos", "POSblklst", "SSTclim", "SSTnonorm", "SSTfreez", "SSTnoval", "SSTrep",
        "SSThardlimit", "SSTbbud"] then some 0 else none }

/-- Two reports, not in time order, in each of two months. -/
def handedVoyage (m : Int × Int) : List Report :=
  if m = (1999, 1) ∨ m = (1999, 3) then [handedReport m.2 "A1" 11, handedReport m.2 "A2" 5] else []

theorem handedVoyage_mem (m : Int × Int) (q : Report) (hq : q ∈ handedVoyage m) :
    ∃ u h, q = handedReport m.2 u h ∧ (m = (1999, 1) ∨ m = (1999, 3)) ∧ (u = "A1" ∧ h = 11 ∨ u = "A2" ∧ h = 5) := by
  unfold handedVoyage at hq
  split at hq
  case isFalse => cases hq
  rename_i hm
  simp only [List.mem_cons, List.not_mem_nil, or_false] at hq
  rcases hq with rfl | rfl
  · exact ⟨_, _, rfl, hm, .inl ⟨rfl, rfl⟩⟩
  · exact ⟨_, _, rfl, hm, .inr ⟨rfl, rfl⟩⟩

theorem handedReport_date (m : Int) (u : String) (h : Rat) : (handedReport m u h).getint "YR" = some 1999 ∧
    (handedReport m u h).getint "MO" = some m ∧ (handedReport m u h).getint "DY" = some 5 := by
  refine ⟨?_, ?_, ?_⟩
  · show some (pyInt 1999) = _
    decide +kernel
  · show some (pyInt (m : Rat)) = _
    rw [pyInt_intCast]
  · show some (pyInt 5) = _
    decide +kernel

theorem handedVoyage_storable (m : Int × Int) (q : Report) (hq : q ∈ handedVoyage m) :
    Storable (fun x => (⌊x⌋ : Rat)) q ∧ q.id = some "4400123  " := by
  obtain ⟨u, h, rfl, hm, hu⟩ := handedVoyage_mem m q hq
  have plain : ∀ s ∈ ["A1", "A2"], ∀ c ∈ s.toList, c ≠ ',' ∧ c ≠ '"' ∧ c ≠ '\n' := by decide
  have tidy : ∀ s ∈ ["A1", "A2", "4400123  "], (∀ c ∈ s.toList, c ≠ '\n' ∧ c ≠ '\r' ∧ c ≠ '\x00') ∧ s.toList ≠ missing := by decide
  have hu1 : u = "A1" ∨ u = "A2" := by rcases hu with h | h <;> simp [h.1]
  refine ⟨⟨⟨u, rfl, plain u (by simpa using hu1), (tidy u (by rcases hu1 with h | h <;> simp [h])).1,
    (tidy u (by rcases hu1 with h | h <;> simp [h])).2⟩,
    ⟨"4400123  ", rfl, by decide, (tidy _ (by simp)).1, (tidy _ (by simp)).2⟩, ?_, ?_⟩, rfl⟩
  · intro t f
    unfold Report.getQc handedReport
    dsimp only
    by_cases h1 : t ++ f = "POSisbuoy"
    · rw [if_pos h1]; decide
    · rw [if_neg h1]
      by_cases h2 : t ++ f ∈ ["POSdate", "POStime", "POSpos", "POSblklst", "SSTclim", "SSTnonorm", "SSTfreez", "SSTnoval",
        "SSTrep", "SSThardlimit", "SSTbbud"]
      · rw [if_pos h2]; decide
      · rw [if_neg h2]; decide
  · intro y mo dy hr e1 e2 e3 e4
    obtain ⟨d1, d2, -⟩ := handedReport_date m.2 u h
    rw [d1] at e1
    rw [d2] at e2
    injection e1 with e1
    injection e2 with e2
    have e4 : some h = some hr := e4
    injection e4 with e4
    subst e1 e2 e4
    rcases hu with ⟨-, rfl⟩ | ⟨-, rfl⟩ <;> rcases hm with rfl | rfl <;> norm_num

theorem floor_int (n : Int) : ((⌊((n : Int) : Rat)⌋ : Int) : Rat) = n := by simp

/-- A concrete case of `C98_handover_partial`: four reports in two of three months. -/
example (elev : Int → Int → Rat → Rat → Rat → Rat → ℝ) : ∃ fs' fs'' R v,
    writeMonths (fun x => intText ⌊x⌋) voyageFlags "out".toList "r1".toList handedVoyage [(1999, 1), (1999, 3)] buoyFs =
      (fs', none) ∧
    trackingMain (fun x => intText ⌊x⌋) (fun s => match parseInt s with
      | .ok n => some (n : Rat)
      | .error _ => none) id blockGeo elev driftParams "out".toList "trk".toList "r1".toList "4400123".toList "199901".toList
      [(1999, 1), (1999, 2), (1999, 3)] 1999 1 ["new", "end_edge_case"] fs' = (fs'', none) ∧
    List.Forall₂ (ReadBack fun x => (⌊x⌋ : Rat)) ([(1999, 1), (1999, 2), (1999, 3)].flatMap fun m : Int × Int =>
      ofMonth m.1 m.2 (handedVoyage m)) R ∧ R.length = 4 ∧ v.length = 4 ∧
    HoldsTable fs'' (voyagePath "r1".toList (trackingDir "trk".toList 1999 1) 1999 1 "Tracking_".toList
      (safeFilename "4400123  ".toList)) (trackingTable (fun x => intText ⌊x⌋) v) := by
  have ends : ∀ (d : List Char) (y m : Int) pre i, (voyagePath "r1".toList d y m pre i).getLast? = some 'v' := by
    intro d y m pre i
    unfold voyagePath
    have e : ∀ a b : List Char, (a ++ '/' :: (b ++ ".csv".toList)).getLast? = some 'v' := by
      intro a b
      rw [show a ++ '/' :: (b ++ ".csv".toList) = (a ++ '/' :: (b ++ ".cs".toList)) ++ ['v'] by simp, List.getLast?_concat]
    exact e _ _
  have nodir : ∀ p : List Char, p.getLast? = some 'v' → buoyFs.dir p = false := by
    intro p hp
    unfold buoyFs
    dsimp only
    rw [hp]
    decide
  have hfree : ∀ (m : Int × Int) pre i, buoyFs.dir (voyagePath "r1".toList (monthDir "out".toList m.1 m.2) m.1 m.2 pre i) = false := by
    intro m pre i
    exact nodir _ (ends _ _ _ _ _)
  have mem : ∀ q ∈ [(1999, 1), (1999, 2), (1999, 3)].flatMap fun m : Int × Int => ofMonth m.1 m.2 (handedVoyage m),
      ∃ m : Int × Int, q ∈ handedVoyage m := by
    intro q hq
    obtain ⟨m, -, h2⟩ := List.mem_flatMap.mp hq
    exact ⟨m, List.mem_of_mem_filter h2⟩
  have hl : ([(1999, 1), (1999, 2), (1999, 3)].flatMap fun m : Int × Int => ofMonth m.1 m.2 (handedVoyage m)).length = 4 := by
    decide +kernel
  have dirs : ∀ a ∈ trackingDirs "trk".toList 1999 1 "199901".toList, a.getLast? ≠ some 'v' := by decide +kernel
  obtain ⟨fs', fs'', R, R', order, v, h1, h2, h3, h4, h5, h6, h7, h8⟩ := C98_handover_partial _ _ _ floor_numerals
    (fun x => intText_end _) id (fun l => .refl l) voyageFlags (.refl _) blockGeo blockGeo_distance elev driftParams
    driftParams_ok "out".toList "trk".toList "r1".toList "4400123".toList "199901".toList (by decide) (by decide)
    ⟨by decide, by decide⟩ "4400123  " (by decide) (by decide) (by decide) handedVoyage [(1999, 1), (1999, 3)]
    [(1999, 1), (1999, 2), (1999, 3)] (by decide) (by decide)
    (by
      intro m hm hv
      obtain ⟨q, hq⟩ := List.exists_mem_of_ne_nil _ hv
      obtain ⟨-, -, -, h, -⟩ := handedVoyage_mem m q hq
      rcases h with rfl | rfl <;> decide)
    (fun m r hr => (handedVoyage_storable m r hr).2)
    (fun m q hq => (handedVoyage_storable m q (List.mem_of_mem_filter hq)).1)
    (by intro he; rw [he] at hl; cases hl)
    (by
      intro q hq
      obtain ⟨m, hq⟩ := mem q hq
      obtain ⟨u, h, rfl, hm, hu⟩ := handedVoyage_mem m q hq
      obtain ⟨d1, d2, d3⟩ := handedReport_date m.2 u h
      refine ⟨⟨10, 20, 1999, m.2, 5, h, rfl, rfl, d1, d2, d3, rfl, ?_, ?_, ?_, ?_, ?_⟩, ?_, ?_⟩
      · rcases hm with rfl | rfl <;> decide
      · rcases hu with ⟨-, rfl⟩ | ⟨-, rfl⟩ <;> norm_num
      · rcases hu with ⟨-, rfl⟩ | ⟨-, rfl⟩ <;> norm_num
      · norm_num
      · norm_num
      · intro _ _
        exact .inr ⟨11, 10, 1 / 100, rfl, rfl, rfl, by norm_num, by norm_num, by norm_num, by norm_num⟩
      · intro x hx
        have hx : some 0 = some x := hx
        injection hx with hx
        subst hx
        norm_num)
    (by
      intro a ha b hb _ _ h h' e1 e2 _ e3
      obtain ⟨m, ha⟩ := mem a ha
      obtain ⟨m', hb⟩ := mem b hb
      obtain ⟨u, k, rfl, -, hu⟩ := handedVoyage_mem m a ha
      obtain ⟨u', k', rfl, -, hu'⟩ := handedVoyage_mem m' b hb
      have e1 : some k = some h := e1
      have e2 : some k' = some h' := e2
      injection e1 with e1
      injection e2 with e2
      subst e1 e2
      rcases hu with ⟨-, rfl⟩ | ⟨-, rfl⟩ <;> rcases hu' with ⟨-, rfl⟩ | ⟨-, rfl⟩ <;> first | rfl | (norm_num at e3; done))
    buoyFs (by decide) hfree (fun _ _ => rfl) 1999 1 ["new", "end_edge_case"] (by decide)
    (fun a ha => ⟨rfl, fun m pre i he => dirs a ha (he ▸ ends _ _ _ _ _)⟩)
    (fun a _ => nodir _ (ends _ _ _ _ _))
  refine ⟨fs', fs'', R, v, h1, h2, h3, h3.length_eq ▸ hl, ?_, h8 _ (.inl ⟨by simp, rfl⟩)⟩
  rw [h7.1, h5.length_eq, List.length_range, ← h3.length_eq, hl]

end MarineQC
