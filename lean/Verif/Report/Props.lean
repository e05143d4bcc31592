import Verif.Report.Spec
import Verif.Calendar.Lemmas
import Verif.Calendar.Props
import Verif.Grid.Lemmas
import Mathlib.Data.List.Nodup
import Mathlib.Tactic.FinCases

/-!
# C30, C31, C33, C35, C36
-/

namespace MarineQC

open Spec

/-! ## C30 flags -/

theorem setQc_ok {r : Report} {t f : String} {v : Int}
    (ht : t ∈ specialQcTypes ∨ t ∈ VARLIST) (h0 : 0 ≤ v) (h9 : v ≤ 9) :
    r.setQc t f v = .ok { r with qc := fun k => if k = t ++ f then some v else r.qc k } := by
  unfold Report.setQc
  have h1 : decide (v ∈ [0, 1, 2, 3, 4, 5, 6, 7, 8, 9]) = true := by
    simp only [List.mem_cons, List.not_mem_nil, or_false, decide_eq_true_eq]; omega
  have h2 : (decide (t ∈ specialQcTypes) || decide (t ∈ VARLIST)) = true := by
    simpa using ht
  rw [h1, h2]; rfl

theorem allowed_iff (t : String) :
    (t ∈ specialQcTypes ∨ t ∈ VARLIST) ↔ (t = "POS" ∨ t ∈ VARLIST) := by
  constructor
  · rintro (h | h)
    · simp only [specialQcTypes, List.mem_cons, List.not_mem_nil, or_false] at h
      rcases h with h | h | h | h | h | h | h <;> subst h <;> decide
    · exact Or.inr h
  · rintro (h | h)
    · subst h; left; decide
    · exact Or.inr h

/-- C30: a call is accepted exactly when the type is allowed and the value is a digit; otherwise it raises
AssertionError (and, raising before the write, changes nothing). -/
theorem C30_accepted (r : Report) (w : FlagWrite) :
    (w.Acceptable → ∃ r', r.setQc w.type w.flag w.value = .ok r' ∧ r'.getQc w.type w.flag = w.value) ∧
    (¬ w.Acceptable → r.setQc w.type w.flag w.value = .error .assertion) := by
  constructor
  · rintro ⟨ht, h0, h9⟩
    refine ⟨_, setQc_ok ((allowed_iff _).2 ht) h0 h9, ?_⟩
    simp [Report.getQc]
  · intro h
    unfold Report.setQc
    by_cases h1 : decide (w.value ∈ [0, 1, 2, 3, 4, 5, 6, 7, 8, 9]) = true
    · rw [h1]
      by_cases h2 : (decide (w.type ∈ specialQcTypes) || decide (w.type ∈ VARLIST)) = true
      · exfalso
        apply h
        refine ⟨(allowed_iff _).1 (by simpa using h2), ?_, ?_⟩ <;>
        · simp only [List.mem_cons, List.not_mem_nil, or_false, decide_eq_true_eq] at h1; omega
      · rw [Bool.not_eq_true] at h2
        rw [h2]; rfl
    · rw [Bool.not_eq_true] at h1
      rw [h1]; rfl

/-- A caller that catches the exception: a rejected call leaves the report as it was. -/
def setQcCaught (r : Report) (w : FlagWrite) : Report :=
  match r.setQc w.type w.flag w.value with
  | .ok r' => r'
  | .error _ => r

/-- All types a flag may be set under. -/
def allTypes : List String := "POS" :: VARLIST

/-- Where one type name is a proper prefix of another, the next letter of the longer is a capital or a
digit. -/
theorem prefix_next : ∀ a ∈ allTypes, ∀ b ∈ allTypes, a.toList <+: b.toList → a ≠ b →
    ((b.toList.drop a.toList.length).head?.all fun c => c.isUpper || c.isDigit) = true := by
  decide +kernel

theorem key_inj {t t' f f' : String} (ht : t ∈ allTypes) (ht' : t' ∈ allTypes) (hf : PlainFlag f)
    (hf' : PlainFlag f') (h : t ++ f = t' ++ f') : t = t' ∧ f = f' := by
  have hl : t.toList ++ f.toList = t'.toList ++ f'.toList := by
    rw [← String.toList_append, ← String.toList_append, h]
  have main : ∀ (a b g g' : String), a ∈ allTypes → b ∈ allTypes → PlainFlag g →
      a.toList ++ g.toList = b.toList ++ g'.toList → a.toList.length ≤ b.toList.length → a = b := by
    intro a b g g' ha hb hg he hlen
    by_contra hne
    have hp : a.toList <+: b.toList :=
      List.prefix_of_prefix_length_le ⟨g.toList, he⟩ ⟨g'.toList, rfl⟩ hlen
    have hx := prefix_next a ha b hb hp hne
    obtain ⟨s, hs⟩ := hp
    rw [← hs] at hx he
    rw [List.drop_left] at hx
    rw [List.append_assoc, List.append_cancel_left_eq] at he
    unfold PlainFlag at hg
    rw [he] at hg
    cases s with
    | nil =>
      apply hne
      rw [List.append_nil] at hs
      exact String.toList_inj.mp hs
    | cons c s =>
      simp only [List.cons_append] at hg
      simp only [List.head?_cons, Option.all_some] at hx
      apply hg
      simpa using hx
  have key : t = t' := by
    rcases Nat.le_total t.toList.length t'.toList.length with hle | hle
    · exact main t t' f f' ht ht' hf hl hle
    · exact (main t' t f' f ht' ht hf' hl.symm hle).symm
  subst key
  refine ⟨rfl, ?_⟩
  exact String.toList_inj.mp (List.append_cancel_left hl)

/-- C30, for flag names not beginning with a capital letter or digit: after any sequence of calls on a
report without flags (rejected ones included), `get_qc` returns the last accepted value for that type and
flag, and 9 if there is none.  Missing: with other flag names two pairs can share a key, see
`C30_collision_violation`. -/
theorem C30_flags_map_partial (r : Report) (hr : r.qc = fun _ => none) (ws : List FlagWrite)
    (hws : ∀ w ∈ ws, PlainFlag w.flag) (t f : String) (ht : t = "POS" ∨ t ∈ VARLIST) (hf : PlainFlag f) :
    (ws.foldl setQcCaught r).getQc t f = (lastFlagWrite ws t f).getD 9 := by
  have key : ∀ ws : List FlagWrite, (∀ w ∈ ws, PlainFlag w.flag) →
      (ws.foldl setQcCaught r).qc (t ++ f) = lastFlagWrite ws t f := by
    intro ws
    induction ws using List.reverseRecOn with
    | nil => intro _; simp [hr, lastFlagWrite]
    | append_singleton ws w ih =>
      intro hw
      rw [List.foldl_append]
      simp only [List.foldl_cons, List.foldl_nil]
      have ih' := ih fun x hx => hw x (by simp [hx])
      have hpw : PlainFlag w.flag := hw w (by simp)
      unfold lastFlagWrite at ih' ⊢
      rw [List.filter_append]
      generalize ws.foldl setQcCaught r = s at ih'
      by_cases ha : w.Acceptable
      · unfold setQcCaught
        rw [setQc_ok ((allowed_iff _).2 ha.1) ha.2.1 ha.2.2]
        simp only
        by_cases he : w.type = t ∧ w.flag = f
        · have : decide (w.type = t ∧ w.flag = f ∧ w.Acceptable) = true := by simp [he, ha]
          simp [he.1, he.2, ha]
        · have hk : ¬ (t ++ f = w.type ++ w.flag) := by
            intro hk
            have := key_inj (t := t) (t' := w.type) (by simpa [allTypes] using ht)
              (by simpa [allTypes] using ha.1) hf hpw hk
            exact he ⟨this.1.symm, this.2.symm⟩
          rw [if_neg hk, ih']
          have hd : decide (w.type = t ∧ w.flag = f ∧ w.Acceptable) = false := by
            rw [decide_eq_false_iff_not]; tauto
          rw [List.filter_cons, hd]; simp
      · unfold setQcCaught
        rw [(C30_accepted s w).2 ha]
        simp only
        rw [ih']
        have hd : decide (w.type = t ∧ w.flag = f ∧ w.Acceptable) = false := by
          rw [decide_eq_false_iff_not]; tauto
        rw [List.filter_cons, hd]; simp
  unfold Report.getQc
  rw [key ws hws]
  cases lastFlagWrite ws t f <;> rfl

example : PlainFlag "clim" ∧ PlainFlag "mat_blacklist" ∧ ¬ PlainFlag "PTclim" ∧
    lastFlagWrite [⟨"SST", "clim", 1⟩, ⟨"SST", "clim", 10⟩, ⟨"AT", "clim", 0⟩] "SST" "clim" = some 1 := by
  decide +kernel

/-- C30 fails for other flag names: the flag `PTclim` of `D` and the flag `clim` of `DPT` are one. -/
theorem C30_collision_violation (r : Report) :
    ∃ r', r.setQc "D" "PTclim" 1 = .ok r' ∧ r'.getQc "DPT" "clim" = 1 := by
  refine ⟨_, setQc_ok (by decide) (by decide) (by decide), ?_⟩
  simp [Report.getQc]

/-! ## C31 variables and timestamp -/

/-- The report after a list of `setvar` calls by a caller that catches exceptions. -/
def writeAll (r : Report) (ws : List (String × Option Rat)) : Report :=
  ws.foldl (fun r w => (r.setvar w.1 w.2).1) r

theorem setvar_data (r : Report) (v : String) (x : Option Rat) (k : String) (hk : k ∈ VARLIST) :
    (r.setvar v x).1.data k = if k = v then x else r.data k := by
  unfold Report.setvar
  by_cases hv : v ∈ VARLIST
  · rw [if_pos hv]
    simp only
    split
    · split <;> rfl
    · rfl
  · rw [if_neg hv]
    have : k ≠ v := by rintro rfl; exact hv hk
    simp [this]

theorem setvar_other (r : Report) (v : String) (x : Option Rat) :
    (r.setvar v x).1.id = r.id ∧ (r.setvar v x).1.uid = r.uid ∧ (r.setvar v x).1.qc = r.qc ∧
    (r.setvar v x).1.clim = r.clim ∧ (r.setvar v x).1.ext = r.ext := by
  unfold Report.setvar
  by_cases hv : v ∈ VARLIST
  · rw [if_pos hv]
    simp only
    split
    · split <;> exact ⟨rfl, rfl, rfl, rfl, rfl⟩
    · exact ⟨rfl, rfl, rfl, rfl, rfl⟩
  · rw [if_neg hv]; exact ⟨rfl, rfl, rfl, rfl, rfl⟩

/-- C31: after any sequence of `setvar` calls (whether or not some of them raised) `getvar` returns the last
value written, as an integer for the integer variables, and otherwise the value there was before; flags,
norms and identifiers are untouched. -/
theorem C31_last_value (r : Report) (ws : List (String × Option Rat)) (v : String) (hv : v ∈ VARLIST) :
    (writeAll r ws).getvar v =
      (match (lastWrite ws v).getD (r.data v) with
       | none => none
       | some q => if v ∈ intVars then some ((pyInt q : Int) : Rat) else some q) ∧
    (writeAll r ws).qc = r.qc ∧ (writeAll r ws).clim = r.clim ∧ (writeAll r ws).ext = r.ext ∧
    (writeAll r ws).id = r.id ∧ (writeAll r ws).uid = r.uid := by
  have key : (writeAll r ws).data v = (lastWrite ws v).getD (r.data v) ∧
      (writeAll r ws).qc = r.qc ∧ (writeAll r ws).clim = r.clim ∧ (writeAll r ws).ext = r.ext ∧
      (writeAll r ws).id = r.id ∧ (writeAll r ws).uid = r.uid := by
    induction ws using List.reverseRecOn with
    | nil => simp [writeAll, lastWrite]
    | append_singleton ws w ih =>
      unfold writeAll at ih ⊢
      rw [List.foldl_append]
      simp only [List.foldl_cons, List.foldl_nil]
      obtain ⟨h1, h2, h3, h4, h5⟩ := setvar_other (ws.foldl (fun r w => (r.setvar w.1 w.2).1) r) w.1 w.2
      rw [h1, h2, h3, h4, h5, setvar_data _ _ _ _ hv, ih.1]
      refine ⟨?_, ih.2⟩
      unfold lastWrite
      rw [List.filter_append]
      by_cases h : v = w.1
      · simp [h]
      · have : ¬ (w.1 = v) := fun h' => h h'.symm
        simp [h, this]
  refine ⟨?_, key.2⟩
  unfold Report.getvar
  rw [if_neg (by simp [hv]), if_pos hv, key.1]
  cases (lastWrite ws v).getD (r.data v) <;> rfl

/-- C31: a name that is no variable of the report cannot be written, and reading it gives nothing. -/
theorem C31_unknown (r : Report) (v : String) (x : Option Rat) (hv : v ∉ VARLIST) (he : r.ext v = none) :
    r.setvar v x = (r, some .value) ∧ r.getvar v = none := by
  unfold Report.setvar Report.getvar
  rw [if_neg hv, if_pos (by simp [hv, he])]
  exact ⟨rfl, rfl⟩

theorem getvar_of_mem {r : Report} {v : String} (hv : v ∈ VARLIST) (hi : v ∉ intVars) :
    r.getvar v = r.data v := by
  unfold Report.getvar
  rw [if_neg (by simp [hv]), if_pos hv]
  cases r.data v <;> simp [hi]

/-- The hour of the report. -/
theorem getvar_HR (r : Report) : r.getvar "HR" = r.data "HR" := getvar_of_mem (by decide) (by decide)

theorem minute_range (h : Rat) : 0 ≤ ⌊60 * (h - ⌊h⌋)⌋ ∧ ⌊60 * (h - ⌊h⌋)⌋ ≤ 59 := by
  have h1 := Int.floor_le h
  have h2 := Int.lt_floor_add_one h
  constructor
  · rw [Int.le_floor]; push_cast; linarith
  · have : ⌊60 * (h - ⌊h⌋)⌋ < 60 := by rw [Int.floor_lt]; push_cast; linarith
    omega

theorem mkDatetime_ok {y m d h mi : Int} {t : Dt} (hm : mkDatetime y m d h mi = .ok t) :
    IsDate y m d ∧ 1 ≤ y ∧ y ≤ 9999 ∧ 0 ≤ h ∧ h ≤ 23 ∧ t = ⟨y, m, d, h, mi⟩ := by
  unfold mkDatetime at hm
  split at hm
  · rename_i hc
    obtain ⟨h1, h2, h3, -, -⟩ := hc
    rw [datetimeOk_iff] at h1
    injection hm with hm
    exact ⟨h1.2.2, h1.1, h1.2.1, h2, h3, hm.symm⟩
  · cases hm

theorem pyIndex_months {y m l : Int} (h : pyIndex (getMonthLengths y) (m - 1) = .ok l) (hm : 1 ≤ m) :
    m ≤ 12 ∧ l = monthLength y m := by
  by_cases h2 : m ≤ 12
  · rw [pyIndex_monthLengths y m hm h2] at h
    injection h with h
    exact ⟨h2, h.symm⟩
  · exfalso
    unfold pyIndex at h
    have h1 : ¬ (m - 1 < 0) := by omega
    simp only [h1, if_false] at h
    have h3 : (getMonthLengths y)[(m - 1).toNat]? = none := by
      rw [List.getElem?_eq_none]
      have : (getMonthLengths y).length = 12 := by unfold getMonthLengths; split <;> rfl
      omega
    rw [h3] at h
    cases h

/-- C31: the timestamp the report computes, when it can, is the one its year, month, day and hour
determine. -/
theorem C31_timestamp_value (r : Report) (d : Option Dt) (h : r.computeDt = .ok d) :
    d = timestamp (r.getint "YR") (r.getint "MO") (r.getint "DY") (r.getvar "HR") := by
  unfold Report.computeDt at h
  unfold timestamp
  cases hy : r.getint "YR" with
  | none => rw [hy] at h; injection h with h; exact h.symm
  | some y =>
    rw [hy] at h
    simp only at h
    cases hmo : r.getint "MO" with
    | none => rw [hmo] at h; injection h with h; exact h.symm
    | some m =>
      cases hh : r.getvar "HR" with
      | none =>
        rw [hmo, hh] at h
        injection h with h
        subst h
        cases r.getint "DY" <;> rfl
      | some hr =>
        cases hd : r.getint "DY" with
        | none => rw [hmo, hh, hd] at h; injection h with h; exact h.symm
        | some dy =>
          rw [hmo, hh, hd] at h
          simp only at h ⊢
          by_cases h0 : 0 < dy
          · rw [if_pos h0] at h
            cases hl : pyIndex (getMonthLengths y) (m - 1) with
            | error e => rw [hl] at h; cases h
            | ok l =>
              rw [hl, except_bind_ok] at h
              by_cases hle : dy ≤ l
              · rw [if_pos hle] at h
                cases hm : mkDatetime y m dy ⌊hr⌋ ⌊60 * (hr - ⌊hr⌋)⌋ with
                | error e => rw [hm] at h; cases h
                | ok t =>
                  rw [hm] at h
                  injection h with h
                  obtain ⟨a, -, -, -, -, e⟩ := mkDatetime_ok hm
                  rw [if_pos a, ← h, e, mul_comm (60 : Rat)]
              · rw [if_neg hle] at h
                injection h with h
                rw [if_neg, ← h]
                rintro ⟨a, -, -, c⟩
                have := (pyIndex_months hl a).2
                omega
          · rw [if_neg h0] at h
            injection h with h
            rw [if_neg, ← h]
            rintro ⟨-, -, c, -⟩
            omega

/-- C31: the computation raises only for a complete date and hour: it succeeds whenever one of the four is
missing, and whenever they form an existing date of the years 1 to 9999 and an hour of the day. -/
theorem C31_timestamp_defined (r : Report)
    (h : (r.getint "YR" = none ∨ r.getint "MO" = none ∨ r.getint "DY" = none ∨ r.getvar "HR" = none) ∨
      ∃ y m d hr, r.getint "YR" = some y ∧ r.getint "MO" = some m ∧ r.getint "DY" = some d ∧
        r.getvar "HR" = some hr ∧ IsDate y m d ∧ 1 ≤ y ∧ y ≤ 9999 ∧ 0 ≤ hr ∧ hr < 24) :
    ∃ d, r.computeDt = .ok d := by
  unfold Report.computeDt
  rcases h with h | ⟨y, m, d, hr, hy, hm, hd, hh, hdate, hy1, hy2, h0, h24⟩
  · cases hy : r.getint "YR" with
    | none => exact ⟨_, rfl⟩
    | some y =>
      simp only
      cases hmo : r.getint "MO" with
      | none => exact ⟨_, rfl⟩
      | some m =>
        cases hh : r.getvar "HR" with
        | none => exact ⟨_, rfl⟩
        | some hr =>
          cases hd : r.getint "DY" with
          | none => exact ⟨_, rfl⟩
          | some dy => simp [hy, hmo, hh, hd] at h
  · rw [hy, hm, hh, hd]
    simp only
    obtain ⟨a, b, c, e⟩ := hdate
    rw [if_pos (by omega), pyIndex_monthLengths y m a b, except_bind_ok, if_pos e]
    have hf : 0 ≤ ⌊hr⌋ := by rw [Int.le_floor]; exact_mod_cast h0
    have hf' : ⌊hr⌋ ≤ 23 := by
      have : ⌊hr⌋ < 24 := by rw [Int.floor_lt]; exact_mod_cast h24
      omega
    have hmin := minute_range hr
    unfold mkDatetime
    rw [if_pos ⟨(datetimeOk_iff y m d).2 ⟨hy1, hy2, a, b, c, e⟩, hf, hf', hmin.1, hmin.2⟩]
    exact ⟨_, rfl⟩

/-- The timestamp agrees with the variables. -/
def Report.Consistent (r : Report) : Prop :=
  r.dt = timestamp (r.getint "YR") (r.getint "MO") (r.getint "DY") (r.getvar "HR")

theorem setvar_time {r : Report} {v : String} {x : Option Rat} (hv : v = "YR" ∨ v = "DY" ∨ v = "HR")
    (hn : (r.setvar v x).2 = none) : (r.setvar v x).1.Consistent := by
  have hmem : v ∈ VARLIST := by rcases hv with rfl | rfl | rfl <;> decide
  unfold Report.setvar at hn ⊢
  rw [if_pos hmem] at hn ⊢
  simp only [hv, if_true] at hn ⊢
  cases hc : ({ r with data := fun k => if k = v then x else r.data k } : Report).computeDt with
  | error e => rw [hc] at hn; cases hn
  | ok d =>
    simp only
    unfold Report.Consistent
    have := C31_timestamp_value _ _ hc
    simpa [Report.getint, Report.getvar] using this

theorem setvar_notime {r : Report} {v : String} {x : Option Rat}
    (hv : v ≠ "YR" ∧ v ≠ "DY" ∧ v ≠ "HR" ∧ v ≠ "MO") (hc : r.Consistent) : (r.setvar v x).1.Consistent := by
  unfold Report.setvar
  split
  · simp only [hv.1, hv.2.1, hv.2.2.1, or_self, if_false]
    unfold Report.Consistent at *
    have e1 : ("YR" = v) = False := by simp [eq_comm, hv.1]
    have e2 : ("DY" = v) = False := by simp [eq_comm, hv.2.1]
    have e3 : ("HR" = v) = False := by simp [eq_comm, hv.2.2.1]
    have e4 : ("MO" = v) = False := by simp [eq_comm, hv.2.2.2]
    simpa [Report.getint, Report.getvar, e1, e2, e3, e4] using hc
  · exact hc

/-- C31, for a history in which no call raises and no write of the month comes after the last write of the
year, day and hour: the timestamp is the one determined by the current variables.  Missing: histories ending
with a write of the month (`C31_month_violation`) and calls that raise (`C31_raise_violation`). -/
theorem C31_timestamp_partial (r : Report) (hr : r.Consistent) (ws : List (String × Option Rat))
    (hraise : ∀ pre w post, ws = pre ++ w :: post → ((writeAll r pre).setvar w.1 w.2).2 = none)
    (hlast : ∀ pre w post, ws = pre ++ w :: post → w.1 = "MO" →
      ∃ u ∈ post, u.1 = "YR" ∨ u.1 = "DY" ∨ u.1 = "HR") :
    (writeAll r ws).Consistent := by
  suffices h : ∀ ws : List (String × Option Rat),
      (∀ pre w post, ws = pre ++ w :: post → ((writeAll r pre).setvar w.1 w.2).2 = none) →
      ((∀ pre w post, ws = pre ++ w :: post → w.1 = "MO" →
        ∃ u ∈ post, u.1 = "YR" ∨ u.1 = "DY" ∨ u.1 = "HR") → (writeAll r ws).Consistent) by
    exact h ws hraise hlast
  intro ws
  induction ws using List.reverseRecOn with
  | nil => intro _ _; exact hr
  | append_singleton ws w ih =>
    intro h1 h2
    have hw : ((writeAll r ws).setvar w.1 w.2).2 = none := h1 ws w [] rfl
    have e : writeAll r (ws ++ [w]) = ((writeAll r ws).setvar w.1 w.2).1 := by
      unfold writeAll; rw [List.foldl_append]; rfl
    rw [e]
    by_cases ht : w.1 = "YR" ∨ w.1 = "DY" ∨ w.1 = "HR"
    · exact setvar_time ht hw
    · have hmo : w.1 ≠ "MO" := by
        intro hmo
        obtain ⟨u, hu, -⟩ := h2 ws w [] rfl hmo
        simp at hu
      push Not at ht
      apply setvar_notime ⟨ht.1, ht.2.1, ht.2.2, hmo⟩
      apply ih
      · intro pre u post he
        exact h1 pre u (post ++ [w]) (by rw [he]; simp)
      · intro pre u post he hu
        obtain ⟨z, hz, hz'⟩ := h2 pre u (post ++ [w]) (by rw [he]; simp) hu
        rw [List.mem_append, List.mem_singleton] at hz
        rcases hz with hz | rfl
        · exact ⟨z, hz, hz'⟩
        · exact absurd hz' (by push Not; exact ht)

/-- The report of a record. -/
def exampleReport : Report :=
  { Report.empty (some "SHIPA") none with
    data := fun k => if k = "YR" then some 2003 else if k = "MO" then some 12 else if k = "DY" then some 30
      else if k = "HR" then some (25/2) else none
    dt := some ⟨2003, 12, 30, 12, 30⟩ }

example : exampleReport.Consistent := by
  unfold Report.Consistent; decide +kernel

/-- C31 fails: writing the month leaves the timestamp as it was. -/
theorem C31_month_violation :
    exampleReport.Consistent ∧ (exampleReport.setvar "MO" (some 1)).2 = none ∧
    (exampleReport.setvar "MO" (some 1)).1.getint "MO" = some 1 ∧
    (exampleReport.setvar "MO" (some 1)).1.dt = some ⟨2003, 12, 30, 12, 30⟩ ∧
    ¬ (exampleReport.setvar "MO" (some 1)).1.Consistent := by
  unfold Report.Consistent
  refine ⟨?_, ?_, ?_, ?_, ?_⟩ <;> decide +kernel

/-- C31 fails: writing the hour 24 raises, but the hour is stored and the timestamp is the old one. -/
theorem C31_raise_violation :
    (exampleReport.setvar "HR" (some 24)).2 = some .value ∧
    (exampleReport.setvar "HR" (some 24)).1.getvar "HR" = some 24 ∧
    (exampleReport.setvar "HR" (some 24)).1.dt = some ⟨2003, 12, 30, 12, 30⟩ := by
  refine ⟨?_, ?_, ?_⟩ <;> decide +kernel

/-! ### Construction -/

theorem computeDt_congr {r s : Report} (h : ∀ v ∈ ["YR", "MO", "DY", "HR"], r.data v = s.data v) :
    r.computeDt = s.computeDt := by
  have e1 := h "YR" (by decide)
  have e2 := h "MO" (by decide)
  have e3 := h "DY" (by decide)
  have e4 := h "HR" (by decide)
  unfold Report.computeDt
  rw [getvar_HR, getvar_HR]
  unfold Report.getint
  rw [e1, e2, e3, e4]

theorem computeDt_error {r : Report} {e : Err} (h : r.computeDt = .error e) :
    ∀ v ∈ ["YR", "MO", "DY", "HR"], (r.data v).isSome := by
  by_contra hc
  push Not at hc
  obtain ⟨v, hv, hn⟩ := hc
  have hn : r.data v = none := by simpa using hn
  have : ∃ d, r.computeDt = .ok d := by
    apply C31_timestamp_defined
    left
    fin_cases hv
    · left; simp [Report.getint, hn]
    · right; left; simp [Report.getint, hn]
    · right; right; left; simp [Report.getint, hn]
    · right; right; right; rw [getvar_HR]; exact hn
  obtain ⟨d, hd⟩ := this
  rw [hd] at h; cases h

/-- The value a record gives to a variable. -/
def Spec.recordValue (rec : List (String × Option Rat)) (v : String) : Option Rat :=
  if v ∈ VARLIST then (rec.find? fun t => decide (t.1 = v)).bind (·.2) else none

theorem recordValue_append (rec : List (String × Option Rat)) (t : String × Option Rat) (v : String)
    (hn : ((rec ++ [t]).map Prod.fst).Nodup) :
    recordValue (rec ++ [t]) v = if v = t.1 ∧ t.1 ∈ VARLIST then t.2 else recordValue rec v := by
  unfold recordValue
  rw [List.find?_append]
  by_cases hv : v ∈ VARLIST
  · rw [if_pos hv, if_pos hv]
    by_cases ht : v = t.1
    · have hnone : rec.find? (fun t => decide (t.1 = v)) = none := by
        rw [List.find?_eq_none]
        intro x hx
        simp only [decide_eq_true_eq]
        intro hxv
        rw [List.map_append, List.nodup_append] at hn
        exact hn.2.2 x.1 (List.mem_map_of_mem (f := Prod.fst) hx) t.1 (by simp) (hxv.trans ht)
      rw [hnone]
      subst ht
      simp [hv]
    · rw [if_neg (by tauto)]
      have ht' : ¬ (t.1 = v) := fun h => ht h.symm
      simp [ht']
  · rw [if_neg hv, if_neg hv]
    rw [if_neg]
    rintro ⟨rfl, h⟩
    exact hv h

/-- The report before the timestamp and the ship's speed are worked out. -/
def rawReport (id uid : Option String) (rec : List (String × Option Rat)) : Report :=
  { Report.empty id uid with data := fun v => recordValue rec v }

theorem initFold (id uid : Option String) (rec : List (String × Option Rat))
    (hn : (rec.map Prod.fst).Nodup) :
    (∃ d, rec.foldlM (fun (r : Report) t =>
      if t.2.isSome ∧ t.1 ∈ VARLIST then raising (r.setvar t.1 t.2) else .ok r) (Report.empty id uid)
      = .ok { rawReport id uid rec with dt := d }) ∨
    (∃ e, rec.foldlM (fun (r : Report) t =>
      if t.2.isSome ∧ t.1 ∈ VARLIST then raising (r.setvar t.1 t.2) else .ok r) (Report.empty id uid)
      = .error e ∧ (rawReport id uid rec).computeDt = .error e) := by
  induction rec using List.reverseRecOn with
  | nil =>
    left
    refine ⟨none, ?_⟩
    simp [rawReport, Report.empty, recordValue]
  | append_singleton rec t ih =>
    have hn' : (rec.map Prod.fst).Nodup := by
      rw [List.map_append] at hn; exact (List.nodup_append.1 hn).1
    rw [List.foldlM_append]
    rcases ih hn' with ⟨d, hd⟩ | ⟨e, he, hc⟩
    · rw [hd, except_bind_ok, List.foldlM_cons]
      simp only [List.foldlM_nil]
      by_cases ht : t.2.isSome ∧ t.1 ∈ VARLIST
      · rw [if_pos ht]
        have hdata : (fun k => if k = t.1 then t.2 else recordValue rec k) =
            fun k => recordValue (rec ++ [t]) k := by
          funext k
          rw [recordValue_append rec t k hn]
          by_cases hk : k = t.1
          · simp [hk, ht.2]
          · simp [hk]
        unfold Report.setvar
        rw [if_pos ht.2]
        simp only [rawReport, hdata]
        by_cases hv : t.1 = "YR" ∨ t.1 = "DY" ∨ t.1 = "HR"
        · simp only [hv, if_true]
          have hcg : ({ Report.empty id uid with data := fun k => recordValue (rec ++ [t]) k, dt := d } :
              Report).computeDt = (rawReport id uid (rec ++ [t])).computeDt := computeDt_congr fun v _ => rfl
          cases hcd : (rawReport id uid (rec ++ [t])).computeDt with
          | ok d' =>
            left
            refine ⟨d', ?_⟩
            rw [hcd] at hcg
            simp only [Report.empty] at hcg ⊢
            rw [hcg]
            simp [raising]
          | error e =>
            right
            refine ⟨e, ?_, hcd⟩
            rw [hcd] at hcg
            simp only [Report.empty] at hcg ⊢
            rw [hcg]
            simp [raising]
        · left
          refine ⟨d, ?_⟩
          simp only [hv, if_false, raising]
          rfl
      · rw [if_neg ht]
        left
        refine ⟨d, ?_⟩
        have : rawReport id uid rec = rawReport id uid (rec ++ [t]) := by
          have hfun : (fun v => recordValue rec v) = fun v => recordValue (rec ++ [t]) v := ?_
          · unfold rawReport; rw [hfun]
          funext k
          rw [recordValue_append rec t k hn]
          by_cases hk : k = t.1 ∧ t.1 ∈ VARLIST
          · rw [if_pos hk]
            have h2 : t.2 = none := by
              cases h2 : t.2 with
              | none => rfl
              | some q => exact absurd ⟨by simp [h2], hk.2⟩ ht
            rw [h2]
            unfold recordValue
            rw [if_pos (hk.1 ▸ hk.2)]
            have hnone : rec.find? (fun t => decide (t.1 = k)) = none := by
              rw [List.find?_eq_none]
              intro x hx
              simp only [decide_eq_true_eq]
              intro hxv
              rw [List.map_append, List.nodup_append] at hn
              exact hn.2.2 x.1 (List.mem_map_of_mem (f := Prod.fst) hx) t.1 (by simp) (hxv.trans hk.1)
            rw [hnone]; rfl
          · rw [if_neg hk]
        rw [this]
        rfl
    · right
      refine ⟨e, by rw [he]; rfl, ?_⟩
      rw [← hc]
      apply computeDt_congr
      intro v hv
      have hs := computeDt_error hc v hv
      simp only [rawReport] at hs ⊢
      rw [recordValue_append rec t v hn, if_neg]
      rintro ⟨rfl, -⟩
      have : recordValue rec t.1 = none := by
        unfold recordValue
        split
        · have hnone : rec.find? (fun x => decide (x.1 = t.1)) = none := by
            rw [List.find?_eq_none]
            intro x hx
            simp only [decide_eq_true_eq]
            intro hxv
            rw [List.map_append, List.nodup_append] at hn
            exact hn.2.2 x.1 (List.mem_map_of_mem (f := Prod.fst) hx) t.1 (by simp) hxv
          rw [hnone]; rfl
        · rfl
      rw [this] at hs
      cases hs

theorem init_eq (id uid : Option String) (rec : List (String × Option Rat))
    (hn : (rec.map Prod.fst).Nodup) :
    Report.init id uid rec = (do
      let d ← (rawReport id uid rec).computeDt
      ({ rawReport id uid rec with dt := d } : Report).calculateDsiVsi) := by
  unfold Report.init
  rcases initFold id uid rec hn with ⟨d, hd⟩ | ⟨e, he, hc⟩
  · rw [hd, except_bind_ok]
    have : ({ rawReport id uid rec with dt := d } : Report).computeDt = (rawReport id uid rec).computeDt :=
      computeDt_congr fun v _ => rfl
    rw [this]
  · rw [he, hc]; rfl

/-- C31: building a report from a record does not depend on the order in which the record's dictionary is
iterated, neither for the report nor for the exception. -/
theorem C31_init_order_independent (id uid : Option String) (rec rec' : List (String × Option Rat))
    (hp : rec.Perm rec') (hn : (rec.map Prod.fst).Nodup) :
    Report.init id uid rec = Report.init id uid rec' := by
  have hn' : (rec'.map Prod.fst).Nodup := (hp.map Prod.fst).nodup_iff.1 hn
  have hl : ∀ v, recordValue rec v = recordValue rec' v := by
    intro v
    unfold recordValue
    split
    · have aux : ∀ l : List (String × Option Rat), (l.map Prod.fst).Nodup → ∀ x,
          l.find? (fun t => decide (t.1 = v)) = some x ↔ (x ∈ l ∧ x.1 = v) := by
        intro l hl x
        constructor
        · intro h
          exact ⟨List.mem_of_find?_eq_some h, by simpa using List.find?_some h⟩
        · rintro ⟨hx, hxv⟩
          cases hf : l.find? (fun t => decide (t.1 = v)) with
          | none =>
            rw [List.find?_eq_none] at hf
            exact absurd hxv (by simpa using hf x hx)
          | some y =>
            have hy : y ∈ l := List.mem_of_find?_eq_some hf
            have hyv : y.1 = v := by simpa using List.find?_some hf
            rw [List.inj_on_of_nodup_map hl hy hx (hyv.trans hxv.symm)]
      congr 1
      apply Option.ext
      intro x
      rw [aux rec hn, aux rec' hn', hp.mem_iff]
    · rfl
  rw [init_eq id uid rec hn, init_eq id uid rec' hn']
  have : rawReport id uid rec = rawReport id uid rec' := by
    have hfun : (fun v => recordValue rec v) = fun v => recordValue rec' v := funext hl
    unfold rawReport; rw [hfun]
  rw [this]

/-- C31: a freshly built report holds the record's values, has no flags, and its timestamp agrees with its
variables. -/
theorem C31_init (id uid : Option String) (rec : List (String × Option Rat))
    (hn : (rec.map Prod.fst).Nodup) (r : Report) (h : Report.init id uid rec = .ok r) :
    r.Consistent ∧ (∀ v ∈ VARLIST, r.data v = recordValue rec v) ∧ (∀ k, r.qc k = none) ∧
    r.id = id ∧ r.uid = uid := by
  rw [init_eq id uid rec hn] at h
  cases hc : (rawReport id uid rec).computeDt with
  | error e => rw [hc] at h; cases h
  | ok d =>
    rw [hc, except_bind_ok] at h
    unfold Report.calculateDsiVsi at h
    cases hd : ({ rawReport id uid rec with dt := d } : Report).dsi with
    | error e => rw [hd] at h; cases h
    | ok x =>
      rw [hd, except_bind_ok] at h
      injection h with h
      subst h
      refine ⟨?_, fun _ _ => rfl, fun _ => rfl, rfl, rfl⟩
      unfold Report.Consistent
      have := C31_timestamp_value _ _ hc
      rw [getvar_HR] at this ⊢
      exact this

example : (Report.init (some "SHIPA") none
    [("LAT", some 10), ("HR", some 6), ("MO", some 2), ("DY", some 29), ("YR", some 2000), ("X", some 3)]).map
      (fun r => (r.dt, r.data "LAT")) = .ok (some ⟨2000, 2, 29, 6, 0⟩, some 10) := by decide +kernel

/-! ## C33 longitude -/

/-- C33: the longitude is in [-180, 180] and differs from the stored one by a whole number of turns. -/
theorem C33_lon (r : Report) (l : Rat) (hl : r.data "LON" = some l) (h1 : -180 ≤ l) (h2 : l ≤ 360) :
    ∃ l', r.lon = some l' ∧ -180 ≤ l' ∧ l' ≤ 180 ∧ (l' = l ∨ l' = l - 360) := by
  unfold Report.lon
  rw [getvar_of_mem (by decide) (by decide), hl]
  simp only
  split
  · exact ⟨_, rfl, by linarith, by linarith, Or.inr rfl⟩
  · exact ⟨_, rfl, by linarith, by linarith, Or.inl rfl⟩

/-- C33: a missing longitude stays missing. -/
theorem C33_lon_missing (r : Report) : r.lon = none ↔ r.data "LON" = none := by
  unfold Report.lon
  rw [getvar_of_mem (by decide) (by decide)]
  cases r.data "LON" with
  | none => simp
  | some l => simp only [reduceCtorEq, iff_false]; split <;> simp

example : ({ Report.empty none none with data := fun k => if k = "LON" then some 200 else none } : Report).lon
    = some (-160) := by decide +kernel

/-! ## C36 ship's speed and course -/

/-- C36: course and speed of a freshly built report (or after `reset_ext`), for course codes 0..9. -/
theorem C36_speed_course (r : Report) (hds : ∀ q, r.getint "DS" = some q → 0 ≤ q ∧ q ≤ 9) :
    ∃ r', r.calculateDsiVsi = .ok r' ∧
      r'.getext "dsi" = .ok ((r.getint "DS").bind fun q => if q = 9 then none else some (45 * q)) ∧
      r'.getext "vsi" = .ok ((r.getint "VS").map fun q =>
        if q = 0 then 0 else if ∃ y, r.getint "YR" = some y ∧ 1968 ≤ y then 5 * q - 2 else 3 * q - 1) ∧
      r'.data = r.data ∧ r'.qc = r.qc ∧ r'.dt = r.dt := by
  have hd : r.dsi = .ok ((r.getint "DS").bind fun q => if q = 9 then none else some (45 * (q : Rat))) := by
    unfold Report.dsi
    cases h : r.getint "DS" with
    | none => rfl
    | some q =>
      obtain ⟨h0, h9⟩ := hds q h
      have : q = 0 ∨ q = 1 ∨ q = 2 ∨ q = 3 ∨ q = 4 ∨ q = 5 ∨ q = 6 ∨ q = 7 ∨ q = 8 ∨ q = 9 := by omega
      rcases this with rfl | rfl | rfl | rfl | rfl | rfl | rfl | rfl | rfl | rfl <;> decide +kernel
  unfold Report.calculateDsiVsi
  rw [hd, except_bind_ok]
  refine ⟨_, rfl, ?_, ?_, rfl, rfl, rfl⟩
  · unfold Report.getext; simp
  · unfold Report.getext
    simp only [if_true]
    unfold Report.vsi
    cases h : r.getint "VS" with
    | none => rfl
    | some q =>
      simp only [Option.map_some]
      cases hy : r.getint "YR" with
      | none =>
        by_cases hq : q = 0
        · simp [hq]
        · simp [hq]; ring
      | some y =>
        by_cases hq : q = 0
        · simp [hq]
        · by_cases hl : 1968 ≤ y
          · simp [hq, hl]; ring
          · simp [hq, hl]; ring

/-- C36: a course code above 9 raises. -/
theorem C36_bad_course (r : Report) (q : Int) (h : r.getint "DS" = some q) (hq : 9 < q) :
    r.calculateDsiVsi = .error .index := by
  unfold Report.calculateDsiVsi Report.dsi
  rw [h]
  simp only
  unfold pyIndex
  rw [if_neg (by omega), if_neg (by omega)]
  have : dsConvert[q.toNat]? = none := by
    rw [List.getElem?_eq_none]
    have : dsConvert.length = 10 := rfl
    omega
  rw [this]; rfl

example :
    let r : Report := { Report.empty none none with
      data := fun k => if k = "DS" then some 3 else if k = "VS" then some 4 else if k = "YR" then some 1968
        else none }
    (r.calculateDsiVsi >>= fun r => r.getext "vsi") = .ok (some 18) := by decide +kernel

/-! ## C35 humidity -/

theorem put_data (r : Report) (v : String) (hv : v ∈ humNames) (x : Option Rat) :
    r.put v x = { r with data := fun k => if k = v then x else r.data k } := by
  have : v ∈ VARLIST := by
    simp only [humNames, List.mem_cons, List.not_mem_nil, or_false] at hv
    rcases hv with rfl | rfl | rfl | rfl | rfl <;> decide
  have h2 : ¬ (v = "YR" ∨ v = "DY" ∨ v = "HR") := by
    simp only [humNames, List.mem_cons, List.not_mem_nil, or_false] at hv
    rcases hv with rfl | rfl | rfl | rfl | rfl <;> decide
  unfold Report.put Report.setvar
  rw [if_pos this]
  simp only [h2, if_false]

theorem wipe (vars : List String) (hv : ∀ v ∈ vars, v ∈ humNames) (r : Report) (k : String) :
    (vars.foldl (fun r v => r.put v none) r).data k = if k ∈ vars then none else r.data k := by
  induction vars generalizing r with
  | nil => simp
  | cons a l ih =>
    rw [List.foldl_cons, ih (fun v h => hv v (by simp [h])), put_data _ _ (hv a (by simp))]
    by_cases h1 : k ∈ l
    · simp [h1]
    · by_cases h2 : k = a <;> simp [h1, h2]

theorem getvar_hum (r : Report) (v : String) (hv : v ∈ humNames) : r.getvar v = r.data v := by
  simp only [humNames, List.mem_cons, List.not_mem_nil, or_false] at hv
  rcases hv with rfl | rfl | rfl | rfl | rfl <;> exact getvar_of_mem (by decide) (by decide)

/-- C35: after `calculate_humidity_variables` either temperature, dew point and the normal pressure are
present, the relative humidity is in [0, 150] and each variable holds the value of its function, or every
listed humidity variable is missing. -/
theorem C35_humidity (F : HumFns) (r r' : Report) (vars : List String)
    (h : r.calculateHumidity F vars = .ok r') :
    (∃ td t p q, r.getvar "DPT" = some td ∧ r.getvar "AT" = some t ∧ r.getnorm "SLP" = some p ∧
      r'.getvar "CRH" = some q ∧ 0 ≤ q ∧ q ≤ 150 ∧ F.rh td t p = some q ∧
      r'.getvar "VAP" = F.vap td t p ∧ r'.getvar "SHU" = F.sh td t p ∧ r'.getvar "CWB" = F.wb td t p ∧
      r'.getvar "DPD" = F.dpd td t) ∨
    (∀ v ∈ vars, r'.getvar v = none) := by
  unfold Report.calculateHumidity at h
  cases hall : vars.all fun v => decide (v ∈ humNames) with
  | false => rw [hall] at h; cases h
  | true =>
    rw [hall] at h
    have hv : ∀ v ∈ vars, v ∈ humNames := by
      intro v hm
      have := List.all_eq_true.1 hall v hm
      exact of_decide_eq_true this
    simp only [pyAssert_true, except_bind_ok] at h
    cases hc : r.clim "SLP" with
    | none => rw [hc] at h; cases h
    | some c =>
      rw [hc] at h
      simp only at h
      cases hp : c.clim with
      | none =>
        rw [hp] at h
        injection h with h
        right
        intro v hm
        rw [getvar_hum _ _ (hv v hm), ← h, wipe vars hv, if_pos hm]
      | some p =>
        rw [hp] at h
        simp only at h
        have hpn : r.getnorm "SLP" = some p := by unfold Report.getnorm; rw [hc]; exact hp
        simp only [put_data _ "VAP" (by decide), put_data _ "SHU" (by decide), put_data _ "CRH" (by decide),
          put_data _ "CWB" (by decide), put_data _ "DPD" (by decide)] at h
        have gD : ∀ (s : Report), s.getvar "DPT" = s.data "DPT" := fun s =>
          getvar_of_mem (by decide) (by decide)
        have gA : ∀ (s : Report), s.getvar "AT" = s.data "AT" := fun s =>
          getvar_of_mem (by decide) (by decide)
        have gH : ∀ (s : Report), s.getvar "CRH" = s.data "CRH" := fun s =>
          getvar_of_mem (by decide) (by decide)
        rw [gD, gA]
        simp only [gD, gA, gH] at h
        simp only [reduceCtorEq, String.reduceEq, if_false, if_true] at h
        cases htd : r.data "DPT" with
        | none =>
          rw [htd] at h
          simp only [humCall, sillyHumidity, if_true] at h
          injection h with h
          right
          intro v hm
          rw [getvar_hum _ _ (hv v hm), ← h, wipe vars hv, if_pos hm]
        | some td =>
          cases ht : r.data "AT" with
          | none =>
            rw [htd, ht] at h
            simp only [humCall, sillyHumidity, if_true] at h
            injection h with h
            right
            intro v hm
            rw [getvar_hum _ _ (hv v hm), ← h, wipe vars hv, if_pos hm]
          | some t =>
            rw [htd, ht] at h
            by_cases hs : sillyHumidity (F.rh td t p) = true
            · simp only [humCall, hs, if_true] at h
              injection h with h
              right
              intro v hm
              rw [getvar_hum _ _ (hv v hm), ← h, wipe vars hv, if_pos hm]
            · have hs2 : sillyHumidity (F.rh td t p) = false := by simpa using hs
              simp only [humCall, hs2, Bool.false_eq_true, if_false] at h
              injection h with h
              left
              cases hq : F.rh td t p with
              | none => rw [hq] at hs; exact absurd rfl hs
              | some q =>
                rw [hq] at hs
                have hs' : ¬ (q < 0 ∨ q > 150) := fun hx => hs (decide_eq_true hx)
                push Not at hs'
                refine ⟨td, t, p, q, rfl, rfl, hpn, ?_, hs'.1, hs'.2, hq, ?_, ?_, ?_, ?_⟩ <;>
                · rw [getvar_hum _ _ (by decide), ← h]
                  simp [hq]

/-- C35: it fails only for an unknown name or when no pressure norm was added. -/
theorem C35_humidity_defined (F : HumFns) (r : Report) (vars : List String) :
    (∃ r', r.calculateHumidity F vars = .ok r') ↔
      (∀ v ∈ vars, v ∈ ["SHU", "VAP", "CRH", "CWB", "DPD"]) ∧ r.clim "SLP" ≠ none := by
  unfold Report.calculateHumidity
  rw [pyAssert_bind]
  have he : (vars.all fun v => decide (v ∈ humNames)) = true ↔
      ∀ v ∈ vars, v ∈ ["SHU", "VAP", "CRH", "CWB", "DPD"] := by
    rw [List.all_eq_true]
    constructor
    · intro h v hv; exact of_decide_eq_true (h v hv)
    · intro h v hv; exact decide_eq_true (h v hv)
  by_cases hall : (vars.all fun v => decide (v ∈ humNames)) = true
  · rw [if_pos hall]
    rw [he] at hall
    cases hc : r.clim "SLP" with
    | none => simp
    | some c =>
      simp only [ne_eq, reduceCtorEq, not_false_eq_true, and_true]
      refine iff_of_true ?_ hall
      cases c.clim with
      | none => exact ⟨_, rfl⟩
      | some p =>
        simp only
        split <;> exact ⟨_, rfl⟩
  · rw [if_neg hall]
    rw [he] at hall
    refine iff_of_false ?_ fun hx => hall hx.1
    rintro ⟨_, hx⟩
    cases hx

example :
    let F : HumFns := ⟨fun _ _ _ => some 12, fun _ _ _ => some 7, fun _ _ _ => some 72, fun _ _ _ => some 12,
      fun td t => some (t - td)⟩
    let r : Report := { Report.empty none none with
      data := fun k => if k = "AT" then some 15 else if k = "DPT" then some 10 else none
      clim := fun k => if k = "SLP" then some ⟨some 1013, none⟩ else none }
    (r.calculateHumidity F ["SHU", "VAP", "CRH", "CWB", "DPD"]).map (fun r => (r.getvar "CRH", r.getvar "DPD"))
      = .ok (some 72, some 5) := by decide +kernel

end MarineQC
