import Verif.Base.ReadSample

/-!
# When reading completes (C106)
-/

namespace MarineQC.Spec

/-- A field on the grid of one degree. -/
def MdsShape (f : Arr3) : Prop := (f.nt = 1 ∨ f.nt = 73 ∨ f.nt = 365) ∧ f.ny = 180 ∧ f.nx = 360

/-- A field on any regular grid. -/
def GridShape (f : Arr3) : Prop := (f.nt = 1 ∨ f.nt = 73 ∨ f.nt = 365) ∧ 0 < f.ny ∧ f.nx = 2 * f.ny

/-- A field on the fine grid of the background. -/
def OstiaShape (f : Arr3) : Prop := 0 < f.nt ∧ f.ny = 3600 ∧ f.nx = 7200

/-- The library has every field that is looked up, and the spread of pressure is positive where it is known. -/
structure LibReady (lib : ClimLib Arr3) : Prop where
  mds : ∀ v ∈ ["SST", "AT"], ∃ f, lib.getField v "mean" = .ok f ∧ MdsShape f
  mean : ∀ v ∈ ["SLP2", "SHU", "CRH", "CWB", "DPD", "DPT", "AT2", "SLP"],
    ∃ f, lib.getField v "mean" = .ok f ∧ GridShape f
  stdev : ∀ v ∈ ["DPT", "AT2", "SLP"], ∃ f, lib.getField v "stdev" = .ok f ∧ GridShape f
  slp : ∀ f, lib.getField "SLP" "stdev" = .ok f → ∀ t i j q, f.val t i j = some q → 0 < q

/-- The background fields can be read. -/
structure BackgroundReady {F : Type} [LinearOrder F] [Zero F] (E : ReadEnv F) : Prop where
  variance : E.tracking = true → ∀ season, ∃ f, E.bgVar season = .ok f ∧ MdsShape f
  fields : E.tracking = true → ∀ t, ∃ b, E.background t = .ok b ∧ OstiaShape b.1 ∧ OstiaShape b.2

/-- The record has a position on the earth, and an hour between 0 and 24 if it has one. -/
def Placed (rec : Imma) : Prop :=
  (∃ la lo, numericOf (rec.data "LAT") = some la ∧ numericOf (rec.data "LON") = some lo ∧ -90 ≤ la ∧ la ≤ 90 ∧
    -180 ≤ lo ∧ lo ≤ 360) ∧
  ∀ h, numericOf (rec.data "HR") = some h → 0 ≤ h ∧ h < 24

end MarineQC.Spec

namespace MarineQC

open Spec

variable {F : Type} [LinearOrder F] [Zero F]

theorem computeDt_total {r : Report} {y m : Int} (hy : r.getint "YR" = some y) (hm : r.getint "MO" = some m)
    (y1 : 1 ≤ y) (y2 : y ≤ 9999) (m1 : 1 ≤ m) (m2 : m ≤ 12) (hh : ∀ h, r.getvar "HR" = some h → 0 ≤ h ∧ h < 24) :
    ∃ d, r.computeDt = .ok d := by
  cases hr : r.getvar "HR" with
  | none => exact C31_timestamp_defined r (Or.inl (Or.inr (Or.inr (Or.inr hr))))
  | some h =>
    cases hd : r.getint "DY" with
    | none => exact C31_timestamp_defined r (Or.inl (Or.inr (Or.inr (Or.inl hd))))
    | some d =>
      by_cases hdate : IsDate y m d
      · obtain ⟨g1, g2⟩ := hh h hr
        exact C31_timestamp_defined r (Or.inr ⟨y, m, d, h, hy, hm, hd, hr, hdate, y1, y2, g1, g2⟩)
      · unfold Report.computeDt
        rw [hy, hm, hr, hd]
        simp only
        by_cases h0 : 0 < d
        · rw [if_pos h0, pyIndex_monthLengths y m m1 m2, except_bind_ok, if_neg (by
            intro hl
            exact hdate ⟨m1, m2, by omega, hl⟩)]
          exact ⟨_, rfl⟩
        · rw [if_neg h0]
          exact ⟨_, rfl⟩

/-- The speed and course codes have one column. -/
theorem record_course {line : List Char} {rec : Imma} (h : Imma.empty.readstr line = .ok rec) {q : Rat}
    (hq : numericOf (rec.data "DS") = some q) : ∃ n : Int, q = n ∧ 0 ≤ n ∧ n ≤ 9 := by
  have hl : ∀ p ∈ layouts, ∀ f ∈ p.2, f.name = "DS" → f.enc = 1 ∧ f.width = some 1 ∧ f.scale = some 1 := by
    decide +kernel
  have := readstr_inv (fun k w => k = "DS" → ∀ q, w = some (.num q) → ∃ n : Int, q = n ∧ 0 ≤ n ∧ n ≤ 9) (by
    intro p hp f hf s w hd hn q hq
    obtain ⟨e1, e2, e3⟩ := hl p hp f hf hn
    rcases decodeField_number e1 hd with rfl | ⟨n, hn, rfl⟩
    · cases hq
    · simp only [e3, Option.getD_some, mul_one, Option.some.injEq, Val.num.injEq] at hq
      have := parseInt_bounds (w := 1) (by
        unfold fieldText
        rw [e2]
        simp) hn
      simp only [Nat.sub_self, pow_zero, pow_one] at this
      exact ⟨n, hq.symm, by omega, by omega⟩) h
  unfold numericOf at hq
  split at hq
  · rename_i x hx
    injection hq with hq
    subst hq
    exact this "DS" _ hx rfl _ rfl
  · cases hq

theorem getint_number {r : Report} {rec : Imma} {v : String} (h : r.data v = numericOf (rec.data v)) :
    r.getint v = (numericOf (rec.data v)).map pyInt := by
  unfold Report.getint
  rw [h]
  cases numericOf (rec.data v) <;> rfl

theorem reportOf_completes {line : List Char} {rec : Imma} (h : Imma.empty.readstr line = .ok rec) {y m : Int}
    (hy : rec.data "YR" = some (some (.num y))) (hm : rec.data "MO" = some (some (.num m)))
    (y1 : 1 ≤ y) (y2 : y ≤ 9999) (m1 : 1 ≤ m) (m2 : m ≤ 12) (hp : Placed rec) : ∃ r, reportOf rec = .ok r := by
  unfold reportOf
  have hn : ((VARLIST.map fun v => (v, numericOf (rec.data v))).map Prod.fst).Nodup := by
    rw [List.map_map, show (Prod.fst ∘ fun v => (v, numericOf (rec.data v))) = id from rfl, List.map_id]
    exact varlist_nodup
  rw [init_eq _ _ _ hn]
  have hdata : ∀ v ∈ VARLIST, (rawReport (textOf (rec.data "ID")) (textOf (rec.data "UID"))
      (VARLIST.map fun v => (v, numericOf (rec.data v)))).data v = numericOf (rec.data v) := by
    intro v hv
    exact recordValue_map _ v hv
  have e1 := getint_number (hdata "YR" (by decide))
  have e2 := getint_number (hdata "MO" (by decide))
  rw [hy, show numericOf (some (some (Val.num (y : Rat)))) = some (y : Rat) from rfl, Option.map_some, pyInt_intCast] at e1
  rw [hm, show numericOf (some (some (Val.num (m : Rat)))) = some (m : Rat) from rfl, Option.map_some, pyInt_intCast] at e2
  obtain ⟨d, hd⟩ := computeDt_total e1 e2 y1 y2 m1 m2 (by
    intro h
    rw [getvar_of_mem (by decide) (by decide), hdata "HR" (by decide)]
    exact hp.2 h)
  rw [hd, except_bind_ok]
  obtain ⟨r', hr', -⟩ := C36_speed_course ({ rawReport (textOf (rec.data "ID")) (textOf (rec.data "UID"))
      (VARLIST.map fun v => (v, numericOf (rec.data v))) with dt := d } : Report) (by
    intro q hq
    have e3 := getint_number (hdata "DS" (by decide))
    have e4 : (rawReport (textOf (rec.data "ID")) (textOf (rec.data "UID"))
      (VARLIST.map fun v => (v, numericOf (rec.data v)))).getint "DS" = some q := hq
    rw [e3] at e4
    cases hv : numericOf (rec.data "DS") with
    | none => rw [hv] at e4; cases e4
    | some x =>
      rw [hv] at e4
      obtain ⟨n, rfl, n1, n2⟩ := record_course h hv
      simp only [Option.map_some, pyInt_intCast, Option.some.injEq] at e4
      omega)
  exact ⟨r', hr'⟩

/-! ## Looking up -/

/-- The report lies on the earth. -/
def OnEarth (r : Report) : Prop := ∃ la lo, r.lat = some la ∧ r.lon = some lo ∧ -90 ≤ la ∧ la ≤ 90 ∧ -180 ≤ lo ∧ lo ≤ 180

theorem lookupMds_completes {f : Arr3} (hf : MdsShape f) {r : Report} (h : OnEarth r) :
    ∃ x, f.lookupMds r.lat r.lon (r.getint "MO") (r.getint "DY") = .ok x := by
  unfold Arr3.lookupMds
  cases hb : badMonthDay (r.getint "MO") (r.getint "DY") with
  | true => exact ⟨_, rfl⟩
  | false =>
    obtain ⟨m, d, h1, h2, h3⟩ := (badMonthDay_iff _ _).mp hb
    obtain ⟨la, lo, g1, g2, g3, g4, g5, g6⟩ := h
    rw [g1, g2, h1, h2]
    obtain ⟨n, i, j, -, -, -, -, -, e⟩ := C18_get_value_mds f hf.1 hf.2.1 hf.2.2 la lo g3 g4 g5 g6 m d h3
    exact ⟨_, e⟩

/-- The value is one of the field. -/
theorem lookup_completes {f : Arr3} (hf : GridShape f) {r : Report} (h : OnEarth r) :
    ∃ x, f.lookup r.lat r.lon (r.getint "MO") (r.getint "DY") = .ok x ∧ ∀ q, x = some q → ∃ t i j, f.val t i j = some q := by
  unfold Arr3.lookup
  cases hb : badMonthDay (r.getint "MO") (r.getint "DY") with
  | true => exact ⟨_, rfl, fun q hq => by cases hq⟩
  | false =>
    obtain ⟨m, d, h1, h2, h3⟩ := (badMonthDay_iff _ _).mp hb
    obtain ⟨la, lo, g1, g2, g3, g4, g5, g6⟩ := h
    rw [g1, g2, h1, h2]
    obtain ⟨n, i, j, -, -, -, e⟩ := C18_get_value f hf.1 hf.2.1 hf.2.2 la lo g3 g4 (by linarith) m d h3
    exact ⟨_, e, fun q hq => ⟨_, _, _, hq⟩⟩

theorem lookupOstia_completes {f : Arr3} (hf : OstiaShape f) {r : Report} (h : OnEarth r) :
    ∃ x, f.lookupOstia r.lat r.lon = .ok x := by
  obtain ⟨la, lo, g1, g2, g3, g4, g5, g6⟩ := h
  unfold Arr3.lookupOstia
  rw [g1, g2]
  obtain ⟨i, j, -, e⟩ := C18_get_value_ostia f hf.1 hf.2.1 hf.2.2 la lo g3 g4 g5 g6
  exact ⟨_, e⟩

theorem onEarth_of_data {r : Report} {rec : Imma} (h : ∀ v ∈ ["LAT", "LON"], r.data v = numericOf (rec.data v))
    (hp : Placed rec) : OnEarth r := by
  obtain ⟨la, lo, h1, h2, h3, h4, h5, h6⟩ := hp.1
  have e1 : r.getvar "LAT" = some la := by rw [getvar_of_mem (by decide) (by decide), h "LAT" (by simp), h1]
  have e2 : r.getvar "LON" = some lo := by rw [getvar_of_mem (by decide) (by decide), h "LON" (by simp), h2]
  by_cases hl : lo > 180
  · exact ⟨la, lo - 360, e1, by unfold Report.lon; rw [e2]; simp only; rw [if_pos hl], h3, h4, by linarith, by linarith⟩
  · exact ⟨la, lo, e1, by unfold Report.lon; rw [e2]; simp only; rw [if_neg hl], h3, h4, h5, by linarith⟩

theorem OnEarth.congr {r s : Report} (h : OnEarth r) (hd : s.data = r.data) : OnEarth s := by
  have hs : SamePlace r s := samePlace_of_data (fun v _ => by rw [hd])
  obtain ⟨la, lo, h1, h2, h3⟩ := h
  exact ⟨la, lo, by rw [hs.1]; exact h1, by rw [hs.2.1]; exact h2, h3⟩

theorem addMdsClims_completes {lib : ClimLib Arr3} : ∀ (vs : List String) (r : Report),
    (∀ v ∈ vs, ∃ f, lib.getField v "mean" = .ok f ∧ MdsShape f) → OnEarth r → ∃ r', addMdsClims lib vs r = .ok r'
  | [], r, _, _ => ⟨r, rfl⟩
  | v :: vs, r, h, he => by
    obtain ⟨f, h1, h2⟩ := h v List.mem_cons_self
    obtain ⟨x, hx⟩ := lookupMds_completes h2 he
    unfold addMdsClims
    rw [h1, except_bind_ok, hx, except_bind_ok]
    exact addMdsClims_completes vs _ (fun w hw => h w (List.mem_cons_of_mem _ hw)) (he.congr rfl)

theorem addClims_completes {lib : ClimLib Arr3} : ∀ (vs : List String) (r : Report),
    (∀ v ∈ vs, ∃ f, lib.getField v "mean" = .ok f ∧ GridShape f) → OnEarth r → ∃ r', addClims lib vs r = .ok r'
  | [], r, _, _ => ⟨r, rfl⟩
  | v :: vs, r, h, he => by
    obtain ⟨f, h1, h2⟩ := h v List.mem_cons_self
    obtain ⟨x, hx, -⟩ := lookup_completes h2 he
    unfold addClims
    rw [h1, except_bind_ok, hx, except_bind_ok]
    exact addClims_completes vs _ (fun w hw => h w (List.mem_cons_of_mem _ hw)) (he.congr rfl)

theorem addStdevClims_completes {lib : ClimLib Arr3} : ∀ (vs : List String) (r : Report),
    (∀ v ∈ vs, ∃ f, lib.getField v "mean" = .ok f ∧ GridShape f) →
    (∀ v ∈ vs, ∃ f, lib.getField v "stdev" = .ok f ∧ GridShape f) → OnEarth r → ∃ r', addStdevClims lib vs r = .ok r'
  | [], r, _, _, _ => ⟨r, rfl⟩
  | v :: vs, r, h, h', he => by
    obtain ⟨f, h1, h2⟩ := h v List.mem_cons_self
    obtain ⟨g, g1, g2⟩ := h' v List.mem_cons_self
    obtain ⟨x, hx, -⟩ := lookup_completes h2 he
    obtain ⟨s, hs, -⟩ := lookup_completes g2 he
    unfold addStdevClims
    rw [h1, except_bind_ok, hx, except_bind_ok, g1, except_bind_ok, hs, except_bind_ok]
    exact addStdevClims_completes vs _ (fun w hw => h w (List.mem_cons_of_mem _ hw))
      (fun w hw => h' w (List.mem_cons_of_mem _ hw)) (he.congr rfl)

/-! ## The background -/

/-- The background state is usable: nothing was loaded yet, or the fields are there. -/
def BackgroundHeld (s : ReadState) : Prop :=
  s.lastday = -99 ∨ ∃ b : Arr3 × Arr3, s.lib.getField "OSTIA" "background" = .ok b.1 ∧
    s.lib.getField "OSTIA" "ice" = .ok b.2 ∧ OstiaShape b.1 ∧ OstiaShape b.2

theorem backgroundOf_completes {E : ReadEnv F} (hE : BackgroundReady E) (ht : E.tracking = true) (y m d : Int) :
    ∃ b, backgroundOf E y m d = .ok b ∧ OstiaShape b.1 ∧ OstiaShape b.2 := by
  unfold backgroundOf
  cases hy : yesterday y m d with
  | some t => exact hE.fields ht t
  | none =>
    refine ⟨(⟨1, 3600, 7200, fun _ _ _ => none⟩, ⟨1, 3600, 7200, fun _ _ _ => none⟩), rfl, ?_, ?_⟩ <;>
      exact ⟨by norm_num, rfl, rfl⟩

theorem backgroundValues_completes {lib : ClimLib Arr3} {bg : Arr3} (hbg : MdsShape bg) {b : Arr3 × Arr3}
    (h1 : lib.getField "OSTIA" "background" = .ok b.1) (h2 : lib.getField "OSTIA" "ice" = .ok b.2)
    (s1 : OstiaShape b.1) (s2 : OstiaShape b.2) {r : Report} (he : OnEarth r) :
    ∃ r', backgroundValues lib bg r = .ok r' := by
  unfold backgroundValues
  obtain ⟨x, hx⟩ := lookupOstia_completes s1 he
  rw [h1, except_bind_ok, hx, except_bind_ok, h2, except_bind_ok]
  have he2 := he.congr (s := r.setext "OSTIA" (x.map fun q => q - 27315 / 100)) rfl
  obtain ⟨i, hi⟩ := lookupOstia_completes s2 he2
  simp only
  rw [hi, except_bind_ok]
  have he3 := he2.congr (s := (r.setext "OSTIA" (x.map fun q => q - 27315 / 100)).setext "ICE" i) rfl
  obtain ⟨v, hv⟩ := lookupMds_completes hbg he3
  rw [hv]
  exact ⟨_, rfl⟩

theorem addBackground_completes {E : ReadEnv F} (hE : BackgroundReady E) {bg : Option Arr3}
    (hbg : ∀ f, bg = some f → E.tracking = true ∧ MdsShape f) {y m : Int} {s : ReadState} (hs : BackgroundHeld s)
    {r : Report} (he : OnEarth r) (hd : r.getint "DY" ≠ some (-99)) :
    ∃ q, addBackground E bg y m s r = .ok q ∧ BackgroundHeld ⟨q.2.1, q.2.2, s.deck⟩ := by
  unfold addBackground
  cases hdy : r.getint "DY" with
  | none => exact ⟨_, rfl, hs⟩
  | some d =>
    cases bg with
    | none => exact ⟨_, rfl, hs⟩
    | some f =>
      obtain ⟨ht, hf⟩ := hbg f rfl
      simp only
      by_cases hy : y ≥ 1985
      · rw [if_pos hy]
        unfold newDay
        by_cases hl : d ≠ s.lastday
        · rw [if_pos hl]
          obtain ⟨b, b1, b2, b3⟩ := backgroundOf_completes hE ht y m d
          unfold loadBackground
          simp only [b1, except_bind_ok, except_pure]
          have g1 : ((s.lib.addField "OSTIA" "background" b.1).addField "OSTIA" "ice" b.2).getField "OSTIA" "background" =
              .ok b.1 := by
            rw [getField_add, if_neg (by simp), getField_add, if_pos ⟨rfl, rfl⟩]
          have g2 : ((s.lib.addField "OSTIA" "background" b.1).addField "OSTIA" "ice" b.2).getField "OSTIA" "ice" =
              .ok b.2 := by
            rw [getField_add, if_pos ⟨rfl, rfl⟩]
          obtain ⟨r', hr'⟩ := backgroundValues_completes hf g1 g2 b2 b3 he
          rw [hr', except_bind_ok]
          exact ⟨_, rfl, Or.inr ⟨b, g1, g2, b2, b3⟩⟩
        · rw [if_neg hl]
          push Not at hl
          simp only [except_bind_ok, except_pure]
          rcases hs with hs | ⟨b, g1, g2, b2, b3⟩
          · exfalso
            exact hd (by rw [hdy, hl, hs])
          · obtain ⟨r', hr'⟩ := backgroundValues_completes hf g1 g2 b2 b3 he
            rw [hr', except_bind_ok]
            exact ⟨_, rfl, Or.inr ⟨b, g1, g2, b2, b3⟩⟩
      · rw [if_neg hy]
        exact ⟨_, rfl, hs⟩

theorem libReady_congr {lib lib' : ClimLib Arr3} (h : ∀ v s, v ≠ "OSTIA" → lib'.getField v s = lib.getField v s)
    (hl : LibReady lib) : LibReady lib' := by
  have ne : ∀ v, v ∈ ["SST", "AT", "SLP2", "SHU", "CRH", "CWB", "DPD", "DPT", "AT2", "SLP"] → v ≠ "OSTIA" := by
    rintro v hv rfl
    revert hv
    decide
  refine ⟨?_, ?_, ?_, ?_⟩
  · intro v hv
    rw [h v _ (ne v (by simp only [List.mem_cons, List.not_mem_nil, or_false] at hv ⊢; tauto))]
    exact hl.mds v hv
  · intro v hv
    rw [h v _ (ne v (by simp only [List.mem_cons, List.not_mem_nil, or_false] at hv ⊢; tauto))]
    exact hl.mean v hv
  · intro v hv
    rw [h v _ (ne v (by simp only [List.mem_cons, List.not_mem_nil, or_false] at hv ⊢; tauto))]
    exact hl.stdev v hv
  · intro f
    rw [h "SLP" "stdev" (by decide)]
    exact hl.slp f

/-! ## A record -/

theorem fixHour_completes {r : Report} {y m : Int} (hy : r.getint "YR" = some y) (hm : r.getint "MO" = some m)
    (y1 : 1 ≤ y) (y2 : y ≤ 9999) (m1 : 1 ≤ m) (m2 : m ≤ 12) : ∃ s, r.doFixMissingHour = .ok s := by
  unfold Report.doFixMissingHour
  simp only
  split_ifs with hc
  · have hd : ∃ d, ({ r with data := fun k => if k = "HR" then some 0 else r.data k } : Report).computeDt = .ok d := by
      refine computeDt_total (y := y) (m := m) ?_ ?_ y1 y2 m1 m2 ?_
      · rw [← hy]; exact getint_of_data rfl
      · rw [← hm]; exact getint_of_data rfl
      · intro h
        rw [getvar_of_mem (by decide) (by decide)]
        simp only [if_true, Option.some.injEq]
        rintro rfl
        norm_num
    obtain ⟨d, hd⟩ := hd
    have hset : raising (r.setvar "HR" (some 0)) =
        .ok { r with data := fun k => if k = "HR" then some 0 else r.data k, dt := d } := by
      unfold Report.setvar raising
      rw [if_pos (by decide)]
      simp only [or_true, if_true, hd]
    rw [hset, except_bind_ok]
    have : ({ r with data := fun k => if k = "HR" then some 0 else r.data k, dt := d } : Report).computeDt = .ok d := by
      rw [← hd]
      exact computeDt_congr fun v _ => rfl
    rw [this]
    exact ⟨_, rfl⟩
  · exact ⟨_, rfl⟩

theorem useRecord_completes {E : ReadEnv F} (hE : BackgroundReady E) (hp : GoodParams E.params) {year month : Int}
    {bg : Option Arr3} (hbg : ∀ f, bg = some f → E.tracking = true ∧ MdsShape f) {y m : Int} {s : ReadState}
    (hlib : LibReady s.lib) (hs : BackgroundHeld s) {line : List Char} {rec : Imma}
    (hread : Imma.empty.readstr line = .ok rec)
    (hy : rec.data "YR" = some (some (.num y))) (hm : rec.data "MO" = some (some (.num m)))
    (y1 : 1 ≤ y) (y2 : y ≤ 9999) (m1 : 1 ≤ m) (m2 : m ≤ 12) (hrec : Placed rec) :
    ∃ s', useRecord E year month bg y m s rec = .ok s' ∧ LibReady s'.lib ∧ BackgroundHeld s' := by
  obtain ⟨r0, h0⟩ := reportOf_completes hread hy hm y1 y2 m1 m2 hrec
  obtain ⟨i1, i2, i3, i4, i5, i6, i7, i8⟩ := reportOf_ok h0
  have h1 : raising (r0.setvar "AT2" (r0.getvar "AT")) =
      .ok { r0 with data := fun k => if k = "AT2" then r0.data "AT" else r0.data k } := by
    unfold Report.setvar raising
    rw [if_pos (by decide), if_neg (by decide), getvar_of_mem (by decide) (by decide)]
  generalize hr1 : ({ r0 with data := fun k => if k = "AT2" then r0.data "AT" else r0.data k } : Report) = r1 at h1
  have data1 : ∀ v ∈ VARLIST, v ≠ "AT2" → r1.data v = numericOf (rec.data v) := by
    intro v hv hn
    rw [← hr1]
    simp only [hn, if_false]
    exact i3 v hv
  have he1 : OnEarth r1 := onEarth_of_data (fun v hv => by
    simp only [List.mem_cons, List.not_mem_nil, or_false] at hv
    rcases hv with rfl | rfl <;> exact data1 _ (by decide) (by decide)) hrec
  have hday : r1.getint "DY" ≠ some (-99) := by
    rw [getint_number (data1 "DY" (by decide) (by decide))]
    intro hc
    cases hq : numericOf (rec.data "DY") with
    | none => rw [hq] at hc; cases hc
    | some q =>
      rw [hq] at hc
      obtain ⟨n, rfl, n1, n2⟩ := record_day hread hq
      simp only [Option.map_some, pyInt_intCast, Option.some.injEq] at hc
      omega
  obtain ⟨b, hb, hheld⟩ := addBackground_completes hE hbg (y := y) (m := m) hs he1 hday
  have hno1 : NoBackground r1 := by
    intro k hk
    rw [← hr1]
    apply i8
    simp only [List.mem_cons, List.not_mem_nil, or_false] at hk
    rcases hk with rfl | rfl | rfl <;> decide
  have hdy1 : r1.getint "DY" = dayOf rec := getint_number (data1 "DY" (by decide) (by decide))
  obtain ⟨b1, b2, bs⟩ := addBackground_ok hdy1 hno1 hb
  have hlib' : LibReady b.2.2 := libReady_congr bs.others hlib
  have databg : b.1.data = r1.data := by rw [b1]
  have heb : OnEarth b.1 := he1.congr databg
  obtain ⟨r2, h2⟩ := addMdsClims_completes ["SST", "AT"] b.1 hlib'.mds heb
  obtain ⟨c2, n2, o2⟩ := addMdsClims_ok (by decide) h2
  have he2 : OnEarth r2 := heb.congr (by rw [c2])
  obtain ⟨r3, h3⟩ := addClims_completes (lib := b.2.2) ["SLP2", "SHU", "CRH", "CWB", "DPD"] r2 (fun v hv => hlib'.mean v (by
    simp only [List.mem_cons, List.not_mem_nil, or_false] at hv ⊢; tauto)) he2
  obtain ⟨c3, n3, o3⟩ := addClims_ok (by decide) h3
  have he3 : OnEarth r3 := he2.congr (by rw [c3])
  obtain ⟨r4, h4⟩ := addStdevClims_completes (lib := b.2.2) ["DPT", "AT2", "SLP"] r3 (fun v hv => hlib'.mean v (by
    simp only [List.mem_cons, List.not_mem_nil, or_false] at hv ⊢; tauto)) hlib'.stdev he3
  obtain ⟨c4, n4, o4⟩ := addStdevClims_ok (by decide) h4
  obtain ⟨f, g, x, sd, f1, g1, fv, gv, cl⟩ := n4 "SLP" (by simp)
  obtain ⟨r5, h5⟩ := (C35_humidity_defined E.hum r4 ["SHU", "VAP", "CRH", "CWB", "DPD"]).mpr
    ⟨fun v hv => hv, by rw [cl]; simp⟩
  obtain ⟨d5, e5, k5⟩ := humidity_only h5
  have data4 : r4.data = r1.data := by rw [c4, c3, c2, b1]
  have data5 : ∀ k ∉ humNames, r5.data k = r1.data k := by
    intro k hk
    rw [e5, ← data4]
    exact k5 k hk
  have d5' : ∀ v ∈ VARLIST, v ≠ "AT2" → v ∉ humNames → r5.data v = numericOf (rec.data v) := by
    intro v hv hn hh
    rw [data5 v hh, data1 v hv hn]
  have ey : r5.getint "YR" = some y := by
    rw [getint_number (d5' "YR" (by decide) (by decide) (by decide)), hy]
    simp [numericOf]
  have em : r5.getint "MO" = some m := by
    rw [getint_number (d5' "MO" (by decide) (by decide) (by decide)), hm]
    simp [numericOf]
  obtain ⟨t, ht⟩ := fixHour_completes ey em y1 y2 m1 m2
  obtain ⟨la, lo, l1, l2, -⟩ := hrec.1
  obtain ⟨-, -, tv, -, -, tc, -⟩ := C34_missing_hour r5 t ht
  have getint_of_getvar : ∀ v ∈ ["YR", "MO"], t.getint v = r5.getint v := by
    intro v hv
    have hne : v ≠ "HR" ∧ v ∈ VARLIST ∧ v ∈ intVars := by
      simp only [List.mem_cons, List.not_mem_nil, or_false] at hv
      rcases hv with rfl | rfl <;> decide
    have := tv v hne.1
    unfold Report.getvar at this
    rw [if_neg (by simp [hne.2.1]), if_pos hne.2.1, if_neg (by simp [hne.2.1]), if_pos hne.2.1] at this
    unfold Report.getint
    cases ha : t.data v <;> cases hb : r5.data v <;> rw [ha, hb] at this <;> simp [hne.2.2] at this ⊢
    exact this
  obtain ⟨r6, h6⟩ := C34_completes E.elev E.params hp r5 t ht la lo
    (by rw [tv "LAT" (by decide), getvar_of_mem (by decide) (by decide), d5' "LAT" (by decide) (by decide) (by decide), l1])
    (by rw [tv "LON" (by decide), getvar_of_mem (by decide) (by decide), d5' "LON" (by decide) (by decide) (by decide), l2])
    y m (by rw [getint_of_getvar "YR" (by simp), ey]) (by rw [getint_of_getvar "MO" (by simp), em]) m1 m2 (by
      intro d hd
      have : sd = some d := by
        unfold Report.getstdev at hd
        rw [tc, e5] at hd
        simp only [cl] at hd
        exact hd
      obtain ⟨f', f'1, f'2⟩ := hlib'.stdev "SLP" (by simp)
      obtain ⟨x', hx', hval⟩ := lookup_completes f'2 he3
      have hg : g = f' := getField_inj g1 f'1
      subst hg
      have hxs : x' = sd := by
        have gv' := lookup_value hx'
        rcases gv with ⟨a1, a2⟩ | ⟨ma, da, laa, loa, a1, a2, a3, a4, a5, a6⟩
        · rcases gv' with ⟨b1, b2⟩ | ⟨mb, db, lab, lob, b1, b2, b3, -⟩
          · rw [a2, b2]
          · exact absurd ⟨mb, db, b1, b2, b3⟩ a1
        · rcases gv' with ⟨b1, b2⟩ | ⟨mb, db, lab, lob, b1, b2, b3, b4, b5, b6⟩
          · exact absurd ⟨ma, da, a1, a2, a3⟩ b1
          · rw [a1] at b1; rw [a2] at b2; rw [a4] at b4; rw [a5] at b5
            injection b1 with b1; injection b2 with b2; injection b4 with b4; injection b5 with b5
            subst b1; subst b2; subst b4; subst b5
            rw [a6] at b6
            injection b6 with b6
            exact b6.symm
      obtain ⟨t', i, j, hv⟩ := hval d (by rw [hxs, this])
      exact hlib'.slp g g1 t' i j d hv)
  have hset : ∃ r7, r6.setQc "POS" "month_match" (reportMonthMatch year month r6) = .ok r7 := by
    have hv : reportMonthMatch year month r6 = 0 ∨ reportMonthMatch year month r6 = 1 := by
      unfold reportMonthMatch
      cases r6.getint "YR" with
      | none => exact Or.inl rfl
      | some a =>
        cases r6.getint "MO" with
        | none => exact Or.inl rfl
        | some b =>
          simp only
          unfold monthMatch
          split_ifs
          · right; rfl
          · left; rfl
    unfold Report.setQc
    rcases hv with hv | hv <;> rw [hv] <;> exact ⟨_, rfl⟩
  obtain ⟨r7, h7⟩ := hset
  refine ⟨⟨b.2.1, b.2.2, s.deck.append r7⟩, ?_, hlib', ?_⟩
  · unfold useRecord finishReport
    rw [h0, except_bind_ok, h1, except_bind_ok, hb, except_bind_ok, h2, except_bind_ok, h3, except_bind_ok, h4,
      except_bind_ok, h5, except_bind_ok, h6, except_bind_ok, h7, except_bind_ok]
    rfl
  · exact hheld

/-! ## The loop -/

theorem useRecords_completes {E : ReadEnv F} (hE : BackgroundReady E) (hp : GoodParams E.params) {year month : Int}
    {bg : Option Arr3} (hbg : ∀ f, bg = some f → E.tracking = true ∧ MdsShape f) {y m : Int}
    (y1 : 1 ≤ y) (y2 : y ≤ 9999) (m1 : 1 ≤ m) (m2 : m ≤ 12) : ∀ (recs : List Imma) (s : ReadState),
    (∀ rec ∈ recs, (∃ line, Used E.excl y m line rec) ∧ Placed rec) → LibReady s.lib → BackgroundHeld s →
    ∃ s', recs.foldlM (useRecord E year month bg y m) s = .ok s' ∧ LibReady s'.lib ∧ BackgroundHeld s'
  | [], s, _, hl, hs => ⟨s, rfl, hl, hs⟩
  | rec :: recs, s, hr, hl, hs => by
    obtain ⟨⟨line, u⟩, hrec⟩ := hr rec List.mem_cons_self
    obtain ⟨s1, e, hl1, hs1⟩ := useRecord_completes hE hp (year := year) (month := month) hbg hl hs u.1 u.2.1 u.2.2.1
      y1 y2 m1 m2 hrec
    obtain ⟨s', e', h'⟩ := useRecords_completes hE hp (year := year) (month := month) hbg y1 y2 m1 m2 recs s1
      (fun x hx => hr x (List.mem_cons_of_mem _ hx)) hl1 hs1
    refine ⟨s', ?_, h'⟩
    rw [List.foldlM_cons, e, except_bind_ok]
    exact e'

theorem readMonthFile_completes {E : ReadEnv F} (hE : BackgroundReady E) (hp : GoodParams E.params) {year month : Int}
    {ym : Int × Int} (y1 : 1 ≤ ym.1) (y2 : ym.1 ≤ 9999) (m1 : 1 ≤ ym.2) (m2 : ym.2 ≤ 12) {s : ReadState}
    (hf : ∃ name, icoadsFilenameFromStub E.fs E.dirs E.files (some ym.1) (some ym.2) = .ok (some name))
    (hid : ∀ line ∈ linesOfFile E ym, HasIdentifier line)
    (hr : ∀ line ∈ linesOfFile E ym, ∀ rec, Used E.excl ym.1 ym.2 line rec → Placed rec)
    (hl : LibReady s.lib) (hs : BackgroundHeld s) :
    ∃ s', readMonthFile E year month s ym = .ok s' ∧ LibReady s'.lib ∧ BackgroundHeld s' := by
  obtain ⟨name, hname⟩ := hf
  unfold readMonthFile
  have hbg : ∃ bg, seasonField E ym.2 = .ok bg ∧ ∀ f, bg = some f → E.tracking = true ∧ MdsShape f := by
    unfold seasonField
    by_cases ht : E.tracking = true
    · rw [if_pos ht, C09_season_partial ym.2 (by omega), except_bind_ok]
      obtain ⟨f, h1, h2⟩ := hE.variance ht (seasonOf ym.2)
      rw [h1, except_bind_ok]
      refine ⟨_, rfl, ?_⟩
      intro g hg
      injection hg with hg
      subst hg
      exact ⟨ht, h2⟩
    · rw [if_neg ht]
      exact ⟨_, rfl, by rintro f ⟨⟩⟩
  obtain ⟨bg, e1, e2⟩ := hbg
  rw [e1, except_bind_ok, hname, except_bind_ok]
  unfold openFile
  simp only [except_bind_ok]
  unfold linesOfFile at hid hr
  rw [hname] at hid hr
  simp only at hid hr
  cases hlines : E.lines name with
  | none => exact ⟨s, rfl, hl, hs⟩
  | some lines =>
    rw [hlines, Option.getD_some] at hid hr
    simp only
    rw [readLines_eq hid]
    refine useRecords_completes hE hp e2 y1 y2 m1 m2 _ s ?_ hl hs
    intro rec hrec
    obtain ⟨line, hl, u⟩ := recordsIn_month hrec
    exact ⟨⟨line, u⟩, hr line hl rec u⟩

/-- **C106.**  Reading for a month completes if: a file is found for each of the three months; the climatology and the
background can be read; the parameters are sensible; in every line the identifier can be found; and every record that is
used has a position on the earth and no impossible hour.  Lines that cannot be read behind the identifier, records of
other months and excluded identifiers do no harm.  *Missing:* the violations below show that none of the conditions on
files and lines can be left out. -/
theorem C106_completes_partial (E : ReadEnv F) (hE : BackgroundReady E) (hp : GoodParams E.params) (lib : ClimLib Arr3)
    (hl : LibReady lib) (year month : Int) (hy : 2 ≤ year ∧ year ≤ 9998) (hm : 1 ≤ month ∧ month ≤ 12)
    (before : Int × Int) (hb : succMonth before = (year, month)) (hb' : 1 ≤ before.2 ∧ before.2 ≤ 12)
    (hf : ∀ ym ∈ [before, (year, month), succMonth (year, month)],
      ∃ name, icoadsFilenameFromStub E.fs E.dirs E.files (some ym.1) (some ym.2) = .ok (some name))
    (hid : ∀ ym ∈ [before, (year, month), succMonth (year, month)], ∀ line ∈ linesOfFile E ym, HasIdentifier line)
    (hr : ∀ ym ∈ [before, (year, month), succMonth (year, month)], ∀ line ∈ linesOfFile E ym, ∀ rec,
      Used E.excl ym.1 ym.2 line rec → Placed rec) :
    ∃ s, readReports E lib year month = .ok s := by
  obtain ⟨p, q, hp', hp1, rfl, hr'⟩ := C08_three_months year month hm 3 (le_refl 3)
  have hval : ∀ ym ∈ [p, (year, month), succMonth (year, month)], 1 ≤ ym.1 ∧ ym.1 ≤ 9999 ∧ 1 ≤ ym.2 ∧ ym.2 ≤ 12 := by
    intro ym hym
    simp only [List.mem_cons, List.not_mem_nil, or_false] at hym
    rcases hym with rfl | rfl | rfl
    · obtain ⟨a, b⟩ := ym
      unfold succMonth at hp'
      simp only at hp' hp1 ⊢
      split_ifs at hp' with hc
      · injection hp' with h1 h2
        omega
      · injection hp' with h1 h2
        omega
    · simp only; omega
    · unfold succMonth
      simp only
      split_ifs with hc <;> simp only <;> omega
  have hpb : before = p := by
    obtain ⟨a, b⟩ := p
    obtain ⟨c, d⟩ := before
    rw [← hb] at hp'
    unfold succMonth at hp'
    simp only at hp' hp1 hb'
    by_cases h1 : b = 12
    · rw [if_pos h1] at hp'
      by_cases h2 : d = 12
      · rw [if_pos h2] at hp'
        injection hp' with e1 e2
        exact Prod.ext (by simp only; omega) (by simp only; omega)
      · rw [if_neg h2] at hp'
        injection hp' with e1 e2
        omega
    · rw [if_neg h1] at hp'
      by_cases h2 : d = 12
      · rw [if_pos h2] at hp'
        injection hp' with e1 e2
        omega
      · rw [if_neg h2] at hp'
        injection hp' with e1 e2
        exact Prod.ext (by simp only; omega) (by simp only; omega)
  subst hpb
  unfold readReports
  rw [hr', except_bind_ok]
  simp only
  have key : ∀ (l : List (Int × Int)) (s : ReadState), (∀ ym ∈ l, ym ∈ [before, (year, month), succMonth (year, month)]) →
      LibReady s.lib → BackgroundHeld s → ∃ s', l.foldlM (readMonthFile E year month) s = .ok s' := by
    intro l
    induction l with
    | nil => intro s _ _ _; exact ⟨s, rfl⟩
    | cons ym l ih =>
      intro s hsub h1 h2
      have hmem := hsub ym List.mem_cons_self
      obtain ⟨v1, v2, v3, v4⟩ := hval ym hmem
      obtain ⟨s1, e, i1, i2⟩ := readMonthFile_completes hE hp (year := year) (month := month) v1 v2 v3 v4 (hf ym hmem)
        (hid ym hmem) (hr ym hmem) h1 h2
      obtain ⟨s', e'⟩ := ih s1 (fun x hx => hsub x (List.mem_cons_of_mem _ hx)) i1 i2
      refine ⟨s', ?_⟩
      rw [List.foldlM_cons, e, except_bind_ok]
      exact e'
  exact key _ _ (fun ym h => h) hl (Or.inl rfl)

end MarineQC
