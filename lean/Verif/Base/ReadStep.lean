import Verif.Base.ReadSpec

/-!
# One record of the reading loop
-/

namespace MarineQC

open Spec

variable {F : Type} [LinearOrder F] [Zero F]

/-! ## The report of a record -/

theorem varlist_nodup : VARLIST.Nodup := by decide

theorem recordValue_map (g : String → Option Rat) (v : String) (hv : v ∈ VARLIST) :
    recordValue (VARLIST.map fun v => (v, g v)) v = g v := by
  unfold recordValue
  rw [if_pos hv, List.find?_map]
  have : VARLIST.find? ((fun t : String × Option Rat => decide (t.1 = v)) ∘ fun v => (v, g v)) = some v := by
    have hl : ∀ l : List String, v ∈ l →
        l.find? ((fun t : String × Option Rat => decide (t.1 = v)) ∘ fun v => (v, g v)) = some v := by
      intro l
      induction l with
      | nil => intro h; cases h
      | cons a l ih =>
        intro h
        by_cases ha : a = v
        · subst ha; simp
        · rw [List.find?_cons_of_neg (by simpa using ha)]
          exact ih ((List.mem_cons.mp h).resolve_left (Ne.symm ha))
    exact hl _ hv
  rw [this]
  rfl

theorem pyIndex_member {α : Type} {l : List α} {i : Int} {a : α} (h : pyIndex l i = .ok a) : a ∈ l := by
  unfold pyIndex at h
  simp only at h
  generalize (if i < 0 then i + (l.length : Int) else i) = j at h
  by_cases hj : j < 0
  · rw [if_pos hj] at h; cases h
  · rw [if_neg hj] at h
    cases hg : l[j.toNat]? with
    | none => rw [hg] at h; cases h
    | some b =>
      rw [hg] at h
      injection h with h
      subst h
      exact List.mem_of_getElem? hg

/-- The report of a record, in full. -/
theorem reportOf_ok {rec : Imma} {r : Report} (h : reportOf rec = .ok r) :
    r.id = textOf (rec.data "ID") ∧ r.uid = textOf (rec.data "UID") ∧ (∀ v ∈ VARLIST, r.data v = numericOf (rec.data v))
      ∧ r.Consistent ∧ (∀ k, r.qc k = none) ∧ (∀ k, r.clim k = none) ∧ (∃ x ∈ dsConvert, r.ext "dsi" = some x)
      ∧ ∀ k, k ∉ ["dsi", "vsi"] → r.ext k = none := by
  unfold reportOf at h
  have hn : ((VARLIST.map fun v => (v, numericOf (rec.data v))).map Prod.fst).Nodup := by
    rw [List.map_map, show (Prod.fst ∘ fun v => (v, numericOf (rec.data v))) = id from rfl, List.map_id]
    exact varlist_nodup
  obtain ⟨h1, h2, h3, h4, h5⟩ := C31_init _ _ _ hn r h
  refine ⟨h4, h5, fun v hv => by rw [h2 v hv, recordValue_map _ v hv], h1, h3, ?_⟩
  rw [init_eq _ _ _ hn, bind_ok_iff] at h
  obtain ⟨d, hd, h⟩ := h
  unfold Report.calculateDsiVsi at h
  rw [bind_ok_iff] at h
  obtain ⟨x, hx, h⟩ := h
  injection h with h
  subst h
  refine ⟨fun _ => rfl, ⟨x, ?_, by simp⟩, ?_⟩
  · unfold Report.dsi at hx
    split at hx
    · injection hx with hx
      subst hx
      decide +kernel
    · exact pyIndex_member hx
  · intro k hk
    simp only [List.mem_cons, List.not_mem_nil, or_false, not_or] at hk
    simp only
    rw [if_neg hk.2, if_neg hk.1]
    rfl

/-- The second air temperature is the first. -/
theorem setAT2_ok {r r' : Report} (h : raising (r.setvar "AT2" (r.getvar "AT")) = .ok r') :
    r' = { r with data := fun k => if k = "AT2" then r.data "AT" else r.data k } := by
  unfold Report.setvar raising at h
  rw [if_pos (by decide), if_neg (by decide), getvar_of_mem (by decide) (by decide)] at h
  injection h with h
  exact h.symm

/-! ## Looking up fields -/

theorem lookup_value {f : Arr3} {r : Report} {x : Option Rat}
    (h : f.lookup r.lat r.lon (r.getint "MO") (r.getint "DY") = .ok x) : ValueAt f r x := by
  unfold Arr3.lookup at h
  cases hb : badMonthDay (r.getint "MO") (r.getint "DY") with
  | true =>
    rw [hb] at h
    simp only [if_true] at h
    injection h with h
    refine Or.inl ⟨fun hd => ?_, h.symm⟩
    rw [(badMonthDay_iff _ _).2 hd] at hb
    cases hb
  | false =>
    rw [hb] at h
    simp only [Bool.false_eq_true, if_false] at h
    obtain ⟨m, d, hm, hd, hv⟩ := (badMonthDay_iff _ _).1 hb
    cases hla : r.lat with
    | none => rw [hla] at h; cases h
    | some la =>
      cases hlo : r.lon with
      | none => rw [hla, hlo] at h; cases h
      | some lo =>
        rw [hla, hlo, hm, hd] at h
        exact Or.inr ⟨m, d, la, lo, hm, hd, hv, hla, hlo, h⟩

theorem lookupMds_value {f : Arr3} {r : Report} {x : Option Rat}
    (h : f.lookupMds r.lat r.lon (r.getint "MO") (r.getint "DY") = .ok x) : ValueMds f r x := by
  unfold Arr3.lookupMds at h
  cases hb : badMonthDay (r.getint "MO") (r.getint "DY") with
  | true =>
    rw [hb] at h
    simp only [if_true] at h
    injection h with h
    refine Or.inl ⟨fun hd => ?_, h.symm⟩
    rw [(badMonthDay_iff _ _).2 hd] at hb
    cases hb
  | false =>
    rw [hb] at h
    simp only [Bool.false_eq_true, if_false] at h
    obtain ⟨m, d, hm, hd, hv⟩ := (badMonthDay_iff _ _).1 hb
    cases hla : r.lat with
    | none => rw [hla] at h; cases h
    | some la =>
      cases hlo : r.lon with
      | none => rw [hla, hlo] at h; cases h
      | some lo =>
        rw [hla, hlo, hm, hd] at h
        exact Or.inr ⟨m, d, la, lo, hm, hd, hv, hla, hlo, h⟩

/-- What a lookup depends on. -/
def SamePlace (r s : Report) : Prop := s.lat = r.lat ∧ s.lon = r.lon ∧ s.getint "MO" = r.getint "MO" ∧
  s.getint "DY" = r.getint "DY"

theorem samePlace_of_data {r s : Report} (h : ∀ v ∈ ["LAT", "LON", "MO", "DY"], s.data v = r.data v) : SamePlace r s := by
  have e : ∀ v ∈ ["LAT", "LON"], s.getvar v = r.getvar v := by
    intro v hv
    have hv' : v ∈ ["LAT", "LON", "MO", "DY"] := by
      simp only [List.mem_cons, List.not_mem_nil, or_false] at hv ⊢
      tauto
    have h1 : v ∈ VARLIST ∧ v ∉ intVars := by
      simp only [List.mem_cons, List.not_mem_nil, or_false] at hv
      rcases hv with rfl | rfl <;> decide
    rw [getvar_of_mem h1.1 h1.2, getvar_of_mem h1.1 h1.2, h v hv']
  refine ⟨e "LAT" (by decide), ?_, ?_, ?_⟩
  · unfold Report.lon
    rw [e "LON" (by decide)]
  · unfold Report.getint
    rw [h "MO" (by decide)]
  · unfold Report.getint
    rw [h "DY" (by decide)]

theorem SamePlace.valueAt {r s : Report} (h : SamePlace r s) {f : Arr3} {x : Option Rat} (hv : ValueAt f r x) :
    ValueAt f s x := by
  unfold ValueAt at hv ⊢
  rw [h.1, h.2.1, h.2.2.1, h.2.2.2]
  exact hv

theorem SamePlace.valueMds {r s : Report} (h : SamePlace r s) {f : Arr3} {x : Option Rat} (hv : ValueMds f r x) :
    ValueMds f s x := by
  unfold ValueMds at hv ⊢
  rw [h.1, h.2.1, h.2.2.1, h.2.2.2]
  exact hv

/-! ## The normals -/

theorem samePlace_clim (r : Report) (c : String → Option ClimVar) : SamePlace r { r with clim := c } := ⟨rfl, rfl, rfl, rfl⟩

theorem addMdsClims_ok {lib : ClimLib Arr3} : ∀ {vs : List String} {r r' : Report}, vs.Nodup →
    addMdsClims lib vs r = .ok r' → r' = { r with clim := r'.clim } ∧
      (∀ v ∈ vs, ∃ f x, lib.getField v "mean" = .ok f ∧ ValueMds f r x ∧ r'.clim v = some ⟨x, none⟩) ∧
      ∀ v ∉ vs, r'.clim v = r.clim v
  | [], r, r', _, h => by
    injection h with h
    subst h
    exact ⟨rfl, by simp, by simp⟩
  | v :: vs, r, r', hn, h => by
    unfold addMdsClims at h
    simp only [bind_ok_iff] at h
    obtain ⟨f, hf, x, hx, h⟩ := h
    obtain ⟨i1, i2, i3⟩ := addMdsClims_ok (List.nodup_cons.mp hn).2 h
    refine ⟨i1, ?_, ?_⟩
    · intro w hw
      rcases List.mem_cons.mp hw with rfl | hw
      · refine ⟨f, x, hf, lookupMds_value hx, ?_⟩
        rw [i3 w (List.nodup_cons.mp hn).1]
        simp [Report.addClim]
      · exact i2 w hw
    · intro w hw
      rw [List.mem_cons, not_or] at hw
      rw [i3 w hw.2]
      simp [Report.addClim, hw.1]

theorem addClims_ok {lib : ClimLib Arr3} : ∀ {vs : List String} {r r' : Report}, vs.Nodup →
    addClims lib vs r = .ok r' → r' = { r with clim := r'.clim } ∧
      (∀ v ∈ vs, ∃ f x, lib.getField v "mean" = .ok f ∧ ValueAt f r x ∧ r'.clim v = some ⟨x, none⟩) ∧
      ∀ v ∉ vs, r'.clim v = r.clim v
  | [], r, r', _, h => by
    injection h with h
    subst h
    exact ⟨rfl, by simp, by simp⟩
  | v :: vs, r, r', hn, h => by
    unfold addClims at h
    simp only [bind_ok_iff] at h
    obtain ⟨f, hf, x, hx, h⟩ := h
    obtain ⟨i1, i2, i3⟩ := addClims_ok (List.nodup_cons.mp hn).2 h
    refine ⟨i1, ?_, ?_⟩
    · intro w hw
      rcases List.mem_cons.mp hw with rfl | hw
      · refine ⟨f, x, hf, lookup_value hx, ?_⟩
        rw [i3 w (List.nodup_cons.mp hn).1]
        simp [Report.addClim]
      · exact i2 w hw
    · intro w hw
      rw [List.mem_cons, not_or] at hw
      rw [i3 w hw.2]
      simp [Report.addClim, hw.1]

theorem addStdevClims_ok {lib : ClimLib Arr3} : ∀ {vs : List String} {r r' : Report}, vs.Nodup →
    addStdevClims lib vs r = .ok r' → r' = { r with clim := r'.clim } ∧
      (∀ v ∈ vs, ∃ f g x s, lib.getField v "mean" = .ok f ∧ lib.getField v "stdev" = .ok g ∧ ValueAt f r x ∧
        ValueAt g r s ∧ r'.clim v = some ⟨x, s⟩) ∧
      ∀ v ∉ vs, r'.clim v = r.clim v
  | [], r, r', _, h => by
    injection h with h
    subst h
    exact ⟨rfl, by simp, by simp⟩
  | v :: vs, r, r', hn, h => by
    unfold addStdevClims at h
    simp only [bind_ok_iff] at h
    obtain ⟨f, hf, x, hx, g, hg, s, hs, h⟩ := h
    obtain ⟨i1, i2, i3⟩ := addStdevClims_ok (List.nodup_cons.mp hn).2 h
    refine ⟨i1, ?_, ?_⟩
    · intro w hw
      rcases List.mem_cons.mp hw with rfl | hw
      · refine ⟨f, g, x, s, hf, hg, lookup_value hx, lookup_value hs, ?_⟩
        rw [i3 w (List.nodup_cons.mp hn).1]
        simp [Report.addClim]
      · exact i2 w hw
    · intro w hw
      rw [List.mem_cons, not_or] at hw
      rw [i3 w hw.2]
      simp [Report.addClim, hw.1]

/-! ## Humidity -/

theorem put_only (r : Report) (v : String) (hv : v ∈ humNames) (x : Option Rat) :
    ∃ d, r.put v x = { r with data := d } ∧ ∀ k ∉ humNames, d k = r.data k := by
  refine ⟨_, put_data r v hv x, ?_⟩
  intro k hk
  rw [if_neg (by rintro rfl; exact hk hv)]

theorem wipe_only (vars : List String) (hv : ∀ v ∈ vars, v ∈ humNames) (r : Report) :
    ∃ d, vars.foldl (fun r v => r.put v none) r = { r with data := d } ∧ ∀ k ∉ humNames, d k = r.data k := by
  induction vars generalizing r with
  | nil => exact ⟨r.data, rfl, fun _ _ => rfl⟩
  | cons a l ih =>
    obtain ⟨d, e, h⟩ := put_only r a (hv a List.mem_cons_self) none
    obtain ⟨d', e', h'⟩ := ih (fun v h => hv v (List.mem_cons_of_mem _ h)) (r.put a none)
    refine ⟨d', ?_, ?_⟩
    · rw [List.foldl_cons, e', e]
    · intro k hk
      rw [h' k hk, e]
      exact h k hk

/-- The calculation of humidities changes the humidities only. -/
theorem humidity_only {H : HumFns} {r r' : Report} {vars : List String} (h : r.calculateHumidity H vars = .ok r') :
    ∃ d, r' = { r with data := d } ∧ ∀ k ∉ humNames, d k = r.data k := by
  unfold Report.calculateHumidity at h
  rw [pyAssert_bind] at h
  by_cases hall : (vars.all fun v => decide (v ∈ humNames)) = true
  · rw [if_pos hall] at h
    have hall' : ∀ v ∈ vars, v ∈ humNames := by
      rw [List.all_eq_true] at hall
      exact fun v hv => of_decide_eq_true (hall v hv)
    cases hc : r.clim "SLP" with
    | none => rw [hc] at h; cases h
    | some c =>
      rw [hc] at h
      simp only at h
      cases hp : c.clim with
      | none =>
        rw [hp] at h
        injection h with h
        subst h
        exact wipe_only vars hall' r
      | some p =>
        rw [hp] at h
        simp only at h
        have key : ∀ (r : Report) (v : String) (x : Option Rat), v ∈ humNames → ∀ s : Report,
            (∃ d, s = { r.put v x with data := d } ∧ ∀ k ∉ humNames, d k = (r.put v x).data k) →
            ∃ d, s = { r with data := d } ∧ ∀ k ∉ humNames, d k = r.data k := by
          rintro r v x hv s ⟨d, e, hd⟩
          obtain ⟨d', e', hd'⟩ := put_only r v hv x
          refine ⟨d, by rw [e, e'], fun k hk => ?_⟩
          rw [hd k hk, e']
          exact hd' k hk
        apply key r "VAP" (humCall H.vap (r.getvar "DPT") (r.getvar "AT") p) (by decide)
        generalize r.put "VAP" (humCall H.vap (r.getvar "DPT") (r.getvar "AT") p) = r1 at h ⊢
        apply key r1 "SHU" (humCall H.sh (r1.getvar "DPT") (r1.getvar "AT") p) (by decide)
        generalize r1.put "SHU" (humCall H.sh (r1.getvar "DPT") (r1.getvar "AT") p) = r2 at h ⊢
        apply key r2 "CRH" (humCall H.rh (r2.getvar "DPT") (r2.getvar "AT") p) (by decide)
        generalize r2.put "CRH" (humCall H.rh (r2.getvar "DPT") (r2.getvar "AT") p) = r3 at h ⊢
        apply key r3 "CWB" (humCall H.wb (r3.getvar "DPT") (r3.getvar "AT") p) (by decide)
        generalize r3.put "CWB" (humCall H.wb (r3.getvar "DPT") (r3.getvar "AT") p) = r4 at h ⊢
        apply key r4 "DPD" (humCall (fun td t _ => H.dpd td t) (r4.getvar "DPT") (r4.getvar "AT") p) (by decide)
        generalize r4.put "DPD" (humCall (fun td t _ => H.dpd td t) (r4.getvar "DPT") (r4.getvar "AT") p) = r5 at h ⊢
        split at h
        · injection h with h
          subst h
          exact wipe_only vars hall' r5
        · injection h with h
          subst h
          exact ⟨r5.data, rfl, fun _ _ => rfl⟩
  · rw [if_neg hall] at h; cases h

/-! ## The background -/

theorem lookupOstia_value {f : Arr3} {lat lon : Option Rat} {x : Option Rat} (h : f.lookupOstia lat lon = .ok x) :
    ∃ la lo, lat = some la ∧ lon = some lo ∧ f.getValueOstia la lo = .ok x := by
  unfold Arr3.lookupOstia at h
  cases lat with
  | none => cases h
  | some la =>
    cases lon with
    | none => cases h
    | some lo => exact ⟨la, lo, rfl, rfl, h⟩

theorem backgroundValues_ok {lib : ClimLib Arr3} {bg : Arr3} {r r' : Report} (h : backgroundValues lib bg r = .ok r') :
    r' = { r with ext := r'.ext } ∧ (∀ k ∉ ["OSTIA", "ICE", "BGVAR"], r'.ext k = r.ext k) ∧
      ∃ b, lib.getField "OSTIA" "background" = .ok b.1 ∧ lib.getField "OSTIA" "ice" = .ok b.2 ∧ BackgroundFrom b bg r' := by
  unfold backgroundValues at h
  simp only [bind_ok_iff] at h
  obtain ⟨f, hf, x, hx, g, hg, i, hi, v, hv, h⟩ := h
  injection h with h
  subst h
  refine ⟨rfl, ?_, (f, g), hf, hg, ?_⟩
  · intro k hk
    simp only [List.mem_cons, List.not_mem_nil, or_false, not_or] at hk
    simp [Report.setext, hk]
  · obtain ⟨la, lo, h1, h2, h3⟩ := lookupOstia_value hx
    obtain ⟨la', lo', h1', h2', h3'⟩ := lookupOstia_value hi
    have e1 : r.lat = some la' := h1'
    have e2 : r.lon = some lo' := h2'
    rw [h1] at e1
    rw [h2] at e2
    injection e1 with e1
    injection e2 with e2
    subst e1 e2
    refine ⟨la, lo, x, i, v, h1, h2, h3, h3', ?_, by simp [Report.setext], by simp [Report.setext], by simp [Report.setext]⟩
    exact lookupMds_value (r := ((r.setext "OSTIA" _).setext "ICE" i)) hv

theorem loadBackground_ok {E : ReadEnv F} {lib lib' : ClimLib Arr3} {y m d : Int}
    (h : loadBackground E lib y m d = .ok lib') :
    ∃ b, backgroundOf E y m d = .ok b ∧ lib'.getField "OSTIA" "background" = .ok b.1 ∧
      lib'.getField "OSTIA" "ice" = .ok b.2 ∧ ∀ v s, v ≠ "OSTIA" → lib'.getField v s = lib.getField v s := by
  unfold loadBackground at h
  rw [bind_ok_iff] at h
  obtain ⟨b, hb, h⟩ := h
  injection h with h
  subst h
  refine ⟨b, hb, ?_, ?_, ?_⟩
  · rw [getField_add, getField_add]; simp
  · rw [getField_add]; simp
  · intro v s hv
    rw [getField_add, getField_add]; simp [hv]

/-- What happens to the background when a record is read. -/
structure BackgroundStep (E : ReadEnv F) (bg : Option Arr3) (ym : Int × Int) (rec : Imma) (last last' : Int)
    (lib lib' : ClimLib Arr3) (r : Report) : Prop where
  /-- with a day, the fields are those in the library, which are new ones if the day changed -/
  dated : ∀ f d, bg = some f → 1985 ≤ ym.1 → dayOf rec = some d →
    last' = d ∧ (∃ b, lib'.getField "OSTIA" "background" = .ok b.1 ∧ lib'.getField "OSTIA" "ice" = .ok b.2 ∧
      BackgroundFrom b f r) ∧
    (d = last → lib' = lib) ∧
    (d ≠ last → ∃ b, backgroundOf E ym.1 ym.2 d = .ok b ∧ lib'.getField "OSTIA" "background" = .ok b.1 ∧
      lib'.getField "OSTIA" "ice" = .ok b.2)
  undated : (bg = none ∨ ym.1 < 1985 ∨ dayOf rec = none) → last' = last ∧ lib' = lib ∧ NoBackground r
  others : ∀ v s, v ≠ "OSTIA" → lib'.getField v s = lib.getField v s

theorem addBackground_ok {E : ReadEnv F} {bg : Option Arr3} {y m : Int} {s : ReadState} {r : Report} {rec : Imma}
    {q : Report × Int × ClimLib Arr3} (hd : r.getint "DY" = dayOf rec) (hn : NoBackground r)
    (h : addBackground E bg y m s r = .ok q) :
    q.1 = { r with ext := q.1.ext } ∧ (∀ k ∉ ["OSTIA", "ICE", "BGVAR"], q.1.ext k = r.ext k) ∧
      BackgroundStep E bg (y, m) rec s.lastday q.2.1 s.lib q.2.2 q.1 := by
  unfold addBackground at h
  have undat : q = (r, s.lastday, s.lib) → (bg = none ∨ y < 1985 ∨ dayOf rec = none) →
      q.1 = { r with ext := q.1.ext } ∧ (∀ k ∉ ["OSTIA", "ICE", "BGVAR"], q.1.ext k = r.ext k) ∧
      BackgroundStep E bg (y, m) rec s.lastday q.2.1 s.lib q.2.2 q.1 := by
    rintro rfl hu
    refine ⟨rfl, fun _ _ => rfl, ⟨?_, fun _ => ⟨rfl, rfl, hn⟩, fun _ _ _ => rfl⟩⟩
    intro f d h1 h2 h3
    rcases hu with hu | hu | hu
    · rw [hu] at h1; cases h1
    · simp only at h2; omega
    · rw [hu] at h3; cases h3
  cases hdy : r.getint "DY" with
  | none =>
    rw [hdy] at h
    injection h with h
    exact undat h.symm (Or.inr (Or.inr (hd ▸ hdy)))
  | some d =>
    cases bg with
    | none =>
      rw [hdy] at h
      injection h with h
      exact undat h.symm (Or.inl rfl)
    | some f =>
      rw [hdy] at h
      simp only at h
      by_cases hy : y ≥ 1985
      · rw [if_pos hy] at h
        simp only [bind_ok_iff] at h
        obtain ⟨n, hnew, r', hr', h⟩ := h
        injection h with h
        subst h
        obtain ⟨b1, b2, b, b3, b4, b5⟩ := backgroundValues_ok hr'
        refine ⟨b1, b2, ⟨?_, ?_, ?_⟩⟩
        · intro f' d' h1 _ h3
          injection h1 with h1
          subst h1
          rw [← hd, hdy] at h3
          injection h3 with h3
          subst h3
          unfold newDay at hnew
          by_cases hl : d ≠ s.lastday
          · rw [if_pos hl, bind_ok_iff] at hnew
            obtain ⟨lib, hlib, hnew⟩ := hnew
            injection hnew with hnew
            subst hnew
            obtain ⟨c, c1, c2, c3, -⟩ := loadBackground_ok hlib
            exact ⟨rfl, ⟨b, b3, b4, b5⟩, fun e => absurd e hl, fun _ => ⟨c, c1, c2, c3⟩⟩
          · rw [if_neg hl] at hnew
            injection hnew with hnew
            subst hnew
            push Not at hl
            exact ⟨hl.symm, ⟨b, b3, b4, b5⟩, fun _ => rfl, fun e => absurd hl e⟩
        · rintro (hu | hu | hu)
          · cases hu
          · simp only at hu; omega
          · rw [← hd, hdy] at hu; cases hu
        · intro v t hv
          unfold newDay at hnew
          by_cases hl : d ≠ s.lastday
          · rw [if_pos hl, bind_ok_iff] at hnew
            obtain ⟨lib, hlib, hnew⟩ := hnew
            injection hnew with hnew
            subst hnew
            obtain ⟨c, -, -, -, c4⟩ := loadBackground_ok hlib
            exact c4 v t hv
          · rw [if_neg hl] at hnew
            injection hnew with hnew
            subst hnew
            rfl
      · rw [if_neg hy] at h
        injection h with h
        exact undat h.symm (Or.inr (Or.inl (by omega)))

/-! ## The checks and the flag for the month -/

theorem baseQc_only {elev : Elev F} {p : BaseParams} {r r' : Report} (h : r.performBaseQc elev p = .ok r') :
    r'.id = r.id ∧ r'.uid = r.uid ∧ (∀ v, v ≠ "HR" → r'.data v = r.data v) ∧ r'.clim = r.clim ∧ r'.ext = r.ext := by
  obtain ⟨s, hs, ⟨q, rfl⟩, -⟩ := C34_base_flags_partial elev p r r' h
  unfold Report.doFixMissingHour at hs
  simp only at hs
  split_ifs at hs with hc
  · rw [bind_ok_iff] at hs
    obtain ⟨t, ht, hs⟩ := hs
    rw [bind_ok_iff] at hs
    obtain ⟨d, -, hs⟩ := hs
    injection hs with hs
    subst hs
    unfold Report.setvar raising at ht
    rw [if_pos (by decide)] at ht
    simp only [or_true, if_true] at ht
    generalize Report.computeDt _ = c at ht
    cases c with
    | ok d' =>
      simp only at ht
      injection ht with ht
      subst ht
      refine ⟨rfl, rfl, ?_, rfl, rfl⟩
      intro v hv
      simp [hv]
    | error e => cases ht
  · injection hs with hs
    subst hs
    exact ⟨rfl, rfl, fun _ _ => rfl, rfl, rfl⟩

theorem setQc_eq {r r' : Report} {t f : String} {v : Int} (h : r.setQc t f v = .ok r') :
    r' = { r with qc := fun k => if k = t ++ f then some v else r.qc k } := by
  unfold Report.setQc at h
  rw [pyAssert_bind] at h
  split at h
  · rw [pyAssert_bind] at h
    split at h
    · injection h with h
      exact h.symm
    · cases h
  · cases h

theorem getint_of_data {r s : Report} {v : String} (h : s.data v = r.data v) : s.getint v = r.getint v := by
  unfold Report.getint
  rw [h]

/-- One record that is used becomes one report. -/
theorem useRecord_ok {E : ReadEnv F} {year month : Int} {bg : Option Arr3} {y m : Int} {s s' : ReadState} {rec : Imma}
    (hy : rec.data "YR" = some (some (.num y))) (hm : rec.data "MO" = some (some (.num m)))
    (h : useRecord E year month bg y m s rec = .ok s') :
    ∃ r, s'.deck = s.deck.append r ∧ ReadAs E.hum E.elev E.params s.lib year month (y, m) rec r ∧
      BackgroundStep E bg (y, m) rec s.lastday s'.lastday s.lib s'.lib r := by
  unfold useRecord at h
  simp only [bind_ok_iff] at h
  obtain ⟨r0, h0, r1, h1, b, hb, r, hr, h⟩ := h
  injection h with h
  subst h
  obtain ⟨i1, i2, i3, i4, i5, i6, i7, i8⟩ := reportOf_ok h0
  have e1 := setAT2_ok h1
  have hdy1 : r1.getint "DY" = dayOf rec := by
    rw [e1]
    unfold Report.getint dayOf
    simp only [String.reduceEq, if_false]
    rw [i3 "DY" (by decide)]
    cases numericOf (rec.data "DY") <;> rfl
  have hno1 : NoBackground r1 := by
    intro k hk
    rw [e1]
    apply i8
    simp only [List.mem_cons, List.not_mem_nil, or_false] at hk
    rcases hk with rfl | rfl | rfl <;> decide
  obtain ⟨b1, b2, bs⟩ := addBackground_ok hdy1 hno1 hb
  unfold finishReport at hr
  simp only [bind_ok_iff] at hr
  obtain ⟨r2, h2, r3, h3, r4, h4, r5, h5, r6, h6, h7⟩ := hr
  obtain ⟨c2, n2, o2⟩ := addMdsClims_ok (by decide) h2
  obtain ⟨c3, n3, o3⟩ := addClims_ok (by decide) h3
  obtain ⟨c4, n4, o4⟩ := addStdevClims_ok (by decide) h4
  obtain ⟨d5, e5, k5⟩ := humidity_only h5
  obtain ⟨q1, q2, q3, q4, q5⟩ := baseQc_only h6
  have e7 := setQc_eq h7
  -- the report before the checks
  have data4 : r4.data = r1.data := by rw [c4, c3, c2, b1]
  have ext4 : r4.ext = b.1.ext := by rw [c4, c3, c2]
  have dt4 : r4.dt = r1.dt := by rw [c4, c3, c2, b1]
  have qc4 : r4.qc = r1.qc := by rw [c4, c3, c2, b1]
  have id4 : r4.id = r1.id ∧ r4.uid = r1.uid := by rw [c4, c3, c2, b1]; exact ⟨rfl, rfl⟩
  have data5 : ∀ k ∉ humNames, r5.data k = r1.data k := by
    intro k hk
    rw [e5]
    rw [← data4]
    exact k5 k hk
  have data1 : ∀ v ∈ VARLIST, v ≠ "AT2" → r1.data v = numericOf (rec.data v) := by
    intro v hv hn
    rw [e1]
    simp only [hn, if_false]
    exact i3 v hv
  have clim5 : r5.clim = r4.clim := by rw [e5]
  have ext5 : r5.ext = b.1.ext := by rw [e5]; exact ext4
  have place : ∀ t : Report, t.data = r1.data → SamePlace t r5 := by
    intro t ht
    apply samePlace_of_data
    intro v hv
    rw [ht]
    apply data5
    simp only [List.mem_cons, List.not_mem_nil, or_false] at hv
    rcases hv with rfl | rfl | rfl | rfl <;> decide
  have lib : ∀ v t, v ≠ "OSTIA" → b.2.2.getField v t = s.lib.getField v t := bs.others
  have hprep : Prepared E.hum s.lib rec r5 := by
    refine ⟨?_, ?_, ?_, ?_, ?_, ?_, ?_, ⟨?_, ?_, ?_, ?_⟩, ?_, ?_⟩
    · rw [e5]; simp only; rw [id4.1, e1]; exact i1
    · rw [e5]; simp only; rw [id4.2, e1]; exact i2
    · intro v hv hn
      rw [data5 v (by
        simp only [humNames, List.mem_cons, List.not_mem_nil, or_false, not_or] at hn ⊢
        tauto)]
      exact data1 v hv (by rintro rfl; simp at hn)
    · rw [data5 "AT2" (by decide), e1]
      simp only [if_true]
      exact i3 "AT" (by decide)
    · -- humidity
      have h35 := C35_humidity _ _ _ _ h5
      have ev : ∀ v ∈ ["DPT", "AT"], r4.getvar v = r5.getvar v := by
        intro v hv
        have h1 : v ∈ VARLIST ∧ v ∉ intVars ∧ v ∉ humNames := by
          simp only [List.mem_cons, List.not_mem_nil, or_false] at hv
          rcases hv with rfl | rfl <;> decide
        rw [getvar_of_mem h1.1 h1.2.1, getvar_of_mem h1.1 h1.2.1, data4, data5 v h1.2.2]
      have en : r4.getnorm "SLP" = r5.getnorm "SLP" := by
        unfold Report.getnorm
        rw [clim5]
      rw [ev "DPT" (by decide), ev "AT" (by decide), en] at h35
      exact h35
    · -- the time
      have hc : r0.dt = r1.dt := by rw [e1]
      unfold Report.Consistent at i4 ⊢
      rw [getvar_HR] at i4 ⊢
      have hg : ∀ v ∈ ["YR", "MO", "DY", "HR"], r5.data v = r0.data v := by
        intro v hv
        have hv' : v ∉ humNames ∧ v ≠ "AT2" := by
          simp only [List.mem_cons, List.not_mem_nil, or_false] at hv
          rcases hv with rfl | rfl | rfl | rfl <;> decide
        rw [data5 v hv'.1, e1]
        simp [hv'.2]
      rw [getint_of_data (hg "YR" (by decide)), getint_of_data (hg "MO" (by decide)),
        getint_of_data (hg "DY" (by decide)), hg "HR" (by decide), ← i4, hc, ← dt4, e5]
    · intro k
      rw [e5]; simp only; rw [qc4, e1]; exact i5 k
    · intro v hv
      obtain ⟨f, x, hf, hx, hc⟩ := n2 v hv
      refine ⟨f, x, ?_, (place b.1 (by rw [b1])).valueMds hx, ?_⟩
      · rw [← lib v _ (by
          simp only [List.mem_cons, List.not_mem_nil, or_false] at hv
          rcases hv with rfl | rfl <;> decide)]
        exact hf
      · rw [clim5, o4 v (by
          simp only [List.mem_cons, List.not_mem_nil, or_false] at hv
          rcases hv with rfl | rfl <;> decide), o3 v (by
          simp only [List.mem_cons, List.not_mem_nil, or_false] at hv
          rcases hv with rfl | rfl <;> decide)]
        exact hc
    · intro v hv
      obtain ⟨f, x, hf, hx, hc⟩ := n3 v hv
      refine ⟨f, x, ?_, (place r2 (by rw [c2, b1])).valueAt hx, ?_⟩
      · rw [← lib v _ (by
          simp only [List.mem_cons, List.not_mem_nil, or_false] at hv
          rcases hv with rfl | rfl | rfl | rfl | rfl <;> decide)]
        exact hf
      · rw [clim5, o4 v (by
          simp only [List.mem_cons, List.not_mem_nil, or_false] at hv
          rcases hv with rfl | rfl | rfl | rfl | rfl <;> decide)]
        exact hc
    · intro v hv
      obtain ⟨f, g, x, t, hf, hg, hx, ht, hc⟩ := n4 v hv
      have hne : v ≠ "OSTIA" := by
        simp only [List.mem_cons, List.not_mem_nil, or_false] at hv
        rcases hv with rfl | rfl | rfl <;> decide
      refine ⟨f, g, x, t, ?_, ?_, (place r3 (by rw [c3, c2, b1])).valueAt hx,
        (place r3 (by rw [c3, c2, b1])).valueAt ht, ?_⟩
      · rw [← lib v _ hne]; exact hf
      · rw [← lib v _ hne]; exact hg
      · rw [clim5]; exact hc
    · intro v hv
      simp only [List.mem_cons, List.not_mem_nil, or_false, not_or] at hv
      rw [clim5, o4 v (by simp [hv]), o3 v (by simp [hv]), o2 v (by simp [hv]), b1, e1]
      exact i6 v
    · obtain ⟨x, hx, ex⟩ := i7
      refine ⟨x, hx, ?_⟩
      rw [ext5, b2 "dsi" (by decide), e1]
      exact ex
    · intro k hk
      simp only [List.mem_cons, List.not_mem_nil, or_false, not_or] at hk
      rw [ext5, b2 k (by simp [hk]), e1]
      exact i8 k (by simp [hk])
  have hym : reportMonthMatch year month r6 = if (y, m) = (year, month) then 1 else 0 := by
    unfold reportMonthMatch
    have g : ∀ v ∈ ["YR", "MO"], r6.getint v = (numericOf (rec.data v)).map pyInt := by
      intro v hv
      have hv' : v ∉ humNames ∧ v ≠ "AT2" ∧ v ≠ "HR" ∧ v ∈ VARLIST := by
        simp only [List.mem_cons, List.not_mem_nil, or_false] at hv
        rcases hv with rfl | rfl <;> decide
      unfold Report.getint
      rw [q3 v hv'.2.2.1, data5 v hv'.1, data1 v hv'.2.2.2 hv'.2.1]
      cases numericOf (rec.data v) <;> rfl
    have pi : ∀ n : Int, pyInt (n : Rat) = n := by
      intro n
      unfold pyInt
      simp
    rw [g "YR" (by decide), g "MO" (by decide), hy, hm]
    simp only [numericOf, Option.map_some, pi]
    unfold monthMatch
    by_cases hc : year = y ∧ month = m
    · rw [if_pos (by simpa using hc), if_pos (by rw [hc.1, hc.2])]
    · rw [if_neg (by simpa using hc), if_neg (by
        intro he
        injection he with e1 e2
        exact hc ⟨e1.symm, e2.symm⟩)]
  refine ⟨r, rfl, ⟨r5, r6, hprep, h6, ?_⟩, ?_⟩
  · rw [e7, hym]
    rfl
  · -- the background values are still there
    have hpl : SamePlace b.1 r := by
      have := place b.1 (by rw [b1])
      apply samePlace_of_data
      intro v hv
      rw [e7]
      simp only
      have hv' : v ∉ humNames ∧ v ≠ "HR" := by
        simp only [List.mem_cons, List.not_mem_nil, or_false] at hv
        rcases hv with rfl | rfl | rfl | rfl <;> decide
      rw [q3 v hv'.2, data5 v hv'.1, b1]
    have hext : r.ext = b.1.ext := by rw [e7]; simp only; rw [q5, ext5]
    refine ⟨?_, ?_, bs.others⟩
    · intro f d hf hyr hd
      obtain ⟨j1, ⟨c, j2, j3, j4⟩, j5⟩ := bs.dated f d hf hyr hd
      refine ⟨j1, ⟨c, j2, j3, ?_⟩, j5⟩
      obtain ⟨la, lo, x, i, v, l1, l2, l3, l4, l5, l6, l7, l8⟩ := j4
      refine ⟨la, lo, x, i, v, by rw [hpl.1]; exact l1, by rw [hpl.2.1]; exact l2, l3, l4, hpl.valueMds l5, ?_, ?_, ?_⟩
      · rw [hext]; exact l6
      · rw [hext]; exact l7
      · rw [hext]; exact l8
    · intro hu
      obtain ⟨j1, j2, j3⟩ := bs.undated hu
      exact ⟨j1, j2, fun k hk => by rw [hext]; exact j3 k hk⟩

end MarineQC
