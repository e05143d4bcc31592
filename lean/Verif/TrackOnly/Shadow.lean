import Verif.TrackOnly.Spec
import Verif.Report.BaseQc

/-!
# The part of a report that the tracking of drifters needs

`shadow r` is `r` without the rest.  What the programs compute from a report for its flags of position and sea-surface
temperature, they compute from its shadow.
-/

namespace MarineQC

open Spec

open Classical in
/-- The report without what is not needed for tracking. -/
noncomputable def shadow (r : Report) : Report :=
  { r with
    data := fun k => if k ∈ mainOnly then none else r.data k
    clim := fun k => if k = "SST" then r.clim k else none
    qc := fun k => if ∃ f, k = "POS" ++ f ∨ k = "SST" ++ f then r.qc k else none }

theorem same_iff (r s : Report) : SameForTracking r s ↔ shadow r = shadow s := by
  constructor
  · intro h
    unfold shadow
    simp only [Report.mk.injEq]
    refine ⟨h.id.symm, h.uid.symm, ?_, ?_, ?_, h.ext.symm, h.dt.symm⟩
    · funext k
      split_ifs with c
      · rfl
      · exact (h.data k c).symm
    · funext k
      split_ifs with c
      · obtain ⟨f, c | c⟩ := c
        · rw [c]; exact (h.pos f).symm
        · rw [c]; exact (h.sst f).symm
      · rfl
    · funext k
      split_ifs with c
      · rw [c]; exact h.clim.symm
      · rfl
  · intro h
    unfold shadow at h
    simp only [Report.mk.injEq] at h
    obtain ⟨h1, h2, h3, h4, h5, h6, h7⟩ := h
    refine ⟨h1.symm, h2.symm, h7.symm, h6.symm, ?_, ?_, ?_, ?_⟩
    · intro k hk
      have := congrFun h3 k
      simpa [hk] using this.symm
    · have := congrFun h5 "SST"
      simpa using this.symm
    · intro f
      have := congrFun h4 ("POS" ++ f)
      have e : ∃ f', "POS" ++ f = "POS" ++ f' ∨ "POS" ++ f = "SST" ++ f' := ⟨f, .inl rfl⟩
      simpa only [if_pos e] using this.symm
    · intro f
      have := congrFun h4 ("SST" ++ f)
      have e : ∃ f', "SST" ++ f = "POS" ++ f' ∨ "SST" ++ f = "SST" ++ f' := ⟨f, .inr rfl⟩
      simpa only [if_pos e] using this.symm

/-! ## What is read from a report -/

theorem shadow_id (r : Report) : (shadow r).id = r.id := rfl
theorem shadow_uid (r : Report) : (shadow r).uid = r.uid := rfl
theorem shadow_dt (r : Report) : (shadow r).dt = r.dt := rfl
theorem shadow_getext (r : Report) (k : String) : (shadow r).getext k = r.getext k := rfl

theorem shadow_data (r : Report) {k : String} (h : k ∉ mainOnly) : (shadow r).data k = r.data k := if_neg h

theorem shadow_getvar (r : Report) {k : String} (h : k ∉ mainOnly) : (shadow r).getvar k = r.getvar k := by
  unfold Report.getvar
  rw [shadow_data r h]
  rfl

theorem shadow_getint (r : Report) {k : String} (h : k ∉ mainOnly) : (shadow r).getint k = r.getint k := by
  unfold Report.getint
  rw [shadow_data r h]

theorem shadow_lat (r : Report) : (shadow r).lat = r.lat := shadow_getvar r (by decide)

theorem shadow_lon (r : Report) : (shadow r).lon = r.lon := by
  unfold Report.lon
  rw [shadow_getvar r (by decide)]

theorem shadow_getnorm (r : Report) : (shadow r).getnorm "SST" = r.getnorm "SST" := rfl

theorem shadow_getanom (r : Report) : (shadow r).getanom "SST" = r.getanom "SST" := by
  unfold Report.getanom
  rw [shadow_getvar r (by decide)]
  rfl

/-- The flags that are kept. -/
def KeptType (t : String) : Prop := t = "POS" ∨ t = "SST"

theorem shadow_qc (r : Report) {t : String} (h : KeptType t) (f : String) : (shadow r).qc (t ++ f) = r.qc (t ++ f) := by
  unfold shadow
  rcases h with rfl | rfl
  · exact if_pos ⟨f, .inl rfl⟩
  · exact if_pos ⟨f, .inr rfl⟩

theorem shadow_getQc (r : Report) {t : String} (h : KeptType t) (f : String) : (shadow r).getQc t f = r.getQc t f := by
  unfold Report.getQc
  rw [shadow_qc r h f]

theorem shadow_timeTo (a b : Report) : (shadow b).timeTo (shadow a) = b.timeTo a := by
  unfold Report.timeTo
  simp only [shadow_getvar _ (show "HR" ∉ mainOnly by decide), shadow_getint _ (show "YR" ∉ mainOnly by decide),
    shadow_getint _ (show "MO" ∉ mainOnly by decide), shadow_getint _ (show "DY" ∉ mainOnly by decide)]

theorem shadow_sub (G : Geo) (a b : Report) : (shadow a).sub G (shadow b) = a.sub G b := by
  unfold Report.sub
  simp only [shadow_lat, shadow_lon, shadow_timeTo]

/-! ## What is stored in a report -/

theorem shadow_setext (r : Report) (k : String) (x : Option Rat) : shadow (r.setext k x) = (shadow r).setext k x := rfl

theorem shadow_addClim (r : Report) (x s : Option Rat) : shadow (r.addClim "SST" x s) = (shadow r).addClim "SST" x s := by
  unfold shadow Report.addClim
  simp only [Report.mk.injEq, true_and, and_true]
  funext k
  split_ifs <;> rfl

theorem shadow_addClim_other (r : Report) {v : String} (h : v ≠ "SST") (x s : Option Rat) :
    shadow (r.addClim v x s) = shadow r := by
  unfold shadow Report.addClim
  simp only [Report.mk.injEq, true_and, and_true]
  funext k
  split_ifs with c c'
  · exact absurd (c'.symm.trans c) h
  · rfl
  · rfl

theorem kept_append {t t' f f' : String} (ht : KeptType t) (h' : t' ∈ ["AT", "AT2", "DPT", "SLP", "W", "D"]) :
    t ++ f ≠ t' ++ f' := by
  intro e
  have := congrArg String.toList e
  simp only [String.toList_append] at this
  simp only [List.mem_cons, List.not_mem_nil, or_false] at h'
  rcases ht with rfl | rfl <;> rcases h' with rfl | rfl | rfl | rfl | rfl | rfl <;> simp at this

theorem setQc_shadow (r : Report) {t : String} (h : KeptType t) (f : String) (v : Int) :
    (shadow r).setQc t f v = (r.setQc t f v).map shadow := by
  unfold Report.setQc
  simp only [pyAssert_bind]
  split_ifs
  · show Except.ok _ = Except.ok _
    congr 1
    unfold shadow
    simp only [Report.mk.injEq, true_and, and_true]
    funext k
    split_ifs with c1 c2 c3
    · rfl
    · exact absurd ⟨f, by rcases h with rfl | rfl <;> [exact .inl c1; exact .inr c1]⟩ c2
    · rfl
    · rfl
  · rfl
  · rfl

theorem setQc_drop {r r' : Report} {t : String} (ht : t ∈ ["AT", "AT2", "DPT", "SLP", "W", "D"]) {f : String} {v : Int}
    (h : r.setQc t f v = .ok r') : shadow r' = shadow r ∧ r'.clim = r.clim := by
  unfold Report.setQc at h
  simp only [pyAssert_bind] at h
  split_ifs at h
  cases h
  refine ⟨?_, rfl⟩
  unfold shadow
  simp only [Report.mk.injEq, true_and, and_true]
  funext k
  split_ifs with c1 c2
  · obtain ⟨g, c | c⟩ := c1
    · exact absurd (c.symm.trans c2) (kept_append (.inl rfl) ht)
    · exact absurd (c.symm.trans c2) (kept_append (.inr rfl) ht)
  · rfl
  · rfl

/-! ## Outcomes -/

theorem exMap_bind {α β γ : Type} (x : Except Err α) (f : α → Except Err β) (g : β → γ) :
    (x >>= f).map g = x >>= fun a => (f a).map g := by
  cases x <;> rfl

theorem exBind_map {α β γ : Type} (x : Except Err α) (f : α → β) (g : β → Except Err γ) : (x.map f >>= g) = x >>= fun a => g (f a) := by
  cases x <;> rfl

theorem exMap_ok {α β : Type} (a : α) (g : α → β) : (Except.ok a : Except Err α).map g = .ok (g a) := rfl

theorem exMap_error {α β : Type} (e : Err) (g : α → β) : (Except.error e : Except Err α).map g = .error e := rfl

theorem exMap_ok_iff {α β : Type} {x : Except Err α} {g : α → β} {b : β} : x.map g = .ok b ↔ ∃ a, x = .ok a ∧ g a = b := by
  cases x <;> simp [Except.map]

theorem exMap_id {α : Type} (x : Except Err α) : x.map (fun a => a) = x := by cases x <;> rfl

theorem pyIndex_map {α β : Type} (f : α → β) (l : List α) (i : Int) : pyIndex (l.map f) i = (pyIndex l i).map f := by
  unfold pyIndex
  simp only [List.length_map, List.getElem?_map]
  generalize (if i < 0 then i + (l.length : Int) else i) = j
  split_ifs
  · rfl
  · cases l[j.toNat]? <;> rfl

theorem mapM_then_map {α β γ : Type} (f : α → Except Err β) (g : β → γ) (l : List α) :
    (l.mapM f).map (List.map g) = l.mapM fun a => (f a).map g := by
  induction l with
  | nil => rfl
  | cons a l ih =>
    simp only [List.mapM_cons, exMap_bind, exBind_map, ← ih]
    rfl

theorem map_then_mapM {α β γ : Type} (f : β → Except Err γ) (g : α → β) (l : List α) :
    (l.map g).mapM f = l.mapM fun a => f (g a) := by
  induction l with
  | nil => rfl
  | cons a l ih => simp only [List.map_cons, List.mapM_cons, ih]

end MarineQC
