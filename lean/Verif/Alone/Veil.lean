import Verif.TrackOnly.BaseQc

/-!
# Reports without their background values
-/

namespace MarineQC

open Spec

variable {F : Type} [LinearOrder F] [Zero F]

/-- The names of the background values. -/
def backNames : List String := ["OSTIA", "ICE", "BGVAR"]

/-- The report without its background values. -/
def veil (r : Report) : Report := { r with ext := fun k => if k ∈ backNames then none else r.ext k }

theorem veil_id (r : Report) : (veil r).id = r.id := by cases r; rfl

theorem veil_getvar (r : Report) {k : String} (h : k ∉ backNames) : (veil r).getvar k = r.getvar k := by
  unfold Report.getvar veil
  simp only [if_neg h]

theorem veil_getint (r : Report) (k : String) : (veil r).getint k = r.getint k := by cases r; rfl

theorem veil_lat (r : Report) : (veil r).lat = r.lat := veil_getvar r (by decide)

theorem veil_lon (r : Report) : (veil r).lon = r.lon := by
  unfold Report.lon
  rw [veil_getvar r (by decide)]

theorem veil_getQc (r : Report) (t f : String) : (veil r).getQc t f = r.getQc t f := rfl

theorem veil_getnorm (r : Report) (t : String) : (veil r).getnorm t = r.getnorm t := rfl

theorem veil_getstdev (r : Report) (t : String) : (veil r).getstdev t = r.getstdev t := rfl

theorem veil_timeTo (a b : Report) : (veil b).timeTo (veil a) = b.timeTo a := by
  unfold Report.timeTo
  simp only [veil_getvar _ (show "HR" ∉ backNames by decide), veil_getint]

theorem veil_sub (G : Geo) (a b : Report) : (veil a).sub G (veil b) = a.sub G b := by
  unfold Report.sub
  simp only [veil_lat, veil_lon, veil_timeTo]

theorem veil_setext (r : Report) {k : String} (h : k ∉ backNames) (x : Option Rat) : veil (r.setext k x) = (veil r).setext k x := by
  unfold veil Report.setext
  simp only [Report.mk.injEq, true_and, and_true]
  funext j
  by_cases hj : j = k
  · subst hj
    simp [h]
  · simp [hj]

theorem veil_setext_back (r : Report) {k : String} (h : k ∈ backNames) (x : Option Rat) : veil (r.setext k x) = veil r := by
  unfold veil Report.setext
  simp only [Report.mk.injEq, true_and, and_true]
  funext j
  by_cases hj : j ∈ backNames
  · simp [hj]
  · simp only [if_neg hj]
    rw [if_neg]
    rintro rfl
    exact hj h

theorem setQc_veil (r : Report) (t f : String) (v : Int) : (veil r).setQc t f v = (r.setQc t f v).map veil := by
  unfold Report.setQc
  simp only [pyAssert_bind]
  split_ifs <;> rfl

/-! ## Steps that do not look at the background values -/

/-- The step does not look at the background values. -/
def Blind (f : Report → Except Err Report) : Prop := ∀ r, f (veil r) = (f r).map veil

theorem blind_then {f g : Report → Except Err Report} (hf : Blind f) (hg : Blind g) : Blind fun r => f r >>= g := by
  intro r
  show f (veil r) >>= g = Except.map veil (f r >>= g)
  rw [hf r, exBind_map, exMap_bind]
  congr 1
  funext a
  exact hg a

theorem blind_set (t f : String) {v : Report → Except Err Int} (hv : ∀ r, v (veil r) = v r) :
    Blind fun r => v r >>= r.setQc t f := by
  intro r
  show v (veil r) >>= _ = _
  rw [hv, exMap_bind]
  congr 1
  funext x
  exact setQc_veil r t f x

theorem blind_setThen (t f : String) {v : Report → Except Err Int} (hv : ∀ r, v (veil r) = v r) {g : Report → Except Err Report}
    (hg : Blind g) : Blind fun r => v r >>= fun x => r.setQc t f x >>= g := by
  intro r
  show (v (veil r) >>= fun x => (veil r).setQc t f x >>= g) = Except.map veil (v r >>= fun x => r.setQc t f x >>= g)
  rw [hv, exMap_bind]
  congr 1
  funext x
  rw [setQc_veil, exBind_map, exMap_bind]
  congr 1
  funext a
  exact hg a

theorem blind_put (t f : String) {v : Report → Int} (hv : ∀ r, v (veil r) = v r) : Blind fun r => r.setQc t f (v r) := by
  intro r
  show (veil r).setQc t f (v (veil r)) = _
  rw [hv]
  exact setQc_veil r t f _

theorem blind_if {c : Report → Prop} [∀ r, Decidable (c r)] (hc : ∀ r, c (veil r) ↔ c r) {f g : Report → Except Err Report}
    (hf : Blind f) (hg : Blind g) : Blind fun r => if c r then f r else g r := by
  intro r
  show (if c (veil r) then f (veil r) else g (veil r)) = Except.map veil (if c r then f r else g r)
  by_cases h : c r
  · rw [if_pos h, if_pos ((hc r).mpr h)]
    exact hf r
  · rw [if_neg h, if_neg (fun x => h ((hc r).mp x))]
    exact hg r

theorem blind_ok : Blind fun r => .ok r := fun _ => rfl

theorem computeDt_veil (r : Report) : (veil r).computeDt = r.computeDt := by
  unfold Report.computeDt
  simp only [veil_getvar _ (show "HR" ∉ backNames by decide), veil_getint]

theorem hourZero_veil (r : Report) : hourZero (veil r) = veil (hourZero r) := rfl

theorem fixHour_blind : Blind Report.doFixMissingHour := by
  refine blind_if (c := fun r => r.getint "DCK" = some 701 ∧ (match r.getint "YR" with
    | some y => decide (y < 1860)
    | none => true) = true ∧ r.getvar "HR" = none) (fun r => ?_) ?_ blind_ok
  · rw [veil_getvar _ (by decide), veil_getint, veil_getint]
  · intro r
    show (do
      let r ← raising ((veil r).setvar "HR" (some 0))
      let d ← r.computeDt
      return { r with dt := d } : Except Err Report) = Except.map veil (do
      let r ← raising (r.setvar "HR" (some 0))
      let d ← r.computeDt
      return { r with dt := d } : Except Err Report)
    rw [setHour_eq, setHour_eq, hourZero_veil, computeDt_veil]
    cases (hourZero r).computeDt <;> rfl

theorem buoy_blind : Blind Report.isBuoy := by
  have e : Report.isBuoy = fun r => (if r.getint "PT" ∈ [some 6, some 7] then r.setQc "POS" "isbuoy" 1 else r.setQc "POS" "isbuoy" 0) >>=
      fun r => if r.getint "PT" = some 7 then r.setQc "POS" "isdrifter" 1 else r.setQc "POS" "isdrifter" 0 := by
    funext r
    unfold Report.isBuoy
    simp only
    split_ifs <;> rfl
  rw [e]
  exact blind_then (blind_if (c := fun r => r.getint "PT" ∈ [some 6, some 7]) (fun r => by rw [veil_getint])
    (blind_put _ _ fun _ => rfl) (blind_put _ _ fun _ => rfl))
    (blind_if (c := fun r => r.getint "PT" = some 7) (fun r => by rw [veil_getint]) (blind_put _ _ fun _ => rfl) (blind_put _ _ fun _ => rfl))

theorem ship_blind : Blind Report.isShip :=
  blind_if (c := fun r => r.getint "PT" ∈ [some 0, some 1, some 2, some 3, some 4, some 5, some 10, some 11, some 12, some 17])
    (fun r => by rw [veil_getint]) (blind_put _ _ fun _ => rfl) (blind_put _ _ fun _ => rfl)

theorem deck780_blind : Blind Report.isDeck780 :=
  blind_if (c := fun r => r.getint "DCK" = some 780) (fun r => by rw [veil_getint]) (blind_put _ _ fun _ => rfl) (blind_put _ _ fun _ => rfl)

theorem position_blind : Blind Report.doPositionCheck :=
  blind_set _ _ fun r => by rw [veil_getvar _ (by decide), veil_getvar _ (by decide)]

theorem date_blind : Blind Report.doDateCheck := blind_set _ _ fun _ => rfl

theorem time_blind : Blind Report.doTimeCheck := blind_put _ _ fun r => by rw [veil_getvar _ (by decide)]

theorem blacklist_blind : Blind Report.doBlacklist :=
  blind_set _ _ fun r => by rw [veil_lat, veil_lon]; rfl

theorem day_blind (elev : Elev F) (t : Rat) : Blind (Report.doDayCheck elev t) := by
  refine blind_if (c := fun r => r.getQc "POS" "pos" = 0 ∧ r.getQc "POS" "date" = 0 ∧ r.getQc "POS" "time" = 0) (fun _ => Iff.rfl) ?_
    (blind_put _ _ fun _ => rfl)
  intro r
  simp only [veil_lon, veil_lat, veil_getvar _ (show "HR" ∉ backNames by decide), veil_getint]
  cases r.lon with
  | none => rfl
  | some lon =>
    simp only [exMap_bind]
    congr 1
    funext v
    exact setQc_veil ..

theorem humidityBlack_blind : Blind Report.humidityBlacklist :=
  blind_then (blind_put _ _ fun _ => rfl) <|
    blind_if (c := fun r => r.getint "PT" ∈
      [some 0, some 1, some 2, some 3, some 4, some 5, some 6, some 8, some 9, some 10, some 15]) (fun r => by rw [veil_getint])
      (blind_put _ _ fun _ => rfl) (blind_put _ _ fun _ => rfl)

theorem matExcluded_veil (r : Report) : (veil r).matExcluded = r.matExcluded := by
  unfold Report.matExcluded
  simp only [veil_lon, veil_lat, veil_getvar _ (show "YR" ∉ backNames by decide), veil_getint]

theorem matBlack_blind : Blind Report.matBlacklist := by
  have e : Report.matBlacklist = fun r => r.setQc "AT" "mat_blacklist" 0 >>= fun r =>
      (if r.getint "PT" = some 5 ∧ r.getint "DCK" = some 780 then r.setQc "AT" "mat_blacklist" 1 else .ok r) >>=
      fun r => if r.matExcluded then r.setQc "AT" "mat_blacklist" 1 else .ok r := by
    funext r
    unfold Report.matBlacklist
    congr 1
    funext r
    simp only
    split_ifs <;> rfl
  rw [e]
  exact blind_then (blind_put _ _ fun _ => rfl) <| blind_then
    (blind_if (c := fun r => r.getint "PT" = some 5 ∧ r.getint "DCK" = some 780) (fun r => by rw [veil_getint, veil_getint])
      (blind_put _ _ fun _ => rfl) blind_ok)
    (blind_if (c := fun r => r.matExcluded = true) (fun r => by rw [matExcluded_veil]) (blind_put _ _ fun _ => rfl) blind_ok)

theorem windBlack_blind : Blind Report.windBlacklist :=
  blind_then (blind_put _ _ fun _ => rfl) <|
    blind_if (c := fun r => r.getint "DCK" ∈ [some 708, some 780]) (fun r => by rw [veil_getint]) (blind_put _ _ fun _ => rfl) blind_ok

theorem baseSst_blind (p : BaseParams) : Blind (Report.doBaseSstQc p) := by
  have e : ∀ r, (veil r).getvar "SST" = r.getvar "SST" := fun r => veil_getvar r (by decide)
  exact blind_then (blind_put _ _ fun r => by rw [e]) <| blind_setThen _ _ (fun r => by rw [e]) <|
    blind_then (blind_put _ _ fun r => by rw [e, veil_getnorm]) <| blind_then (blind_put _ _ fun r => by rw [veil_getnorm]) <|
    blind_set _ _ fun r => by rw [e]

theorem baseMat_blind (p : BaseParams) : Blind (Report.doBaseMatQc p) := by
  have e : ∀ r, (veil r).getvar "AT" = r.getvar "AT" := fun r => veil_getvar r (by decide)
  exact blind_then (blind_put _ _ fun r => by rw [e]) <|
    blind_then (blind_put _ _ fun r => by rw [e, veil_getnorm]) <| blind_then (blind_put _ _ fun r => by rw [veil_getnorm]) <|
    blind_set _ _ fun r => by rw [e]

theorem baseDpt_blind (p : BaseParams) : Blind (Report.doBaseDptQc p) := by
  have e : ∀ r, (veil r).getvar "DPT" = r.getvar "DPT" := fun r => veil_getvar r (by decide)
  have e' : ∀ r, (veil r).getvar "AT2" = r.getvar "AT2" := fun r => veil_getvar r (by decide)
  exact blind_setThen _ _ (fun r => by rw [e, veil_getnorm, veil_getstdev]) <|
    blind_then (blind_put _ _ fun r => by rw [e]) <| blind_then (blind_put _ _ fun r => by rw [veil_getnorm]) <|
    blind_put _ _ fun r => by rw [e, e']

theorem baseSlp_blind (p : BaseParams) : Blind (Report.doBaseSlpQc p) := by
  have e : ∀ r, (veil r).getvar "SLP" = r.getvar "SLP" := fun r => veil_getvar r (by decide)
  exact blind_then (blind_put _ _ fun r => by rw [e]) <|
    blind_setThen _ _ (fun r => by rw [e, veil_getnorm, veil_getstdev]) <| blind_put _ _ fun r => by rw [veil_getnorm]

theorem baseWind_blind (p : BaseParams) : Blind (Report.doBaseWindQc p) := by
  have e : ∀ r, (veil r).getvar "W" = r.getvar "W" := fun r => veil_getvar r (by decide)
  have e' : ∀ r, (veil r).getvar "D" = r.getvar "D" := fun r => veil_getvar r (by decide)
  exact blind_then (blind_put _ _ fun r => by rw [e]) <| blind_setThen _ _ (fun r => by rw [e]) <|
    blind_put _ _ fun r => by rw [e, e']

theorem dptHardStep_blind {t : String} (ht : t ∉ backNames) (l : Lim) : Blind fun r => r.dptHardStep (t, l) := by
  intro r
  unfold Report.dptHardStep
  simp only [veil_getvar r ht, exMap_bind]
  congr 1
  funext v
  split_ifs
  · exact setQc_veil ..
  · rfl

theorem dptHard_blind (p : BaseParams) : Blind (Report.dptHard p) :=
  blind_then (blind_put _ _ fun _ => rfl) <| blind_then (dptHardStep_blind (t := "AT") (by decide) p.atHard) <|
    blind_then (dptHardStep_blind (t := "DPT") (by decide) p.dptHard) <|
    blind_then (dptHardStep_blind (t := "SHU") (by decide) p.shuHard) (dptHardStep_blind (t := "RH") (by decide) p.rhHard)

theorem kateMat_blind (p : BaseParams) : Blind (Report.doKateMatQc p) := by
  have e : ∀ r, (veil r).getvar "AT" = r.getvar "AT" := fun r => veil_getvar r (by decide)
  have e' : ∀ r, (veil r).getvar "AT2" = r.getvar "AT2" := fun r => veil_getvar r (by decide)
  exact blind_setThen _ _ (fun r => by rw [e', veil_getnorm, veil_getstdev]) <|
    blind_then (blind_put _ _ fun r => by rw [e']) <| blind_then (blind_put _ _ fun r => by rw [veil_getnorm]) <|
    blind_set _ _ fun r => by rw [e]

theorem baseQc_blind (elev : Elev F) (p : BaseParams) : Blind (Report.performBaseQc elev p) :=
  blind_then fixHour_blind <| blind_then buoy_blind <| blind_then ship_blind <| blind_then deck780_blind <|
    blind_then position_blind <| blind_then date_blind <| blind_then time_blind <| blind_then blacklist_blind <|
    blind_then (day_blind elev p.timeSince) <| blind_then humidityBlack_blind <| blind_then matBlack_blind <|
    blind_then windBlack_blind <| blind_then (baseSst_blind p) <| blind_then (baseMat_blind p) <|
    blind_then (baseDpt_blind p) <| blind_then (baseSlp_blind p) <| blind_then (baseWind_blind p) <|
    blind_then (dptHard_blind p) (kateMat_blind p)

/-! ## Climatology and humidity -/

theorem addMdsClims_blind (lib : ClimLib Arr3) (vs : List String) : Blind (addMdsClims lib vs) := by
  induction vs with
  | nil => exact blind_ok
  | cons v vs ih =>
    intro r
    simp only [addMdsClims, veil_lat, veil_lon, veil_getint, exMap_bind]
    congr 1
    funext f
    congr 1
    funext x
    exact ih (r.addClim v x none)

theorem addClims_blind (lib : ClimLib Arr3) (vs : List String) : Blind (addClims lib vs) := by
  induction vs with
  | nil => exact blind_ok
  | cons v vs ih =>
    intro r
    simp only [addClims, veil_lat, veil_lon, veil_getint, exMap_bind]
    congr 1
    funext f
    congr 1
    funext x
    exact ih (r.addClim v x none)

theorem addStdevClims_blind (lib : ClimLib Arr3) (vs : List String) : Blind (addStdevClims lib vs) := by
  induction vs with
  | nil => exact blind_ok
  | cons v vs ih =>
    intro r
    simp only [addStdevClims, veil_lat, veil_lon, veil_getint, exMap_bind]
    congr 1
    funext f
    congr 1
    funext x
    congr 1
    funext g
    congr 1
    funext y
    exact ih (r.addClim v x y)

theorem put_veil (r : Report) (v : String) (x : Option Rat) : (veil r).put v x = veil (r.put v x) := by
  unfold Report.put Report.setvar
  split_ifs
  · have e : Report.computeDt { veil r with data := fun k => if k = v then x else (veil r).data k } =
        Report.computeDt { r with data := fun k => if k = v then x else r.data k } :=
      computeDt_veil { r with data := fun k => if k = v then x else r.data k }
    simp only
    rw [e]
    cases Report.computeDt { r with data := fun k => if k = v then x else r.data k } <;> rfl
  · rfl
  · rfl

theorem putAll_veil (vars : List String) (r : Report) :
    vars.foldl (fun r v => r.put v none) (veil r) = veil (vars.foldl (fun r v => r.put v none) r) := by
  induction vars generalizing r with
  | nil => rfl
  | cons v vars ih =>
    rw [List.foldl_cons, List.foldl_cons, put_veil, ih]

theorem humidity_blind (H : HumFns) (vars : List String) : Blind fun r => r.calculateHumidity H vars := by
  intro r
  unfold Report.calculateHumidity
  simp only [pyAssert_bind]
  have e : (veil r).clim = r.clim := rfl
  rw [e]
  split_ifs
  all_goals first
  | rfl
  | cases r.clim "SLP" with
    | none => rfl
    | some c =>
      simp only
      cases c.clim with
      | none =>
        simp only [except_pure, putAll_veil]
        rfl
      | some p =>
        simp only [veil_getvar _ (show "DPT" ∉ backNames by decide), veil_getvar _ (show "AT" ∉ backNames by decide), put_veil,
          veil_getvar _ (show "CRH" ∉ backNames by decide), putAll_veil, except_pure]
        split_ifs <;> rfl

theorem finish_blind (E : ReadEnv F) (year month : Int) (lib : ClimLib Arr3) : Blind (finishReport E year month lib) :=
  blind_then (addMdsClims_blind lib _) <| blind_then (addClims_blind lib _) <| blind_then (addStdevClims_blind lib _) <|
    blind_then (humidity_blind E.hum _) <| blind_then (baseQc_blind E.elev E.params) <| blind_put _ _ fun _ => rfl

end MarineQC
