import Verif.Report.BaseQc

/-!
# C146: the base checks of a report may be repeated
-/

namespace MarineQC

/-- The base checks of a report, `perform_base_qc`, `perform_base_sst_qc`, `perform_base_slp_qc` and
`perform_base_wind_qc` (Extended_IMMA.py:1090-1144 and 1165-1199).  `perform_base_dat_qc` never completes
(`C34_dat_violation`). -/
inductive BaseRun where
  | all
  | sst
  | slp
  | wind

/-- The check run on a report (Extended_IMMA.py:1090, 1183, 1165 and 1125). -/
def BaseRun.perform {F : Type} [LinearOrder F] [Zero F] (elev : Elev F) (p : BaseParams) :
    BaseRun → Report → Except Err Report
  | .all, r => r.performBaseQc elev p
  | .sst, r => r.performBaseSstQc elev p
  | .slp, r => r.performBaseSlpQc elev p
  | .wind, r => r.performBaseWindQc p

namespace Spec

/-- The flags a base check sets. -/
def flagsSet : BaseRun → List String
  | .all => ["POSisbuoy", "POSisdrifter", "POSisship", "POSis780", "POSpos", "POSdate", "POStime", "POSblklst",
      "POSday", "DPThum_blacklist", "ATmat_blacklist", "Wwind_blacklist", "SSTnoval", "SSTfreez", "SSTclim",
      "SSTnonorm", "SSThardlimit", "ATnoval", "ATclim", "ATnonorm", "AThardlimit", "DPTclim", "DPTnoval",
      "DPTnonorm", "DPTssat", "SLPnoval", "SLPclim", "SLPnonorm", "Wnoval", "Whardlimit", "Wconsistency",
      "DPThardlimit", "AT2clim", "AT2noval", "AT2nonorm", "AT2hardlimit"]
  | .sst => ["POSisbuoy", "POSisdrifter", "POSisship", "POSis780", "POSpos", "POSdate", "POStime", "POSblklst",
      "POSday", "SSTnoval", "SSTfreez", "SSTclim", "SSTnonorm", "SSThardlimit"]
  | .slp => ["POSisbuoy", "POSisdrifter", "POSisship", "POSis780", "POSpos", "POSdate", "POStime", "POSblklst",
      "POSday", "SLPnoval", "SLPclim", "SLPnonorm"]
  | .wind => ["POSisbuoy", "POSisdrifter", "POSisship", "Wwind_blacklist", "POSpos", "POSdate", "POStime",
      "POSblklst", "Wnoval", "Whardlimit", "Wconsistency"]

end Spec

open Spec

/-! ## Two runs side by side -/

/-- Two reports after the same writes, from `r` and `s`.  The keys in `ks` were written, none outside `W`. -/
def Reach (W : List String) (r s : Report) (ks : List String) (a b : Report) : Prop :=
  ∃ ws : List (String × Int), a = r.writes ws ∧ b = s.writes ws ∧ (∀ k ∈ ks, k ∈ ws.map Prod.fst) ∧
    ∀ w ∈ ws, w.1 ∈ W

/-- If the first run completes, so does the second, with the same writes. -/
def Par (W : List String) (r s : Report) (ks : List String) (x y : Except Err Report) : Prop :=
  ∀ a, x = .ok a → ∃ b, y = .ok b ∧ Reach W r s ks a b

section
variable {W : List String} {r s : Report} {ks : List String}

theorem Par.bind {ks' : List String} {x y : Except Err Report} {f g : Report → Except Err Report}
    (h : Par W r s ks x y) (h' : ∀ a b, Reach W r s ks a b → Par W r s ks' (f a) (g b)) :
    Par W r s ks' (x >>= f) (y >>= g) := by
  intro a ha
  obtain ⟨c, hc, ha⟩ := bind_ok_iff.mp ha
  obtain ⟨d, hd, hr⟩ := h c hc
  obtain ⟨b, hb, hb'⟩ := h' c d hr a ha
  exact ⟨b, bind_ok_iff.mpr ⟨d, hd, hb⟩, hb'⟩

theorem Par.value {x y : Except Err Int} {f g : Int → Except Err Report} (e : y = x)
    (h : ∀ v, Par W r s ks (f v) (g v)) : Par W r s ks (x >>= f) (y >>= g) := by
  subst e
  intro a ha
  obtain ⟨v, hv, ha⟩ := bind_ok_iff.mp ha
  obtain ⟨b, hb, hb'⟩ := h v a ha
  exact ⟨b, bind_ok_iff.mpr ⟨v, hv, hb⟩, hb'⟩

theorem Par.same {a b : Report} (h : Reach W r s ks a b) : Par W r s ks (.ok a) (.ok b) := by
  intro c hc
  injection hc with hc
  subst hc
  exact ⟨b, rfl, h⟩

theorem Par.set {a b : Report} (h : Reach W r s ks a b) (t f : String) {v w : Int} (e : w = v)
    (hW : t ++ f ∈ W) : Par W r s ((t ++ f) :: ks) (a.setQc t f v) (b.setQc t f w) := by
  subst e
  intro c hc
  obtain ⟨ws, rfl, rfl, hk, hw⟩ := h
  unfold Report.setQc at hc ⊢
  obtain ⟨_, h1, hc⟩ := bind_ok_iff.mp hc
  obtain ⟨_, h2, hc⟩ := bind_ok_iff.mp hc
  injection hc with hc
  refine ⟨_, bind_ok_iff.mpr ⟨_, h1, bind_ok_iff.mpr ⟨_, h2, rfl⟩⟩, ws ++ [(t ++ f, w)], ?_, ?_, ?_, ?_⟩
  · rw [← hc, ← writes_writes]; rfl
  · rw [← writes_writes]; rfl
  · intro k hk'
    rw [List.map_append, List.mem_append]
    rcases List.mem_cons.mp hk' with rfl | hk'
    · right; simp
    · left; exact hk k hk'
  · intro w' hw'
    rcases List.mem_append.mp hw' with hw' | hw'
    · exact hw w' hw'
    · rw [List.mem_singleton] at hw'
      subst hw'
      exact hW

theorem Par.weaken {x y : Except Err Report} {ks' : List String} (h : Par W r s ks x y) (hs : ∀ k ∈ ks', k ∈ ks) :
    Par W r s ks' x y := by
  intro a ha
  obtain ⟨b, hb, ws, h1, h2, h3, h4⟩ := h a ha
  exact ⟨b, hb, ws, h1, h2, fun k hk => h3 k (hs k hk), h4⟩

theorem Par.ite {c d : Prop} [Decidable c] [Decidable d] (e : d ↔ c) {x y x' y' : Except Err Report}
    (h1 : Par W r s ks x y) (h2 : Par W r s ks x' y') :
    Par W r s ks (if c then x else x') (if d then y else y') := by
  by_cases hc : c
  · rw [if_pos hc, if_pos (e.mpr hc)]; exact h1
  · rw [if_neg hc, if_neg (fun h => hc (e.mp h))]; exact h2

/-- After a key was written, both reports have the same flag. -/
theorem writes_agree (ws : List (String × Int)) (q q' : String → Option Int) (k : String)
    (hk : k ∈ ws.map Prod.fst) :
    ws.foldl (fun q w k => if k = w.1 then some w.2 else q k) q k =
      ws.foldl (fun q w k => if k = w.1 then some w.2 else q k) q' k := by
  induction ws using List.reverseRecOn with
  | nil => cases hk
  | append_singleton ws w ih =>
    rw [List.foldl_append, List.foldl_append]
    simp only [List.foldl_cons, List.foldl_nil]
    split
    · rfl
    · rename_i hn
      rw [List.map_append, List.mem_append] at hk
      rcases hk with hk | hk
      · exact ih hk
      · simp only [List.map_cons, List.map_nil, List.mem_singleton] at hk
        exact absurd hk hn

theorem writes_frame (ws : List (String × Int)) (q : String → Option Int) (k : String)
    (hk : k ∉ ws.map Prod.fst) :
    ws.foldl (fun q w k => if k = w.1 then some w.2 else q k) q k = q k := by
  induction ws using List.reverseRecOn with
  | nil => rfl
  | append_singleton ws w ih =>
    rw [List.map_append, List.mem_append] at hk
    rw [List.foldl_append]
    simp only [List.foldl_cons, List.foldl_nil]
    rw [if_neg (fun h => hk (Or.inr (by simp [h]))), ih (fun h => hk (Or.inl h))]

theorem Reach.agree {a b : Report} (h : Reach W r s ks a b) (t f : String) (hk : t ++ f ∈ ks) :
    b.getQc t f = a.getQc t f := by
  obtain ⟨ws, rfl, rfl, h3, -⟩ := h
  have := writes_agree ws r.qc s.qc (t ++ f) (h3 _ hk)
  unfold Report.getQc
  rw [show (s.writes ws).qc (t ++ f) = (r.writes ws).qc (t ++ f) from this.symm]

end

section
variable {W : List String} {r : Report} {q : String → Option Int} {ks : List String} {a b : Report}

/-- The two runs work on the same data. -/
theorem Reach.eq (h : Reach W r { r with qc := q } ks a b) : ∃ q', b = { a with qc := q' } := by
  obtain ⟨ws, rfl, rfl, -⟩ := h
  exact ⟨_, rfl⟩

theorem par_isBuoy (h : Reach W r { r with qc := q } ks a b) (hW : ∀ k ∈ ["POSisbuoy", "POSisdrifter"], k ∈ W) :
    Par W r { r with qc := q } ("POSisdrifter" :: "POSisbuoy" :: ks) a.isBuoy b.isBuoy := by
  obtain ⟨q', e⟩ := h.eq
  have e1 : b.getint "PT" = a.getint "PT" := by rw [e]; rfl
  unfold Report.isBuoy
  have rest : ∀ a b, Reach W r { r with qc := q } ("POSisbuoy" :: ks) a b →
      Par W r { r with qc := q } ("POSisdrifter" :: "POSisbuoy" :: ks)
        (if a.getint "PT" = some 7 then a.setQc "POS" "isdrifter" 1 else a.setQc "POS" "isdrifter" 0)
        (if b.getint "PT" = some 7 then b.setQc "POS" "isdrifter" 1 else b.setQc "POS" "isdrifter" 0) := by
    intro a b h
    obtain ⟨q', e⟩ := h.eq
    have e1 : b.getint "PT" = a.getint "PT" := by rw [e]; rfl
    exact Par.ite (by rw [e1]) (Par.set h "POS" "isdrifter" rfl (hW _ (by decide)))
      (Par.set h "POS" "isdrifter" rfl (hW _ (by decide)))
  exact Par.ite (by rw [e1]) (Par.bind (Par.set h "POS" "isbuoy" rfl (hW _ (by decide))) rest)
    (Par.bind (Par.set h "POS" "isbuoy" rfl (hW _ (by decide))) rest)

theorem par_isShip (h : Reach W r { r with qc := q } ks a b) (hW : "POSisship" ∈ W) :
    Par W r { r with qc := q } ("POSisship" :: ks) a.isShip b.isShip := by
  obtain ⟨q', e⟩ := h.eq
  have e1 : b.getint "PT" = a.getint "PT" := by rw [e]; rfl
  exact Par.ite (by rw [e1]) (Par.set h "POS" "isship" rfl hW) (Par.set h "POS" "isship" rfl hW)

theorem par_isDeck780 (h : Reach W r { r with qc := q } ks a b) (hW : "POSis780" ∈ W) :
    Par W r { r with qc := q } ("POSis780" :: ks) a.isDeck780 b.isDeck780 := by
  obtain ⟨q', e⟩ := h.eq
  have e1 : b.getint "DCK" = a.getint "DCK" := by rw [e]; rfl
  exact Par.ite (by rw [e1]) (Par.set h "POS" "is780" rfl hW) (Par.set h "POS" "is780" rfl hW)

theorem par_position (h : Reach W r { r with qc := q } ks a b) (hW : "POSpos" ∈ W) :
    Par W r { r with qc := q } ("POSpos" :: ks) a.doPositionCheck b.doPositionCheck := by
  obtain ⟨q', e⟩ := h.eq
  exact Par.value (by rw [e]; rfl) fun v => Par.set h "POS" "pos" rfl hW

theorem par_date (h : Reach W r { r with qc := q } ks a b) (hW : "POSdate" ∈ W) :
    Par W r { r with qc := q } ("POSdate" :: ks) a.doDateCheck b.doDateCheck := by
  obtain ⟨q', e⟩ := h.eq
  exact Par.value (by rw [e]; rfl) fun v => Par.set h "POS" "date" rfl hW

theorem par_time (h : Reach W r { r with qc := q } ks a b) (hW : "POStime" ∈ W) :
    Par W r { r with qc := q } ("POStime" :: ks) a.doTimeCheck b.doTimeCheck := by
  obtain ⟨q', e⟩ := h.eq
  exact Par.set h "POS" "time" (by rw [e]; rfl) hW

theorem par_blacklist (h : Reach W r { r with qc := q } ks a b) (hW : "POSblklst" ∈ W) :
    Par W r { r with qc := q } ("POSblklst" :: ks) a.doBlacklist b.doBlacklist := by
  obtain ⟨q', e⟩ := h.eq
  exact Par.value (by rw [e]; rfl) fun v => Par.set h "POS" "blklst" rfl hW

theorem par_day {F : Type} [LinearOrder F] [Zero F] (elev : Elev F) (t : Rat)
    (h : Reach W r { r with qc := q } ks a b) (hW : "POSday" ∈ W)
    (hk : ∀ k ∈ ["POSpos", "POSdate", "POStime"], k ∈ ks) :
    Par W r { r with qc := q } ("POSday" :: ks) (a.doDayCheck elev t) (b.doDayCheck elev t) := by
  obtain ⟨q', e⟩ := h.eq
  have h1 := h.agree "POS" "pos" (hk _ (by decide))
  have h2 := h.agree "POS" "date" (hk _ (by decide))
  have h3 := h.agree "POS" "time" (hk _ (by decide))
  have e1 : b.lon = a.lon := by rw [e]; rfl
  have e2 : b.lat = a.lat := by rw [e]; rfl
  have e3 : ∀ v, b.getint v = a.getint v := by intro v; rw [e]; rfl
  have e4 : ∀ v, b.getvar v = a.getvar v := by intro v; rw [e]; rfl
  unfold Report.doDayCheck
  refine Par.ite (by rw [h1, h2, h3]) ?_ (Par.set h "POS" "day" rfl hW)
  rw [e1, e2]
  cases a.lon with
  | none => intro c hc; cases hc
  | some lon => exact Par.value (by simp only [e3, e4]) fun v => Par.set h "POS" "day" rfl hW

theorem par_humidity (h : Reach W r { r with qc := q } ks a b) (hW : "DPThum_blacklist" ∈ W) :
    Par W r { r with qc := q } ("DPThum_blacklist" :: ks) a.humidityBlacklist b.humidityBlacklist := by
  unfold Report.humidityBlacklist
  refine Par.bind (Par.set h "DPT" "hum_blacklist" rfl hW) fun a b h => ?_
  obtain ⟨q', e⟩ := h.eq
  have e1 : b.getint "PT" = a.getint "PT" := by rw [e]; rfl
  exact Par.weaken (Par.ite (by rw [e1]) (Par.set h "DPT" "hum_blacklist" rfl hW)
    (Par.set h "DPT" "hum_blacklist" rfl hW)) fun k hk => List.mem_cons_of_mem _ hk

theorem par_mat (h : Reach W r { r with qc := q } ks a b) (hW : "ATmat_blacklist" ∈ W) :
    Par W r { r with qc := q } ("ATmat_blacklist" :: ks) a.matBlacklist b.matBlacklist := by
  unfold Report.matBlacklist
  refine Par.bind (Par.set h "AT" "mat_blacklist" rfl hW) fun a b h => ?_
  obtain ⟨q', e⟩ := h.eq
  have e1 : ∀ v, b.getint v = a.getint v := by intro v; rw [e]; rfl
  have rest : ∀ a b, Reach W r { r with qc := q } ("ATmat_blacklist" :: ks) a b →
      Par W r { r with qc := q } ("ATmat_blacklist" :: ks)
        (if a.matExcluded then a.setQc "AT" "mat_blacklist" 1 else pure a)
        (if b.matExcluded then b.setQc "AT" "mat_blacklist" 1 else pure b) := by
    intro a b h
    obtain ⟨q', e⟩ := h.eq
    have e1 : b.matExcluded = a.matExcluded := by rw [e]; rfl
    exact Par.ite (by rw [e1]) (Par.weaken (Par.set h "AT" "mat_blacklist" rfl hW)
      fun k hk => List.mem_cons_of_mem _ hk) (Par.same h)
  exact Par.ite (by rw [e1, e1]) (Par.bind (Par.weaken (Par.set h "AT" "mat_blacklist" rfl hW)
    fun k hk => List.mem_cons_of_mem _ hk) rest) (Par.bind (Par.same h) rest)

theorem par_wind (h : Reach W r { r with qc := q } ks a b) (hW : "Wwind_blacklist" ∈ W) :
    Par W r { r with qc := q } ("Wwind_blacklist" :: ks) a.windBlacklist b.windBlacklist := by
  unfold Report.windBlacklist
  refine Par.bind (Par.set h "W" "wind_blacklist" rfl hW) fun a b h => ?_
  obtain ⟨q', e⟩ := h.eq
  have e1 : ∀ v, b.getint v = a.getint v := by intro v; rw [e]; rfl
  exact Par.ite (by rw [e1]) (Par.weaken (Par.set h "W" "wind_blacklist" rfl hW)
    fun k hk => List.mem_cons_of_mem _ hk) (Par.same h)

theorem par_baseWind (p : BaseParams) (h : Reach W r { r with qc := q } ks a b)
    (hW : ∀ k ∈ ["Wnoval", "Whardlimit", "Wconsistency"], k ∈ W) :
    Par W r { r with qc := q } ("Wconsistency" :: "Whardlimit" :: "Wnoval" :: ks) (a.doBaseWindQc p)
      (b.doBaseWindQc p) := by
  unfold Report.doBaseWindQc
  obtain ⟨q', e⟩ := h.eq
  refine Par.bind (Par.set h "W" "noval" (by rw [e]; rfl) (hW _ (by decide))) fun a b h => ?_
  obtain ⟨q', e⟩ := h.eq
  refine Par.value (by rw [e]; rfl) fun v => ?_
  refine Par.bind (Par.set h "W" "hardlimit" rfl (hW _ (by decide))) fun a b h => ?_
  obtain ⟨q', e⟩ := h.eq
  exact Par.set h "W" "consistency" (by rw [e]; rfl) (hW _ (by decide))

theorem par_baseSlp (p : BaseParams) (h : Reach W r { r with qc := q } ks a b)
    (hW : ∀ k ∈ ["SLPnoval", "SLPclim", "SLPnonorm"], k ∈ W) :
    Par W r { r with qc := q } ("SLPnonorm" :: "SLPclim" :: "SLPnoval" :: ks) (a.doBaseSlpQc p)
      (b.doBaseSlpQc p) := by
  unfold Report.doBaseSlpQc
  obtain ⟨q', e⟩ := h.eq
  refine Par.bind (Par.set h "SLP" "noval" (by rw [e]; rfl) (hW _ (by decide))) fun a b h => ?_
  obtain ⟨q', e⟩ := h.eq
  refine Par.value (by rw [e]; rfl) fun v => ?_
  refine Par.bind (Par.set h "SLP" "clim" rfl (hW _ (by decide))) fun a b h => ?_
  obtain ⟨q', e⟩ := h.eq
  exact Par.set h "SLP" "nonorm" (by rw [e]; rfl) (hW _ (by decide))

theorem par_baseSst (p : BaseParams) (h : Reach W r { r with qc := q } ks a b)
    (hW : ∀ k ∈ ["SSTnoval", "SSTfreez", "SSTclim", "SSTnonorm", "SSThardlimit"], k ∈ W) :
    Par W r { r with qc := q } ("SSThardlimit" :: "SSTnonorm" :: "SSTclim" :: "SSTfreez" :: "SSTnoval" :: ks)
      (a.doBaseSstQc p) (b.doBaseSstQc p) := by
  unfold Report.doBaseSstQc
  obtain ⟨q', e⟩ := h.eq
  refine Par.bind (Par.set h "SST" "noval" (by rw [e]; rfl) (hW _ (by decide))) fun a b h => ?_
  obtain ⟨q', e⟩ := h.eq
  refine Par.value (by rw [e]; rfl) fun v => ?_
  refine Par.bind (Par.set h "SST" "freez" rfl (hW _ (by decide))) fun a b h => ?_
  obtain ⟨q', e⟩ := h.eq
  refine Par.bind (Par.set h "SST" "clim" (by rw [e]; rfl) (hW _ (by decide))) fun a b h => ?_
  obtain ⟨q', e⟩ := h.eq
  refine Par.bind (Par.set h "SST" "nonorm" (by rw [e]; rfl) (hW _ (by decide))) fun a b h => ?_
  obtain ⟨q', e⟩ := h.eq
  exact Par.value (by rw [e]; rfl) fun v => Par.set h "SST" "hardlimit" rfl (hW _ (by decide))

theorem par_baseMat (p : BaseParams) (h : Reach W r { r with qc := q } ks a b)
    (hW : ∀ k ∈ ["ATnoval", "ATclim", "ATnonorm", "AThardlimit"], k ∈ W) :
    Par W r { r with qc := q } ("AThardlimit" :: "ATnonorm" :: "ATclim" :: "ATnoval" :: ks)
      (a.doBaseMatQc p) (b.doBaseMatQc p) := by
  unfold Report.doBaseMatQc
  obtain ⟨q', e⟩ := h.eq
  refine Par.bind (Par.set h "AT" "noval" (by rw [e]; rfl) (hW _ (by decide))) fun a b h => ?_
  obtain ⟨q', e⟩ := h.eq
  refine Par.bind (Par.set h "AT" "clim" (by rw [e]; rfl) (hW _ (by decide))) fun a b h => ?_
  obtain ⟨q', e⟩ := h.eq
  refine Par.bind (Par.set h "AT" "nonorm" (by rw [e]; rfl) (hW _ (by decide))) fun a b h => ?_
  obtain ⟨q', e⟩ := h.eq
  exact Par.value (by rw [e]; rfl) fun v => Par.set h "AT" "hardlimit" rfl (hW _ (by decide))

theorem par_kateMat (p : BaseParams) (h : Reach W r { r with qc := q } ks a b)
    (hW : ∀ k ∈ ["AT2clim", "AT2noval", "AT2nonorm", "AT2hardlimit"], k ∈ W) :
    Par W r { r with qc := q } ("AT2hardlimit" :: "AT2nonorm" :: "AT2noval" :: "AT2clim" :: ks)
      (a.doKateMatQc p) (b.doKateMatQc p) := by
  unfold Report.doKateMatQc
  obtain ⟨q', e⟩ := h.eq
  refine Par.value (by rw [e]; rfl) fun v => ?_
  refine Par.bind (Par.set h "AT2" "clim" rfl (hW _ (by decide))) fun a b h => ?_
  obtain ⟨q', e⟩ := h.eq
  refine Par.bind (Par.set h "AT2" "noval" (by rw [e]; rfl) (hW _ (by decide))) fun a b h => ?_
  obtain ⟨q', e⟩ := h.eq
  refine Par.bind (Par.set h "AT2" "nonorm" (by rw [e]; rfl) (hW _ (by decide))) fun a b h => ?_
  obtain ⟨q', e⟩ := h.eq
  exact Par.value (by rw [e]; rfl) fun v => Par.set h "AT2" "hardlimit" rfl (hW _ (by decide))

theorem par_baseDpt (p : BaseParams) (h : Reach W r { r with qc := q } ks a b)
    (hW : ∀ k ∈ ["DPTclim", "DPTnoval", "DPTnonorm", "DPTssat"], k ∈ W) :
    Par W r { r with qc := q } ("DPTssat" :: "DPTnonorm" :: "DPTnoval" :: "DPTclim" :: ks)
      (a.doBaseDptQc p) (b.doBaseDptQc p) := by
  unfold Report.doBaseDptQc
  obtain ⟨q', e⟩ := h.eq
  refine Par.value (by rw [e]; rfl) fun v => ?_
  refine Par.bind (Par.set h "DPT" "clim" rfl (hW _ (by decide))) fun a b h => ?_
  obtain ⟨q', e⟩ := h.eq
  refine Par.bind (Par.set h "DPT" "noval" (by rw [e]; rfl) (hW _ (by decide))) fun a b h => ?_
  obtain ⟨q', e⟩ := h.eq
  refine Par.bind (Par.set h "DPT" "nonorm" (by rw [e]; rfl) (hW _ (by decide))) fun a b h => ?_
  obtain ⟨q', e⟩ := h.eq
  exact Par.set h "DPT" "ssat" (by rw [e]; rfl) (hW _ (by decide))

theorem par_dptHardStep (t : String × Lim) (h : Reach W r { r with qc := q } ks a b) (hW : "DPThardlimit" ∈ W) :
    Par W r { r with qc := q } ks (a.dptHardStep t) (b.dptHardStep t) := by
  unfold Report.dptHardStep
  obtain ⟨q', e⟩ := h.eq
  refine Par.value (by rw [e]; rfl) fun v => ?_
  exact Par.ite Iff.rfl (Par.weaken (Par.set h "DPT" "hardlimit" rfl hW) fun k hk => List.mem_cons_of_mem _ hk)
    (Par.same h)

theorem par_dptHard (p : BaseParams) (h : Reach W r { r with qc := q } ks a b) (hW : "DPThardlimit" ∈ W) :
    Par W r { r with qc := q } ("DPThardlimit" :: ks) (a.dptHard p) (b.dptHard p) := by
  unfold Report.dptHard
  refine Par.bind (Par.set h "DPT" "hardlimit" rfl hW) fun a b h => ?_
  refine Par.bind (par_dptHardStep _ h hW) fun a b h => ?_
  refine Par.bind (par_dptHardStep _ h hW) fun a b h => ?_
  exact Par.bind (par_dptHardStep _ h hW) fun a b h => par_dptHardStep _ h hW

end

/-- What follows `do_fix_missing_hour`. -/
def BaseRun.rest {F : Type} [LinearOrder F] [Zero F] (elev : Elev F) (p : BaseParams) (c : BaseRun) (r : Report) :
    Except Err Report :=
  match c with
  | .all => do
    let r ← r.isBuoy
    let r ← r.isShip
    let r ← r.isDeck780
    let r ← r.doPositionCheck
    let r ← r.doDateCheck
    let r ← r.doTimeCheck
    let r ← r.doBlacklist
    let r ← r.doDayCheck elev p.timeSince
    let r ← r.humidityBlacklist
    let r ← r.matBlacklist
    let r ← r.windBlacklist
    let r ← r.doBaseSstQc p
    let r ← r.doBaseMatQc p
    let r ← r.doBaseDptQc p
    let r ← r.doBaseSlpQc p
    let r ← r.doBaseWindQc p
    let r ← r.dptHard p
    r.doKateMatQc p
  | .sst => do
    let r ← r.isBuoy
    let r ← r.isShip
    let r ← r.isDeck780
    let r ← r.doPositionCheck
    let r ← r.doDateCheck
    let r ← r.doTimeCheck
    let r ← r.doBlacklist
    let r ← r.doDayCheck elev p.timeSince
    r.doBaseSstQc p
  | .slp => do
    let r ← r.isBuoy
    let r ← r.isShip
    let r ← r.isDeck780
    let r ← r.doPositionCheck
    let r ← r.doDateCheck
    let r ← r.doTimeCheck
    let r ← r.doBlacklist
    let r ← r.doDayCheck elev p.timeSince
    r.doBaseSlpQc p
  | .wind => do
    let r ← r.isBuoy
    let r ← r.isShip
    let r ← r.windBlacklist
    let r ← r.doPositionCheck
    let r ← r.doDateCheck
    let r ← r.doTimeCheck
    let r ← r.doBlacklist
    r.doBaseWindQc p

theorem perform_eq {F : Type} [LinearOrder F] [Zero F] (elev : Elev F) (p : BaseParams) (c : BaseRun) (r : Report) :
    c.perform elev p r = r.doFixMissingHour >>= c.rest elev p := by
  cases c <;> rfl

theorem par_rest {F : Type} [LinearOrder F] [Zero F] (elev : Elev F) (p : BaseParams) (c : BaseRun) (r : Report)
    (q : String → Option Int) :
    Par (flagsSet c) r { r with qc := q } (flagsSet c) (c.rest elev p r) (c.rest elev p { r with qc := q }) := by
  have h0 : Reach (flagsSet c) r { r with qc := q } [] r { r with qc := q } :=
    ⟨[], rfl, rfl, by simp, by simp⟩
  cases c with
  | all =>
    refine Par.bind (par_isBuoy h0 (by decide)) fun a b h => ?_
    refine Par.bind (par_isShip h (by decide)) fun a b h => ?_
    refine Par.bind (par_isDeck780 h (by decide)) fun a b h => ?_
    refine Par.bind (par_position h (by decide)) fun a b h => ?_
    refine Par.bind (par_date h (by decide)) fun a b h => ?_
    refine Par.bind (par_time h (by decide)) fun a b h => ?_
    refine Par.bind (par_blacklist h (by decide)) fun a b h => ?_
    refine Par.bind (par_day elev _ h (by decide) (by decide)) fun a b h => ?_
    refine Par.bind (par_humidity h (by decide)) fun a b h => ?_
    refine Par.bind (par_mat h (by decide)) fun a b h => ?_
    refine Par.bind (par_wind h (by decide)) fun a b h => ?_
    refine Par.bind (par_baseSst p h (by decide)) fun a b h => ?_
    refine Par.bind (par_baseMat p h (by decide)) fun a b h => ?_
    refine Par.bind (par_baseDpt p h (by decide)) fun a b h => ?_
    refine Par.bind (par_baseSlp p h (by decide)) fun a b h => ?_
    refine Par.bind (par_baseWind p h (by decide)) fun a b h => ?_
    refine Par.bind (par_dptHard p h (by decide)) fun a b h => ?_
    exact Par.weaken (par_kateMat p h (by decide)) (by decide)
  | sst =>
    refine Par.bind (par_isBuoy h0 (by decide)) fun a b h => ?_
    refine Par.bind (par_isShip h (by decide)) fun a b h => ?_
    refine Par.bind (par_isDeck780 h (by decide)) fun a b h => ?_
    refine Par.bind (par_position h (by decide)) fun a b h => ?_
    refine Par.bind (par_date h (by decide)) fun a b h => ?_
    refine Par.bind (par_time h (by decide)) fun a b h => ?_
    refine Par.bind (par_blacklist h (by decide)) fun a b h => ?_
    refine Par.bind (par_day elev _ h (by decide) (by decide)) fun a b h => ?_
    exact Par.weaken (par_baseSst p h (by decide)) (by decide)
  | slp =>
    refine Par.bind (par_isBuoy h0 (by decide)) fun a b h => ?_
    refine Par.bind (par_isShip h (by decide)) fun a b h => ?_
    refine Par.bind (par_isDeck780 h (by decide)) fun a b h => ?_
    refine Par.bind (par_position h (by decide)) fun a b h => ?_
    refine Par.bind (par_date h (by decide)) fun a b h => ?_
    refine Par.bind (par_time h (by decide)) fun a b h => ?_
    refine Par.bind (par_blacklist h (by decide)) fun a b h => ?_
    refine Par.bind (par_day elev _ h (by decide) (by decide)) fun a b h => ?_
    exact Par.weaken (par_baseSlp p h (by decide)) (by decide)
  | wind =>
    refine Par.bind (par_isBuoy h0 (by decide)) fun a b h => ?_
    refine Par.bind (par_isShip h (by decide)) fun a b h => ?_
    refine Par.bind (par_wind h (by decide)) fun a b h => ?_
    refine Par.bind (par_position h (by decide)) fun a b h => ?_
    refine Par.bind (par_date h (by decide)) fun a b h => ?_
    refine Par.bind (par_time h (by decide)) fun a b h => ?_
    refine Par.bind (par_blacklist h (by decide)) fun a b h => ?_
    exact Par.weaken (par_baseWind p h (by decide)) (by decide)

theorem computeDt_blind (r : Report) (q : String → Option Int) :
    ({ r with qc := q } : Report).computeDt = r.computeDt := rfl

theorem fillHour_eq (r : Report) (x : Option Rat) :
    r.setvar "HR" x = match ({ r with data := fun k => if k = "HR" then x else r.data k } : Report).computeDt with
      | .ok d => ({ r with data := fun k => if k = "HR" then x else r.data k, dt := d }, none)
      | .error e => ({ r with data := fun k => if k = "HR" then x else r.data k }, some e) := by
  unfold Report.setvar
  rw [if_pos (by decide)]
  exact if_pos (by decide)

theorem fillHour_blind (r : Report) (q : String → Option Int) (x : Option Rat) :
    ({ r with qc := q } : Report).setvar "HR" x =
      ({ (r.setvar "HR" x).1 with qc := q }, (r.setvar "HR" x).2) := by
  rw [fillHour_eq r x]
  refine (fillHour_eq _ x).trans ?_
  generalize hc : ({ r with data := fun k => if k = "HR" then x else r.data k } : Report).computeDt = c
  have hc' : ({ ({ r with qc := q } : Report) with data := fun k => if k = "HR" then x else r.data k } :
    Report).computeDt = c := hc
  rw [hc']
  cases c <;> rfl

/-- Filling in the hour does not look at the flags. -/
theorem fixMissingHour_blind {r s : Report} (h : r.doFixMissingHour = .ok s) (q : String → Option Int) :
    ({ r with qc := q } : Report).doFixMissingHour = .ok { s with qc := q } := by
  by_cases hc : r.getint "DCK" = some 701 ∧
      (match r.getint "YR" with | some y => decide (y < 1860) | none => true : Bool) = true ∧ r.getvar "HR" = none
  · refine Eq.trans (if_pos hc : ({ r with qc := q } : Report).doFixMissingHour = _) ?_
    rw [show r.doFixMissingHour = _ from if_pos hc] at h
    obtain ⟨t, ht, h⟩ := bind_ok_iff.mp h
    obtain ⟨d, hd, h⟩ := bind_ok_iff.mp h
    injection h with h
    subst h
    refine bind_ok_iff.mpr ⟨{ t with qc := q }, ?_, bind_ok_iff.mpr ⟨d, hd, rfl⟩⟩
    rw [fillHour_blind]
    unfold raising at ht ⊢
    simp only
    split at ht
    · rename_i e
      injection ht with ht
      rw [ht]
    · cases ht
  · rw [show r.doFixMissingHour = _ from if_neg hc] at h
    injection h with h
    subst h
    exact (if_neg hc : ({ r with qc := q } : Report).doFixMissingHour = _)

/-- The hour is filled in once. -/
theorem fixMissingHour_again {r s : Report} (h : r.doFixMissingHour = .ok s) (q : String → Option Int) :
    ({ s with qc := q } : Report).doFixMissingHour = .ok { s with qc := q } := by
  refine fixMissingHour_blind ?_ q
  have h1 := C34_missing_hour r s h
  by_cases hc : r.getint "DCK" = some 701 ∧ (∀ y, r.getint "YR" = some y → y < 1860) ∧ r.getvar "HR" = none
  · have e : s.getvar "HR" = some 0 := (h1.2.1 hc).1
    unfold Report.doFixMissingHour
    simp only [e]
    rw [if_neg (by simp)]
  · have e := h1.1 hc
    rw [e] at h ⊢
    exact h

/-- C146: what a base check makes of a report does not depend on the flags the report had before: of two reports
with the same variables, if the first is checked without an error, so is the second; the flags the check sets come
out the same, all other flags stay as they were, and so do the variables. -/
theorem C146_blind {F : Type} [LinearOrder F] [Zero F] (elev : Elev F) (p : BaseParams) (c : BaseRun)
    (r r' : Report) (h : c.perform elev p r = .ok r') (q : String → Option Int) :
    ∃ t', c.perform elev p { r with qc := q } = .ok t' ∧ { t' with qc := r'.qc } = r' ∧
      (∀ k ∈ flagsSet c, t'.qc k = r'.qc k) ∧ ∀ k ∉ flagsSet c, t'.qc k = q k := by
  rw [perform_eq] at h
  obtain ⟨s, hs, h⟩ := bind_ok_iff.mp h
  obtain ⟨b, hb, ws, e1, e2, hk, hw⟩ := par_rest elev p c s q _ h
  subst e1 e2
  refine ⟨({ s with qc := q } : Report).writes ws, ?_, ?_⟩
  · rw [perform_eq]
    exact bind_ok_iff.mpr ⟨_, fixMissingHour_blind hs q, hb⟩
  · refine ⟨rfl, ?_, ?_⟩
    · intro k hk'
      exact writes_agree ws _ _ k (hk k hk')
    · intro k hk'
      refine writes_frame ws _ k fun hm => hk' ?_
      obtain ⟨w, hw', rfl⟩ := List.mem_map.mp hm
      exact hw w hw'

/-- C146: a checked report may be checked again at any time.  Whatever flags were set, changed or removed since, the
second check completes, gives every flag it sets the value of the first time, and leaves all others and the variables
alone. -/
theorem C146_again {F : Type} [LinearOrder F] [Zero F] (elev : Elev F) (p : BaseParams) (c : BaseRun)
    (r r' : Report) (h : c.perform elev p r = .ok r') (q : String → Option Int) :
    ∃ t', c.perform elev p { r' with qc := q } = .ok t' ∧ { t' with qc := r'.qc } = r' ∧
      (∀ k ∈ flagsSet c, t'.qc k = r'.qc k) ∧ ∀ k ∉ flagsSet c, t'.qc k = q k := by
  rw [perform_eq] at h
  obtain ⟨s, hs, h⟩ := bind_ok_iff.mp h
  obtain ⟨b, hb, ws, e1, e2, hk, hw⟩ := par_rest elev p c s q _ h
  subst e1 e2
  refine ⟨({ s with qc := q } : Report).writes ws, ?_, ?_⟩
  · rw [perform_eq]
    exact bind_ok_iff.mpr ⟨_, fixMissingHour_again hs q, hb⟩
  · refine ⟨rfl, ?_, ?_⟩
    · intro k hk'
      exact writes_agree ws _ _ k (hk k hk')
    · intro k hk'
      refine writes_frame ws _ k fun hm => hk' ?_
      obtain ⟨w, hw', rfl⟩ := List.mem_map.mp hm
      exact hw w hw'

/-- C146: checking a report twice in a row is the same as checking it once. -/
theorem C146_twice {F : Type} [LinearOrder F] [Zero F] (elev : Elev F) (p : BaseParams) (c : BaseRun)
    (r r' : Report) (h : c.perform elev p r = .ok r') : c.perform elev p r' = .ok r' := by
  obtain ⟨t, ht, e, h1, h2⟩ := C146_again elev p c r r' h r'.qc
  have : t.qc = r'.qc := by
    funext k
    by_cases hk : k ∈ flagsSet c
    · exact h1 k hk
    · exact h2 k hk
  rw [← this] at e
  rw [show t = r' from e] at ht
  exact ht

/-- Non-vacuity of C146: the sample report is checked without an error, so it can be checked again after the buddy
check and after its own flags were wiped. -/
example : ∃ r', BaseRun.all.perform (fun _ _ _ _ _ _ => (1 : Rat)) sampleParams sampleReport = .ok r' ∧
    (∃ t', BaseRun.all.perform (fun _ _ _ _ _ _ => (1 : Rat)) sampleParams
        { r' with qc := fun k => if k = "SSTbud" then some 1 else none } = .ok t' ∧
      t'.qc "SSTbud" = some 1 ∧ t'.qc "DPThardlimit" = some 1) := by
  have hp : GoodParams sampleParams := by
    constructor <;> unfold sampleParams <;> first | exact ⟨1, by norm_num, by norm_num⟩ | norm_num
  have hs : sampleReport.doFixMissingHour = .ok sampleReport := by
    unfold Report.doFixMissingHour
    rw [if_neg]
    rintro ⟨h, -⟩
    revert h
    decide +kernel
  obtain ⟨r', h⟩ := C34_completes (fun _ _ _ _ _ _ => (1 : Rat)) sampleParams hp sampleReport sampleReport hs
    10 200 (by decide +kernel) (by decide +kernel) 1990 2 (by decide +kernel) (by decide +kernel) (by norm_num)
    (by norm_num) (by intro d hd; cases hd)
  have hd := C34_hardlimit_violation _ _ _ _ rfl (by unfold sampleParams; norm_num) h
  obtain ⟨t', h1, -, h2, h3⟩ := C146_again _ _ BaseRun.all _ _ h fun k => if k = "SSTbud" then some 1 else none
  exact ⟨r', h, t', h1, (h3 "SSTbud" (by decide)).trans (by simp),
    (h2 "DPThardlimit" (by decide)).trans hd⟩

end MarineQC
