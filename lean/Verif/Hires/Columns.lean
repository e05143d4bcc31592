import Verif.Hires.Props
import Verif.Report.Again

/-!
# Which columns of the table for high resolution carry a result
-/

namespace MarineQC

open Spec

variable {F : Type} [LinearOrder F] [Zero F]

/-- The keys of the flags considered here. -/
def columnKeys : List String := ["SSTspike", "SSTnbud", "SSTclim", "SSTnonorm", "SSTfreez", "SSTnoval", "SSThardlimit"]

/-- The flags of a report of this program: two are never set, five are 0 or 1. -/
structure Marked (r : Report) : Prop where
  spike : r.qc "SSTspike" = none
  nbud : r.qc "SSTnbud" = none
  base : ∀ k ∈ ["SSTclim", "SSTnonorm", "SSTfreez", "SSTnoval", "SSThardlimit"], r.qc k = some 0 ∨ r.qc k = some 1

theorem marked_step {r s : Report} (h : Marked r) (hk : ∀ k ∈ columnKeys, s.qc k = r.qc k) : Marked s := by
  refine ⟨(hk _ (by decide)).trans h.spike, (hk _ (by decide)).trans h.nbud, fun k hkk => ?_⟩
  rw [hk k (by unfold columnKeys; simp only [List.mem_cons] at hkk ⊢; tauto)]
  exact h.base k hkk

theorem fixHour_qc {r s : Report} (h : r.doFixMissingHour = .ok s) : s.qc = r.qc := by
  have := fixMissingHour_blind h r.qc
  rw [show ({ r with qc := r.qc } : Report) = r from rfl, h] at this
  injection this with this
  rw [this]

theorem setQc_other {r r' : Report} {t f : String} {v : Int} (h : r.setQc t f v = .ok r') {k : String} (hk : k ≠ t ++ f) :
    r'.qc k = r.qc k := by
  unfold Report.setQc at h
  simp only [pyAssert_bind] at h
  split_ifs at h
  cases h
  show (if k = t ++ f then _ else r.qc k) = r.qc k
  rw [if_neg hk]

theorem setQc_marked {r r' : Report} {t f : String} {v : Int} (ht : t ++ f ∉ columnKeys) (h : r.setQc t f v = .ok r')
    (hr : Marked r) : Marked r' :=
  marked_step hr fun k hk => setQc_other h (by rintro rfl; exact ht hk)

theorem sstQc_marked {elev : Elev F} {p : BaseParams} {r r' : Report} (h : r.performBaseSstQc elev p = .ok r')
    (h1 : r.qc "SSTspike" = none) (h2 : r.qc "SSTnbud" = none) : Marked r' := by
  unfold Report.performBaseSstQc at h
  simp only [bind_ok_iff, isBuoy_eq, isShip_eq', isDeck780_eq', Except.ok.injEq, exists_eq_left', List.cons_append,
    List.nil_append] at h
  obtain ⟨s, hs, r1, k1, r2, k2, h⟩ := h
  obtain ⟨pos, hpos, rfl⟩ := doPositionCheck_ok' k1
  obtain ⟨date, hdate, rfl⟩ := doDateCheck_ok' k2
  simp only [doTimeCheck_eq', Except.ok.injEq, exists_eq_left', List.cons_append, List.nil_append] at h
  obtain ⟨r3, h3, r4, h4, h5⟩ := h
  obtain ⟨blk, hblk, rfl⟩ := doBlacklist_ok' h3
  obtain ⟨day, rfl, hday1, hday2⟩ := doDayCheck_ok h4
  simp only [writes_writes, List.cons_append, List.nil_append] at h5
  obtain ⟨fr, sst, hfr, hsst, rfl⟩ := doBaseSstQc_ok' h5
  rw [← fixHour_qc hs] at h1 h2
  clear k1 k2 h3 h4 h5 hday1 hday2
  have c1 := climatologyCheck_flag (s.getvar "SST") (s.getnorm "SST") (some p.sstMaxAnomaly)
  have c2 := noNormalCheck_flag (s.getnorm "SST")
  have c3 := freeze_flag hfr
  have c4 := valueCheck_flag (s.getvar "SST")
  have c5 := hardLimit_flag hsst
  refine ⟨?_, ?_, fun k hk => ?_⟩
  · rw [writes_qc]; simp [lookupW_cons, lookupW_nil, h1]
  · rw [writes_qc]; simp [lookupW_cons, lookupW_nil, h2]
  · rw [writes_qc]
    simp only [List.mem_cons, List.not_mem_nil, or_false] at hk
    rcases hk with rfl | rfl | rfl | rfl | rfl <;> simp [lookupW_cons, lookupW_nil] <;> assumption

/-! ## Reading -/

theorem hiresUse_marked {E : ReadEnv F} {clim : Arr3} {year month : Int} {d d' : Deck} {rec : Imma}
    (h : hiresUse E clim year month d rec = .ok d') (hd : ∀ r ∈ d.reps, Marked r) : ∀ r ∈ d'.reps, Marked r := by
  unfold hiresUse at h
  obtain ⟨r0, h0, h⟩ := bind_ok_iff.mp h
  obtain ⟨r1, h1, h2⟩ := bind_ok_iff.mp h
  cases h2
  unfold hiresFinish at h1
  obtain ⟨x, -, h1⟩ := bind_ok_iff.mp h1
  obtain ⟨r2, h2, h3⟩ := bind_ok_iff.mp h1
  have hq := (reportOf_ok h0).2.2.2.2.1
  have hm : Marked r1 := setQc_marked (by decide) h3 (sstQc_marked h2 (hq _) (hq _))
  intro r hr
  have hr' : r ∈ d.reps ++ [r1] := hr
  rcases List.mem_append.mp hr' with hr | hr
  · exact hd r hr
  · rw [List.mem_singleton.mp hr]; exact hm

theorem hiresLine_marked {E : ReadEnv F} {clim : Arr3} {year month y m : Int} {d d' : Deck} {line : List Char}
    (h : hiresLine E clim year month y m d line = .ok d') (hd : ∀ r ∈ d.reps, Marked r) : ∀ r ∈ d'.reps, Marked r := by
  unfold hiresLine at h
  obtain ⟨b, -, h⟩ := bind_ok_iff.mp h
  split_ifs at h
  · exact hiresUse_marked h hd
  · cases h; exact hd

theorem foldlM_marked {α : Type} {f : Deck → α → Except Err Deck}
    (hf : ∀ d d' a, f d a = .ok d' → (∀ r ∈ d.reps, Marked r) → ∀ r ∈ d'.reps, Marked r) (l : List α) :
    ∀ {d d' : Deck}, l.foldlM f d = .ok d' → (∀ r ∈ d.reps, Marked r) → ∀ r ∈ d'.reps, Marked r := by
  induction l with
  | nil => intro d d' h hd; cases h; exact hd
  | cons a l ih =>
    intro d d' h hd
    rw [List.foldlM_cons] at h
    obtain ⟨d1, h1, h2⟩ := bind_ok_iff.mp h
    exact ih h2 (hf d d1 a h1 hd)

theorem hiresReports_marked {E : ReadEnv F} {clim : Arr3} {year month : Int} {d : Deck}
    (h : hiresReports E clim year month = .ok d) : ∀ r ∈ d.reps, Marked r := by
  unfold hiresReports at h
  obtain ⟨o, -, h⟩ := bind_ok_iff.mp h
  split at h
  · cases h
  · refine foldlM_marked (fun d d' ym k hd => ?_) _ h (by intro r hr; simp [Deck.empty] at hr)
    unfold hiresMonthFile at k
    obtain ⟨name, -, k⟩ := bind_ok_iff.mp k
    obtain ⟨file, -, k⟩ := bind_ok_iff.mp k
    split at k
    · cases k; exact hd
    · exact foldlM_marked (fun _ _ _ k' hd' => hiresLine_marked k' hd') _ k hd

/-! ## The ships -/

theorem hiresShip_marked {G : Geo} {rnd : Rat → Rat} {P : ShipParams} {v w : List Report}
    (h : hiresShip G rnd P v = .ok w) (hv : ∀ r ∈ v, Marked r) : ∀ r ∈ w, Marked r := by
  unfold hiresShip at h
  obtain ⟨a, h1, h2⟩ := bind_ok_iff.mp h
  have refl : ∀ v : List Report, Alike v v := fun v => alike_of_step (flagStep_refl v)
  have step : ∀ {keys : List String} {v v' : List Report}, (∀ k ∈ columnKeys, k ∉ keys) → FlagStep keys v v' →
      (∀ r ∈ v, Marked r) → ∀ r ∈ v', Marked r := by
    intro keys v v' hk h hv r' hr'
    obtain ⟨n, hn⟩ := List.mem_iff_getElem?.mp hr'
    obtain ⟨r, hr, e⟩ := flagStep_get h n r' hn
    exact marked_step (hv r (List.mem_of_getElem? hr)) fun k hkk => e.2.2.2.2.2.2 k (hk k hkk)
  exact step (by decide) (repeated_step (t := "SST") (by decide) (refl a) h2).1 (step (by decide) (track_step (refl v) h1).1 hv)

theorem hiresPass_marked {G : Geo} {rnd : Rat → Rat} {P : ShipParams}
    (es : List (Option String × List Nat)) : ∀ {d e : Deck}, shipRounds G (hiresShip G rnd P) es d = .ok e →
      (∀ r ∈ d.reps, Marked r) → ∀ r ∈ e.reps, Marked r := by
  induction es with
  | nil =>
    intro d e h hd
    cases h
    exact hd
  | cons x es ih =>
    intro d e h hd
    unfold shipRounds at h
    obtain ⟨d1, h1, h2⟩ := bind_ok_iff.mp h
    refine ih h2 ?_
    unfold shipRound at h1
    simp only [bind_ok_iff, except_pure, Except.ok.injEq] at h1
    obtain ⟨c, k1, v, k2, w, k3, rfl⟩ := h1
    unfold buildTagged at k2
    obtain ⟨u, k4, k5⟩ := bind_ok_iff.mp k2
    cases k5
    have hc : ∀ r ∈ c.map (·.1), Marked r := by
      intro r hr
      obtain ⟨p, hp, rfl⟩ := List.mem_map.mp hr
      exact hd _ (platform_mem k1 p hp).1
    have hu : ∀ r ∈ u, Marked r := by
      intro r hr
      obtain ⟨n, hn⟩ := List.mem_iff_getElem?.mp hr
      obtain ⟨q, hq, e⟩ := forall2_get (build_only G _ u k4).flip n r hn
      exact marked_step (hc q (List.mem_of_getElem? hq)) fun k _ => e.flags k (by simp)
    have hw := hiresShip_marked k3 (by
      intro r hr
      obtain ⟨p, hp, rfl⟩ := List.mem_map.mp hr
      exact hu _ (List.of_mem_zip hp).1)
    intro r hr
    rcases storeBack_mem hr with hr | hr
    · exact hd r hr
    · obtain ⟨p, hp, rfl⟩ := List.mem_map.mp hr
      exact hw _ (List.of_mem_zip hp).1

/-! ## The buddies -/

theorem mapM_marked {f : Report → Except Err Report} (hf : ∀ r r', f r = .ok r' → Marked r → Marked r') :
    ∀ {l l' : List Report}, l.mapM f = .ok l' → (∀ r ∈ l, Marked r) → ∀ r ∈ l', Marked r := by
  intro l
  induction l with
  | nil => intro l' h _; cases h; simp
  | cons r l ih =>
    intro l' h hl
    rw [List.mapM_cons] at h
    simp only [bind_ok_iff, except_pure, Except.ok.injEq] at h
    obtain ⟨r', h1, u, h2, rfl⟩ := h
    intro s hs
    rcases List.mem_cons.mp hs with rfl | hs
    · exact hf r _ h1 (hl r List.mem_cons_self)
    · exact ih h2 (fun r hr => hl r (List.mem_cons_of_mem _ hr)) s hs

theorem hiresBuddies_marked {span : Int → Nat → Int} {B : BuddyInputs} {d e : Deck}
    (h : hiresBuddies erf span B d = .ok e) (hd : ∀ r ∈ d.reps, Marked r) : ∀ r ∈ e.reps, Marked r := by
  unfold hiresBuddies at h
  obtain ⟨d1, h1, h2⟩ := bind_ok_iff.mp h
  have hd1 : ∀ r ∈ d1.reps, Marked r := by
    unfold bayesianBuddyCheck at h1
    simp only [bind_ok_iff, except_pure, Except.ok.injEq] at h1
    obtain ⟨-, -, g, -, lim, -, reps, h4, rfl⟩ := h1
    refine mapM_marked ?_ h4 hd
    intro r r' hr
    unfold bayesBuddyFlag at hr
    split_ifs at hr
    · simp only [bind_ok_iff] at hr
      obtain ⟨l, -, hr⟩ := hr
      split at hr
      · simp only [bind_ok_iff] at hr
        obtain ⟨p, -, hr⟩ := hr
        exact setQc_marked (by decide) hr
      · simp at hr
    · exact setQc_marked (by decide) hr
  unfold mdsBuddyCheck at h2
  simp only [bind_ok_iff, except_pure, Except.ok.injEq] at h2
  obtain ⟨-, -, g, -, lim, -, reps, h4, rfl⟩ := h2
  refine mapM_marked ?_ h4 hd1
  intro r r' hr
  unfold mdsBuddyFlag at hr
  split_ifs at hr
  · simp only [bind_ok_iff] at hr
    obtain ⟨l, -, hr⟩ := hr
    split at hr
    · exact setQc_marked (by decide) hr
    · simp at hr
  · exact setQc_marked (by decide) hr

theorem hiresChecked_marked {E : RunEnv F} {clim : Arr3} {ym : Int × Int} {d : Deck} (h : hiresChecked E clim ym = .ok d) :
    ∀ r ∈ d.reps, Marked r := by
  unfold hiresChecked at h
  obtain ⟨a, h1, h⟩ := bind_ok_iff.mp h
  obtain ⟨b, h2, h3⟩ := bind_ok_iff.mp h
  refine hiresBuddies_marked h3 ?_
  unfold shipPass at h2
  exact hiresPass_marked _ h2 (d := a.addFilter shipFilter) (fun r hr => hiresReports_marked h1 r hr)

/-! ## C159 -/

/-- **C159, part.**  Every report that the program for high resolution has checked tells the result, 0 or 1, of the checks against
the climatology, for a climatological value, against the freezing point, for a value, and against the hard limits.
*Missing:* other columns never carry a result, see `C159_never_violation`. -/
theorem C159_base_partial (E : RunEnv F) (clim : Arr3) (ym : Int × Int) (d : Deck) (h : hiresChecked E clim ym = .ok d) :
    ∀ r ∈ d.reps, ∀ f ∈ ["clim", "nonorm", "freez", "noval", "hardlimit"], r.getQc "SST" f = 0 ∨ r.getQc "SST" f = 1 := by
  intro r hr f hf
  have hm := (hiresChecked_marked h r hr).base
  have get : ∀ {f : String}, (r.qc ("SST" ++ f) = some 0 ∨ r.qc ("SST" ++ f) = some 1) →
      r.getQc "SST" f = 0 ∨ r.getQc "SST" f = 1 := by
    intro f h
    unfold Report.getQc
    rcases h with h | h <;> simp [h]
  simp only [List.mem_cons, List.not_mem_nil, or_false] at hf
  rcases hf with rfl | rfl | rfl | rfl | rfl <;> exact get (hm _ (by decide))

/-- **C159, part.**  Every report also tells the result, 0 or 1, of the buddy check. -/
theorem C159_buddy_partial (E : RunEnv F) (clim : Arr3) (ym : Int × Int) (d : Deck) (h : hiresChecked E clim ym = .ok d) :
    ∀ r ∈ d.reps, r.getQc "SST" "bud" = 0 ∨ r.getQc "SST" "bud" = 1 := by
  intro r' hr'
  unfold hiresChecked hiresBuddies at h
  obtain ⟨a, -, h⟩ := bind_ok_iff.mp h
  obtain ⟨b, -, h⟩ := bind_ok_iff.mp h
  obtain ⟨c, -, h⟩ := bind_ok_iff.mp h
  obtain ⟨-, hl, g, -, hf⟩ := C56_mds_flags _ _ _ _ _ _ h
  obtain ⟨i, hi⟩ := List.mem_iff_getElem?.mp hr'
  have hlt : i < c.reps.length := by rw [← hl]; exact (List.getElem?_eq_some_iff.mp hi).1
  obtain ⟨x, hx, hs, -⟩ := hf i _ r' (List.getElem?_eq_getElem hlt) hi
  rw [hs.1]
  exact hx

/-- **C159, violation.**  The columns `spike` and `nbud` of the program for high resolution never carry a result: whatever
the archive, the month and the parameters, no report has been through a check that sets them. -/
theorem C159_never_violation (E : RunEnv F) (clim : Arr3) (ym : Int × Int) (d : Deck) (h : hiresChecked E clim ym = .ok d) :
    ∀ r ∈ d.reps, r.getQc "SST" "spike" = 9 ∧ r.getQc "SST" "nbud" = 9 := by
  intro r hr
  have hm := hiresChecked_marked h r hr
  unfold Report.getQc
  have e1 : r.qc ("SST" ++ "spike") = none := hm.spike
  have e2 : r.qc ("SST" ++ "nbud") = none := hm.nbud
  rw [e1, e2]
  exact ⟨rfl, rfl⟩

/-- **C159, violation, in the files.**  Where the run of the program completes, the file of every month has the columns `nbud`
and `spike`, and every row, one for each record used from the archive, has the number 9, "not checked", in both. -/
theorem C159_file_violation (E : RunEnv F) (lib : ClimLib Arr3) (hE : RunReady E lib) (clim : Arr3) (hc : GridShape clim)
    (months : List (Int × Int)) (fs : FileSys) (hn : months.Nodup) (ha : ∀ m ∈ months, ArchiveReady E.read m)
    (hd : ∀ m ∈ months, E.read.tracking = true → DriftersArchived E.read m)
    (ho : ∀ m ∈ months, OutputPlace ("hires_".toList ++ E.runid) E.out m.1 m.2 fs) :
    ∃ fs' : FileSys, hiresRun E clim months fs = (fs', none) ∧ ∀ m ∈ months, ∃ text head rows,
      fs'.file (deckPath ("hires_".toList ++ E.runid) (monthDir E.out m.1 m.2) m.1 m.2 false "SST_qc_".toList) = some text ∧
      csv text = head :: rows ∧ head[6]? = some "nbud".toList ∧ head[9]? = some "spike".toList ∧
      rows.length = (recordsFor E.read [m]).length ∧ ∀ row ∈ rows, row[6]? = some ['9'] ∧ row[9]? = some ['9'] := by
  obtain ⟨fs', deck, h1, h2⟩ := C133_run_partial E lib hE clim hc months fs hn ha hd ho
  refine ⟨fs', h1, fun m hm => ?_⟩
  obtain ⟨k1, ⟨⟨s, k2, k3⟩, -⟩, k4⟩ := h2 m hm
  refine ⟨s, _, _, k2, k3, rfl, rfl, ?_, fun row hrow => ?_⟩
  · have := congrArg List.length k4
    simpa using this
  · obtain ⟨r, hr, rfl⟩ := List.mem_map.mp hrow
    obtain ⟨e1, e2⟩ := C159_never_violation E clim m (deck m) k1 r (List.mem_filter.mp hr).1
    unfold hiresColumns
    simp only [List.map_cons, List.map_nil, List.getElem?_cons_succ, List.getElem?_cons_zero, e1, e2]
    exact ⟨by decide, by decide⟩

/-- The hypotheses are met by the sample archive with the flat climatology. -/
example : ∃ fs', hiresRun sampleTrackRun (flatField 73 180 360 15) [(1990, 2), (1990, 3)] (oneDir "/out".toList) = (fs', none) ∧
    ∃ text head rows, fs'.file (deckPath "hires_base".toList (monthDir "/out".toList 1990 2) 1990 2 false "SST_qc_".toList) = some text ∧
      csv text = head :: rows ∧ rows ≠ [] ∧ ∀ row ∈ rows, row[6]? = some ['9'] ∧ row[9]? = some ['9'] := by
  have ar : ∀ m ∈ [((1990 : Int), (2 : Int)), (1990, 3)], ArchiveReady sampleTrackRun.read m :=
    fun m hm => { (sampleRun_archive m hm).1 with }
  have dr : ∀ m ∈ [((1990 : Int), (2 : Int)), (1990, 3)], sampleTrackRun.read.tracking = true → DriftersArchived sampleTrackRun.read m :=
    fun m hm _ => { (sampleRun_archive m hm).2 with }
  obtain ⟨fs', h1, h2⟩ := C159_file_violation sampleTrackRun sampleLib sampleTrackRun_ready (flatField 73 180 360 15) (flat_grid 15)
    [(1990, 2), (1990, 3)] (oneDir "/out".toList) (by decide) ar dr sampleHires_place
  obtain ⟨text, head, rows, k1, k2, -, -, k3, k4⟩ := h2 (1990, 2) (by decide)
  refine ⟨fs', h1, text, head, rows, k1, k2, ?_, k4⟩
  rintro rfl
  have e : recordsFor (sampleEnv fourFiles) [(1990, 2)] = [] := List.length_eq_zero_iff.mp k3.symm
  have h3 := fourFiles_uids
  rw [e] at h3
  exact absurd h3.1 (by simp)

end MarineQC
