import Verif.Hires.Decks
import Verif.TrackOnly.Bare
import Verif.Base.RunArchive
import Verif.Base.ReadNeeds

/-!
# When the program for high resolution completes
-/

namespace MarineQC.Spec

/-- Sound inputs of the checks of sea-surface temperature; `p` are the parameters of the base checks. -/
structure SoundSstBuddies (p : BaseParams) (B : BuddyInputs) : Prop where
  sst1 : Readable B.sst1
  sst2 : Readable B.sst2
  sst3 : Readable B.sst3
  pentad : Readable B.pentad
  bayes : SoundBayes B.sstBayes p.sstMaxAnomaly
  mds : UsableParams B.mds

/-- What the program for high resolution needs besides the archive: a climatology on a regular grid and sensible
parameters. -/
structure HiresReady {F : Type} [LinearOrder F] [Zero F] (E : RunEnv F) (clim : Arr3) : Prop where
  clim : GridShape clim
  params : GoodParams E.read.params
  geo : IsDistance E.geo
  ships : SoundShipParams E.ships
  buddies : SoundSstBuddies E.read.params E.buddy

end MarineQC.Spec

namespace MarineQC

open Spec

variable {F : Type} [LinearOrder F] [Zero F]

/-! ## The flags of the base checks -/

/-- The keys of the flags that the base checks set and the buddy checks look at. -/
def sstBaseKeys : List String := ["POSpos", "POSdate", "SSTnoval", "SSTclim", "SSTnonorm"]

theorem sstQc_flags {elev : Elev F} {p : BaseParams} {r r' : Report} (h : r.performBaseSstQc elev p = .ok r') :
    ∃ s : Report, (∃ q, r' = { s with qc := q }) ∧
      FlagIs r' "POSpos" (positionCheck (s.getvar "LAT") (s.getvar "LON")) ∧
      FlagIs r' "POSdate" (dateCheck (s.getint "YR") (s.getint "MO") (s.getint "DY")) ∧
      FlagIs r' "SSTnoval" (.ok (valueCheck (s.getvar "SST"))) ∧
      FlagIs r' "SSTclim" (.ok (climatologyCheck (s.getvar "SST") (s.getnorm "SST") (some p.sstMaxAnomaly))) ∧
      FlagIs r' "SSTnonorm" (.ok (noNormalCheck (s.getnorm "SST"))) := by
  unfold Report.performBaseSstQc at h
  simp only [bind_ok_iff, isBuoy_eq, isShip_eq', isDeck780_eq', Except.ok.injEq, exists_eq_left', List.cons_append,
    List.nil_append] at h
  obtain ⟨s, hs, r1, h1, r2, h2, h⟩ := h
  obtain ⟨pos, hpos, rfl⟩ := doPositionCheck_ok' h1
  obtain ⟨date, hdate, rfl⟩ := doDateCheck_ok' h2
  simp only [doTimeCheck_eq', Except.ok.injEq, exists_eq_left', List.cons_append, List.nil_append] at h
  obtain ⟨r3, h3, r4, h4, h5⟩ := h
  obtain ⟨blk, hblk, rfl⟩ := doBlacklist_ok' h3
  obtain ⟨day, rfl, hday1, hday2⟩ := doDayCheck_ok h4
  simp only [writes_writes, List.cons_append, List.nil_append] at h5
  obtain ⟨fr, sst, hfr, hsst, rfl⟩ := doBaseSstQc_ok' h5
  clear h1 h2 h3 h4 h5 hday1 hday2
  refine ⟨s, ⟨_, rfl⟩, ⟨pos, hpos, positionCheck_flag hpos, ?_⟩, ⟨date, hdate, dateCheck_flag hdate, ?_⟩,
    ⟨_, rfl, valueCheck_flag _, ?_⟩, ⟨_, rfl, climatologyCheck_flag _ _ _, ?_⟩, ⟨_, rfl, noNormalCheck_flag _, ?_⟩⟩
  all_goals (rw [writes_qc]; simp [lookupW_cons, lookupW_nil])

/-- The report has been through the base checks of this program, and since then neither its data nor these flags have
changed. -/
def SstChecked (elev : Elev F) (p : BaseParams) (r : Report) : Prop :=
  ∃ r0 r1 : Report, r0.performBaseSstQc elev p = .ok r1 ∧ r.data = r1.data ∧ r.clim = r1.clim ∧ ∀ k ∈ sstBaseKeys, r.qc k = r1.qc k

theorem sstChecked_step {elev : Elev F} {p : BaseParams} {r s : Report} (h : SstChecked elev p r) (h1 : s.data = r.data)
    (h2 : s.clim = r.clim) (h3 : ∀ k ∈ sstBaseKeys, s.qc k = r.qc k) : SstChecked elev p s := by
  obtain ⟨r0, r1, k1, k2, k3, k4⟩ := h
  exact ⟨r0, r1, k1, h1.trans k2, h2.trans k3, fun k hk => (h3 k hk).trans (k4 k hk)⟩

theorem sstChecked_good {elev : Elev F} {p : BaseParams} {r : Report} (h : SstChecked elev p r) :
    (WellPlaced r → ∃ c, FallsIn c (obsOf "SST" r)) ∧
    (r.getQc "SST" "noval" = 0 → r.getQc "SST" "nonorm" = 0 →
      ∃ x n, r.getvar "SST" = some x ∧ r.getnorm "SST" = some n ∧ r.getanom "SST" = some (x - n)) ∧
    (r.getQc "SST" "clim" = 0 → climatologyCheck (r.getvar "SST") (r.getnorm "SST") (some p.sstMaxAnomaly) = 0) := by
  obtain ⟨r0, r1, hb, hd, hcl, hk⟩ := h
  obtain ⟨s, ⟨q, hq⟩, hpos, hdate, hnv, hcm, hnn⟩ := sstQc_flags hb
  have hds : r.data = s.data := by rw [hd, hq]
  have hcs : r.clim = s.clim := by rw [hcl, hq]
  have hgv : ∀ v ∈ VARLIST, s.getvar v = r.getvar v := fun v hv => (getvar_alike hds hv).symm
  have hgn : ∀ v, s.getnorm v = r.getnorm v := fun v => by unfold Report.getnorm; rw [hcs]
  have hgi : ∀ v, s.getint v = r.getint v := fun v => (getint_alike hds v).symm
  have zero : ∀ {t f : String} {c : Except Err Int}, FlagIs r1 (t ++ f) c → t ++ f ∈ sstBaseKeys → r.getQc t f = 0 → c = .ok 0 :=
    fun h1 h2 h3 => flagIs_zero h1 (hk _ h2) (flag_zero h3)
  refine ⟨?_, ?_, ?_⟩
  · rintro ⟨g1, -, g3, -⟩
    have hp := zero (t := "POS") (f := "pos") hpos (by decide) g3
    have hdt := zero (t := "POS") (f := "date") hdate (by decide) g1
    rw [hgv _ (by decide), hgv _ (by decide)] at hp
    rw [hgi, hgi, hgi] at hdt
    cases hla : r.getvar "LAT" with
    | none => rw [hla, (C22_position_missing _).1] at hp; simp at hp
    | some la =>
      cases hlo : r.getvar "LON" with
      | none => rw [hlo, (C22_position_missing _).2] at hp; simp at hp
      | some lo =>
        rw [hla, hlo, C22_position] at hp
        have hin : (-90 ≤ la ∧ la ≤ 90) ∧ (-180 ≤ lo ∧ lo ≤ 360) := by
          by_contra hc
          rw [if_neg hc] at hp
          simp at hp
        cases hy : r.getint "YR" with
        | none => rw [hy] at hdt; simp [dateCheck] at hdt
        | some y =>
          cases hm : r.getint "MO" with
          | none => rw [hy, hm] at hdt; simp [dateCheck] at hdt
          | some m =>
            rw [hy, hm] at hdt
            obtain ⟨-, d, hdd, hdate⟩ := C22_date_pass y m _ hdt
            refine (C54_cell (obsOf "SST" r)).1.mpr ?_
            have hlon : ∃ l, r.lon = some l ∧ -180 ≤ l ∧ l ≤ 180 := by
              unfold Report.lon
              rw [hlo]
              simp only
              split
              · rename_i hgt
                exact ⟨_, rfl, by linarith, by linarith⟩
              · rename_i hgt
                exact ⟨_, rfl, by linarith, by linarith⟩
            obtain ⟨l, hl, hl1, hl2⟩ := hlon
            refine ⟨la, l, m, d, hla, hl, hm, hdd, hin.1.1, hin.1.2, hl1, hl2, ?_⟩
            obtain ⟨e1, e2, e3, e4⟩ := hdate
            refine ⟨e1, e2, e3, e4.trans ?_⟩
            have h04 : LeapYear 2004 := by decide
            unfold monthLength
            rw [if_pos h04]
            split
            · split <;> norm_num
            · exact le_refl _
  · intro h1 h2
    have a := zero (t := "SST") (f := "noval") hnv (by decide) h1
    have b := zero (t := "SST") (f := "nonorm") hnn (by decide) h2
    rw [hgv _ (by decide), Except.ok.injEq] at a
    rw [hgn, Except.ok.injEq] at b
    exact getanom_some a b
  · intro h1
    have a := zero (t := "SST") (f := "clim") hcm (by decide) h1
    rw [hgv _ (by decide), hgn, Except.ok.injEq] at a
    exact a

/-! ## The buddy checks complete -/

theorem hiresBuddies_completes {elev : Elev F} {p : BaseParams} (span : Int → Nat → Int) {B : BuddyInputs}
    (hB : SoundSstBuddies p B) {d : Deck} (hd : ∀ r ∈ d.reps, SstChecked elev p r) : ∃ d', hiresBuddies erf span B d = .ok d' := by
  have back : ∀ {m : List Report}, List.Forall₂ BuddySame d.reps m → ∀ s ∈ m, ∃ r ∈ d.reps, BuddySame r s := by
    intro m hm s hs
    obtain ⟨i, hi⟩ := List.mem_iff_getElem?.mp hs
    obtain ⟨r, hr, e⟩ := forall2_get hm.flip i s hi
    exact ⟨r, List.mem_of_getElem? hr, e⟩
  have s0 : List.Forall₂ BuddySame d.reps (d.addFilter sstBuddies).reps := List.forall₂_same.mpr fun r _ => buddySame_refl r
  obtain ⟨d1, h1⟩ : ∃ d1, bayesianBuddyCheck erf span (d.addFilter sstBuddies) "SST" B.sst1 B.sst2 B.sst3 B.sstBayes = .ok d1 := by
    refine C56_bayes_completes span _ "SST" _ _ _ _ (by decide) hB.bayes.prior hB.bayes.quantum (hB.bayes.limit ▸ hB.bayes.limit_pos)
      hB.bayes.sigma hB.bayes.noise hB.bayes.radius hB.sst1 hB.sst2 hB.sst3 fun s hs' hp => ?_
    obtain ⟨r, hr, hrs⟩ := back s0 s hs'
    have hEr := (passes_same means_sst hrs).mp hp
    obtain ⟨g1, g2, g3⟩ := sstChecked_good (hd r hr)
    obtain ⟨x, n, hx, hn, ha⟩ := g2 hEr.2.2.1 hEr.2.2.2.2.2
    rw [buddySame_obs hrs, buddySame_anom hrs, ha]
    refine ⟨g1 hEr.1, _, rfl, ?_⟩
    have := g3 hEr.2.2.2.2.1
    rw [hx, hn] at this
    rw [hB.bayes.limit]
    exact clim_close this
  obtain ⟨b1, f1, -⟩ := bayes_buddyStep h1 means_sst s0 (by decide)
  have m1 : Means d1.filter SstBuddy := by rw [f1]; exact means_sst
  obtain ⟨d2, h2⟩ : ∃ d2, mdsBuddyCheck span d1 "SST" B.pentad B.mds = .ok d2 := by
    refine C56_mds_completes span _ "SST" _ _ (by decide) hB.mds hB.pentad fun s hs' hp => ?_
    obtain ⟨r, hr, hrs⟩ := back b1.1 s hs'
    have hEr := (passes_same m1 hrs).mp hp
    obtain ⟨g1, g2, g3⟩ := sstChecked_good (hd r hr)
    obtain ⟨x, n, hx, hn, ha⟩ := g2 hEr.2.2.1 hEr.2.2.2.2.2
    rw [buddySame_obs hrs, buddySame_anom hrs, ha]
    exact ⟨g1 hEr.1, by simp⟩
  exact ⟨d2, by unfold hiresBuddies; rw [h1, except_bind_ok, h2]⟩

/-! ## What the loops keep -/

theorem hiresShip_checked {elev : Elev F} {p : BaseParams} {G : Geo} {rnd : Rat → Rat} {P : ShipParams} {v w : List Report}
    (h : hiresShip G rnd P v = .ok w) (hv : ∀ r ∈ v, SstChecked elev p r) : ∀ r ∈ w, SstChecked elev p r := by
  unfold hiresShip at h
  obtain ⟨a, h1, h2⟩ := bind_ok_iff.mp h
  have refl : ∀ v : List Report, Alike v v := fun v => alike_of_step (flagStep_refl v)
  have step : ∀ {keys : List String} {v v' : List Report}, (∀ k ∈ sstBaseKeys, k ∉ keys) → FlagStep keys v v' →
      (∀ r ∈ v, SstChecked elev p r) → ∀ r ∈ v', SstChecked elev p r := by
    intro keys v v' hk h hv r' hr'
    obtain ⟨n, hn⟩ := List.mem_iff_getElem?.mp hr'
    obtain ⟨r, hr, e⟩ := flagStep_get h n r' hn
    exact sstChecked_step (hv r (List.mem_of_getElem? hr)) e.2.2.1 e.2.2.2.1 fun k hkk => e.2.2.2.2.2.2 k (hk k hkk)
  exact step (by decide) (repeated_step (t := "SST") (by decide) (refl a) h2).1 (step (by decide) (track_step (refl v) h1).1 hv)

theorem checked_through {elev : Elev F} {p : BaseParams} {l u : List Report} (h : List.Forall₂ (OnlyFlags []) l u)
    (hl : ∀ r ∈ l, SstChecked elev p r) : ∀ r ∈ u, SstChecked elev p r := by
  intro r hr
  obtain ⟨n, hn⟩ := List.mem_iff_getElem?.mp hr
  obtain ⟨q, hq, e⟩ := forall2_get h.flip n r hn
  exact sstChecked_step (hl q (List.mem_of_getElem? hq)) e.data e.clim (fun k _ => e.flags k (by simp))

theorem hiresPass_checked {elev : Elev F} {p : BaseParams} {G : Geo} {rnd : Rat → Rat} {P : ShipParams}
    (es : List (Option String × List Nat)) : ∀ {d e : Deck}, shipRounds G (hiresShip G rnd P) es d = .ok e →
      (∀ r ∈ d.reps, SstChecked elev p r) → ∀ r ∈ e.reps, SstChecked elev p r := by
  induction es with
  | nil =>
    intro d e h hd
    cases h
    exact hd
  | cons x es ih =>
    intro d e h hd
    unfold shipRounds at h
    obtain ⟨d1, h1, h2⟩ := bind_ok_iff.mp h
    refine ih h2 ?_
    unfold shipRound at h1
    simp only [bind_ok_iff, except_pure, Except.ok.injEq] at h1
    obtain ⟨c, k1, v, k2, w, k3, rfl⟩ := h1
    unfold buildTagged at k2
    obtain ⟨u, k4, k5⟩ := bind_ok_iff.mp k2
    cases k5
    have hc : ∀ r ∈ c.map (·.1), SstChecked elev p r := by
      intro r hr
      obtain ⟨p, hp, rfl⟩ := List.mem_map.mp hr
      exact hd _ (platform_mem k1 p hp).1
    have hu : ∀ r ∈ u, SstChecked elev p r := checked_through (build_only G _ u k4) hc
    have hw := hiresShip_checked k3 (elev := elev) (p := p) (by
      intro r hr
      obtain ⟨p, hp, rfl⟩ := List.mem_map.mp hr
      exact hu _ (List.of_mem_zip hp).1)
    intro r hr
    rcases storeBack_mem hr with hr | hr
    · exact hd r hr
    · obtain ⟨p, hp, rfl⟩ := List.mem_map.mp hr
      exact hw _ (List.of_mem_zip hp).1

/-! ## Reading -/

/-- Reading goes on where the main program goes on, and the reports have been through the base checks. -/
structure ReadAlong (E : ReadEnv F) (s : ReadState) (d : Deck) : Prop where
  near : DeckNear s.deck d
  checked : ∀ r ∈ d.reps, SstChecked E.elev E.params r

theorem use_goes {E : ReadEnv F} {clim : Arr3} (hc : GridShape clim) {year month : Int} {bg : Option Arr3} {y m : Int} {s s1 : ReadState}
    {d : Deck} {rec : Imma} (hs : ReadAlong E s d) (hrec : Placed rec) (h : useRecord E year month bg y m s rec = .ok s1) :
    ∃ d1, hiresUse E clim year month d rec = .ok d1 ∧ ReadAlong E s1 d1 := by
  have h' := h
  unfold useRecord at h
  simp only [bind_ok_iff] at h
  obtain ⟨r0, h0, r1, h1, b, h2, r2, h3, h4⟩ := h
  cases h4
  have he : OnEarth r0 := onEarth_of_data (fun v hv => by
    simp only [List.mem_cons, List.not_mem_nil, or_false] at hv
    rcases hv with rfl | rfl <;> exact (reportOf_ok h0).2.2.1 _ (by decide)) hrec
  obtain ⟨x, hx, -⟩ := lookup_completes hc he
  have hb : bones b.1 = bones r0 := by
    rw [addBackground_bones h2, setAT2_ok h1]
    refine Eq.symm (bones_congr (r := r0) rfl rfl rfl (fun _ _ => rfl) (fun _ _ => rfl) (fun k hk => ?_))
    show (if k = "AT2" then r0.data "AT" else r0.data k) = r0.data k
    rw [if_neg]
    rintro rfl
    exact hk (by decide)
  obtain ⟨q, k1, k2⟩ := finish_goes hb h3 hx
  have hd1 : hiresUse E clim year month d rec = .ok (d.append q) := by
    unfold hiresUse
    rw [h0, except_bind_ok, k1]
    rfl
  refine ⟨_, hd1, use_near hs.near h' hd1, ?_⟩
  intro r hr
  rcases List.mem_append.mp (show r ∈ d.reps ++ [q] from hr) with hr | hr
  · exact hs.checked r hr
  · rw [List.mem_singleton] at hr
    subst hr
    unfold hiresFinish at k1
    obtain ⟨x', -, k1⟩ := bind_ok_iff.mp k1
    obtain ⟨t, k3, k4⟩ := bind_ok_iff.mp k1
    have e := setQc_eq k4
    refine ⟨_, t, k3, by rw [e], by rw [e], fun k hk => ?_⟩
    rw [e]
    show (if k = "POS" ++ "month_match" then _ else t.qc k) = t.qc k
    rw [if_neg]
    rintro rfl
    exact absurd hk (by decide)

theorem line_goes {E : ReadEnv F} {clim : Arr3} (hc : GridShape clim) {year month : Int} {bg : Option Arr3} {y m : Int} {s s1 : ReadState}
    {d : Deck} {line : List Char} (hs : ReadAlong E s d) (hrec : ∀ rec, Used E.excl y m line rec → Placed rec)
    (h : readLine E year month bg y m s line = .ok s1) :
    ∃ d1, hiresLine E clim year month y m d line = .ok d1 ∧ ReadAlong E s1 d1 := by
  unfold readLine at h
  unfold hiresLine
  obtain ⟨b, h1, h2⟩ := bind_ok_iff.mp h
  rw [h1, except_bind_ok]
  split_ifs at h2 with hb
  · rw [if_pos hb]
    refine use_goes hc hs (hrec _ ?_) h2
    rw [hb] at h1
    exact recordIn_iff.mp (wanted_true h1)
  · rw [if_neg hb]
    cases h2
    exact ⟨d, rfl, hs⟩

theorem fold_goes {α : Type} {E : ReadEnv F} {f : ReadState → α → Except Err ReadState} {g : Deck → α → Except Err Deck} (l : List α)
    (hfg : ∀ a ∈ l, ∀ s t s1, ReadAlong E s t → f s a = .ok s1 → ∃ t1, g t a = .ok t1 ∧ ReadAlong E s1 t1) :
    ∀ {s s1 : ReadState} {t : Deck}, ReadAlong E s t → l.foldlM f s = .ok s1 → ∃ t1, l.foldlM g t = .ok t1 ∧ ReadAlong E s1 t1 := by
  induction l with
  | nil => intro s s1 t hs h; cases h; exact ⟨t, rfl, hs⟩
  | cons a l ih =>
    intro s s1 t hs h
    rw [List.foldlM_cons] at h
    obtain ⟨s0, h1, h2⟩ := bind_ok_iff.mp h
    obtain ⟨t0, k1, k2⟩ := hfg a (by simp) s t s0 hs h1
    obtain ⟨t1, k3, k4⟩ := ih (fun b hb => hfg b (by simp [hb])) k2 h2
    exact ⟨t1, by rw [List.foldlM_cons, k1, except_bind_ok, k3], k4⟩

theorem monthFile_goes {E : ReadEnv F} {clim : Arr3} (hc : GridShape clim) {year month : Int} {s s1 : ReadState} {d : Deck} {ym : Int × Int}
    (hs : ReadAlong E s d) (hrec : ∀ line ∈ linesOfFile E ym, ∀ rec, Used E.excl ym.1 ym.2 line rec → Placed rec)
    (h : readMonthFile E year month s ym = .ok s1) : ∃ d1, hiresMonthFile E clim year month d ym = .ok d1 ∧ ReadAlong E s1 d1 := by
  unfold readMonthFile at h
  unfold hiresMonthFile
  obtain ⟨bg, h1, h⟩ := bind_ok_iff.mp h
  obtain ⟨name, h2, h⟩ := bind_ok_iff.mp h
  obtain ⟨file, h3, h⟩ := bind_ok_iff.mp h
  rw [h2, except_bind_ok, h3, except_bind_ok]
  have hl : linesOfFile E ym = file.getD [] := by
    unfold linesOfFile
    rw [h2]
    cases name with
    | none => cases h3
    | some p =>
      unfold openFile at h3
      injection h3 with h3
      simp only
      rw [h3]
  cases file with
  | none =>
    cases h
    exact ⟨d, rfl, hs⟩
  | some lines =>
    exact fold_goes (f := readLine E year month bg ym.1 ym.2) (g := hiresLine E clim year month ym.1 ym.2) lines
      (fun line hline _ _ _ hs h => line_goes hc hs (hrec line (by rw [hl]; exact hline)) h) hs h

theorem reports_go {E : ReadEnv F} {lib : ClimLib Arr3} {clim : Arr3} (hc : GridShape clim) {year month : Int} (hm : 1 ≤ month ∧ month ≤ 12)
    {s : ReadState} (hrec : ∀ ym ∈ around (year, month), ∀ line ∈ linesOfFile E ym, ∀ rec, Used E.excl ym.1 ym.2 line rec → Placed rec)
    (h : readReports E lib year month = .ok s) : ∃ d, hiresReports E clim year month = .ok d ∧ ReadAlong E s d := by
  obtain ⟨p, q, hp', hp1, rfl, hr'⟩ := C08_three_months year month hm 3 (le_refl 3)
  have hl : p = predMonth (year, month) := by
    obtain ⟨a, b⟩ := p
    unfold predMonth
    unfold succMonth at hp'
    simp only at hp' hp1 ⊢
    split_ifs at hp' ⊢ <;> simp only [Prod.mk.injEq] at hp' ⊢ <;> omega
  subst hl
  unfold readReports at h
  unfold hiresReports
  rw [hr', except_bind_ok] at h ⊢
  exact fold_goes (f := readMonthFile E year month) (g := hiresMonthFile E clim year month) _
      (fun ym hym _ _ _ hs h => monthFile_goes hc hs (hrec ym hym) h) (s := ⟨-99, lib, Deck.empty⟩) (t := Deck.empty)
      ⟨⟨rfl, rfl⟩, by simp [Deck.empty]⟩ h

/-! ## The month -/

/-- The month read and the ships checked by the main program, without the background. -/
theorem main_ships {E : RunEnv F} (hp : GoodParams E.read.params) (hG : IsDistance E.geo) (hP : SoundShipParams E.ships)
    {m : Int × Int} (ha : ArchiveReady E.read m) :
    ∃ s d, readReports { E.read with tracking := false } sampleLib m.1 m.2 = .ok s ∧
      shipPass E.geo (shipChecks E.geo E.rnd E.ships) (s.deck.addFilter shipFilter) = .ok d := by
  have hb := succMonth_predMonth ha.month
  have hb' := predMonth_month ha.month
  have hE : BackgroundReady { E.read with tracking := false } :=
    ⟨fun h => absurd h (by simp), fun h => absurd h (by simp)⟩
  obtain ⟨s, h1⟩ := C106_completes_partial { E.read with tracking := false } hE hp sampleLib sampleLib_ready m.1 m.2 ha.year
    ha.month (predMonth m) hb hb' ha.found ha.idents
    (fun ym hym _ hline _ hu => ha.placed ym hym _ (used_recordsIn hline hu))
  obtain ⟨before', b1, b2, b3, b4⟩ := C104_reports { E.read with tracking := false } sampleLib m.1 m.2 ha.month s h1
  have hbb : before' = predMonth m := by
    have : succMonth before' = succMonth (predMonth m) := by rw [b1, hb]
    generalize predMonth m = p at this hb'
    obtain ⟨x, y⟩ := before'
    obtain ⟨x', y'⟩ := p
    unfold succMonth at this
    simp only at this hb' b2
    split_ifs at this <;> simp only [Prod.mk.injEq] at this ⊢ <;> omega
  subst hbb
  have back : ∀ r ∈ s.deck.reps, ∃ p : (Int × Int) × Imma,
      ReadAs E.read.hum E.read.elev E.read.params sampleLib m.1 m.2 p.1 p.2 r := by
    intro r hr
    obtain ⟨n, hn⟩ := List.mem_iff_getElem?.mp hr
    obtain ⟨q, -, hq⟩ := forall2_get b4.flip n r hn
    exact ⟨q, hq⟩
  have hlater : [predMonth m, m, succMonth m].Pairwise LaterMonth := by
    have l1 : LaterMonth (predMonth m) m := by
      have := laterMonth_succ hb'
      rwa [hb] at this
    have l2 := laterMonth_succ ha.month
    simp [l1, l2, laterMonth_trans l1 l2]
  have hpw : s.deck.reps.Pairwise fun a b => a.id = b.id → PlacedWell a → PlacedWell b → ∃ t, a.timeTo b = .ok (some t) ∧ 0 ≤ t :=
    forall2_pairwise b4 (recordsFor_ordered { E.read with tracking := false } _ hlater ha.ordered)
      fun a ha a' ha' b b' e e' hab => readAs_order (recordsFor_month ha) (recordsFor_month ha') e e' hab
  obtain ⟨d1, h2⟩ := C101_completes_partial E.geo hG E.rnd E.ships hP s.deck.reps shipFilter (by
      intro r hr hpass
      obtain ⟨q, hq⟩ := back r hr
      exact ⟨baseChecked_report (readAs_baseChecked hq) ((passes_shipFilter r).mp hpass), readAs_course hq⟩) (by
      intro i
      unfold InTimeOrder
      rw [List.pairwise_filter]
      refine hpw.imp ?_
      intro a b hab ha hb
      simp only [decide_eq_true_eq] at ha hb
      exact hab (ha.1.trans hb.1.symm) ((passes_shipFilter a).mp ha.2) ((passes_shipFilter b).mp hb.2))
  exact ⟨s, d1, h1, by rw [← h2, ← b3]⟩

theorem hires_checked {E : RunEnv F} {clim : Arr3} (hE : HiresReady E clim) {m : Int × Int} (ha : ArchiveReady E.read m) :
    ∃ d, hiresChecked E clim m = .ok d := by
  obtain ⟨s, d, h1, h2⟩ := main_ships hE.params hE.geo hE.ships ha
  obtain ⟨t, k1, k2, k3⟩ := reports_go (E := { E.read with tracking := false }) (clim := clim) hE.clim ha.month
    (fun ym hym _ hline _ hu => ha.placed ym hym _ (used_recordsIn hline hu)) h1
  unfold shipPass at h2
  obtain ⟨e, i1, -⟩ := shipRounds_agree (ship_agree E.geo E.rnd E.ships) _ (d := s.deck.addFilter shipFilter)
    (d' := t.addFilter shipFilter) ⟨k2.reps, k2.index⟩ rfl bone_ship h2
  have hi : (t.addFilter shipFilter).idtracker = (s.deck.addFilter shipFilter).idtracker := k2.index
  rw [← hi] at i1
  obtain ⟨d', j⟩ := hiresBuddies_completes E.span hE.buddies (hiresPass_checked _ i1 k3)
  refine ⟨d', ?_⟩
  unfold hiresChecked
  have k1' : hiresReports E.read clim m.1 m.2 = .ok t := k1
  rw [k1', except_bind_ok]
  unfold shipPass
  rw [i1, except_bind_ok, j]

end MarineQC
