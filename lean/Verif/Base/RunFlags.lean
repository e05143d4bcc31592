import Verif.Base.RunChecks

/-! # The values of the flags after the checks of a month (C117) -/

namespace MarineQC

open Spec

variable {F : Type} [LinearOrder F] [Zero F]

/-- The flags with more than two values: those of the Bayesian buddy checks. -/
def Spec.gradedFlags : List String := ["SSTbbud", "ATbbud"]

/-- Every flag that was set is 0 or 1, those of the Bayesian buddy checks between 0 and 9. -/
def Spec.FlagsIn (r : Report) : Prop :=
  ∀ k x, r.qc k = some x → (x = 0 ∨ x = 1) ∨ (k ∈ gradedFlags ∧ 0 ≤ x ∧ x ≤ 9)

/-- Every flag that was set is 0 or 1. -/
def BinaryFlags (r : Report) : Prop := ∀ k x, r.qc k = some x → x = 0 ∨ x = 1

/-- A computation whose result, if any, has only flags 0 and 1. -/
def BinaryPost (x : Except Err Report) : Prop := ∀ r, x = .ok r → BinaryFlags r

theorem BinaryPost.ok {r : Report} (h : BinaryFlags r) : BinaryPost (.ok r) := by
  intro r' e; injection e with e; exact e ▸ h

theorem BinaryPost.pure' {r : Report} (h : BinaryFlags r) : BinaryPost (pure r) := BinaryPost.ok h

theorem BinaryPost.error (e : Err) : BinaryPost (.error e) := by intro r h; cases h

theorem BinaryPost.set {r : Report} {t f : String} {v : Int} (hr : BinaryFlags r) (hv : v = 0 ∨ v = 1) : BinaryPost (r.setQc t f v) := by
  intro r' h k x hx
  unfold Report.setQc at h
  simp only [bind_ok_iff] at h
  obtain ⟨-, -, -, -, h⟩ := h
  injection h with h
  subst h
  simp only at hx
  split at hx
  · injection hx with hx; omega
  · exact hr k x hx

theorem BinaryPost.bind {x : Except Err Report} {f : Report → Except Err Report} (hx : BinaryPost x)
    (hf : ∀ r, BinaryFlags r → BinaryPost (f r)) : BinaryPost (x >>= f) := by
  intro r' h
  rw [bind_ok_iff] at h
  obtain ⟨r, h1, h2⟩ := h
  exact hf r (hx r h1) r' h2

theorem BinaryPost.bindFlag {x : Except Err Int} {f : Int → Except Err Report} (hx : ∀ v, x = .ok v → v = 0 ∨ v = 1)
    (hf : ∀ v, (v = 0 ∨ v = 1) → BinaryPost (f v)) : BinaryPost (x >>= f) := by
  intro r' h
  rw [bind_ok_iff] at h
  obtain ⟨v, h1, h2⟩ := h
  exact hf v (hx v h1) r' h2

theorem BinaryPost.ite {c : Prop} [Decidable c] {a b : Except Err Report} (ha : BinaryPost a) (hb : BinaryPost b) :
    BinaryPost (if c then a else b) := by
  split <;> assumption

/-- Steps of the base checks. -/
macro "binary_flags" : tactic => `(tactic| repeat' (first
  | assumption
  | with_reducible exact BinaryPost.error _
  | with_reducible refine BinaryPost.set ?_ ?_
  | with_reducible refine BinaryPost.ite ?_ ?_
  | with_reducible refine BinaryPost.bind ?_ (fun _ _ => ?_)
  | with_reducible refine BinaryPost.bindFlag ?_ (fun _ _ => ?_)
  | with_reducible refine BinaryPost.pure' ?_
  | with_reducible refine BinaryPost.ok ?_
  | exact valueCheck_flag _ | exact noNormalCheck_flag _ | exact timeCheck_flag _ | exact supersatCheck_flag _ _
  | exact windConsistency_flag _ _ _ | exact climatologyCheck_flag _ _ _
  | exact fun _ => hardLimit_flag | exact fun _ => positionCheck_flag | exact fun _ => dateCheck_flag
  | exact fun _ => freeze_flag | exact fun _ => lowbar_flag | exact fun _ => stdev_flag | exact fun _ => blacklist_flag
  | exact fun _ => dayTest_flag
  | exact Or.inl rfl | exact Or.inr rfl
  | split))

theorem baseQc_binary {elev : Elev F} {p : BaseParams} {r r' : Report} (hr : BinaryFlags r) (h : r.performBaseQc elev p = .ok r') :
    BinaryFlags r' := by
  refine (?_ : BinaryPost (r.performBaseQc elev p)) r' h
  unfold Report.performBaseQc
  refine BinaryPost.bind ?_ (fun r hr => ?_)
  · intro s hs
    have := (C34_missing_hour r s hs).2.2.2.1
    intro k x hx
    rw [this] at hx
    exact hr k x hx
  unfold Report.isBuoy Report.isShip Report.isDeck780 Report.doPositionCheck Report.doDateCheck Report.doTimeCheck
    Report.doBlacklist Report.doDayCheck Report.humidityBlacklist Report.matBlacklist Report.windBlacklist Report.doBaseSstQc
    Report.doBaseMatQc Report.doBaseDptQc Report.doBaseSlpQc Report.doBaseWindQc Report.dptHard Report.dptHardStep
    Report.doKateMatQc
  binary_flags

theorem readAs_binary {H : HumFns} {elev : Elev F} {p : BaseParams} {lib : ClimLib Arr3} {year month : Int} {ym : Int × Int}
    {rec : Imma} {r : Report} (h : ReadAs H elev p lib year month ym rec r) : BinaryFlags r := by
  obtain ⟨raw, checked, hp, hq, rfl⟩ := h
  have := baseQc_binary (r := raw) (by
    intro k x hx
    rw [hp.flags k] at hx
    cases hx) hq
  intro k x hx
  simp only at hx
  split at hx
  · injection hx with hx
    subst hx
    split <;> simp
  · exact this k x hx

theorem decided_value {r : Report} {t f : String} (h : Decided r t f) {x : Int} (hx : r.qc (t ++ f) = some x) : x = 0 ∨ x = 1 := by
  unfold Decided Report.getQc at h
  rw [hx] at h
  exact h

theorem shipFlags_binary {G : Geo} {rnd : Rat → Rat} {P : ShipParams} {l w : List Report} (h : ShipFlags G rnd P l w)
    {n : Nat} {r r' : Report} (hr : l[n]? = some r) (hr' : w[n]? = some r') (hb : BinaryFlags r) : BinaryFlags r' := by
  intro k x hx
  by_cases hk : k ∈ stored shipFlagNames
  · have hw := List.mem_of_getElem? hr'
    obtain ⟨_, -, h2⟩ := h.speed
    obtain ⟨_, -, h3⟩ := h.spike
    simp only [stored, shipFlagNames, List.map_cons, List.map_nil, List.mem_cons, List.not_mem_nil, or_false] at hk
    rcases hk with rfl | rfl | rfl | rfl | rfl | rfl | rfl | rfl | rfl | rfl | rfl
    · exact decided_value (h.trkDecided r' hw) hx
    · exact decided_value (h.few n r' hr').1 hx
    · exact decided_value (h2 n r' hr').1 hx
    · exact decided_value (h3 n r' hr').1 hx
    · exact decided_value (h.saturated n r' hr').1 hx
    · exact decided_value (h.rounded n r' hr').1 hx
    · exact decided_value (h.repeated "SST" (by simp) n r' hr').1 hx
    · exact decided_value (h.repeated "AT" (by simp) n r' hr').1 hx
    · exact decided_value (h.repeated "AT2" (by simp) n r' hr').1 hx
    · exact decided_value (h.repeated "DPT" (by simp) n r' hr').1 hx
    · exact decided_value (h.repeated "SLP" (by simp) n r' hr').1 hx
  · rw [(h.only n r r' hr hr').flags k hk] at hx
    exact hb k x hx

theorem buddyFlags_in {span : Int → Nat → Int} {B : BuddyInputs} {l : List Report} {r r' : Report} (h : BuddyFlags span B l r r')
    (hb : BinaryFlags r) : FlagsIn r' := by
  intro k x hx
  by_cases hk : k ∈ stored buddyFlagNames
  · have val : ∀ t f, k = t ++ f → x = r'.getQc t f := by
      rintro t f rfl
      unfold Report.getQc
      rw [hx]
    simp only [stored, buddyFlagNames, List.map_cons, List.map_nil, List.mem_cons, List.not_mem_nil, or_false] at hk
    rcases hk with rfl | rfl | rfl | rfl | rfl | rfl
    · right; rw [val "SST" "bbud" rfl]; exact ⟨by decide, h.sstBayes.1⟩
    · left; rw [val "SST" "bud" rfl]; exact h.sst.1
    · right; rw [val "AT" "bbud" rfl]; exact ⟨by decide, h.atBayes.1⟩
    · left; rw [val "AT" "bud" rfl]; exact h.at'.1
    · left; rw [val "DPT" "bud" rfl]; exact h.dpt.1
    · left; rw [val "SLP" "bud" rfl]; exact h.slp.1
  · rw [h.others k hk] at hx
    exact Or.inl (hb k x hx)

/-- What became of a report that was read: the change by the checks of ships, then that by the buddy checks. -/
theorem checked_steps (E : RunEnv F) (hG : IsDistance E.geo) (hP : GoodShipParams E.ships) (lib lib' : ClimLib Arr3) (m : Int × Int)
    (hm : 1 ≤ m.2 ∧ m.2 ≤ 12) (d : Deck) (h : checkedMonth E lib m = .ok (d, lib')) :
    ∃ s, readReports E.read lib m.1 m.2 = .ok s ∧
      List.Forall₂ (fun r r' => BinaryFlags r → FlagsIn r' ∧ (∀ k, k ∉ linkNames ++ altNames → r'.ext k = r.ext k))
        s.deck.reps d.reps := by
  obtain ⟨s, before, mid, f, g, h1, -, -, -, hlen, hun, hsh, -, -, hbud⟩ := checked_flags E hG hP lib lib' m hm d h
  refine ⟨s, h1, ?_⟩
  rw [List.forall₂_iff_get]
  have hl2 : mid.length = d.reps.length := hbud.length_eq
  refine ⟨by omega, ?_⟩
  intro i h₁ h₂ hb
  have hi : i < mid.length := by omega
  have e1 : s.deck.reps[i]? = some (s.deck.reps.get ⟨i, h₁⟩) := by simp
  have e2 : mid[i]? = some (mid.get ⟨i, hi⟩) := by simp
  have hB := (List.forall₂_iff_get.mp hbud).2 i hi h₂
  have hmid : BinaryFlags (mid.get ⟨i, hi⟩) ∧ ∀ k, k ∉ linkNames ++ altNames → (mid.get ⟨i, hi⟩).ext k = (s.deck.reps.get ⟨i, h₁⟩).ext k := by
    by_cases hp : PlacedWell (s.deck.reps.get ⟨i, h₁⟩)
    · have hmem : (s.deck.reps.get ⟨i, h₁⟩, mid.get ⟨i, hi⟩) ∈ platformPairs (s.deck.reps.get ⟨i, h₁⟩).id s.deck.reps mid := by
        refine List.mem_filter.mpr ⟨?_, decide_eq_true ⟨rfl, hp⟩⟩
        refine List.mem_iff_getElem?.mpr ⟨i, ?_⟩
        rw [List.getElem?_zip_eq_some]
        exact ⟨e1, e2⟩
      obtain ⟨n, hn⟩ := List.mem_iff_getElem?.mp hmem
      have hS := hsh _ (List.mem_of_getElem? e1)
      have g1 : ((platformPairs (s.deck.reps.get ⟨i, h₁⟩).id s.deck.reps mid).map (·.1))[n]? = some (s.deck.reps.get ⟨i, h₁⟩) := by
        rw [List.getElem?_map, hn]; rfl
      have g2 : ((platformPairs (s.deck.reps.get ⟨i, h₁⟩).id s.deck.reps mid).map (·.2))[n]? = some (mid.get ⟨i, hi⟩) := by
        rw [List.getElem?_map, hn]; rfl
      exact ⟨shipFlags_binary hS g1 g2 hb, (hS.only n _ _ g1 g2).ext⟩
    · rw [hun i _ _ e1 e2 hp]
      exact ⟨hb, fun _ _ => rfl⟩
  refine ⟨buddyFlags_in hB hmid.1, fun k hk => ?_⟩
  rw [← hmid.2 k hk, hB.same]

/-- **C117.**  After the checks of a month every flag that was set on a report is 0 or 1, or, for the Bayesian buddy checks,
between 0 and 9; so each flag is one digit when it is written. -/
theorem C117_flags (E : RunEnv F) (hG : IsDistance E.geo) (hP : GoodShipParams E.ships) (lib lib' : ClimLib Arr3) (m : Int × Int)
    (hm : 1 ≤ m.2 ∧ m.2 ≤ 12) (d : Deck) (h : checkedMonth E lib m = .ok (d, lib')) : ∀ r ∈ d.reps, FlagsIn r := by
  obtain ⟨s, h1, h2⟩ := checked_steps E hG hP lib lib' m hm d h
  obtain ⟨before, -, -, -, hall⟩ := C104_reports E.read lib m.1 m.2 hm s h1
  intro r hr'
  obtain ⟨n, hn⟩ := List.mem_iff_getElem?.mp hr'
  obtain ⟨q, q1, q2⟩ := forall2_get h2.flip n r hn
  obtain ⟨p, -, hp⟩ := forall2_get hall.flip n q q1
  exact (q2 (readAs_binary hp)).1

theorem flagsIn_digit {r : Report} (h : FlagsIn r) (t f : String) : 0 ≤ r.getQc t f ∧ r.getQc t f ≤ 9 := by
  unfold Report.getQc
  cases hx : r.qc (t ++ f) with
  | none => simp
  | some x => rcases h _ x hx with h | ⟨-, h⟩ <;> simp only <;> omega

end MarineQC
