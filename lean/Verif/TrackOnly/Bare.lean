import Verif.TrackOnly.Decks
import Verif.Base.ShipFlags
import Verif.Base.RunFiles

/-! # Reports without a climatology other than that of sea-surface temperature -/

namespace MarineQC

open Spec

/-- There is no climatology but that of sea-surface temperature. -/
def Bare (r : Report) : Prop := ∀ k, k ≠ "SST" → r.clim k = none

theorem bare_of_clim {r s : Report} (h : s.clim = r.clim) (hr : Bare r) : Bare s := fun k hk => by rw [h]; exact hr k hk

theorem bare_of_step {keys : List String} {v v' : List Report} (h : FlagStep keys v v') (hv : ∀ r ∈ v, Bare r) :
    ∀ r ∈ v', Bare r := by
  intro r' hr'
  obtain ⟨n, hn⟩ := List.mem_iff_getElem?.mp hr'
  obtain ⟨r, hr, e⟩ := flagStep_get h n r' hn
  exact bare_of_clim e.2.2.2.1 (hv r (List.mem_of_getElem? hr))

theorem bare_ship {G : Geo} {rnd : Rat → Rat} {P : ShipParams} {v w : List Report} (h : trackOnlyShip G rnd P v = .ok w)
    (hv : ∀ r ∈ v, Bare r) : ∀ r ∈ w, Bare r := by
  unfold trackOnlyShip at h
  obtain ⟨a, h1, h⟩ := bind_ok_iff.mp h
  obtain ⟨b, h2, h⟩ := bind_ok_iff.mp h
  obtain ⟨c, h3, h⟩ := bind_ok_iff.mp h
  obtain ⟨d, h4, h⟩ := bind_ok_iff.mp h
  obtain ⟨e, h5, h6⟩ := bind_ok_iff.mp h
  have refl : ∀ v : List Report, Alike v v := fun v => alike_of_step (flagStep_refl v)
  have k6 := (repeatedChecks_step (l := e) _ _ _ (by decide) (by decide) (refl e) h6).1
  have k5 := (rounded_step (by decide) (refl d) h5).1
  exact bare_of_step k6 (bare_of_step k5 (bare_of_step (saturated_step (refl c) h4).1 (bare_of_step (spike_keeps h3)
    (bare_of_step (iquam_keeps h2) (bare_of_step (track_step (refl v) h1).1 hv)))))

theorem platform_mem {d : Deck} {l : List Nat} {c : List (Report × Nat)} (h : d.platform l = .ok c) : ∀ p ∈ c, p.1 ∈ d.reps ∧ d.filter.testReport p.1 = 0 := by
  have key : ∀ (l : List Nat) (v c : List (Report × Nat)), (∀ p ∈ v, p.1 ∈ d.reps ∧ d.filter.testReport p.1 = 0) →
      l.foldlM (fun v (i : Nat) => do
        let r ← pyIndex d.reps i
        return if d.filter.testReport r = 0 then v ++ [(r, i)] else v) v = .ok c →
        ∀ p ∈ c, p.1 ∈ d.reps ∧ d.filter.testReport p.1 = 0 := by
    intro l
    induction l with
    | nil =>
      intro v c hv h
      cases h
      exact hv
    | cons i l ih =>
      intro v c hv h
      rw [List.foldlM_cons] at h
      obtain ⟨w, h1, h2⟩ := bind_ok_iff.mp h
      obtain ⟨r, h3, h4⟩ := bind_ok_iff.mp h1
      refine ih w c ?_ h2
      have hr : r ∈ d.reps := by
        unfold pyIndex at h3
        dsimp only at h3
        generalize (if (i : Int) < 0 then (i : Int) + d.reps.length else i) = j at h3
        split_ifs at h3
        cases e : d.reps[j.toNat]? with
        | none => rw [e] at h3; cases h3
        | some a =>
          rw [e] at h3
          cases h3
          exact List.mem_of_getElem? e
      cases h4
      split_ifs with ht
      · intro p hp
        rcases List.mem_append.mp hp with hp | hp
        · exact hv p hp
        · rw [List.mem_singleton] at hp
          exact hp ▸ ⟨hr, ht⟩
      · exact hv
  exact key l [] c (by simp) h

theorem bare_build {G : Geo} {l v : List Report} (h : l.foldlM (addReport G) [] = .ok v) (hl : ∀ r ∈ l, Bare r) :
    ∀ r ∈ v, Bare r := by
  have := build_only G l v h
  clear h
  induction this with
  | nil => simp
  | cons e _ ih =>
    intro r hr
    rcases List.mem_cons.mp hr with rfl | hr
    · exact bare_of_clim e.clim (hl _ (by simp))
    · exact ih (fun r hr => hl r (by simp [hr])) r hr

theorem storeBack_mem {v : List (Report × Nat)} : ∀ {reps : List Report} {r : Report}, r ∈ storeBack reps v →
    r ∈ reps ∨ r ∈ v.map (·.1) := by
  unfold storeBack
  induction v with
  | nil => intro reps r h; exact Or.inl h
  | cons p v ih =>
    intro reps r h
    rw [List.foldl_cons] at h
    rcases ih h with h | h
    · rcases List.mem_or_eq_of_mem_set h with h | h
      · exact Or.inl h
      · exact Or.inr (by simp [h])
    · exact Or.inr (by simp [h])

theorem bare_rounds {G : Geo} {g : List Report → Except Err (List Report)}
    (hg : ∀ v w, g v = .ok w → (∀ r ∈ v, Bare r) → ∀ r ∈ w, Bare r) (es : List (Option String × List Nat)) :
    ∀ {d e : Deck}, shipRounds G g es d = .ok e → (∀ r ∈ d.reps, Bare r) → ∀ r ∈ e.reps, Bare r := by
  induction es with
  | nil =>
    intro d e h hd
    cases h
    exact hd
  | cons x es ih =>
    intro d e h hd
    unfold shipRounds at h
    obtain ⟨d1, h1, h2⟩ := bind_ok_iff.mp h
    refine ih h2 ?_
    unfold shipRound at h1
    simp only [bind_ok_iff, except_pure, Except.ok.injEq] at h1
    obtain ⟨c, k1, v, k2, w, k3, rfl⟩ := h1
    unfold buildTagged at k2
    obtain ⟨u, k4, k5⟩ := bind_ok_iff.mp k2
    cases k5
    have hc : ∀ r ∈ c.map (·.1), Bare r := by
      intro r hr
      obtain ⟨p, hp, rfl⟩ := List.mem_map.mp hr
      exact hd _ (platform_mem k1 p hp).1
    have hu := bare_build k4 hc
    have hw := hg _ _ k3 (by
      intro r hr
      obtain ⟨p, hp, rfl⟩ := List.mem_map.mp hr
      exact hu _ (List.of_mem_zip hp).1)
    intro r hr
    rcases storeBack_mem hr with hr | hr
    · exact hd r hr
    · obtain ⟨p, hp, rfl⟩ := List.mem_map.mp hr
      exact hw _ (List.of_mem_zip hp).1

theorem mapM_bare {f : Report → Except Err Report} (hf : ∀ r r', f r = .ok r' → r'.clim = r.clim) :
    ∀ {l l' : List Report}, l.mapM f = .ok l' → (∀ r ∈ l, Bare r) → ∀ r ∈ l', Bare r := by
  intro l
  induction l with
  | nil => intro l' h _; cases h; simp
  | cons a l ih =>
    intro l' h hl
    rw [List.mapM_cons] at h
    obtain ⟨b, h1, h⟩ := bind_ok_iff.mp h
    obtain ⟨c, h2, h⟩ := bind_ok_iff.mp h
    cases h
    intro r hr
    rcases List.mem_cons.mp hr with rfl | hr
    · exact bare_of_clim (hf _ _ h1) (hl a (by simp))
    · exact ih h2 (fun r hr => hl r (by simp [hr])) r hr

theorem setQc_clim {r r' : Report} {t f : String} {x : Int} (h : r.setQc t f x = .ok r') : r'.clim = r.clim := by
  rw [setQc_eq h]

theorem bare_buddies {erf : ℝ → ℝ} {span : Int → Nat → Int} {B : BuddyInputs} {d e : Deck}
    (h : trackOnlyBuddies erf span B d = .ok e) (hd : ∀ r ∈ d.reps, Bare r) : ∀ r ∈ e.reps, Bare r := by
  unfold trackOnlyBuddies at h
  obtain ⟨a, h1, h2⟩ := bind_ok_iff.mp h
  have ha : ∀ r ∈ a.reps, Bare r := by
    unfold bayesianBuddyCheck at h1
    simp only [bind_ok_iff, except_pure, Except.ok.injEq] at h1
    obtain ⟨-, -, g, h2, lim, h3, reps, h4, rfl⟩ := h1
    refine mapM_bare ?_ h4 hd
    intro r r' hr
    unfold bayesBuddyFlag at hr
    split_ifs at hr
    · simp only [bind_ok_iff] at hr
      obtain ⟨l, -, hr⟩ := hr
      split at hr
      · simp only [bind_ok_iff] at hr
        obtain ⟨p, -, hr⟩ := hr
        exact setQc_clim hr
      · simp at hr
    · exact setQc_clim hr
  unfold mdsBuddyCheck at h2
  simp only [bind_ok_iff, except_pure, Except.ok.injEq] at h2
  obtain ⟨-, -, g, h2, lim, h3, reps, h4, rfl⟩ := h2
  refine mapM_bare ?_ h4 ha
  intro r r' hr
  unfold mdsBuddyFlag at hr
  split_ifs at hr
  · simp only [bind_ok_iff] at hr
    obtain ⟨l, -, hr⟩ := hr
    split at hr
    · exact setQc_clim hr
    · simp at hr
  · exact setQc_clim hr

theorem bare_voyage {G : Geo} {d : Deck} {l : List Nat} {v : List Report} (h : d.voyage G l = .ok v) (hd : ∀ r ∈ d.reps, Bare r) :
    ∀ r ∈ v, Bare r := by
  unfold Deck.voyage at h
  obtain ⟨c, h1, h2⟩ := bind_ok_iff.mp h
  refine bare_build h2 ?_
  intro r hr
  obtain ⟨p, hp, rfl⟩ := List.mem_map.mp hr
  exact hd _ (platform_mem h1 p hp).1

end MarineQC
