import Verif.Buoy.Model
import Verif.Track.Complete

/-!
# The track of a drifting buoy and its smoothing (used by C49-C51)
-/

namespace MarineQC

namespace Spec

/-- Report `i` of the record was made at latitude `lat i` and longitude `lon i`, `hrs i` hours after the first
one (according to the stored time differences); the times are in order. -/
structure IsTrack (v : List Report) (lat lon hrs : Nat → Rat) : Prop where
  position : ∀ (i : Nat) (r : Report), v[i]? = some r →
    r.getvar "LAT" = some (lat i) ∧ r.getvar "LON" = some (lon i)
  start : hrs 0 = 0
  elapsed : ∀ (i : Nat) (r : Report), v[i + 1]? = some r →
    r.getext "time_diff" = .ok (some (hrs (i + 1) - hrs i))
  ordered : ∀ i, i + 1 < v.length → hrs i ≤ hrs (i + 1)

/-- More than half of the `w` values of `f` from `a` on are at most `m` and more than half are at least `m` (for
an odd number of values, exactly the middle one satisfies this). -/
def IsMedian (m : Rat) (f : Nat → Rat) (a w : Nat) : Prop :=
  w < 2 * ((List.range' a w).countP fun i => decide (f i ≤ m))
    ∧ w < 2 * ((List.range' a w).countP fun i => decide (m ≤ f i))

/-- The track of `n` reports smoothed with a window of `w` reports: medians of latitude and longitude over the
window, and the time in the middle of the window.  There are `n - w + 1` windows. -/
def IsSmoothed (n w : Nat) (lat lon hrs slat slon shrs : Nat → Rat) : Prop :=
  ∀ i, i + w ≤ n → IsMedian (slat i) lat i w ∧ IsMedian (slon i) lon i w ∧ shrs i = hrs (i + w / 2)

end Spec

open Spec

/-! ## Retrieving the track -/

theorem cumHours_range (lat lon d hrs : Nat → Rat) (n k : Nat) (acc : Rat) (h0 : acc + d k = hrs k)
    (hs : ∀ i, k ≤ i → i + 1 < k + n → hrs i + d (i + 1) = hrs (i + 1)) :
    cumHours acc ((List.range' k n).map fun i => ⟨lat i, lon i, d i⟩)
      = (List.range' k n).map fun i => ⟨lat i, lon i, hrs i⟩ := by
  induction n generalizing k acc with
  | zero => rfl
  | succ n ih =>
    rw [List.range'_succ, List.map_cons, List.map_cons, cumHours]
    simp only [h0]
    cases n with
    | zero => rfl
    | succ n =>
      rw [ih (k + 1) (hrs k) (hs k (le_refl _) (by omega)) fun i hi h => hs i (by omega) (by omega)]

theorem zipIdx_map_range (v : List Report) (F : Nat → Fix) :
    v.zipIdx.map (fun p => F p.2) = (List.range v.length).map F := by
  rw [← List.zipIdx_map_snd 0 v |>.trans (List.range_eq_range' (n := v.length)).symm, List.map_map]
  rfl

/-- A track in time order is retrieved as it is. -/
theorem driftFixes_of_track {v : List Report} {lat lon hrs : Nat → Rat} (h : IsTrack v lat lon hrs) :
    driftFixes v = .ok ((List.range v.length).map fun i => ⟨lat i, lon i, hrs i⟩) := by
  unfold driftFixes
  have hm : v.zipIdx.mapM driftAt
      = .ok (v.zipIdx.map fun p => ⟨lat p.2, lon p.2, if p.2 = 0 then 0 else hrs p.2 - hrs (p.2 - 1)⟩) := by
    refine mapM_ok _ _ _ ?_
    intro p hp
    have hg := List.mem_zipIdx hp
    simp only [Nat.zero_le, Nat.zero_add, true_and, Nat.sub_zero] at hg
    obtain ⟨hlt, hg⟩ := hg
    have hg' : v[p.2]? = some p.1 := by rw [List.getElem?_eq_getElem hlt, hg]
    obtain ⟨h1, h2⟩ := h.position p.2 p.1 hg'
    unfold driftAt elapsedAt
    rcases hi : p.2 with _ | i
    · rw [hi] at h1 h2
      simp [h1, h2]
    · rw [hi] at h1 h2 hg' hlt
      have h3 := h.elapsed i p.1 hg'
      have h4 := h.ordered i hlt
      have h5 : (0 : Rat) ≤ hrs (i + 1) - hrs i := by linarith
      simp [h1, h2, h3, h4]
  rw [hm, zipIdx_map_range v fun i => ⟨lat i, lon i, if i = 0 then 0 else hrs i - hrs (i - 1)⟩]
  simp only [except_bind_ok, except_pure]
  congr 1
  rw [List.range_eq_range']
  refine cumHours_range lat lon _ hrs _ 0 0 (by simp [h.start]) ?_
  intro i _ _
  simp

/-- The hours since the first report, from the stored differences. -/
def sumHours (d : Nat → Rat) : Nat → Rat
  | 0 => 0
  | i + 1 => sumHours d i + d (i + 1)

/-- Whatever is retrieved is a track in time order. -/
theorem track_of_driftFixes {v : List Report} {l : List Fix} (h : driftFixes v = .ok l) :
    ∃ lat lon hrs, IsTrack v lat lon hrs
      ∧ l = (List.range v.length).map fun i => ⟨lat i, lon i, hrs i⟩ := by
  have h' := h
  unfold driftFixes at h'
  cases hm : v.zipIdx.mapM driftAt with
  | error e => rw [hm] at h'; simp at h'
  | ok m =>
    obtain ⟨hl, hg⟩ := mapM_get hm
    have key : ∀ (i : Nat) (r : Report), v[i]? = some r → ∃ f, m[i]? = some f ∧ driftAt (r, i) = .ok f := by
      intro i r hr
      have hz : v.zipIdx[i]? = some (r, i) := by simp [hr]
      obtain ⟨f, h1, h2⟩ := hg i (r, i) hz
      exact ⟨f, h2, h1⟩
    have ht : IsTrack v (fun i => (m.getD i ⟨0, 0, 0⟩).lat) (fun i => (m.getD i ⟨0, 0, 0⟩).lon)
        (sumHours fun i => (m.getD i ⟨0, 0, 0⟩).hrs) := by
      refine ⟨?_, rfl, ?_, ?_⟩
      · intro i r hr
        obtain ⟨f, hf, hd⟩ := key i r hr
        simp only [List.getD_eq_getElem?_getD, hf, Option.getD_some]
        unfold driftAt at hd
        simp only at hd
        cases ht : elapsedAt (r, i) with
        | error e => rw [ht] at hd; simp at hd
        | ok t =>
          rw [ht] at hd
          simp only [except_bind_ok] at hd
          split at hd
          · rename_i lon lat t e1 e2
            rw [pyAssert_bind] at hd
            split at hd
            · simp only [except_pure, Except.ok.injEq] at hd
              subst hd
              exact ⟨e2, e1⟩
            · simp at hd
          · simp at hd
      · intro i r hr
        obtain ⟨f, hf, hd⟩ := key (i + 1) r hr
        simp only [sumHours, List.getD_eq_getElem?_getD, hf, Option.getD_some]
        unfold driftAt at hd
        simp only [elapsedAt, Nat.add_eq_zero_iff, one_ne_zero, and_false, if_false] at hd
        cases ht : r.getext "time_diff" with
        | error e => rw [ht] at hd; simp at hd
        | ok t =>
          rw [ht] at hd
          simp only [except_bind_ok] at hd
          split at hd
          · rename_i lon lat t' e1 e2
            rw [pyAssert_bind] at hd
            split at hd
            · simp only [except_pure, Except.ok.injEq] at hd
              subst hd
              simp
            · simp at hd
          · simp at hd
      · intro i hi
        have hr : v[i + 1]? = some v[i + 1] := List.getElem?_eq_getElem hi
        obtain ⟨f, hf, hd⟩ := key (i + 1) _ hr
        simp only [sumHours, List.getD_eq_getElem?_getD, hf, Option.getD_some]
        unfold driftAt at hd
        simp only [elapsedAt, Nat.add_eq_zero_iff, one_ne_zero, and_false, if_false] at hd
        cases ht : (v[i + 1]).getext "time_diff" with
        | error e => rw [ht] at hd; simp at hd
        | ok t =>
          rw [ht] at hd
          simp only [except_bind_ok] at hd
          split at hd
          · rename_i lon lat t' e1 e2
            rw [pyAssert_bind] at hd
            split at hd
            · rename_i ht'
              simp only [except_pure, Except.ok.injEq] at hd
              subst hd
              simp only [decide_eq_true_eq] at ht'
              simpa using ht'
            · simp at hd
          · simp at hd
    refine ⟨_, _, _, ht, ?_⟩
    have := driftFixes_of_track ht
    rw [h] at this
    simpa using this

theorem track_mono {v : List Report} {lat lon hrs : Nat → Rat} (h : IsTrack v lat lon hrs) {i j : Nat}
    (hij : i ≤ j) (hj : j < v.length) : hrs i ≤ hrs j := by
  induction j with
  | zero =>
    have : i = 0 := by omega
    rw [this]
  | succ j ih =>
    rcases Nat.lt_or_ge i (j + 1) with hc | hc
    · exact le_trans (ih (by omega) (by omega)) (h.ordered j hj)
    · have : i = j + 1 := by omega
      rw [this]

/-! ## Medians -/

theorem npMedian_spec (l : List Rat) (hodd : l.length % 2 = 1) :
    ∃ m, npMedian l = some m ∧ l.length < 2 * (l.countP fun x => decide (x ≤ m))
      ∧ l.length < 2 * (l.countP fun x => decide (m ≤ x)) := by
  set s := l.insertionSort (· ≤ ·) with hs
  have hp : s.Perm l := List.perm_insertionSort _ _
  have hsorted : s.Pairwise (· ≤ ·) := List.pairwise_insertionSort (r := fun a b : Rat => a ≤ b) l
  have hlen : s.length = l.length := hp.length_eq
  have hne : l ≠ [] := by rintro rfl; simp at hodd
  have hlt : l.length / 2 < s.length := by omega
  obtain ⟨m, hm⟩ : ∃ m, s[l.length / 2] = m := ⟨_, rfl⟩
  refine ⟨m, ?_, ?_, ?_⟩
  · unfold npMedian
    simp only [if_neg hne, if_pos hodd, ← hs]
    rw [← hm]
    exact List.getElem?_eq_getElem hlt
  · rw [← hp.countP_eq, ← List.take_append_drop (l.length / 2 + 1) s, List.countP_append]
    have : (s.take (l.length / 2 + 1)).countP (fun x => decide (x ≤ m))
        = l.length / 2 + 1 := by
      rw [List.countP_eq_length.2]
      · rw [List.length_take]; omega
      · intro x hx
        obtain ⟨i, hi, rfl⟩ := List.mem_iff_getElem.1 hx
        rw [List.length_take] at hi
        rw [List.getElem_take, decide_eq_true_eq, ← hm]
        rcases Nat.lt_or_ge i (l.length / 2) with hc | hc
        · exact List.pairwise_iff_getElem.1 hsorted i (l.length / 2) (by omega) hlt hc
        · have : i = l.length / 2 := by omega
          simp [this]
    rw [this]
    omega
  · rw [← hp.countP_eq, ← List.take_append_drop (l.length / 2) s, List.countP_append]
    have : (s.drop (l.length / 2)).countP (fun x => decide (m ≤ x))
        = s.length - l.length / 2 := by
      rw [List.countP_eq_length.2]
      · rw [List.length_drop]
      · intro x hx
        obtain ⟨i, hi, rfl⟩ := List.mem_iff_getElem.1 hx
        rw [List.length_drop] at hi
        rw [List.getElem_drop, decide_eq_true_eq, ← hm]
        rcases Nat.eq_zero_or_pos i with hc | hc
        · simp [hc]
        · exact List.pairwise_iff_getElem.1 hsorted (l.length / 2) _ hlt (by omega) (by omega)
    rw [this]
    omega

/-- Smoothing with an odd window succeeds and gives the medians. -/
theorem smoothTrack_spec (n w : Nat) (lat lon hrs : Nat → Rat) (hw : w % 2 = 1) (hn : w ≤ n) :
    ∃ slat slon shrs, IsSmoothed n w lat lon hrs slat slon shrs
      ∧ smoothTrack w ((List.range n).map fun i => ⟨lat i, lon i, hrs i⟩)
        = .ok ((List.range (n - w + 1)).map fun i => ⟨slat i, slon i, shrs i⟩) := by
  have hmed : ∀ (f : Nat → Rat) (i : Nat), ∃ m, npMedian ((List.range' i w).map f) = some m ∧ IsMedian m f i w := by
    intro f i
    obtain ⟨m, h1, h2, h3⟩ := npMedian_spec ((List.range' i w).map f) (by simpa using hw)
    refine ⟨m, h1, ?_, ?_⟩
    · simpa [List.countP_map, Function.comp_def] using h2
    · simpa [List.countP_map, Function.comp_def] using h3
  choose med hmed1 hmed2 using hmed
  refine ⟨med lat, med lon, fun i => hrs (i + w / 2), fun i _ => ⟨hmed2 lat i, hmed2 lon i, rfl⟩, ?_⟩
  unfold smoothTrack
  rw [List.length_map, List.length_range]
  refine mapM_ok _ _ _ ?_
  intro i hi
  rw [List.mem_range] at hi
  unfold smoothAt
  have hwin : (((List.range n).map fun i => (⟨lat i, lon i, hrs i⟩ : Fix)).drop i).take w
      = (List.range' i w).map fun i => ⟨lat i, lon i, hrs i⟩ := by
    refine List.ext_getElem? fun k => ?_
    rw [List.getElem?_take, List.getElem?_drop, List.getElem?_map, List.getElem?_map]
    by_cases hk : k < w
    · rw [if_pos hk, List.getElem?_range (by omega), List.getElem?_range' hk]
      simp
    · rw [if_neg hk, List.getElem?_eq_none (by simp; omega)]
      rfl
  have hidx : pyIndex ((List.range n).map fun i => (⟨lat i, lon i, hrs i⟩ : Fix))
      ((i + (w - 1) / 2 : Nat) : Int) = .ok ⟨lat (i + w / 2), lon (i + w / 2), hrs (i + w / 2)⟩ := by
    have e : (w - 1) / 2 = w / 2 := by omega
    rw [e]
    refine pyIndex_eq_ok ?_
    rw [List.getElem?_map, List.getElem?_range (by omega)]
    rfl
  simp only [hwin, hidx, except_bind_ok, List.map_map]
  have e1 : npMedian ((List.range' i w).map ((·.lon) ∘ fun i => (⟨lat i, lon i, hrs i⟩ : Fix)))
      = some (med lon i) := hmed1 lon i
  have e2 : npMedian ((List.range' i w).map ((·.lat) ∘ fun i => (⟨lat i, lon i, hrs i⟩ : Fix)))
      = some (med lat i) := hmed1 lat i
  rw [e1, e2]
  rfl

end MarineQC
