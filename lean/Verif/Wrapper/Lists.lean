import Verif.Wrapper.Model
import Verif.YM.Props
import Verif.Base.RunHandover

/-! # The lists of identifiers (C119) -/

namespace MarineQC

open Spec

variable {F : Type} [LinearOrder F] [Zero F]

/-! ## One list -/

theorem fileLines_cons (s t : List Char) (h : '\n' ∉ s) : fileLines (s ++ '\n' :: t) = (s ++ ['\n']) :: fileLines t := by
  unfold fileLines
  rw [fileLinesFrom_tidy s h]
  simp

theorem dropWhile_newline (s : List Char) (h : '\n' ∉ s) : ((s ++ ['\n']).reverse.dropWhile (· == '\n')).reverse = s := by
  rw [List.reverse_append]
  show (List.dropWhile (· == '\n') ('\n' :: s.reverse)).reverse = s
  rw [List.dropWhile_cons_of_pos (by simp)]
  cases hs : s.reverse with
  | nil => simpa using hs.symm
  | cons c l =>
    rw [List.dropWhile_cons_of_neg, ← hs, List.reverse_reverse]
    have : c ∈ s := by rw [← List.mem_reverse, hs]; simp
    simp only [beq_iff_eq]
    rintro rfl
    exact h this

theorem safeFilename_newline (s : List Char) (h : '\n' ∉ s) : '\n' ∉ safeFilename s := by
  unfold safeFilename
  rw [replace_char, replace_char, List.map_map, List.mem_map]
  rintro ⟨c, hc, e⟩
  simp only [Function.comp] at e
  split at e
  · split at e <;> cases e
  · split at e
    · cases e
    · exact h (e ▸ hc)

theorem idOfLine_line (i : List Char) (hc : ',' ∉ i) (hn : '\n' ∉ i) : idOfLine (idFileLine i) = i := by
  unfold idOfLine idFileLine
  have : i ++ ',' :: (safeFilename i ++ ['\n']) = (i ++ ',' :: safeFilename i) ++ ['\n'] := by simp
  rw [this, dropWhile_newline, splitCommas_field i hc, splitCommas, if_pos rfl]
  · rfl
  · simp only [List.mem_append, List.mem_cons, not_or]
    exact ⟨hn, by decide, safeFilename_newline i hn⟩

theorem fileLines_ids (ids : List String) (h : ∀ i ∈ ids, '\n' ∉ i.toList) :
    fileLines (ids.flatMap fun i : String => idFileLine i.toList) = ids.map fun i : String => idFileLine i.toList := by
  induction ids with
  | nil => rfl
  | cons i ids ih =>
    have hi := h i (by simp)
    rw [List.flatMap_cons, List.map_cons, ← ih fun j hj => h j (by simp [hj])]
    have : idFileLine i.toList ++ (ids.flatMap fun i : String => idFileLine i.toList) =
        (i.toList ++ ',' :: safeFilename i.toList) ++ '\n' :: ids.flatMap fun i : String => idFileLine i.toList := by
      simp [idFileLine]
    rw [this, fileLines_cons]
    · simp [idFileLine]
    · simp only [List.mem_append, List.mem_cons, not_or]
      exact ⟨hi, by decide, safeFilename_newline _ hi⟩

theorem monthIds_ids (fs : FileSys) (out : List Char) (m : Int × Int) (ids : List String)
    (h : fs.file (idFilePath (monthDir out m.1 m.2)) = some (ids.flatMap fun i : String => idFileLine i.toList))
    (hi : ∀ i ∈ ids, ',' ∉ i.toList ∧ '\n' ∉ i.toList) : monthIds fs out m = .ok (ids.map fun i => (m.1, m.2, i)) := by
  unfold monthIds
  rw [show safeDir out m.1 m.2 = monthDir out m.1 m.2 from rfl, h]
  simp only
  rw [fileLines_ids ids fun i h => (hi i h).2, List.map_map]
  congr 1
  apply List.map_congr_left
  intro i h
  simp only [Function.comp]
  rw [idOfLine_line _ (hi i h).1 (hi i h).2, String.ofList_toList]

/-! ## All lists -/

theorem monthList_month {t : Int × Int} (h : 1 ≤ t.2 ∧ t.2 ≤ 12) {n : Nat} {m : Int × Int} (hm : m ∈ monthList t n) :
    1 ≤ m.2 ∧ m.2 ≤ 12 := by
  obtain ⟨i, -, rfl⟩ := List.mem_map.mp hm
  exact (monthsLater_valid i h).1

theorem monthsLater_inj {t : Int × Int} (h : 1 ≤ t.2 ∧ t.2 ≤ 12) {i j : Nat} (e : monthsLater i t = monthsLater j t) : i = j := by
  have h1 := (monthsLater_valid i h).2
  have h2 := (monthsLater_valid j h).2
  rw [e] at h1
  omega

theorem monthList_nodup {t : Int × Int} (h : 1 ≤ t.2 ∧ t.2 ≤ 12) (n : Nat) : (monthList t n).Nodup :=
  List.Nodup.map (fun _ _ e => monthsLater_inj h e) List.nodup_range

namespace Spec

/-- A drifter has reported in the month. -/
def ReportedIn (reps : List Report) (i : String) : Prop := ∃ r ∈ reps, r.id = some i ∧ DriftsNow r

/-- Identifiers that a list can hold: no comma and no end of a line. -/
def Listable (reps : List Report) : Prop := ∀ r ∈ reps, DriftsNow r → ∀ i, r.id = some i → ',' ∉ i.toList ∧ '\n' ∉ i.toList

/-- The dictionary of identifiers is right: every drifter that reported in one of the months is in it once, and no other
identifier is; its counter is 1 in the months in which it reported and 0 in the others. -/
structure Listed (reps : Int × Int → List Report) (months : List (Int × Int)) (D : List (String × YMCounter)) : Prop where
  once : (D.map (·.1)).Nodup
  all : ∀ i, i ∈ D.map (·.1) ↔ ∃ m ∈ months, ReportedIn (reps m) i
  range : ∀ p ∈ D, p.2.months = months
  length : ∀ p ∈ D, p.2.counter.length = months.length
  flag : ∀ p ∈ D, ∀ (n : Nat) (m : Int × Int), months[n]? = some m →
    (ReportedIn (reps m) p.1 → p.2.counter[n]? = some 1) ∧ (¬ ReportedIn (reps m) p.1 → p.2.counter[n]? = some 0)

end Spec

theorem monthsBetween_ok (y1 m1 y2 m2 : Int) (h1 : 1 ≤ m1 ∧ m1 ≤ 12) (h2 : 1 ≤ m2 ∧ m2 ≤ 12) (n : Nat)
    (hn : (n : Int) = 12 * (y2 - y1) + m2 - m1) : monthsBetween y1 m1 y2 m2 = .ok (some (monthList (y1, m1) n)) :=
  C07_year_month_gen_enumerates y1 m1 y2 m2 h1 h2 n hn _ (by omega)

theorem monthIds_all (fs : FileSys) (out : List Char) (ids : Int × Int → List String) (months : List (Int × Int))
    (h : ∀ m ∈ months, monthIds fs out m = .ok ((ids m).map fun i => (m.1, m.2, i))) :
    months.mapM (monthIds fs out) = .ok (months.map fun m => (ids m).map fun i => (m.1, m.2, i)) := by
  induction months with
  | nil => rfl
  | cons m months ih =>
    rw [List.mapM_cons, h m (by simp), except_bind_ok, ih fun k hk => h k (by simp [hk]), except_bind_ok]
    rfl

theorem lists_read (E : RunEnv F) (htr : E.read.tracking = true) (deck : Int × Int → Deck) (fs : FileSys) (y1 m1 y2 m2 : Int)
    (h1 : 1 ≤ m1 ∧ m1 ≤ 12) (h2 : 1 ≤ m2 ∧ m2 ≤ 12) (n : Nat) (hn : (n : Int) = 12 * (y2 - y1) + m2 - m1)
    (ht : ∀ m ∈ monthList (y1, m1) n, MonthText E m (deck m).reps fs)
    (hl : ∀ m ∈ monthList (y1, m1) n, Listable (deck m).reps) :
    ∃ D, wrapperIds fs E.out y1 m1 y2 m2 = .ok D ∧ Listed (fun m => (deck m).reps) (monthList (y1, m1) n) D := by
  have hex : ∀ m : Int × Int, ∃ ids : List String, m ∈ monthList (y1, m1) n →
      (∀ i, i ∈ ids ↔ ReportedIn (deck m).reps i) ∧
      fs.file (idFilePath (monthDir E.out m.1 m.2)) = some (ids.flatMap fun i : String => idFileLine i.toList) := by
    intro m
    by_cases hm : m ∈ monthList (y1, m1) n
    · obtain ⟨ids, -, a, b, -⟩ := (ht m hm).2 htr
      exact ⟨ids, fun _ => ⟨a, b⟩⟩
    · exact ⟨[], fun h => absurd h hm⟩
  choose ids hids using hex
  have hall := monthIds_all fs E.out ids (monthList (y1, m1) n) fun m hm => monthIds_ids fs E.out m (ids m) (hids m hm).2 (by
    intro i hi
    obtain ⟨r, r1, r2, r3⟩ := ((hids m hm).1 i).mp hi
    exact hl m hm r r1 r3 i r2)
  have hmem : ∀ y m i, (y, m, i) ∈ ((monthList (y1, m1) n).map fun m => (ids m).map fun i => (m.1, m.2, i)).flatten ↔
      (y, m) ∈ monthList (y1, m1) n ∧ ReportedIn (deck (y, m)).reps i := by
    intro y m i
    simp only [List.mem_flatten, List.mem_map]
    constructor
    · rintro ⟨_, ⟨k, hk, rfl⟩, hx⟩
      obtain ⟨j, hj, e⟩ := List.mem_map.mp hx
      simp only [Prod.mk.injEq] at e
      obtain ⟨rfl, rfl, rfl⟩ := e
      exact ⟨hk, ((hids k hk).1 j).mp hj⟩
    · rintro ⟨hk, hr⟩
      exact ⟨_, ⟨(y, m), hk, rfl⟩, List.mem_map.mpr ⟨i, ((hids _ hk).1 i).mpr hr, rfl⟩⟩
  obtain ⟨L, l1, l2, l3⟩ := C70_id_dictionary y1 m1 y2 m2 h1 h2 n hn
    ((monthList (y1, m1) n).map fun m => (ids m).map fun i => (m.1, m.2, i)).flatten
  refine ⟨L.map fun id => (id, idCounter (y1, m1) n
    ((monthList (y1, m1) n).map fun m => (ids m).map fun i => (m.1, m.2, i)).flatten id), ?_, ?_⟩
  · unfold wrapperIds
    rw [monthsBetween_ok y1 m1 y2 m2 h1 h2 n hn]
    simp only [except_bind_ok]
    rw [hall, except_bind_ok]
    exact l3
  · have hfst : (L.map fun id => (id, idCounter (y1, m1) n
        ((monthList (y1, m1) n).map fun m => (ids m).map fun i => (m.1, m.2, i)).flatten id)).map (·.1) = L := by
      rw [List.map_map]
      exact List.map_id L
    refine ⟨by rw [hfst]; exact l1, ?_, ?_, ?_, ?_⟩
    · intro i
      rw [hfst, l2]
      constructor
      · rintro ⟨y, m, h⟩
        exact ⟨(y, m), (hmem y m i).mp h⟩
      · rintro ⟨m, h⟩
        exact ⟨m.1, m.2, (hmem _ _ i).mpr h⟩
    · intro p hp
      obtain ⟨i, -, rfl⟩ := List.mem_map.mp hp
      rfl
    · intro p hp
      obtain ⟨i, -, rfl⟩ := List.mem_map.mp hp
      simp [idCounter]
    · intro p hp k m hk
      obtain ⟨i, -, rfl⟩ := List.mem_map.mp hp
      have hmm := List.mem_of_getElem? hk
      simp only [idCounter, List.getElem?_map, hk, Option.map_some]
      constructor
      · intro hr
        rw [if_pos ((hmem _ _ _).mpr ⟨hmm, hr⟩)]
      · intro hr
        rw [if_neg fun hc => hr ((hmem _ _ _).mp hc).2]

/-- **C119, part.**  After a run of the main program over all months of a range, the wrapper of the tracking program lists every
drifter that reported in one of the months exactly once, and no other identifier, with a counter that is 1 exactly in the months in
which it reported.  *Missing:* identifiers with a comma (see below) or the end of a line; and the conditions of C107. -/
theorem C119_lists_partial (E : RunEnv F) (hf : ∀ x, Plain (E.fmt x)) (hdf : E.dflags.Perm deckFlags)
    (hvf : E.vflags.Perm voyageFlags) (ho : ∀ l, (E.order l).Perm l) (lib : ClimLib Arr3) (deck : Int × Int → Deck)
    (y1 m1 y2 m2 : Int) (h1 : 1 ≤ m1 ∧ m1 ≤ 12) (h2 : 1 ≤ m2 ∧ m2 ≤ 12) (n : Nat) (hn : (n : Int) = 12 * (y2 - y1) + m2 - m1)
    (fs : FileSys) (hc : ∀ m ∈ monthList (y1, m1) n, ∃ lib', checkedMonth E lib m = .ok (deck m, lib'))
    (hr : ∀ m ∈ monthList (y1, m1) n, OutputReady E.runid E.out m.1 m.2 (deck m).reps fs) (htr : E.read.tracking = true)
    (ht : ∀ m ∈ monthList (y1, m1) n, DriftersReady (deck m).reps) (hl : ∀ m ∈ monthList (y1, m1) n, Listable (deck m).reps) :
    ∃ fs' D, runMonths E (monthList (y1, m1) n) lib fs = (fs', none) ∧ wrapperIds fs' E.out y1 m1 y2 m2 = .ok D ∧
      Listed (fun m => (deck m).reps) (monthList (y1, m1) n) D := by
  obtain ⟨fs', a1, a2, -, -⟩ := run_text E hf hdf hvf ho lib deck (monthList (y1, m1) n) fs (monthList_nodup h1 n)
    (fun m hm => monthList_month h1 hm) hc hr (fun m hm _ => ht m hm)
  obtain ⟨D, b1, b2⟩ := lists_read E htr deck fs' y1 m1 y2 m2 h1 h2 n hn a2 hl
  exact ⟨fs', D, a1, b1, b2⟩

/-- C119 fails for an identifier with a comma: whatever follows the comma is lost, and the wrapper goes on with an identifier
that the main program has not seen.  Here the list has the line of the identifier `A,B`. -/
theorem C119_comma_violation : ∃ c, wrapperIds (oneFile "/out/1990/02/ID_file.txt".toList (idFileLine "A,B      ".toList))
    "/out".toList 1990 2 1990 2 = .ok [("A", c)] := by
  have hm : monthsBetween 1990 2 1990 2 = .ok (some [(1990, 2)]) := by decide
  have hl : monthIds (oneFile "/out/1990/02/ID_file.txt".toList (idFileLine "A,B      ".toList)) "/out".toList (1990, 2) =
      .ok [(1990, 2, "A")] := by decide +kernel
  obtain ⟨L, l1, l2, l3⟩ := C70_id_dictionary 1990 2 1990 2 (by decide) (by decide) 0 (by decide) [(1990, 2, "A")]
  have hL : L = ["A"] := by
    have hA : "A" ∈ L := (l2 "A").mpr ⟨1990, 2, by simp⟩
    have hs : ∀ i ∈ L, i = "A" := by
      intro i hi
      obtain ⟨y, m, h⟩ := (l2 i).mp hi
      have := List.mem_singleton.mp h
      simp only [Prod.mk.injEq] at this
      exact this.2.2
    match L, l1, hA, hs with
    | [a], _, _, hs => rw [hs a (by simp)]
    | a :: b :: _, l1, _, hs =>
      have := hs a (by simp)
      have := hs b (by simp)
      simp_all
  subst hL
  refine ⟨idCounter (1990, 2) 0 [(1990, 2, "A")] "A", ?_⟩
  unfold wrapperIds
  rw [hm]
  simp only [except_bind_ok, List.mapM_cons, List.mapM_nil, hl, except_pure]
  exact l3

end MarineQC
