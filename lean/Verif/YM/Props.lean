import Verif.YM.Lemmas

/-!
# Properties C10 - C12 and C70: chunks of months
-/

namespace MarineQC
open Spec

/-! ## C10 `get_chunks` -/

/-- C10: for a gap of 1 to 10 months and any 0/1 series, `get_chunks` returns the starts and the ends of a
list of chunks that satisfies `Spec.Chunking`: equally many starts and ends, data at both ends of each,
gap-separated, no gap inside, covering all data. -/
theorem C10_get_chunks_correct (gap : Nat) (hg1 : 1 ≤ gap) (hg2 : gap ≤ 10) (c : List Int)
    (h01 : ∀ x ∈ c, x = 0 ∨ x = 1) :
    ∃ L : List (Nat × Nat), getChunks c gap = (L.map (fun p => (p.1 : Int)), L.map (fun p => (p.2 : Int))) ∧
      Chunking c gap L :=
  getChunks_chunking gap hg1 hg2 c h01

/-- C10: every month with data lies in exactly one chunk. -/
theorem C10_exactly_one_chunk (gap : Nat) (c : List Int) (L : List (Nat × Nat)) (H : Chunking c gap L)
    (i : Nat) (hi : Data c i) :
    ∃ k : Nat, (∃ p : Nat × Nat, L[k]? = some p ∧ p.1 ≤ i ∧ i ≤ p.2) ∧
      ∀ (k' : Nat) (p' : Nat × Nat), L[k']? = some p' → p'.1 ≤ i → i ≤ p'.2 → k' = k := by
  obtain ⟨p, hp, a, b⟩ := H.covers i hi
  obtain ⟨k, hk, rfl⟩ := List.getElem_of_mem hp
  refine ⟨k, ⟨L[k], by simp [hk], a, b⟩, ?_⟩
  intro k' p' hp' a' b'
  obtain ⟨hk', rfl⟩ := List.getElem?_eq_some_iff.1 hp'
  have := H.separated
  rw [List.pairwise_iff_getElem] at this
  rcases Nat.lt_trichotomy k' k with h | h | h
  · have := this k' k hk' hk h; omega
  · exact h
  · have := this k k' hk hk' h; omega

/-- C10: the chunks are determined by the data: `(s, e)` is returned iff `s..e` is a chunk in the sense of
`Spec.IsChunk`. -/
theorem C10_chunks_characterised (gap : Nat) (hg1 : 1 ≤ gap) (hg2 : gap ≤ 10) (c : List Int)
    (h01 : ∀ x ∈ c, x = 0 ∨ x = 1) (s e : Nat) :
    ((s : Int), (e : Int)) ∈ (getChunks c gap).1.zip (getChunks c gap).2 ↔ IsChunk c gap s e := by
  obtain ⟨L, hL, H⟩ := getChunks_chunking gap hg1 hg2 c h01
  rw [hL, ← mem_iff_isChunk H s e, List.zip_map']
  simp only [List.mem_map, Prod.mk.injEq, Prod.exists]
  constructor
  · rintro ⟨a, b, h, h1, h2⟩
    rw [← Int.ofNat_inj.1 h1, ← Int.ofNat_inj.1 h2]; exact h
  · intro h; exact ⟨s, e, h, rfl, rfl⟩

/-- C10, outside the stated range of gaps: with a gap of 11 a series whose only data month is the first
gives no chunk at all, and a second data month 12 months later gives a "chunk" starting in month 12 and
ending in month 0. -/
theorem C10_gap_eleven_violation :
    getChunks [1] 11 = ([], []) ∧
    getChunks ([1] ++ List.replicate 11 0 ++ [1]) 11 = ([12], [0]) := by decide

example : getChunks [0, 1, 0, 1, 0, 0, 0, 1, 1, 0] 3 = ([1, 7], [3, 8]) := by decide
example : ∀ x ∈ [(0:Int), 1, 0, 1, 0, 0, 0, 1, 1, 0], x = 0 ∨ x = 1 := by decide

/-! ## C11 construction, classification and dates -/

/-- The flag last set for month `t` in a history of `setym` calls (year, month, flag); 0 if none. -/
def Spec.lastFlag (t : Int × Int) : List (Int × Int × Int) → Int
  | [] => 0
  | (y, m, f) :: rest =>
    if rest.any (fun x => x.1 = t.1 ∧ x.2.1 = t.2) then lastFlag t rest
    else if y = t.1 ∧ m = t.2 then f else 0

theorem lastFlag_snoc (t : Int × Int) (h : List (Int × Int × Int)) (y m f : Int) :
    lastFlag t (h ++ [(y, m, f)]) = if y = t.1 ∧ m = t.2 then f else lastFlag t h := by
  induction h with
  | nil => simp [lastFlag]
  | cons x rest ih =>
    obtain ⟨a, b, g⟩ := x
    simp only [List.cons_append, lastFlag, ih, List.any_append, List.any_cons, List.any_nil]
    by_cases h1 : y = t.1 ∧ m = t.2
    · simp [h1]
    · simp only [h1, if_false, decide_false, Bool.or_false]

theorem init_ok (y1 m1 y2 m2 : Int) (h1 : 1 ≤ m1 ∧ m1 ≤ 12) (h2 : 1 ≤ m2 ∧ m2 ≤ 12)
    (n : Nat) (hn : (n : Int) = 12 * (y2 - y1) + m2 - m1) :
    YMCounter.init y1 m1 y2 m2 =
      .ok { months := monthList (y1, m1) n, counter := List.replicate (n + 1) 0 } := by
  have e : 12 * (y2 - y1) + m2 - m1 + 1 = ((n + 1 : Nat) : Int) := by push_cast; omega
  unfold YMCounter.init
  simp only [e, Int.toNat_natCast]
  have e2 : ¬ (((n + 1 : Nat) : Int) < 0) := by omega
  rw [if_neg e2, C07_year_month_gen_enumerates y1 m1 y2 m2 h1 h2 n hn _ (by omega)]
  have hlen : (monthList (y1, m1) n).length = n + 1 := by simp [monthList]
  simp [hlen]

theorem setym_months (hist : List (Int × Int × Int)) (c : YMCounter) :
    (hist.foldl (fun c x => c.setym x.1 x.2.1 x.2.2) c).months = c.months := by
  induction hist generalizing c with
  | nil => rfl
  | cons x rest ih => rw [List.foldl_cons, ih]; rfl

/-- C11: after construction for a valid range of months and any history of `setym` calls, position `i`
stands for the `i`-th month of the range and holds the flag last set for that month (0 if none). -/
theorem C11_counter_history (y1 m1 y2 m2 : Int) (h1 : 1 ≤ m1 ∧ m1 ≤ 12) (h2 : 1 ≤ m2 ∧ m2 ≤ 12)
    (n : Nat) (hn : (n : Int) = 12 * (y2 - y1) + m2 - m1) (hist : List (Int × Int × Int)) :
    ∃ c, YMCounter.init y1 m1 y2 m2 = .ok c ∧
      (hist.foldl (fun c x => c.setym x.1 x.2.1 x.2.2) c).months = monthList (y1, m1) n ∧
      (hist.foldl (fun c x => c.setym x.1 x.2.1 x.2.2) c).counter =
        (monthList (y1, m1) n).map fun t => lastFlag t hist := by
  refine ⟨_, init_ok y1 m1 y2 m2 h1 h2 n hn, setym_months _ _, ?_⟩
  induction hist using List.reverseRecOn with
  | nil =>
    simp only [lastFlag]
    rw [List.map_const']
    simp [monthList]
  | append_singleton hist x ih =>
    obtain ⟨y, m, f⟩ := x
    rw [List.foldl_append, List.foldl_cons, List.foldl_nil]
    show List.zipWith (fun (t : Int × Int) x => if t.1 = y ∧ t.2 = m then f else x)
      (hist.foldl (fun (c : YMCounter) x => c.setym x.1 x.2.1 x.2.2) _).months
      (hist.foldl (fun (c : YMCounter) x => c.setym x.1 x.2.1 x.2.2) _).counter = _
    rw [setym_months, ih]
    simp only [lastFlag_snoc]
    rw [List.zipWith_map_right]
    rw [List.zipWith_self]
    apply List.map_congr_left
    intro t _
    simp only [eq_comm]

theorem index_getElem {ms : List (Int × Int)} (hnd : ms.Nodup) (c : List Int) (i : Nat) (hi : i < ms.length) :
    YMCounter.index { months := ms, counter := c } ms[i].1 ms[i].2 = [(i : Int)] := by
  unfold YMCounter.index
  simp only
  have key : ms.zipIdx.filter (fun t => decide (t.1.1 = ms[i].1 ∧ t.1.2 = ms[i].2)) = [(ms[i], i)] := by
    have hp : (fun t : (Int × Int) × Nat => decide (t.1.1 = ms[i].1 ∧ t.1.2 = ms[i].2))
        = fun t => t.1 == ms[i] := by
      funext t
      obtain ⟨t, k⟩ := t
      rw [Bool.eq_iff_iff]
      simp [Prod.ext_iff]
    rw [hp]
    generalize ha : ms[i] = a
    clear hp
    have gen : ∀ (l : List (Int × Int)) (k j : Nat) (hj : j < l.length), l.Nodup → l[j] = a →
        (l.zipIdx k).filter (fun t => t.1 == a) = [(a, k + j)] := by
      intro l
      induction l with
      | nil => intro k j hj; simp at hj
      | cons b l ih =>
        intro k j hj hnd he
        rw [List.nodup_cons] at hnd
        rw [List.zipIdx_cons]
        cases j with
        | zero =>
          simp only [List.getElem_cons_zero] at he
          subst he
          have : (l.zipIdx (k+1)).filter (fun t => t.1 == b) = [] := by
            rw [List.filter_eq_nil_iff]
            rintro ⟨x, q⟩ hx
            have := List.fst_mem_of_mem_zipIdx hx
            simp only [beq_iff_eq]
            rintro rfl
            exact hnd.1 this
          simp [this]
        | succ j =>
          simp only [List.getElem_cons_succ] at he
          have hb : ¬ (b = a) := by
            rintro rfl
            exact hnd.1 (he ▸ List.getElem_mem _)
          have := ih (k+1) j (by simpa using hj) hnd.2 he
          rw [List.filter_cons]
          simp only [beq_iff_eq, hb, if_false, this]
          congr 2
          omega
    have := gen ms 0 i hi hnd ha
    simpa using this
  rw [key]
  simp

theorem labels_core (A B D R : Prop) [Decidable A] [Decidable B] [Decidable D] [Decidable R]
    (h : R ↔ (¬ A ∧ ¬ B)) :
    (let cl : List String := []
     let cl := if decide A = true then cl ++ ["start_edge_case"] else cl
     let cl := if decide B = true then cl ++ ["end_edge_case"] else cl
     let cl := if decide D = true then cl ++ ["new"] else cl
     let cl := if ¬ ("start_edge_case" ∈ cl ∨ "end_edge_case" ∈ cl) then cl ++ ["regular"] else cl
     cl) =
    (if A then ["start_edge_case"] else []) ++ (if B then ["end_edge_case"] else []) ++
    (if D then ["new"] else []) ++ (if R then ["regular"] else []) := by
  by_cases a : A <;> by_cases b : B <;> by_cases d : D <;> simp [a, b, d, h]

theorem describe_ok {ms : List (Int × Int)} (hnd : ms.Nodup) (c : List Int) (hlen : c.length = ms.length)
    (gap s e : Nat) (hs : s < ms.length) (he : e < ms.length) :
    YMCounter.describe { months := ms, counter := c } gap s e =
      .ok (ms[s].1, ms[s].2, ms[e].1, ms[e].2, labels ms.length gap s e) := by
  unfold YMCounter.describe
  rw [pyIndex_of_nat ms s hs, pyIndex_of_nat ms e he]
  simp only [except_bind_ok, index_getElem hnd c s hs, index_getElem hnd c e he, truthArray,
    except_pure, YMCounter.n, hlen]
  congr 5
  unfold labels
  have a' : decide ((s : Int) < gap) = decide (s < gap) := by rw [decide_eq_decide]; omega
  have b' : decide ((e : Int) > ms.length - gap - 1) = decide (ms.length < e + 1 + gap) := by
    rw [decide_eq_decide]; omega
  have d' : decide ((e : Int) = ms.length - gap - 1) = decide (ms.length = e + 1 + gap) := by
    rw [decide_eq_decide]; omega
  rw [a', b', d']
  exact labels_core _ _ _ _ (by omega)

theorem yieldDates_ok {ms : List (Int × Int)} (hnd : ms.Nodup) (c : List Int) (hlen : c.length = ms.length)
    (gap : Nat) (L : List (Nat × Nat))
    (hL : getChunks c gap = (L.map (fun p => (p.1 : Int)), L.map (fun p => (p.2 : Int))))
    (H : Chunking c gap L) :
    YMCounter.yieldDates { months := ms, counter := c } gap =
      .ok (L.map fun p => ((ms.getD p.1 (0,0)).1, (ms.getD p.1 (0,0)).2, (ms.getD p.2 (0,0)).1,
        (ms.getD p.2 (0,0)).2, labels ms.length gap p.1 p.2)) := by
  unfold YMCounter.yieldDates
  simp only [hL]
  have hg : (L.map (fun p => (p.1 : Int))).zipIdx =
      L.zipIdx.map fun t => ((t.1.1 : Int), t.2) := by
    rw [List.zipIdx_map]
    simp [Prod.map]
  rw [hg, List.mapM_map]
  have : (L.map fun p => ((ms.getD p.1 (0,0)).1, (ms.getD p.1 (0,0)).2, (ms.getD p.2 (0,0)).1,
        (ms.getD p.2 (0,0)).2, labels ms.length gap p.1 p.2)) =
      L.zipIdx.map fun t => ((ms.getD t.1.1 (0,0)).1, (ms.getD t.1.1 (0,0)).2, (ms.getD t.1.2 (0,0)).1,
        (ms.getD t.1.2 (0,0)).2, labels ms.length gap t.1.1 t.1.2) := by
    conv_lhs => rw [← List.zipIdx_map_fst 0 L, List.map_map]
    rfl
  rw [this]
  apply mapM_ok
  rintro ⟨p, k⟩ ht
  have hk := List.mem_zipIdx_iff_getElem?.1 ht
  simp only at hk
  obtain ⟨hk1, hk2⟩ := List.getElem?_eq_some_iff.1 hk
  have hp : p ∈ L := hk2 ▸ List.getElem_mem _
  obtain ⟨d1, d2, _⟩ := H.ends_have_data p hp
  have b1 := data_lt d1
  have b2 := data_lt d2
  rw [hlen] at b1 b2
  simp only [Function.comp]
  rw [pyIndex_of_nat _ k (by simpa using hk1)]
  simp only [List.getElem_map, hk2, except_bind_ok]
  rw [describe_ok hnd c hlen gap p.1 p.2 b1 b2]
  simp [b1, b2]

/-- C11: for a counter over `n + 1` consecutive months with 0/1 flags, `yield_start_and_end_dates` yields,
for each chunk `s..e` of the series in order, the year and month of `s`, the year and month of `e`, and
the labels of `Spec.labels`. -/
theorem C11_yield_dates (t : Int × Int) (ht : 1 ≤ t.2 ∧ t.2 ≤ 12) (n : Nat) (c : List Int)
    (hlen : c.length = n + 1) (h01 : ∀ x ∈ c, x = 0 ∨ x = 1) (gap : Nat) (hg1 : 1 ≤ gap) (hg2 : gap ≤ 10) :
    ∃ L, Chunking c gap L ∧
      YMCounter.yieldDates { months := monthList t n, counter := c } gap =
        .ok (L.map fun p => ((monthsLater p.1 t).1, (monthsLater p.1 t).2, (monthsLater p.2 t).1,
          (monthsLater p.2 t).2, labels (n + 1) gap p.1 p.2)) := by
  obtain ⟨L, hL, H⟩ := getChunks_chunking gap hg1 hg2 c h01
  refine ⟨L, H, ?_⟩
  have hlm : (monthList t n).length = n + 1 := by simp [monthList]
  have hnd : (monthList t n).Nodup := by
    have hv := monthsLater_valid n ht
    exact (C07_year_month_list t.1 t.2 (monthsLater n t).1 (monthsLater n t).2 ht hv.1 n
      (by have := hv.2; simp only [monthNo] at this; omega)).2.2.1
  rw [yieldDates_ok hnd c (by rw [hlen, hlm]) gap L hL H, hlm]
  congr 1
  apply List.map_congr_left
  intro p hp
  obtain ⟨d1, d2, _⟩ := H.ends_have_data p hp
  have b1 := data_lt d1
  have b2 := data_lt d2
  have g : ∀ i, i < n + 1 → (monthList t n).getD i (0,0) = monthsLater i t := by
    intro i hi; simp [monthList, hi]
  rw [g p.1 (by omega), g p.2 (by omega)]

/-- C11: what the labels mean, for a series of `n` months and a chunk `s..e`: `s` months precede it and
`n - (e + 1)` follow it. -/
theorem C11_label_meaning (n gap s e : Nat) (he : e < n) :
    ("start_edge_case" ∈ labels n gap s e ↔ s < gap) ∧
    ("end_edge_case" ∈ labels n gap s e ↔ n - (e + 1) < gap) ∧
    ("new" ∈ labels n gap s e ↔ n - (e + 1) = gap) ∧
    ("regular" ∈ labels n gap s e ↔
      "start_edge_case" ∉ labels n gap s e ∧ "end_edge_case" ∉ labels n gap s e) := by
  have m1 : "start_edge_case" ∈ labels n gap s e ↔ s < gap := by simp [labels]
  have m2 : "end_edge_case" ∈ labels n gap s e ↔ n < e + 1 + gap := by simp [labels]
  have m3 : "new" ∈ labels n gap s e ↔ n = e + 1 + gap := by simp [labels]
  have m4 : "regular" ∈ labels n gap s e ↔ gap ≤ s ∧ e + 1 + gap ≤ n := by simp [labels]
  rw [m1, m2, m3, m4]
  omega

example : YMCounter.yieldDates
    { months := monthList (1999, 11) 6, counter := [0, 0, 1, 1, 0, 0, 0] } 2 =
    .ok [(2000, 1, 2000, 2, ["regular"])] := by rfl
example : YMCounter.yieldDates
    { months := monthList (1999, 11) 5, counter := [0, 1, 1, 1, 0, 0] } 2 =
    .ok [(1999, 12, 2000, 2, ["start_edge_case", "new"])] := by rfl
example : (YMCounter.init 1999 11 2000 2) =
    .ok { months := [(1999, 11), (1999, 12), (2000, 1), (2000, 2)], counter := [0, 0, 0, 0] } := by decide

/-! ## C12 stability -/

theorem data_extend (pre c post : List Int) (i : Nat) (hi : i < c.length) :
    Data (pre ++ c ++ post) (pre.length + i) ↔ Data c i := by
  unfold Data
  rw [List.getElem?_append_left (by simp; omega), List.getElem?_append_right (by omega)]
  simp

theorem isChunk_extend {gap : Nat} {c : List Int} {s e : Nat} (h : IsChunk c gap s e)
    (hs : gap ≤ s) (he : e + 1 + gap ≤ c.length) (pre post : List Int) :
    IsChunk (pre ++ c ++ post) gap (pre.length + s) (pre.length + e) := by
  obtain ⟨a1, a2, a3, a4, a5, a6⟩ := h
  have D := data_extend pre c post
  refine ⟨(D s (by omega)).2 a1, (D e (by omega)).2 a2, by omega, ?_, ?_, ?_⟩
  · intro i h1 h2
    obtain ⟨k, rfl⟩ : ∃ k, i = pre.length + k := ⟨i - pre.length, by omega⟩
    rw [D k (by omega)]
    exact a4 k (by omega) (by omega)
  · intro i h1 h2
    obtain ⟨k, rfl⟩ : ∃ k, i = pre.length + k := ⟨i - pre.length, by omega⟩
    rw [D k (by omega)]
    exact a5 k (by omega) (by omega)
  · intro i h1 h2
    obtain ⟨k, rfl⟩ : ∃ k, i = pre.length + k := ⟨i - pre.length, by omega⟩
    obtain ⟨j, x, y, z⟩ := a6 k (by omega) (by omega)
    exact ⟨pre.length + j, by omega, by omega, (D j (by omega)).2 z⟩

/-- C12: a chunk at least `gap` months away from both ends of the series is still returned, with the same
months, after prepending `pre` and appending `post` (any 0/1 months). -/
theorem C12_regular_chunks_stable (gap : Nat) (hg1 : 1 ≤ gap) (hg2 : gap ≤ 10) (c pre post : List Int)
    (h01 : ∀ x ∈ pre ++ c ++ post, x = 0 ∨ x = 1) (s e : Nat)
    (hc : ((s : Int), (e : Int)) ∈ (getChunks c gap).1.zip (getChunks c gap).2)
    (hs : gap ≤ s) (he : e + 1 + gap ≤ c.length) :
    (((pre.length + s : Nat) : Int), ((pre.length + e : Nat) : Int)) ∈
      (getChunks (pre ++ c ++ post) gap).1.zip (getChunks (pre ++ c ++ post) gap).2 := by
  rw [C10_chunks_characterised gap hg1 hg2 _ h01]
  rw [C10_chunks_characterised gap hg1 hg2 c (fun x hx => h01 x (by simp [hx]))] at hc
  exact isChunk_extend hc hs he pre post

theorem yield_mem_iff (t : Int × Int) (ht : 1 ≤ t.2 ∧ t.2 ≤ 12) (n : Nat) (c : List Int)
    (hlen : c.length = n + 1) (h01 : ∀ x ∈ c, x = 0 ∨ x = 1) (gap : Nat) (hg1 : 1 ≤ gap) (hg2 : gap ≤ 10) :
    ∃ r, YMCounter.yieldDates { months := monthList t n, counter := c } gap = .ok r ∧
      ∀ x, x ∈ r ↔ ∃ s e, IsChunk c gap s e ∧
        x = ((monthsLater s t).1, (monthsLater s t).2, (monthsLater e t).1, (monthsLater e t).2,
          labels (n + 1) gap s e) := by
  obtain ⟨L, H, hr⟩ := C11_yield_dates t ht n c hlen h01 gap hg1 hg2
  refine ⟨_, hr, ?_⟩
  intro x
  rw [List.mem_map]
  constructor
  · rintro ⟨p, hp, rfl⟩
    exact ⟨p.1, p.2, isChunk_of_mem H hp, rfl⟩
  · rintro ⟨s, e, hc, rfl⟩
    exact ⟨(s, e), (mem_iff_isChunk H s e).2 hc, rfl⟩

theorem monthsLater_add (a b : Nat) (t : Int × Int) :
    monthsLater (a + b) t = monthsLater b (monthsLater a t) := by
  induction b with
  | zero => rfl
  | succ b ih => rw [← Nat.add_assoc]; simp only [monthsLater]; rw [ih]

/-- C12, in calendar terms: a chunk yielded with label 'regular' is yielded with the same dates (and again
as 'regular') by every counter over an extended range of months that agrees with the first on its range. -/
theorem C12_regular_dates_stable (gap : Nat) (hg1 : 1 ≤ gap) (hg2 : gap ≤ 10)
    (t : Int × Int) (ht : 1 ≤ t.2 ∧ t.2 ≤ 12) (pre c post : List Int) (hc : c ≠ [])
    (h01 : ∀ x ∈ pre ++ c ++ post, x = 0 ∨ x = 1)
    (r r' : List (Int × Int × Int × Int × List String))
    (hr : YMCounter.yieldDates
      { months := monthList (monthsLater pre.length t) (c.length - 1), counter := c } gap = .ok r)
    (hr' : YMCounter.yieldDates
      { months := monthList t ((pre ++ c ++ post).length - 1), counter := pre ++ c ++ post } gap = .ok r')
    (y1 m1 y2 m2 : Int) (cl : List String) (hmem : (y1, m1, y2, m2, cl) ∈ r) (hreg : "regular" ∈ cl) :
    ∃ cl', (y1, m1, y2, m2, cl') ∈ r' ∧ "regular" ∈ cl' := by
  have hpos : 1 ≤ c.length := by
    rcases c with _ | ⟨a, c⟩
    · exact absurd rfl hc
    · simp
  have hlen2 : (pre ++ c ++ post).length = pre.length + c.length + post.length := by simp; omega
  obtain ⟨r0, e0, k0⟩ := yield_mem_iff (monthsLater pre.length t) (monthsLater_valid _ ht).1 (c.length - 1) c
    (by omega) (fun x hx => h01 x (by simp [hx])) gap hg1 hg2
  obtain ⟨r1, e1, k1⟩ := yield_mem_iff t ht ((pre ++ c ++ post).length - 1) (pre ++ c ++ post)
    (by omega) h01 gap hg1 hg2
  rw [hr] at e0
  rw [hr'] at e1
  simp only [Except.ok.injEq] at e0 e1
  subst e0 e1
  obtain ⟨s, e, hch, heq⟩ := (k0 _).1 hmem
  simp only [Prod.mk.injEq] at heq
  obtain ⟨q1, q2, q3, q4, rfl⟩ := heq
  have he := data_lt hch.2.1
  have hlab := (C11_label_meaning (c.length - 1 + 1) gap s e (by omega))
  have hs : gap ≤ s ∧ e + 1 + gap ≤ c.length := by
    have := hlab.2.2.2.1 hreg
    rw [hlab.1, hlab.2.1] at this
    omega
  refine ⟨labels ((pre ++ c ++ post).length - 1 + 1) gap (pre.length + s) (pre.length + e), ?_, ?_⟩
  · rw [k1]
    refine ⟨_, _, isChunk_extend hch hs.1 hs.2 pre post, ?_⟩
    rw [monthsLater_add, monthsLater_add, ← q1, ← q2, ← q3, ← q4]
  · have l2 := (C11_label_meaning ((pre ++ c ++ post).length - 1 + 1) gap (pre.length + s) (pre.length + e)
      (by omega))
    rw [l2.2.2.2, l2.1, l2.2.1]
    omega

/-- C12: edge cases are rightly excluded: a chunk with fewer than `gap` months before (after) it is no
longer returned when one month with data is prepended (appended). -/
theorem C12_edge_chunks_unstable (gap : Nat) (hg1 : 1 ≤ gap) (hg2 : gap ≤ 10) (c : List Int)
    (h01 : ∀ x ∈ c, x = 0 ∨ x = 1) (s e : Nat) :
    (s < gap → (((s + 1 : Nat) : Int), ((e + 1 : Nat) : Int)) ∉
      (getChunks (1 :: c) gap).1.zip (getChunks (1 :: c) gap).2) ∧
    (e < c.length → c.length < e + 1 + gap → ((s : Int), (e : Int)) ∉
      (getChunks (c ++ [1]) gap).1.zip (getChunks (c ++ [1]) gap).2) := by
  constructor
  · intro hs
    rw [C10_chunks_characterised gap hg1 hg2 (1 :: c) (by simpa using h01)]
    rintro ⟨_, _, _, h, _, _⟩
    exact h 0 (by omega) (by omega) (by simp [Data])
  · intro he1 he2
    rw [C10_chunks_characterised gap hg1 hg2 (c ++ [1]) (by
      intro x hx; rw [List.mem_append, List.mem_singleton] at hx
      rcases hx with hx | rfl
      · exact h01 x hx
      · exact .inr rfl)]
    rintro ⟨_, _, _, _, h, _⟩
    exact h c.length (by omega) (by omega) (by simp [Data])

/-- C12: 'new' exactly once.  Let `C` be a long series starting in month `t`, `s..e` one of its chunks.  Among the series `C.take k` (the data known after `k` months) the
chunk `s..e` is yielded with label 'new' for `k = e + 1 + gap` and for no other `k`; so it is new
exactly once, when `gap` empty months have followed it. -/
theorem C12_new_exactly_once (gap : Nat) (hg1 : 1 ≤ gap) (hg2 : gap ≤ 10)
    (t : Int × Int) (ht : 1 ≤ t.2 ∧ t.2 ≤ 12) (C : List Int) (h01 : ∀ x ∈ C, x = 0 ∨ x = 1) (s e : Nat)
    (hch : IsChunk C gap s e)
    (k : Nat) (hk1 : 1 ≤ k) (hk2 : k ≤ C.length) (r : List (Int × Int × Int × Int × List String))
    (hr : YMCounter.yieldDates { months := monthList t (k - 1), counter := C.take k } gap = .ok r) :
    (∃ cl, ((monthsLater s t).1, (monthsLater s t).2, (monthsLater e t).1, (monthsLater e t).2, cl) ∈ r ∧
      "new" ∈ cl) ↔ k = e + 1 + gap := by
  obtain ⟨r0, e0, k0⟩ := yield_mem_iff t ht (k - 1) (C.take k)
    (by simp; omega) (fun x hx => h01 x (List.mem_of_mem_take hx)) gap hg1 hg2
  rw [hr] at e0
  simp only [Except.ok.injEq] at e0
  subst e0
  have inj : ∀ a b : Nat, monthsLater a t = monthsLater b t → a = b := by
    intro a b hab
    have h1 := (monthsLater_valid a ht).2
    have h2 := (monthsLater_valid b ht).2
    rw [hab] at h1
    omega
  constructor
  · rintro ⟨cl, hmem, hnew⟩
    obtain ⟨s', e', hch', heq⟩ := (k0 _).1 hmem
    simp only [Prod.mk.injEq] at heq
    obtain ⟨q1, q2, q3, q4, rfl⟩ := heq
    have he : e = e' := inj _ _ (Prod.ext q3 q4)
    subst he
    have := data_lt hch'.2.1
    simp at this
    have hl := (C11_label_meaning (k - 1 + 1) gap s' e (by omega)).2.2.1.1 hnew
    omega
  · rintro rfl
    refine ⟨_, (k0 _).2 ⟨s, e, ?_, rfl⟩, ?_⟩
    · have hD : ∀ i, i < e + 1 + gap → (Data (C.take (e + 1 + gap)) i ↔ Data C i) := by
        intro i hi; simp [Data, hi]
      obtain ⟨a1, a2, a3, a4, a5, a6⟩ := hch
      refine ⟨(hD s (by omega)).2 a1, (hD e (by omega)).2 a2, a3, ?_, ?_, ?_⟩
      · intro i h1 h2; rw [hD i (by omega)]; exact a4 i h1 h2
      · intro i h1 h2; rw [hD i (by omega)]; exact a5 i h1 h2
      · intro i h1 h2
        obtain ⟨j, x, y, z⟩ := a6 i h1 h2
        exact ⟨j, x, y, (hD j (by omega)).2 z⟩
    · exact (C11_label_meaning _ gap s e (by omega)).2.2.1.2 (by omega)

example : ((2 : Int), (3 : Int)) ∈ (getChunks [0, 0, 1, 1, 0, 0] 2).1.zip (getChunks [0, 0, 1, 1, 0, 0] 2).2 ∧
    2 ≤ 2 ∧ 3 + 1 + 2 ≤ [(0:Int), 0, 1, 1, 0, 0].length := by decide
example : IsChunk [0, 0, 1, 1, 0, 0, 0, 1] 2 2 3 :=
  (C10_chunks_characterised 2 (by omega) (by omega) _ (by decide) 2 3).1 (by decide)

/-! ## C70 the tracking wrapper -/

/-- C70: modes 'all', 'standard' and 'new' submit, once and in order, exactly all chunks, those at least
`gap` months from both ends, and those with exactly `gap` months after them. -/
theorem C70_modes_all_standard_new (t : Int × Int) (ht : 1 ≤ t.2 ∧ t.2 ≤ 12) (n : Nat) (c : List Int)
    (hlen : c.length = n + 1) (h01 : ∀ x ∈ c, x = 0 ∨ x = 1) (gap : Nat) (hg1 : 1 ≤ gap) (hg2 : gap ≤ 10) :
    ∃ L, Chunking c gap L ∧
      let job := fun p : Nat × Nat => ((monthsLater p.1 t).1, (monthsLater p.1 t).2, (monthsLater p.2 t).1,
          (monthsLater p.2 t).2, labels (n + 1) gap p.1 p.2)
      let ctr : YMCounter := { months := monthList t n, counter := c }
      submissions "all" ctr gap = .ok (L.map job) ∧
      submissions "standard" ctr gap =
        .ok ((L.filter fun p => gap ≤ p.1 ∧ p.2 + 1 + gap ≤ n + 1).map job) ∧
      submissions "new" ctr gap = .ok ((L.filter fun p => p.2 + 1 + gap = n + 1).map job) := by
  obtain ⟨L, H, hr⟩ := C11_yield_dates t ht n c hlen h01 gap hg1 hg2
  refine ⟨L, H, ?_⟩
  simp only
  have key : ∀ (edge : String) (P : Nat × Nat → Bool),
      (edge = "standard" ∨ edge = "all" ∨ edge = "new" ∨ edge = "noend") →
      (∀ p ∈ L, submitted edge (labels (n + 1) gap p.1 p.2) = P p) →
      submissions edge { months := monthList t n, counter := c } gap = .ok ((L.filter P).map fun p =>
        ((monthsLater p.1 t).1, (monthsLater p.1 t).2, (monthsLater p.2 t).1,
          (monthsLater p.2 t).2, labels (n + 1) gap p.1 p.2)) := by
    intro edge P he hP
    unfold submissions
    rw [hr]
    simp only [he, not_true_eq_false, if_false, except_bind_ok, except_pure]
    congr 1
    rw [List.filter_map]
    congr 1
    apply List.filter_congr
    intro p hp
    exact hP p hp
  refine ⟨?_, ?_, ?_⟩
  · rw [key "all" (fun _ => true) (by simp) (by simp [submitted])]
    simp
  · apply key "standard" _ (by simp)
    intro p hp
    have he := data_lt (H.ends_have_data p hp).2.1
    have l := C11_label_meaning (n + 1) gap p.1 p.2 (by omega)
    have l4 := l.2.2.2
    rw [l.1, l.2.1] at l4
    rw [Bool.eq_iff_iff]
    simp only [submitted, String.reduceBEq, Bool.false_or, Bool.true_and, Bool.false_and, Bool.or_false,
      List.contains_iff_mem, decide_eq_true_eq]
    rw [l4]; omega
  · apply key "new" _ (by simp)
    intro p hp
    have he := data_lt (H.ends_have_data p hp).2.1
    have l := C11_label_meaning (n + 1) gap p.1 p.2 (by omega)
    rw [Bool.eq_iff_iff]
    simp only [submitted, String.reduceBEq, Bool.false_or, Bool.true_and, Bool.false_and, Bool.or_false,
      List.contains_iff_mem, decide_eq_true_eq]
    rw [l.2.2.1]; omega

/-- C70, mode 'noend' as the code has it: chunks at least `gap` months from the end, and also every chunk
fewer than `gap` months from the start.  Missing for the documented behaviour (chunks at least `gap` months
from the end only): a chunk near both ends is submitted too, see `C70_noend_violation`. -/
theorem C70_mode_noend_partial (t : Int × Int) (ht : 1 ≤ t.2 ∧ t.2 ≤ 12) (n : Nat) (c : List Int)
    (hlen : c.length = n + 1) (h01 : ∀ x ∈ c, x = 0 ∨ x = 1) (gap : Nat) (hg1 : 1 ≤ gap) (hg2 : gap ≤ 10) :
    ∃ L, Chunking c gap L ∧
      submissions "noend" { months := monthList t n, counter := c } gap =
        .ok ((L.filter fun p => p.2 + 1 + gap ≤ n + 1 ∨ p.1 < gap).map fun p : Nat × Nat =>
          ((monthsLater p.1 t).1, (monthsLater p.1 t).2, (monthsLater p.2 t).1,
          (monthsLater p.2 t).2, labels (n + 1) gap p.1 p.2)) := by
  obtain ⟨L, H, hr⟩ := C11_yield_dates t ht n c hlen h01 gap hg1 hg2
  refine ⟨L, H, ?_⟩
  unfold submissions
  rw [hr]
  simp only [reduceIte, or_true, not_true_eq_false, except_bind_ok, except_pure]
  congr 1
  rw [List.filter_map]
  congr 1
  apply List.filter_congr
  intro p hp
  have he := data_lt (H.ends_have_data p hp).2.1
  have l := C11_label_meaning (n + 1) gap p.1 p.2 (by omega)
  have l4 := l.2.2.2
  rw [l.1, l.2.1] at l4
  rw [Bool.eq_iff_iff]
  simp only [Function.comp, submitted, String.reduceBEq, Bool.false_or, Bool.true_and, Bool.false_and,
    List.contains_iff_mem, decide_eq_true_eq, Bool.or_eq_true]
  rw [l4, l.1]; omega

/-- C70 fails for 'noend': in the one-month series with data, gap 3, the only chunk ends at the end of the
series but is submitted. -/
theorem C70_noend_violation :
    submissions "noend" { months := [(2000, 1)], counter := [1] } 3 =
      .ok [(2000, 1, 2000, 1, ["start_edge_case", "end_edge_case"])] := by rfl

/-- C70: any other mode is rejected. -/
theorem C70_other_modes_rejected (edge : String) (c : YMCounter) (gap : Int)
    (h : edge ≠ "standard" ∧ edge ≠ "all" ∧ edge ≠ "new" ∧ edge ≠ "noend") :
    submissions edge c gap = .error .other := by
  unfold submissions
  simp [h]

/-! ### The dictionary of identifiers -/

/-- The counter an identifier should have: month `t` is 1 iff the identifier is listed for `t`. -/
def Spec.idCounter (t0 : Int × Int) (n : Nat) (lines : List (Int × Int × String)) (id : String) : YMCounter :=
  { months := monthList t0 n,
    counter := (monthList t0 n).map fun t => if (t.1, t.2, id) ∈ lines then 1 else 0 }

theorem setym_idCounter (t0 : Int × Int) (n : Nat) (lines : List (Int × Int × String)) (id : String)
    (y m : Int) :
    (idCounter t0 n lines id).setym y m 1 = idCounter t0 n (lines ++ [(y, m, id)]) id := by
  unfold YMCounter.setym idCounter
  simp only [YMCounter.mk.injEq, true_and]
  rw [List.zipWith_map_right, List.zipWith_self]
  apply List.map_congr_left
  intro t _
  by_cases h1 : t.1 = y ∧ t.2 = m
  · simp [h1]
  · simp [h1]

theorem idCounter_other (t0 : Int × Int) (n : Nat) (lines : List (Int × Int × String)) (id id' : String)
    (y m : Int) (h : id ≠ id') :
    idCounter t0 n (lines ++ [(y, m, id')]) id = idCounter t0 n lines id := by
  unfold idCounter
  simp [h]

theorem idCounter_unseen (t0 : Int × Int) (n : Nat) (lines : List (Int × Int × String)) (id : String)
    (h : ∀ x ∈ lines, x.2.2 ≠ id) :
    idCounter t0 n lines id = { months := monthList t0 n, counter := List.replicate (n + 1) 0 } := by
  unfold idCounter
  simp only [YMCounter.mk.injEq, true_and]
  have : ∀ t : Int × Int, (t.1, t.2, id) ∉ lines := fun t hc => h _ hc rfl
  simp only [this, if_false]
  rw [List.map_const']
  simp [monthList]

theorem recordId_spec (y1 m1 y2 m2 : Int) (h1 : 1 ≤ m1 ∧ m1 ≤ 12) (h2 : 1 ≤ m2 ∧ m2 ≤ 12)
    (n : Nat) (hn : (n : Int) = 12 * (y2 - y1) + m2 - m1)
    (lines : List (Int × Int × String)) (y m : Int) (id : String) (ids : List String) (hnd : ids.Nodup)
    (hlast : id ∈ ids ∨ ∀ x ∈ lines, x.2.2 ≠ id) :
    recordId y1 m1 y2 m2 y m id (ids.map fun k => (k, idCounter (y1, m1) n lines k)) =
      .ok ((if id ∈ ids then ids else ids ++ [id]).map fun k =>
        (k, idCounter (y1, m1) n (lines ++ [(y, m, id)]) k)) := by
  induction ids with
  | nil =>
    have hu : ∀ x ∈ lines, x.2.2 ≠ id := by simpa using hlast
    simp only [List.map_nil, recordId, init_ok y1 m1 y2 m2 h1 h2 n hn, except_bind_ok, except_pure]
    rw [← idCounter_unseen (y1, m1) n lines id hu, setym_idCounter]
    simp
  | cons k ids ih =>
    rw [List.nodup_cons] at hnd
    simp only [List.map_cons, recordId]
    by_cases hk : k = id
    · subst hk
      simp only [if_true, setym_idCounter, List.mem_cons, true_or, List.map_cons]
      congr 2
      apply List.map_congr_left
      intro k' hk'
      rw [idCounter_other]
      rintro rfl
      exact hnd.1 hk'
    · simp only [hk, if_false]
      have hk2 : ¬ id = k := fun h => hk h.symm
      rw [ih hnd.2 (by simpa [hk2] using hlast)]
      by_cases hm : id ∈ ids
      · simp [hm, idCounter_other _ _ _ _ _ _ _ hk]
      · simp [hm, hk2, idCounter_other _ _ _ _ _ _ _ hk]

/-- C70: for a valid range of months and any lines read from the monthly ID files, the dictionary holds
each listed identifier exactly once, with a counter whose month is 1 exactly when the identifier is listed
for that month. -/
theorem C70_id_dictionary (y1 m1 y2 m2 : Int) (h1 : 1 ≤ m1 ∧ m1 ≤ 12) (h2 : 1 ≤ m2 ∧ m2 ≤ 12)
    (n : Nat) (hn : (n : Int) = 12 * (y2 - y1) + m2 - m1) (lines : List (Int × Int × String)) :
    ∃ ids : List String, ids.Nodup ∧ (∀ id, id ∈ ids ↔ ∃ y m, (y, m, id) ∈ lines) ∧
      buildIds y1 m1 y2 m2 lines = .ok (ids.map fun id => (id, idCounter (y1, m1) n lines id)) := by
  induction lines using List.reverseRecOn with
  | nil => exact ⟨[], by simp, by simp, rfl⟩
  | append_singleton lines x ih =>
    obtain ⟨y, m, id⟩ := x
    obtain ⟨ids, hnd, hmem, hb⟩ := ih
    refine ⟨if id ∈ ids then ids else ids ++ [id], ?_, ?_, ?_⟩
    · split
      · exact hnd
      · rename_i hc
        rw [List.nodup_append]
        refine ⟨hnd, by simp, ?_⟩
        intro a ha b hb
        rw [List.mem_singleton] at hb
        rintro rfl
        exact hc (hb ▸ ha)
    · intro k
      split
      · rename_i hc
        rw [hmem]
        constructor
        · rintro ⟨a, b, h⟩; exact ⟨a, b, by simp [h]⟩
        · rintro ⟨a, b, h⟩
          rw [List.mem_append, List.mem_singleton] at h
          rcases h with h | h
          · exact ⟨a, b, h⟩
          · simp only [Prod.mk.injEq] at h
            obtain ⟨_, _, rfl⟩ := h
            exact (hmem _).1 hc
      · rw [List.mem_append, hmem, List.mem_singleton]
        constructor
        · rintro (⟨a, b, h⟩ | rfl)
          · exact ⟨a, b, by simp [h]⟩
          · exact ⟨y, m, by simp⟩
        · rintro ⟨a, b, h⟩
          rw [List.mem_append, List.mem_singleton] at h
          rcases h with h | h
          · exact .inl ⟨a, b, h⟩
          · simp only [Prod.mk.injEq] at h
            exact .inr h.2.2
    · unfold buildIds at *
      rw [List.foldlM_append, hb]
      simp only [except_bind_ok, List.foldlM_cons, List.foldlM_nil]
      rw [recordId_spec y1 m1 y2 m2 h1 h2 n hn lines y m id ids hnd]
      · rfl
      · by_cases hc : id ∈ ids
        · exact .inl hc
        · right
          intro x hx hxe
          apply hc
          rw [hmem]
          exact ⟨x.1, x.2.1, hxe ▸ hx⟩

example : buildIds 2000 1 2000 3 [(2000, 1, "A"), (2000, 1, "B"), (2000, 3, "A")] =
    .ok [("A", { months := [(2000, 1), (2000, 2), (2000, 3)], counter := [1, 0, 1] }),
         ("B", { months := [(2000, 1), (2000, 2), (2000, 3)], counter := [1, 0, 0] })] := by decide
example : submissions "standard" { months := monthList (2000, 1) 5, counter := [0, 0, 1, 1, 0, 0] } 2 =
    .ok [(2000, 3, 2000, 4, ["new", "regular"])] := by rfl

end MarineQC
