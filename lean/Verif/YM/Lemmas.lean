import Verif.YM.Model
import Verif.YM.Spec
import Verif.Calendar.Props
import Mathlib.Data.List.Induction

/-!
# Helper lemmas about `get_chunks`
-/

namespace MarineQC
open Spec

theorem data_lt {c : List Int} {i : Nat} (h : Data c i) : i < c.length := by
  unfold Data at h
  by_contra hc
  rw [List.getElem?_eq_none (by omega)] at h
  cases h

theorem data_snoc (c : List Int) (x : Int) (i : Nat) :
    Data (c ++ [x]) i ↔ Data c i ∨ (i = c.length ∧ x = 1) := by
  unfold Data
  rcases Nat.lt_trichotomy i c.length with h | h | h
  · rw [List.getElem?_append_left h]
    constructor
    · exact .inl
    · rintro (h' | h')
      · exact h'
      · omega
  · subst h
    rw [List.getElem?_append_right (le_refl _)]
    simp
  · rw [List.getElem?_eq_none (by simp; omega), List.getElem?_eq_none (by omega)]
    simp; omega

/-- Loop invariant of `get_chunks`. -/
def ChunkInv (gap : Nat) (c : List Int) (st : ChunkState) : Prop :=
  st.i = c.length ∧
  ((st.starts = [] ∧ st.ends = [] ∧ st.lastdata = -1 ∧ st.zeros = 10 + c.length ∧ ∀ i, ¬ Data c i) ∨
   ∃ (closed : List (Nat × Nat)) (s l : Nat),
      st.starts = closed.map (fun p => (p.1 : Int)) ++ [(s : Int)] ∧
      st.ends = closed.map (fun p => (p.2 : Int)) ∧
      st.lastdata = l ∧ st.zeros = c.length - 1 - l ∧ Data c l ∧ (∀ i, l < i → ¬ Data c i) ∧
      Chunking c gap (closed ++ [(s, l)]))

theorem chunkInv_init (gap : Nat) : ChunkInv gap [] ChunkState.init := by
  refine ⟨rfl, .inl ⟨rfl, rfl, rfl, rfl, ?_⟩⟩
  intro i h; have := data_lt h; simp at this

theorem chunking_congr {c c' : List Int} {gap : Nat} {L : List (Nat × Nat)}
    (h : ∀ i, Data c i ↔ Data c' i) (H : Chunking c gap L) : Chunking c' gap L where
  ends_have_data p hp := by rw [← h, ← h]; exact H.ends_have_data p hp
  inside p hp i a b := by
    obtain ⟨j, x, y, z⟩ := H.inside p hp i a b
    exact ⟨j, x, y, (h j).1 z⟩
  separated := H.separated
  covers i hi := H.covers i ((h i).2 hi)

theorem chunkInv_step (gap : Nat) (hg1 : 1 ≤ gap) (hg2 : gap ≤ 10) (c : List Int) (x : Int)
    (hx : x = 0 ∨ x = 1) (st : ChunkState) (h : ChunkInv gap c st) :
    ChunkInv gap (c ++ [x]) (chunkStep gap st x) := by
  obtain ⟨hi, h⟩ := h
  have g1 : (1:Int) ≤ gap := by exact_mod_cast hg1
  have g2 : (gap:Int) ≤ 10 := by exact_mod_cast hg2
  rcases hx with rfl | rfl
  · -- no data this month
    have hd : ∀ i, Data (c ++ [0]) i ↔ Data c i := by
      intro i; rw [data_snoc]; simp
    have hs : chunkStep gap st 0 = { st with zeros := st.zeros + 1, i := st.i + 1 } := by
      simp [chunkStep]
    rw [hs]
    refine ⟨by simp [hi], ?_⟩
    rcases h with ⟨a, b, e, f, k⟩ | ⟨closed, s, l, a, b, e, f, k, k', G⟩
    · refine .inl ⟨a, b, e, by simp [f]; omega, fun i => by rw [hd]; exact k i⟩
    · refine .inr ⟨closed, s, l, a, b, e, ?_, (hd l).2 k, fun i hl => by rw [hd]; exact k' i hl,
        chunking_congr (fun i => (hd i).symm) G⟩
      simp [f]; omega
  · have hd : ∀ i, Data (c ++ [1]) i ↔ Data c i ∨ i = c.length := by
      intro i; rw [data_snoc]; simp
    rcases h with ⟨a, b, e, f, k⟩ | ⟨closed, s, l, a, b, e, f, k, k', G⟩
    · have hz : st.zeros ≥ gap := by omega
      have hs : chunkStep gap st 1 =
          { st with starts := [(c.length : Int)], zeros := 0, lastdata := c.length, i := st.i + 1 } := by
        have g0 : 0 < gap := by omega
        simp [chunkStep, hz, a, e, hi, g0]
      rw [hs]
      refine ⟨by simp [hi], .inr ⟨[], c.length, c.length, by simp, by simp [b], rfl, by simp,
        (hd _).2 (.inr rfl), ?_, ?_⟩⟩
      · intro i hl hc
        rcases (hd i).1 hc with hc | hc
        · exact k i hc
        · omega
      · constructor
        · simp only [List.nil_append, List.mem_singleton]
          rintro p rfl; exact ⟨(hd _).2 (.inr rfl), (hd _).2 (.inr rfl), le_refl _⟩
        · simp only [List.nil_append, List.mem_singleton]
          rintro p rfl i h1 h2
          exact ⟨c.length, by omega, by simp only at h1; omega, (hd _).2 (.inr rfl)⟩
        · simp
        · intro i hc
          refine ⟨(c.length, c.length), by simp, ?_⟩
          rcases (hd i).1 hc with hc | hc
          · exact absurd hc (k i)
          · simp only; omega
    · have hl := data_lt k
      by_cases hz : st.zeros ≥ gap
      · have hs : chunkStep gap st 1 =
            { st with starts := st.starts ++ [(c.length : Int)], ends := st.ends ++ [(l : Int)], zeros := 0,
                      lastdata := c.length, i := st.i + 1 } := by
          have g0 : 0 < gap := by omega
          simp [chunkStep, hz, e, hi, g0]
        rw [hs]
        refine ⟨by simp [hi], .inr ⟨closed ++ [(s, l)], c.length, c.length, by simp [a], by simp [b], rfl,
          by simp, (hd _).2 (.inr rfl), ?_, ?_⟩⟩
        · intro i hl hc
          rcases (hd i).1 hc with hc | hc
          · have := data_lt hc; omega
          · omega
        · have hle : ∀ p ∈ closed ++ [(s, l)], p.2 ≤ l := by
            intro p hp
            by_contra hc
            exact k' p.2 (by omega) (G.ends_have_data p hp).2.1
          constructor
          · intro p hp
            rw [List.mem_append] at hp
            rcases hp with hp | hp
            · obtain ⟨u, v, w⟩ := G.ends_have_data p hp
              exact ⟨(hd _).2 (.inl u), (hd _).2 (.inl v), w⟩
            · rw [List.mem_singleton] at hp
              subst hp; exact ⟨(hd _).2 (.inr rfl), (hd _).2 (.inr rfl), le_refl _⟩
          · intro p hp i h1 h2
            rw [List.mem_append] at hp
            rcases hp with hp | hp
            · obtain ⟨j, u, v, w⟩ := G.inside p hp i h1 h2
              exact ⟨j, u, v, (hd _).2 (.inl w)⟩
            · rw [List.mem_singleton] at hp
              subst hp
              exact ⟨c.length, by simp only at h2; omega, by simp only at h1; omega, (hd _).2 (.inr rfl)⟩
          · rw [List.pairwise_append]
            refine ⟨G.separated, by simp, ?_⟩
            intro p hp q hq
            rw [List.mem_singleton] at hq
            subst hq
            have := hle p hp
            simp only; omega
          · intro i hc
            rcases (hd i).1 hc with hc | hc
            · obtain ⟨p, hp, u⟩ := G.covers i hc
              exact ⟨p, List.mem_append_left _ hp, u⟩
            · exact ⟨(c.length, c.length), by simp, by simp only; omega⟩
      · have hs : chunkStep gap st 1 =
            { st with lastdata := c.length, zeros := 0, i := st.i + 1 } := by
          have hz' : st.zeros < gap := by omega
          simp [chunkStep, hz, hz', hi]
        rw [hs]
        refine ⟨by simp [hi], .inr ⟨closed, s, c.length, a, b, rfl,
          by simp, (hd _).2 (.inr rfl), ?_, ?_⟩⟩
        · intro i hl hc
          rcases (hd i).1 hc with hc | hc
          · have := data_lt hc; omega
          · omega
        · have hsl := G.ends_have_data (s, l) (by simp)
          simp only at hsl
          constructor
          · intro p hp
            rw [List.mem_append] at hp
            rcases hp with hp | hp
            · obtain ⟨u, v, w⟩ := G.ends_have_data p (List.mem_append_left _ hp)
              exact ⟨(hd _).2 (.inl u), (hd _).2 (.inl v), w⟩
            · rw [List.mem_singleton] at hp
              subst hp
              exact ⟨(hd _).2 (.inl hsl.1), (hd _).2 (.inr rfl), by simp only; omega⟩
          · intro p hp i h1 h2
            rw [List.mem_append] at hp
            rcases hp with hp | hp
            · obtain ⟨j, u, v, w⟩ := G.inside p (List.mem_append_left _ hp) i h1 h2
              exact ⟨j, u, v, (hd _).2 (.inl w)⟩
            · rw [List.mem_singleton] at hp
              subst hp
              simp only at h1 h2
              by_cases q1 : i + gap = c.length + 1
              · exact ⟨c.length, by omega, by omega, (hd _).2 (.inr rfl)⟩
              · by_cases q2 : i + gap ≤ l + 1
                · obtain ⟨j, u, v, w⟩ := G.inside (s, l) (by simp) i h1 q2
                  exact ⟨j, u, v, (hd _).2 (.inl w)⟩
                · exact ⟨l, by omega, by omega, (hd _).2 (.inl k)⟩
          · have hsep := G.separated
            rw [List.pairwise_append] at hsep ⊢
            refine ⟨hsep.1, by simp, ?_⟩
            intro p hp q hq
            rw [List.mem_singleton] at hq
            subst hq
            exact hsep.2.2 p hp (s, l) (by simp)
          · intro i hc
            rcases (hd i).1 hc with hc | hc
            · obtain ⟨p, hp, u⟩ := G.covers i hc
              rw [List.mem_append, List.mem_singleton] at hp
              rcases hp with hp | rfl
              · exact ⟨p, List.mem_append_left _ hp, u⟩
              · exact ⟨(s, c.length), by simp, by simp only at *; omega⟩
            · exact ⟨(s, c.length), by simp, by simp only at *; omega⟩

theorem chunkInv_fold (gap : Nat) (hg1 : 1 ≤ gap) (hg2 : gap ≤ 10) (c : List Int)
    (h01 : ∀ x ∈ c, x = 0 ∨ x = 1) : ChunkInv gap c (c.foldl (chunkStep gap) ChunkState.init) := by
  induction c using List.reverseRecOn with
  | nil => exact chunkInv_init gap
  | append_singleton c x ih =>
    rw [List.foldl_append]
    exact chunkInv_step gap hg1 hg2 c x (h01 x (by simp)) _ (ih fun y hy => h01 y (by simp [hy]))

theorem getChunks_chunking (gap : Nat) (hg1 : 1 ≤ gap) (hg2 : gap ≤ 10) (c : List Int)
    (h01 : ∀ x ∈ c, x = 0 ∨ x = 1) :
    ∃ L : List (Nat × Nat), getChunks c gap = (L.map (fun p => (p.1 : Int)), L.map (fun p => (p.2 : Int))) ∧
      Chunking c gap L := by
  obtain ⟨-, h⟩ := chunkInv_fold gap hg1 hg2 c h01
  rcases h with ⟨a, b, e, f, k⟩ | ⟨closed, s, l, a, b, e, f, k, k', G⟩
  · refine ⟨[], by simp [getChunks, a, b], ⟨by simp, by simp, by simp, fun i hi => absurd hi (k i)⟩⟩
  · exact ⟨closed ++ [(s, l)], by simp [getChunks, a, b, e], G⟩

theorem isChunk_of_mem {c : List Int} {gap : Nat} {L : List (Nat × Nat)} (H : Chunking c gap L)
    {p : Nat × Nat} (hp : p ∈ L) : IsChunk c gap p.1 p.2 := by
  obtain ⟨u, v, w⟩ := H.ends_have_data p hp
  have sep : ∀ q ∈ L, q = p ∨ q.2 + gap < p.1 ∨ p.2 + gap < q.1 := by
    intro q hq
    have := H.separated
    rw [List.pairwise_iff_getElem] at this
    obtain ⟨i, hi, rfl⟩ := List.getElem_of_mem hp
    obtain ⟨j, hj, rfl⟩ := List.getElem_of_mem hq
    rcases Nat.lt_trichotomy i j with h | h | h
    · exact .inr (.inr (this i j hi hj h))
    · subst h; exact .inl rfl
    · exact .inr (.inl (this j i hj hi h))
  refine ⟨u, v, w, ?_, ?_, H.inside p hp⟩
  · intro i h1 h2 hc
    obtain ⟨q, hq, x, y⟩ := H.covers i hc
    rcases sep q hq with rfl | h | h <;> omega
  · intro i h1 h2 hc
    obtain ⟨q, hq, x, y⟩ := H.covers i hc
    rcases sep q hq with rfl | h | h <;> omega

theorem isChunk_unique {c : List Int} {gap s e s' e' : Nat}
    (h : IsChunk c gap s e) (h' : IsChunk c gap s' e') (h1 : s' ≤ s) (h2 : s ≤ e') :
    s = s' ∧ e = e' := by
  obtain ⟨a1, a2, a3, a4, a5, a6⟩ := h
  obtain ⟨b1, b2, b3, b4, b5, b6⟩ := h'
  have hs : s = s' := by
    by_contra hne
    by_cases hk : s ≤ s' + gap
    · exact a4 s' (by omega) hk b1
    · obtain ⟨j, x, y, z⟩ := b6 (s - gap) (by omega) (by omega)
      exact a4 j (by omega) (by omega) z
  subst hs
  refine ⟨rfl, ?_⟩
  rcases Nat.lt_trichotomy e e' with hlt | heq | hlt
  · by_cases hk : e' ≤ e + gap
    · exact absurd b2 (a5 e' hlt hk)
    · obtain ⟨j, x, y, z⟩ := b6 (e + 1) (by omega) (by omega)
      exact absurd z (a5 j (by omega) (by omega))
  · exact heq
  · by_cases hk : e ≤ e' + gap
    · exact absurd a2 (b5 e hlt hk)
    · obtain ⟨j, x, y, z⟩ := a6 (e' + 1) (by omega) (by omega)
      exact absurd z (b5 j (by omega) (by omega))

theorem mem_iff_isChunk {c : List Int} {gap : Nat} {L : List (Nat × Nat)} (H : Chunking c gap L)
    (s e : Nat) : (s, e) ∈ L ↔ IsChunk c gap s e := by
  constructor
  · intro h; exact isChunk_of_mem H h
  · intro h
    obtain ⟨p, hp, x, y⟩ := H.covers s h.1
    have := isChunk_unique h (isChunk_of_mem H hp) x y
    obtain ⟨a, b⟩ := this
    rw [a, b]; exact hp

end MarineQC
