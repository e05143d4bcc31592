/-!
# What a chunk of months is, independent of the model

A series is a list of month flags, 1 for a month with data and 0 for one without.
-/

namespace MarineQC.Spec

/-- Month `i` of the series has data. -/
def Data (c : List Int) (i : Nat) : Prop := c[i]? = some 1

/-- `s..e` is a maximal group of months with data, gaps of `gap` or more empty months being the
separators: first and last month have data, the `gap` months before and after (as far as the series goes)
have none, and every window of `gap` months inside has some. -/
def IsChunk (c : List Int) (gap s e : Nat) : Prop :=
  Data c s ∧ Data c e ∧ s ≤ e ∧
  (∀ i, i < s → s ≤ i + gap → ¬ Data c i) ∧
  (∀ i, e < i → i ≤ e + gap → ¬ Data c i) ∧
  (∀ i, s ≤ i → i + gap ≤ e + 1 → ∃ j, i ≤ j ∧ j < i + gap ∧ Data c j)

/-- `L` lists the gap-separated groups of data of a series, in order. -/
structure Chunking (c : List Int) (gap : Nat) (L : List (Nat × Nat)) : Prop where
  /-- each chunk starts and ends in a month with data -/
  ends_have_data : ∀ p ∈ L, Data c p.1 ∧ Data c p.2 ∧ p.1 ≤ p.2
  /-- inside a chunk there is never a run of `gap` empty months -/
  inside : ∀ p ∈ L, ∀ i, p.1 ≤ i → i + gap ≤ p.2 + 1 → ∃ j, i ≤ j ∧ j < i + gap ∧ Data c j
  /-- an earlier chunk is separated from a later one by at least `gap` months -/
  separated : L.Pairwise fun p q => p.2 + gap < q.1
  /-- every month with data lies in a chunk -/
  covers : ∀ i, Data c i → ∃ p ∈ L, p.1 ≤ i ∧ i ≤ p.2

/-- The labels of a chunk `s..e` of a series of `n` months. -/
def labels (n gap s e : Nat) : List String :=
  (if s < gap then ["start_edge_case"] else []) ++
  (if n < e + 1 + gap then ["end_edge_case"] else []) ++
  (if n = e + 1 + gap then ["new"] else []) ++
  (if gap ≤ s ∧ e + 1 + gap ≤ n then ["regular"] else [])

end MarineQC.Spec
