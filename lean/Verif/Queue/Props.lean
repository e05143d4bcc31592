import Verif.Queue.Model
import Mathlib.Logic.Relation
import Mathlib.Tactic.Linarith
import Mathlib.Tactic.Ring

/-!
# C158: how many jobs the wrapper has in the queue
-/

namespace MarineQC

namespace Spec

/-- The number of jobs of the wrapper's user. -/
def ownJobs (q : List QueueJob) : Nat := (q.filter fun j => j.user == queueUser).length

/-- The line `squeue` prints for a job. -/
def jobLine (j : QueueJob) : List Char := j.before ++ j.user ++ j.after

/-- `k` occurrences of `sub` in `s` that do not overlap. -/
def Occurs (sub : List Char) : Nat → List Char → Prop
  | 0, _ => True
  | k + 1, s => ∃ a b, s = a ++ sub ++ b ∧ Occurs sub k b

end Spec

open Spec

theorem occurs_append (sub : List Char) (k : Nat) (a s : List Char) (h : Occurs sub k s) : Occurs sub k (a ++ s) := by
  cases k with
  | zero => trivial
  | succ k =>
    obtain ⟨x, y, rfl, h⟩ := h
    exact ⟨a ++ x, y, by simp, h⟩

theorem occurs_drop (sub : List Char) (k m : Nat) (s : List Char) (h : Occurs sub k (s.drop m)) : Occurs sub k s := by
  have := occurs_append sub k (s.take m) _ h
  rwa [List.take_append_drop] at this

theorem countFrom_skip (sub : List Char) (m : Nat) (s : List Char) : countFrom sub m s = countFrom sub 0 (s.drop m) := by
  induction m generalizing s with
  | zero => rfl
  | succ m ih =>
    cases s with
    | nil => simp [countFrom]
    | cons c s => simp [countFrom, ih]

theorem countFrom_cons (sub : List Char) (c : Char) (s : List Char) (hs : sub ≠ []) :
    pyCount sub (c :: s) = if sub <+: c :: s then pyCount sub ((c :: s).drop sub.length) + 1 else pyCount sub s := by
  unfold pyCount
  rw [countFrom]
  by_cases h : sub <+: c :: s
  · rw [if_pos (List.isPrefixOf_iff_prefix.mpr h), if_pos h, countFrom_skip]
    obtain ⟨n, hn⟩ : ∃ n, sub.length = n + 1 := ⟨sub.length - 1, by have := List.length_pos_iff.mpr hs; omega⟩
    rw [hn]
    simp
  · rw [if_neg (fun hc => h (List.isPrefixOf_iff_prefix.mp hc)), if_neg h]

/-- The count is reached. -/
theorem count_occurs (sub : List Char) (hs : sub ≠ []) (s : List Char) : Occurs sub (pyCount sub s) s := by
  induction hn : s.length using Nat.strong_induction_on generalizing s with
  | _ n ih =>
    cases s with
    | nil => trivial
    | cons c s =>
      rw [countFrom_cons sub c s hs]
      have hl := List.length_pos_iff.mpr hs
      split
      · rename_i h
        obtain ⟨t, ht⟩ := h
        refine ⟨[], (c :: s).drop sub.length, ?_, ih _ ?_ _ rfl⟩
        · rw [← ht]; simp
        · rw [← hn, List.length_drop, List.length_cons]; omega
      · exact occurs_append sub _ [c] s (ih _ (by rw [← hn]; simp) s rfl)

/-- No more than the count is possible: taking the occurrences from left to right is best. -/
theorem occurs_le (sub : List Char) (hs : sub ≠ []) (k : Nat) (s : List Char) (h : Occurs sub k s) : k ≤ pyCount sub s := by
  induction hn : s.length using Nat.strong_induction_on generalizing s k with
  | _ n ih =>
    cases k with
    | zero => exact Nat.zero_le _
    | succ k =>
      have hl := List.length_pos_iff.mpr hs
      obtain ⟨a, b, e, h⟩ := h
      cases s with
      | nil =>
        have := congrArg List.length e
        simp only [List.length_nil, List.length_append] at this
        omega
      | cons c s =>
        rw [countFrom_cons sub c s hs]
        split
        · have hb : Occurs sub k ((c :: s).drop sub.length) := by
            rw [e, List.append_assoc]
            rw [show a ++ (sub ++ b) = (a ++ sub) ++ b by simp, List.drop_append_of_le_length (by simp)]
            exact occurs_append sub k _ b h
          have := ih _ (by rw [← hn, List.length_drop, List.length_cons]; omega) k _ hb rfl
          omega
        · rename_i hp
          cases a with
          | nil => exact absurd ⟨b, by simpa using e.symm⟩ hp
          | cons d a =>
            simp only [List.cons_append, List.cons.injEq] at e
            exact ih _ (by rw [← hn]; simp) (k + 1) s ⟨a, b, e.2, h⟩ rfl

/-- C158: what `checkload` returns is the greatest number of occurrences of the name that do not overlap. -/
theorem C158_count (uname text : List Char) (hu : uname ≠ []) (k : Nat) : k ≤ checkload uname text ↔ Occurs uname k text := by
  constructor
  · intro h
    have := count_occurs uname hu text
    change k ≤ pyCount uname text at h
    generalize pyCount uname text = n at h this
    induction n generalizing k text with
    | zero =>
      obtain rfl : k = 0 := by omega
      trivial
    | succ n ih =>
      cases k with
      | zero => trivial
      | succ k =>
        obtain ⟨a, b, e, h'⟩ := this
        exact ⟨a, b, e, ih b k (by omega) h'⟩
  · exact occurs_le uname hu k text

theorem occurs_join (sub : List Char) (i j : Nat) (a b : List Char) (h : Occurs sub i a) (h' : Occurs sub j b) :
    Occurs sub (i + j) (a ++ b) := by
  induction i generalizing a with
  | zero => rw [Nat.zero_add]; exact occurs_append sub j a b h'
  | succ i ih =>
    obtain ⟨x, y, rfl, h⟩ := h
    rw [show i + 1 + j = (i + j) + 1 by omega]
    exact ⟨x, y ++ b, by simp, ih y h⟩

theorem occurs_split (sub : List Char) (hs : sub ≠ []) (c : Char) (hc : c ∉ sub) (k : Nat) (a b : List Char)
    (h : Occurs sub k (a ++ c :: b)) : ∃ i j, k = i + j ∧ Occurs sub i a ∧ Occurs sub j b := by
  induction k generalizing a with
  | zero => exact ⟨0, 0, rfl, trivial, trivial⟩
  | succ k ih =>
    obtain ⟨x, y, e, h⟩ := h
    rcases List.append_eq_append_iff.mp e with ⟨z, e1, e2⟩ | ⟨z, e1, e2⟩
    · -- the occurrence ends after the character `c` begins
      cases z with
      | nil =>
        simp only [List.nil_append] at e2
        rw [List.append_nil] at e1
        obtain ⟨i, j, rfl, h1, h2⟩ := ih [] (by rw [← e2] at h; exact h)
        refine ⟨1, i + j, by omega, ⟨x, [], by rw [← e1]; simp, trivial⟩, ?_⟩
        cases i with
        | zero => simpa using h2
        | succ i =>
          obtain ⟨p, q, e, -⟩ := h1
          have := congrArg List.length e
          have hl := List.length_pos_iff.mpr hs
          simp only [List.length_nil, List.length_append] at this
          omega
      | cons d z =>
        simp only [List.cons_append, List.cons.injEq] at e2
        obtain ⟨rfl, e2⟩ := e2
        -- then `c` is before the occurrence
        rcases List.append_eq_append_iff.mp e1 with ⟨w, f1, f2⟩ | ⟨w, f1, f2⟩
        · exact absurd (by rw [f2]; simp) hc
        · cases w with
          | nil =>
            simp only [List.nil_append] at f2
            exact absurd (f2 ▸ List.mem_cons_self) hc
          | cons f w =>
            simp only [List.cons_append, List.cons.injEq] at f2
            exact ⟨0, k + 1, by omega, trivial, w, y, by rw [e2, f2.2], h⟩
    · obtain ⟨i, j, rfl, h1, h2⟩ := ih z (by rw [← e2]; exact h)
      exact ⟨i + 1, j, by omega, ⟨x, z, e1, h1⟩, h2⟩

theorem count_line (sub : List Char) (hs : sub ≠ []) (c : Char) (hc : c ∉ sub) (a b : List Char) :
    pyCount sub (a ++ c :: b) = pyCount sub a + pyCount sub b := by
  apply Nat.le_antisymm
  · obtain ⟨i, j, e, h1, h2⟩ := occurs_split sub hs c hc _ a b (count_occurs sub hs _)
    rw [e]
    exact Nat.add_le_add (occurs_le sub hs i a h1) (occurs_le sub hs j b h2)
  · apply occurs_le sub hs
    exact occurs_join sub _ _ _ _ (count_occurs sub hs a) (occurs_append sub _ [c] b (count_occurs sub hs b))

/-- C158: the count of a listing is that of its headings and those of the lines of all jobs. -/
theorem C158_lines (uname heading : List Char) (hu : uname ≠ []) (hn : '\n' ∉ uname) (q : List QueueJob) :
    checkload uname (squeueText heading q) =
      checkload uname heading + (q.map fun j => checkload uname (jobLine j)).sum := by
  unfold checkload squeueText
  rw [count_line uname hu '\n' hn]
  congr 1
  induction q with
  | nil => rfl
  | cons j q ih =>
    rw [List.flatMap_cons, List.map_cons, List.sum_cons, ← ih]
    unfold jobLine
    rw [List.append_assoc _ ['\n'], List.singleton_append, count_line uname hu '\n' hn]

theorem line_counts (j : QueueJob) (h : j.user = queueUser) : 1 ≤ checkload queueUser (jobLine j) := by
  rw [C158_count queueUser _ (by decide)]
  exact ⟨j.before, j.after, by rw [← h]; rfl, trivial⟩

/-- C158: the wrapper never takes the queue to hold fewer of its user's jobs than it does. -/
theorem C158_sees_own (heading : List Char) (q : List QueueJob) :
    ownJobs q ≤ checkload queueUser (squeueText heading q) := by
  rw [C158_lines queueUser heading (by decide) (by decide)]
  have : ownJobs q ≤ (q.map fun j => checkload queueUser (jobLine j)).sum := by
    unfold ownJobs
    induction q with
    | nil => simp
    | cons j q ih =>
      rw [List.map_cons, List.sum_cons, List.filter_cons]
      split
      · rename_i h
        have := line_counts j (by simpa using h)
        rw [List.length_cons]
        omega
      · omega
  omega

/-- C158: it takes the number to be right if the name is nowhere else: not in the headings, not in the lines of others and once
only in those of the user. -/
theorem C158_exact (heading : List Char) (q : List QueueJob) (h : ¬ Occurs queueUser 1 heading)
    (ho : ∀ j ∈ q, j.user ≠ queueUser → ¬ Occurs queueUser 1 (jobLine j))
    (h2 : ∀ j ∈ q, j.user = queueUser → ¬ Occurs queueUser 2 (jobLine j)) :
    checkload queueUser (squeueText heading q) = ownJobs q := by
  rw [C158_lines queueUser heading (by decide) (by decide)]
  have h0 : checkload queueUser heading = 0 := by
    by_contra hc
    exact h ((C158_count queueUser heading (by decide) 1).mp (by omega))
  rw [h0, Nat.zero_add]
  unfold ownJobs
  induction q with
  | nil => rfl
  | cons j q ih =>
    rw [List.map_cons, List.sum_cons, List.filter_cons, ih (fun i hi => ho i (by simp [hi])) (fun i hi => h2 i (by simp [hi]))]
    split
    · rename_i hj
      have hj : j.user = queueUser := by simpa using hj
      have a := line_counts j hj
      have b : ¬ 2 ≤ checkload queueUser (jobLine j) := fun hc =>
        h2 j (by simp) hj ((C158_count queueUser _ (by decide) 2).mp hc)
      rw [List.length_cons]
      omega
    · rename_i hj
      have hj : j.user ≠ queueUser := by simpa using hj
      have b : ¬ 1 ≤ checkload queueUser (jobLine j) := fun hc =>
        ho j (by simp) hj ((C158_count queueUser _ (by decide) 1).mp hc)
      omega

/-! ## The bound -/

/-- The invariant of the wrapper: `n` jobs of its user were there at the start. -/
theorem queue_invariant (heading : List Char) (jobs : List (List Char)) (q : List QueueJob) (s : QueueState)
    (h : Relation.ReflTransGen (QueueStep heading) ⟨.ready, [], jobs, q⟩ s) :
    s.done ++ s.todo = jobs ∧ ownJobs s.queue ≤ max (ownJobs q) 250 + 1 ∧
      (∀ d t u, s = ⟨.ready, d, t, u⟩ → ownJobs s.queue ≤ max (ownJobs q) 250) := by
  induction h with
  | refl => exact ⟨rfl, by simp only; omega, fun _ _ _ _ => by simp only; omega⟩
  | tail _ step ih =>
    obtain ⟨i1, i2, i3⟩ := ih
    cases step with
    | submit done todo script u u' j hj hq =>
      have a := i3 _ _ _ rfl
      refine ⟨by simpa using i1, ?_, fun _ _ _ e => by cases e⟩
      have e : ownJobs u' = ownJobs u + 1 := by
        unfold ownJobs
        rw [(hq.filter _).length_eq, List.filter_cons, if_pos (by simpa using hj), List.length_cons]
      simp only at a ⊢
      omega
    | full done todo u h => exact ⟨i1, i2, fun _ _ _ e => by cases e⟩
    | free done todo u h =>
      refine ⟨i1, i2, fun _ _ _ _ => ?_⟩
      have := C158_sees_own heading u
      simp only
      omega
    | other pc done todo u u' h =>
      have h : ownJobs u' ≤ ownJobs u := h
      refine ⟨i1, ?_, fun d t v e => ?_⟩
      · simp only at i2 ⊢
        omega
      · cases e
        have := i3 _ _ _ rfl
        simp only at this ⊢
        omega

/-- C158: whatever else happens in the system, as long as nobody else submits jobs of its user, there are at no time more than
251 jobs of the user in the queue, if there were no more than 250 at the start; the scripts are submitted in order, each once. -/
theorem C158_bound_partial (heading : List Char) (jobs : List (List Char)) (q : List QueueJob) (hq : ownJobs q ≤ 250) (s : QueueState)
    (h : Relation.ReflTransGen (QueueStep heading) ⟨.ready, [], jobs, q⟩ s) :
    ownJobs s.queue ≤ 251 ∧ s.done ++ s.todo = jobs := by
  obtain ⟨h1, h2, -⟩ := queue_invariant heading jobs q s h
  exact ⟨by omega, h1⟩

/-- C158: with more jobs at the start one more is submitted before the first look. -/
theorem C158_start (heading : List Char) (jobs : List (List Char)) (q : List QueueJob) (hq : 250 ≤ ownJobs q) (s : QueueState)
    (h : Relation.ReflTransGen (QueueStep heading) ⟨.ready, [], jobs, q⟩ s) : ownJobs s.queue ≤ ownJobs q + 1 := by
  obtain ⟨-, h2, -⟩ := queue_invariant heading jobs q s h
  omega

/-- A job of the wrapper's user. -/
def ownJob : QueueJob := ⟨queueUser, "1 par Track ".toList, " RUNNING".toList⟩

theorem ownJobs_replicate (n : Nat) : ownJobs (List.replicate n ownJob) = n := by
  unfold ownJobs
  rw [List.filter_replicate, if_pos (by decide), List.length_replicate]

/-- C158: the greatest number is reached, although the documentation gives 250 as the greatest number of jobs. -/
theorem C158_over_violation (heading : List Char) (script : List Char) : ∃ s,
    Relation.ReflTransGen (QueueStep heading) ⟨.ready, [], [script], List.replicate 250 ownJob⟩ s ∧
      ownJobs (List.replicate 250 ownJob) = 250 ∧ ownJobs s.queue = 251 := by
  refine ⟨⟨.waiting, [script], [], List.replicate 251 ownJob⟩, .single (.submit [] [] script _ _ ownJob rfl ?_), ?_, ?_⟩
  · exact List.Perm.refl _
  · exact ownJobs_replicate 250
  · exact ownJobs_replicate 251

/-! ## The end of the wrapper -/

theorem waitLoop_ends (look : Nat → List Char) (m k : Nat) (hk : k ≤ m) (h : checkload queueUser (look m) ≤ 250) (fuel : Nat)
    (hf : m - k < fuel) : ∃ n, waitLoop look fuel k = some n ∧ k < n ∧ n ≤ m + 1 := by
  induction fuel generalizing k with
  | zero => omega
  | succ fuel ih =>
    unfold waitLoop
    split
    · rename_i hb
      have : k ≠ m := by rintro rfl; omega
      obtain ⟨n, h1, h2, h3⟩ := ih (k + 1) (by omega) (by omega)
      exact ⟨n, h1, by omega, h3⟩
    · exact ⟨k + 1, rfl, by omega, by omega⟩

theorem waitLoop_mono (look : Nat → List Char) (fuel fuel' k n : Nat) (hf : fuel ≤ fuel') (h : waitLoop look fuel k = some n) :
    waitLoop look fuel' k = some n := by
  induction fuel generalizing fuel' k with
  | zero => cases h
  | succ fuel ih =>
    obtain ⟨m, rfl⟩ : ∃ m, fuel' = m + 1 := ⟨fuel' - 1, by omega⟩
    unfold waitLoop at h ⊢
    split
    · rename_i hb
      rw [if_pos hb] at h
      exact ih m (k + 1) (by omega) h
    · rename_i hb
      rw [if_neg hb] at h
      exact h

theorem submitWaiting_mono (look : Nat → List Char) (fuel fuel' : Nat) (hf : fuel ≤ fuel') (jobs : List (List Char)) (k : Nat)
    (r : List (List Char × Nat)) (h : submitWaiting look fuel jobs k = some r) : submitWaiting look fuel' jobs k = some r := by
  induction jobs generalizing k r with
  | nil => exact h
  | cons j l ih =>
    unfold submitWaiting at h ⊢
    simp only [Option.bind_eq_bind, Option.bind_eq_some_iff] at h ⊢
    obtain ⟨k', h1, r', h2, h3⟩ := h
    exact ⟨k', waitLoop_mono look fuel fuel' k k' hf h1, r', ih k' r' h2, h3⟩

/-- C158: if the queue is again and again short enough, the wrapper submits all its scripts in order and ends. -/
theorem C158_ends (look : Nat → List Char) (h : ∀ k, ∃ m, k ≤ m ∧ checkload queueUser (look m) ≤ 250)
    (jobs : List (List Char)) (k : Nat) : ∃ fuel r, submitWaiting look fuel jobs k = some r ∧ r.map (·.1) = jobs := by
  induction jobs generalizing k with
  | nil => exact ⟨0, [], rfl, rfl⟩
  | cons j l ih =>
    obtain ⟨m, hm, hc⟩ := h k
    obtain ⟨k', w1, -, -⟩ := waitLoop_ends look m k hm hc (m - k + 1) (by omega)
    obtain ⟨fuel, r, s1, s2⟩ := ih k'
    refine ⟨max (m - k + 1) fuel, (j, k) :: r, ?_, by simp [s2]⟩
    unfold submitWaiting
    rw [waitLoop_mono look _ (max (m - k + 1) fuel) k k' (le_max_left _ _) w1]
    simp only [Option.bind_eq_bind, Option.bind_some]
    rw [submitWaiting_mono look fuel (max (m - k + 1) fuel) (le_max_right _ _) l k' r s1]
    rfl

/-- C158: between two submissions the wrapper has seen the queue short enough, at the last look before the second. -/
theorem C158_looked (look : Nat → List Char) (fuel : Nat) (jobs : List (List Char)) (k : Nat) (r : List (List Char × Nat))
    (h : submitWaiting look fuel jobs k = some r) (i : Nat) (p : List Char × Nat) (hp : r[i + 1]? = some p) :
    ∃ m, p.2 = m + 1 ∧ k ≤ m ∧ checkload queueUser (look m) ≤ 250 := by
  have hw : ∀ fuel k n, waitLoop look fuel k = some n → ∃ m, n = m + 1 ∧ k ≤ m ∧ checkload queueUser (look m) ≤ 250 := by
    intro fuel
    induction fuel with
    | zero => intro k n h; cases h
    | succ fuel ih =>
      intro k n h
      unfold waitLoop at h
      split at h
      · obtain ⟨m, h1, h2, h3⟩ := ih _ _ h
        exact ⟨m, h1, by omega, h3⟩
      · injection h with h
        exact ⟨k, h.symm, le_refl _, by omega⟩
  induction jobs generalizing k r i with
  | nil =>
    simp only [submitWaiting, Option.some.injEq] at h
    subst h
    simp at hp
  | cons j l ih =>
    unfold submitWaiting at h
    simp only [Option.bind_eq_bind, Option.bind_eq_some_iff] at h
    obtain ⟨k', h1, r', h2, h3⟩ := h
    simp only [Option.pure_def, Option.some.injEq] at h3
    subst h3
    rw [List.getElem?_cons_succ] at hp
    obtain ⟨m, rfl, m1, m2⟩ := hw _ _ _ h1
    cases i with
    | zero =>
      cases l with
      | nil =>
        simp only [submitWaiting, Option.some.injEq] at h2
        subst h2
        simp at hp
      | cons j' l =>
        unfold submitWaiting at h2
        simp only [Option.bind_eq_bind, Option.bind_eq_some_iff] at h2
        obtain ⟨k2, -, r2, -, e⟩ := h2
        simp only [Option.pure_def, Option.some.injEq] at e
        subst e
        simp only [List.getElem?_cons_zero, Option.some.injEq] at hp
        subst hp
        exact ⟨m, rfl, m1, m2⟩
    | succ i =>
      obtain ⟨n, n1, n2, n3⟩ := ih _ _ h2 i hp
      exact ⟨n, n1, by omega, n3⟩

/-- C158: while the count stays above 250 the wrapper does not go on, for however long. -/
theorem C158_starves (look : Nat → List Char) (k : Nat) (h : ∀ m, k ≤ m → checkload queueUser (look m) > 250) (fuel : Nat)
    (j : List Char) (l : List (List Char)) : submitWaiting look fuel (j :: l) k = none := by
  have hw : ∀ fuel n, k ≤ n → waitLoop look fuel n = none := by
    intro fuel
    induction fuel with
    | zero => intro n _; rfl
    | succ fuel ih =>
      intro n hn
      unfold waitLoop
      rw [if_pos (h n hn)]
      exact ih (n + 1) (by omega)
  unfold submitWaiting
  rw [hw fuel k (le_refl _)]
  rfl

/-- A job of another user whose name contains that of the wrapper's. -/
def likeJob : QueueJob := ⟨"hadjjx".toList, "1 par other ".toList, " RUNNING".toList⟩

/-- C158: the jobs of other users are counted too if their lines contain the name; they can stop the wrapper though no job of
its own is in the queue. -/
theorem C158_others_violation (heading : List Char) (j : List Char) (l : List (List Char)) :
    ownJobs (List.replicate 251 likeJob) = 0 ∧
      ∀ fuel k, submitWaiting (fun _ => squeueText heading (List.replicate 251 likeJob)) fuel (j :: l) k = none := by
  constructor
  · unfold ownJobs
    rw [List.filter_replicate]
    rfl
  · intro fuel k
    refine C158_starves _ k (fun m _ => ?_) fuel j l
    rw [C158_lines queueUser heading (by decide) (by decide), List.map_replicate, List.sum_replicate]
    have : checkload queueUser (jobLine likeJob) = 1 := by decide
    rw [this]
    simp only [smul_eq_mul]
    omega

/-- Non-vacuity of C158: two scripts, a look at a queue that is full and then at empty ones. -/
example : submitWaiting (fun k => if k = 0 then squeueText [] (List.replicate 251 ownJob) else []) 2
    ["a".toList, "b".toList] 0 = some [("a".toList, 0), ("b".toList, 2)] := by
  have e : checkload queueUser (squeueText [] (List.replicate 251 ownJob)) = 251 := by
    rw [C158_exact]
    · exact ownJobs_replicate 251
    · rw [← C158_count queueUser _ (by decide)]
      decide
    · intro j hj hu
      rw [(List.mem_replicate.mp hj).2] at hu
      exact absurd rfl hu
    · intro j hj _
      rw [(List.mem_replicate.mp hj).2, ← C158_count queueUser _ (by decide)]
      decide
  generalize squeueText [] (List.replicate 251 ownJob) = t at e
  have z : checkload queueUser [] = 0 := rfl
  simp [submitWaiting, waitLoop, e, z]

/-- Non-vacuity of C158_bound_partial: a run with a submission, the end of the job, and the end of the loop. -/
example : ∃ s, Relation.ReflTransGen (QueueStep []) ⟨.ready, [], ["a".toList, "b".toList], []⟩ s ∧ s.todo = ["b".toList] ∧
    s.pc = .ready ∧ ownJobs s.queue = 1 := by
  refine ⟨⟨.ready, ["a".toList], ["b".toList], [ownJob]⟩, ?_, rfl, rfl, by decide⟩
  refine .tail (.single (.submit [] ["b".toList] "a".toList [] [ownJob] ownJob rfl (.refl _))) (.free _ _ _ ?_)
  decide

end MarineQC
