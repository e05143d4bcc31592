import Verif.Drifter.RoundTrip

/-! # A table of flags that was cut off (`/repo/tracking_qc.py:229-277`)

The tracking program compares the numbers of lines only.  A cut in the last line leaves the number of lines unchanged. -/

namespace MarineQC

open Spec

/-! ## Lines -/

theorem prefix_split {α : Type} {t l m : List α} (h : t <+: l ++ m) : (t <+: l ∧ t ≠ l) ∨ ∃ t', t = l ++ t' ∧ t' <+: m := by
  obtain ⟨s, h⟩ := h
  rcases List.append_eq_append_iff.mp h with ⟨a, h1, h2⟩ | ⟨c, h1, h2⟩
  · by_cases e : t = l
    · exact Or.inr ⟨[], by simp [e], by simp⟩
    · exact Or.inl ⟨⟨a, h1.symm⟩, e⟩
  · exact Or.inr ⟨c, h1, ⟨s, h2.symm⟩⟩

theorem prefix_flatten {α : Type} (t : List α) (L : List (List α)) (h : t <+: L.flatten) :
    t = L.flatten ∨ ∃ a w l b, L = a ++ l :: b ∧ t = a.flatten ++ w ∧ w <+: l ∧ w ≠ l := by
  induction L generalizing t with
  | nil => exact Or.inl (by simpa using h)
  | cons l L ih =>
    rw [List.flatten_cons] at h
    rcases prefix_split h with ⟨h, e⟩ | ⟨t', rfl, h'⟩
    · exact Or.inr ⟨[], t, l, L, rfl, by simp, h, e⟩
    · rcases ih t' h' with rfl | ⟨a, w, k, b, rfl, rfl, h1, h2⟩
      · exact Or.inl (by simp)
      · exact Or.inr ⟨l :: a, w, k, b, by simp, by simp, h1, h2⟩

theorem prefix_line {w l : List Char} (h : w <+: l ++ ['\n']) (hne : w ≠ l ++ ['\n']) : w <+: l := by
  rcases prefix_split h with ⟨h, -⟩ | ⟨t', rfl, h'⟩
  · exact h
  · rcases List.prefix_cons_iff.mp h' with rfl | ⟨t, rfl, h3⟩
    · simp
    · rw [List.prefix_nil] at h3
      subst h3
      exact absurd rfl hne

theorem fileLinesFrom_last (s : List Char) (h : '\n' ∉ s) : ∀ acc,
    fileLinesFrom acc s = if acc ++ s = [] then [] else [acc ++ s] := by
  induction s with
  | nil => intro acc; simp [fileLinesFrom]
  | cons c s ih =>
    intro acc
    rw [fileLinesFrom, if_neg (by rintro rfl; simp at h), ih (by intro hc; simp [hc] at h)]
    simp

/-- The lines of a file whose last line has no newline. -/
theorem fileLines_cut (L : List (List (List Char))) (h : ∀ l ∈ L, ∀ w ∈ l, '\n' ∉ w) (w : List Char) (hw : '\n' ∉ w) :
    fileLines ((L.map lineOf).flatten ++ w) = L.map lineOf ++ (if w = [] then [] else [w]) := by
  unfold fileLines
  induction L with
  | nil => simpa using fileLinesFrom_last w hw []
  | cons l L ih =>
    rw [List.map_cons, List.flatten_cons, lineOf_eq, List.append_assoc, List.append_assoc, List.singleton_append,
      fileLinesFrom_tidy _ (commaJoin_newline l (h l (by simp))), ih fun k hk => h k (by simp [hk])]
    simp

/-! ## The last row -/

theorem plain_fold (w : List Char) (h1 : '"' ∉ w) (h2 : Tidy w) : ∀ (st : CsvState), st = .startField ∨ st = .inField → ∀ f fs,
    (st = .startField → f = []) →
    ∃ m, w.foldlM CsvReader.char ⟨st, f, fs⟩ = .ok m ∧ m.endLine = ⟨.startRecord, [], fs ++ splitCommas f w⟩ := by
  induction w with
  | nil =>
    intro st hst f fs hf
    refine ⟨_, rfl, ?_⟩
    rcases hst with rfl | rfl <;> rfl
  | cons c w ih =>
    intro st hst f fs hf
    have hq : c ≠ '"' := by rintro rfl; simp at h1
    have ht := h2 c (by simp)
    have hn := tidy_not_newline ht
    have ih := ih (by intro h; simp [h] at h1) fun d hd => h2 d (by simp [hd])
    rw [List.foldlM_cons, splitCommas]
    by_cases hc : c = ','
    · have e : CsvReader.char ⟨st, f, fs⟩ c = .ok ⟨.startField, [], fs ++ [f]⟩ := by
        subst hc
        rcases hst with rfl | rfl
        · rfl
        · rfl
      obtain ⟨m, g1, g2⟩ := ih .startField (Or.inl rfl) [] (fs ++ [f]) fun _ => rfl
      refine ⟨m, by rw [e, except_bind_ok, g1], ?_⟩
      rw [g2, if_pos hc]; simp
    · have e : CsvReader.char ⟨st, f, fs⟩ c = .ok ⟨.inField, f ++ [c], fs⟩ := by
        unfold CsvReader.char
        rw [if_neg ht.2.2]
        rcases hst with rfl | rfl
        · simp [CsvReader.begin, hn, hq, hc, CsvReader.add]
        · simp [hn, hc, CsvReader.add]
      obtain ⟨m, g1, g2⟩ := ih .inField (Or.inr rfl) (f ++ [c]) fs (by simp)
      refine ⟨m, by rw [e, except_bind_ok, g1], ?_⟩
      rw [g2, if_neg hc]

theorem plain_record (w : List Char) (hw : w ≠ []) (h1 : '"' ∉ w) (h2 : Tidy w) :
    ∃ m, w.foldlM CsvReader.char CsvReader.start = .ok m ∧ m.endLine = ⟨.startRecord, [], splitCommas [] w⟩ := by
  obtain ⟨m, g1, g2⟩ := plain_fold w h1 h2 .startField (Or.inl rfl) [] [] fun _ => rfl
  refine ⟨m, ?_, g2⟩
  rw [← g1]
  cases w with
  | nil => exact absurd rfl hw
  | cons c w =>
    rw [List.foldlM_cons, List.foldlM_cons]
    congr 1
    unfold CsvReader.char CsvReader.start
    rw [tidy_not_newline (h2 c (by simp))]
    rfl

/-- The rows of a table whose last line has no newline. -/
theorem csvRows_cut (L : List (List (List Char × List Char))) (hL : ∀ p ∈ L, 2 ≤ p.length)
    (h : ∀ p ∈ L, ∀ x ∈ p, Written x.1 x.2) (ht : ∀ p ∈ L, ∀ x ∈ p, Tidy x.1) (w : List Char) (hw : w ≠ []) (h1 : '"' ∉ w)
    (h2 : Tidy w) :
    csvRows ((L.map fun p => lineOf (p.map Prod.fst)) ++ [w]) CsvReader.start =
      .ok ((L.map fun p => p.map Prod.snd) ++ [splitCommas [] w]) := by
  induction L with
  | nil =>
    obtain ⟨m, g1, g2⟩ := plain_record w hw h1 h2
    rw [List.map_nil, List.nil_append, csvRows, g1, except_bind_ok]
    dsimp only
    rw [g2, if_pos rfl]
    rfl
  | cons p L ih =>
    rw [List.map_cons, List.cons_append, csvRows, record_read p (hL p (by simp)) (h p (by simp)) (ht p (by simp)), except_bind_ok]
    simp only [CsvReader.endLine, if_true]
    rw [ih (fun q hq => hL q (by simp [hq])) (fun q hq => h q (by simp [hq])) (fun q hq => ht q (by simp [hq])),
      except_bind_ok]
    rfl

/-- The fields of the beginning of a line. -/
theorem splitCommas_prefix (l : List (List Char)) (hl : l ≠ []) (h : ∀ w ∈ l, ',' ∉ w) (t : List Char) (ht : t <+: commaJoin l) :
    ∃ a x y b, l = a ++ y :: b ∧ splitCommas [] t = a ++ [x] ∧ x <+: y ∧ (x = y → b = [] → t = commaJoin l) := by
  induction l generalizing t with
  | nil => exact absurd rfl hl
  | cons w l ih =>
    have whole : ∀ t, t <+: w → splitCommas [] t = [t] := by
      intro t ht
      have := splitCommas_field t (fun hc => h w (by simp) (ht.subset hc)) [] []
      simpa [splitCommas] using this
    cases l with
    | nil => exact ⟨[], t, w, [], rfl, whole t ht, ht, fun e _ => e⟩
    | cons x l =>
      rcases prefix_split ht with ⟨h1, h2⟩ | ⟨t', rfl, h1⟩
      · exact ⟨[], t, w, x :: l, rfl, whole t h1, h1, by simp⟩
      · rcases List.prefix_cons_iff.mp h1 with rfl | ⟨t, rfl, h3⟩
        · exact ⟨[], w, w, x :: l, rfl, by simpa using whole w (List.prefix_refl _), List.prefix_refl _, by simp⟩
        · obtain ⟨a, z, y, b, e, e2, e3, e4⟩ := ih (by simp) (fun y hy => h y (by simp [hy])) t h3
          refine ⟨w :: a, z, y, b, by rw [e]; rfl, ?_, e3, fun g1 g2 => ?_⟩
          · rw [splitCommas_field w (h w (by simp)), List.nil_append, splitCommas, if_pos rfl, e2]
            rfl
          · rw [e4 g1 g2]; rfl

/-! ## Flags -/

theorem rowGet_last (d : RowDict) (k : List Char) (v : Option (List Char)) (h : k ∉ d.map Prod.fst) :
    rowGet (d ++ [(k, v)]) k = some v := by
  unfold rowGet
  rw [List.find?_append, List.find?_eq_none.mpr]
  · simp
  · intro q hq
    simp only [beq_iff_eq]
    rintro rfl
    exact h (List.mem_map_of_mem hq)

/-- A row whose last field is missing or empty. -/
theorem dictRow_short (H : List String) (k : String) (hn : (H ++ [k]).Nodup) (L : List (List Char)) (hlen : L.length ≤ H.length ∨
    ∃ L', L = L' ++ [[]] ∧ L'.length = H.length) :
    ∃ d v, dictRow ((H ++ [k]).map String.toList) L = (d, false) ∧ d.map Prod.fst = (H ++ [k]).map String.toList ∧
      rowGet d k.toList = some v ∧ (v = none ∨ v = some []) := by
  have key : ∃ c v, L.map some ++ List.replicate (((H ++ [k]).map String.toList).length - L.length) none = c ++ [v] ∧
      c.length = H.length ∧ (v = none ∨ v = some []) ∧ L.length ≤ H.length + 1 := by
    rcases hlen with h | ⟨L', rfl, h⟩
    · refine ⟨L.map some ++ List.replicate (H.length - L.length) none, none, ?_, by simp; omega, Or.inl rfl, by omega⟩
      rw [List.append_assoc, ← List.replicate_succ']
      congr 2
      simp; omega
    · refine ⟨L'.map some, some [], ?_, by simpa using h, Or.inr rfl, by simp; omega⟩
      simp [h]
  obtain ⟨c, v, e, hc, hv, hle⟩ := key
  have hz : ((H ++ [k]).map String.toList).zip (c ++ [v]) = (H.map String.toList).zip c ++ [(k.toList, v)] := by
    rw [List.map_append, List.zip_append (by simp [hc])]
    rfl
  have hk : ((H.map String.toList).zip c).map Prod.fst = H.map String.toList := List.map_fst_zip (by simp [hc])
  have hN : ((H ++ [k]).map String.toList).Nodup := hn.map fun _ _ h => String.toList_injective h
  have hkeys : ((H.map String.toList).zip c ++ [(k.toList, v)]).map Prod.fst = (H ++ [k]).map String.toList := by
    rw [List.map_append, hk]; simp
  refine ⟨(H.map String.toList).zip c ++ [(k.toList, v)], v, ?_, hkeys, ?_, hv⟩
  · unfold dictRow
    rw [e, hz, rowSet_nodup]
    · rw [List.nil_append, decide_eq_false]
      simp; omega
    · rw [List.nil_append, hkeys]; exact hN
  · apply rowGet_last
    rw [hk]
    rw [List.map_append, List.map_cons, List.map_nil] at hN
    intro hm
    exact (List.nodup_append.mp hN).2.2 _ hm _ (by simp) rfl

theorem foldlM_fails {α β : Type} (f : α → β → Except Err α) (l : List β) (b : β) (hb : b ∈ l) (h : ∀ a, ∃ e, f a b = .error e) :
    ∀ a, ∃ e, l.foldlM f a = .error e := by
  induction l with
  | nil => simp at hb
  | cons c l ih =>
    intro a
    rw [List.foldlM_cons]
    rcases List.mem_cons.mp hb with rfl | hb
    · obtain ⟨e, he⟩ := h a
      exact ⟨e, by rw [he]; rfl⟩
    · cases f a c with
      | error e => exact ⟨e, rfl⟩
      | ok a => exact ih hb a

theorem parseInt_nil : parseInt [] = .error .value := by decide

theorem addFlagRow_fails (order : List (List Char) → List (List Char)) (ho : ∀ l, (order l).Perm l) (block : String) (d : RowDict)
    (b : Bool) (k : List Char) (hk : k ∈ d.map Prod.fst) (hu : k ≠ "UID".toList) (v : Option (List Char)) (hv : rowGet d k = some v)
    (he : v = none ∨ v = some []) (r : Report) : ∃ e, addFlagRow order block (d, b) r = .error e := by
  have : ∀ r, ∃ e, addFlag block d r k = .error e := by
    intro r
    unfold addFlag
    rw [hv]
    rcases he with rfl | rfl
    · exact ⟨_, rfl⟩
    · dsimp only
      rw [if_neg hu, parseInt_nil]
      exact ⟨_, rfl⟩
  obtain ⟨e, h⟩ := foldlM_fails _ (order (d.map Prod.fst)) k ((ho _).mem_iff.mpr hk) this r
  refine ⟨e, ?_⟩
  unfold addFlagRow
  rw [h]
  rfl

theorem addFlags_fails (order : List (List Char) → List (List Char)) (block : String) (bad : RowDict × Bool)
    (h : ∀ r, ∃ e, addFlagRow order block bad r = .error e) (rows : List (RowDict × Bool)) :
    ∀ reps, ∃ e, addFlags order block (rows ++ [bad]) reps = .error e := by
  induction rows with
  | nil =>
    intro reps
    cases reps with
    | nil => exact ⟨_, rfl⟩
    | cons r reps =>
      obtain ⟨e, he⟩ := h r
      exact ⟨e, by rw [List.nil_append, addFlags, he]; rfl⟩
  | cons row rows ih =>
    intro reps
    cases reps with
    | nil => exact ⟨_, rfl⟩
    | cons r reps =>
      rw [List.cons_append, addFlags]
      cases addFlagRow order block row r with
      | error e => exact ⟨e, rfl⟩
      | ok r =>
        obtain ⟨e, he⟩ := ih reps
        rw [except_bind_ok, he]
        exact ⟨e, rfl⟩

theorem commaJoin_mem {c : Char} {l : List (List Char)} (h : c ∈ commaJoin l) : c = ',' ∨ ∃ w ∈ l, c ∈ w := by
  induction l with
  | nil => simp [commaJoin] at h
  | cons w l ih =>
    cases l with
    | nil => exact Or.inr ⟨w, by simp, h⟩
    | cons x l =>
      rw [show commaJoin (w :: x :: l) = w ++ ',' :: commaJoin (x :: l) from rfl, List.mem_append, List.mem_cons] at h
      rcases h with h | h | h
      · exact Or.inr ⟨w, by simp, h⟩
      · exact Or.inl h
      · exact (ih h).imp id fun ⟨w, hw, hc⟩ => ⟨w, by simp [hw], hc⟩

/-- The entries of a row of flags as written. -/
def flagFields (b : String × List String) (q : Report) : List (List Char) := (qcRow q b.1 b.2).map Prod.fst

theorem flagFields_eq (b : String × List String) (q : Report) :
    flagFields b q = (q.uid.getD "").toList :: b.2.map fun v => intText (q.getQc b.1 v) := by
  unfold flagFields qcRow
  rw [List.map_map]
  exact List.map_id _

theorem digit_prefix (n : Int) (h : 0 ≤ n ∧ n ≤ 9) (x : List Char) (hx : x <+: intText n) : x = [] ∨ x = intText n := by
  have hl : (intText n).length = 1 := by
    obtain ⟨h1, h2⟩ := h
    interval_cases n <;> decide
  have := hx.length_le
  rcases Nat.lt_or_ge x.length 1 with h | h
  · exact Or.inl (List.eq_nil_of_length_eq_zero (by omega))
  · exact Or.inr (hx.eq_of_length (by omega))

theorem flagFields_plain (rnd : Rat → Rat) (b : String × List String) (q : Report) (hq : Storable rnd q) :
    (∀ x ∈ flagFields b q, Plain x) ∧ ∀ x ∈ flagFields b q, Tidy x := by
  obtain ⟨u, hu, h1, h2, -⟩ := hq.uid
  rw [flagFields_eq, hu]
  constructor
  · intro x hx
    rcases List.mem_cons.mp hx with rfl | hx
    · exact h1
    · obtain ⟨v, _, rfl⟩ := List.mem_map.mp hx
      exact intText_plain _
  · intro x hx
    rcases List.mem_cons.mp hx with rfl | hx
    · exact h2
    · obtain ⟨v, _, rfl⟩ := List.mem_map.mp hx
      exact intText_tidy _

/-- **A table of flags that was cut off.**  If the number of lines is right, then either the tracking program stops with an error, or it
reads what is in the complete table. -/
theorem cut_flags (rnd : Rat → Rat) (order : List (List Char) → List (List Char)) (ho : ∀ l, (order l).Perm l)
    (b : String × List String) (hb : b ∈ voyageFlags) (Q R : List Report) (hq : ∀ q ∈ Q, Storable rnd q) (t : List Char)
    (ht : t <+: flagText b Q) (hlen : (fileLines t).length = Q.length + 1) :
    (∃ e, csvFlags order b.1 t R = .error e) ∨ csvFlags order b.1 t R = csvFlags order b.1 (flagText b Q) R := by
  have facts : (∃ H k, "UID" :: b.2 = H ++ [k] ∧ k ≠ "UID" ∧ H ≠ []) ∧ "UID" ∉ b.2 ∧ ("UID" :: b.2).Nodup ∧ 2 ≤ ("UID" :: b.2).length ∧
      (∀ s ∈ ("UID" :: b.2).map String.toList, ',' ∉ s) ∧ ∀ s ∈ ("UID" :: b.2).map String.toList, '\n' ∉ s := by
    refine ⟨?_, ?_⟩
    · have : ∀ b ∈ voyageFlags, ∃ k, ("UID" :: b.2).getLast? = some k ∧ k ≠ "UID" ∧ ("UID" :: b.2).dropLast ≠ [] := by
        intro b hb
        fin_cases hb
        · exact ⟨"isdrifter", by decide, by decide, by decide⟩
        · exact ⟨"hardlimit", by decide, by decide, by decide⟩
      obtain ⟨k, h1, h2, h3⟩ := this b hb
      exact ⟨_, k, (List.dropLast_append_getLast? k h1).symm, h2, h3⟩
    · have : ∀ b ∈ voyageFlags, "UID" ∉ b.2 ∧ ("UID" :: b.2).Nodup ∧ 2 ≤ ("UID" :: b.2).length ∧
        (∀ s ∈ ("UID" :: b.2).map String.toList, ',' ∉ s) ∧ ∀ s ∈ ("UID" :: b.2).map String.toList, '\n' ∉ s := by decide
      exact this b hb
  obtain ⟨⟨H, k, f0, f01, f02⟩, f2, f3, f4, f5, f6⟩ := facts
  have eT : flagText b Q = (((("UID" :: b.2).map String.toList) :: Q.map (flagFields b)).map lineOf).flatten := by
    unfold flagText
    rw [List.map_cons, List.map_cons, List.map_map, List.map_map]
    congr 3
    unfold qcHead
    rw [List.map_map]; rfl
  have hnl : ∀ l ∈ ("UID" :: b.2).map String.toList :: Q.map (flagFields b), ∀ w ∈ l, '\n' ∉ w := by
    intro l hl
    rcases List.mem_cons.mp hl with rfl | hl
    · exact f6
    · obtain ⟨q, hqm, rfl⟩ := List.mem_map.mp hl
      intro w hw hn
      exact ((flagFields_plain rnd b q (hq q hqm)).2 w hw _ hn).1 rfl
  have hfull : fileLines (flagText b Q) = ((("UID" :: b.2).map String.toList) :: Q.map (flagFields b)).map lineOf := by
    rw [eT, fileLines_table _ hnl]
  rw [eT] at ht
  rcases prefix_flatten t _ ht with rfl | ⟨a, w, l, b', e, rfl, h1, h2⟩
  · right; rw [← eT]
  obtain ⟨A, B', eA, rfl, e2⟩ := List.map_eq_append_iff.mp e
  obtain ⟨row, B, rfl, rfl, rfl⟩ := List.map_eq_cons_iff.mp e2
  rw [lineOf_eq] at h1 h2
  have hw := prefix_line h1 h2
  have hwn : '\n' ∉ w := fun hn => commaJoin_newline row (hnl row (by rw [eA]; simp)) (hw.subset hn)
  have hlines := fileLines_cut A (fun l hl => hnl l (by rw [eA]; simp [hl])) w hwn
  have hw0 : w ≠ [] := by
    rintro rfl
    have := congrArg List.length eA
    rw [hlines] at hlen
    simp at hlen this
    omega
  rw [if_neg hw0] at hlines
  have hB : B = [] := by
    have := congrArg List.length eA
    rw [hlines] at hlen
    simp at hlen this
    exact List.eq_nil_of_length_eq_zero (by omega)
  subst hB
  rcases List.eq_nil_or_concat Q with rfl | ⟨Q', q, rfl⟩
  · right
    have hA : A = [] := by
      have := congrArg List.length eA
      simp at this
      exact this
    subst hA
    unfold csvFlags
    rw [hlines, hfull]
    rfl
  · rw [List.concat_eq_append] at *
    have eA' : (("UID" :: b.2).map String.toList :: Q'.map (flagFields b)) ++ [flagFields b q] = A ++ [row] := by
      rw [← eA, List.map_append]; rfl
    obtain ⟨rfl, e3⟩ := List.append_inj' eA' rfl
    obtain rfl := (List.cons.inj e3).1
    have hqq := hq q (by simp)
    obtain ⟨p1, p2⟩ := flagFields_plain rnd b q hqq
    have hcut := csvRows_cut (Q'.map fun q => qcRow q b.1 b.2)
      (by
        intro p hp
        obtain ⟨q, _, rfl⟩ := List.mem_map.mp hp
        simpa [qcRow] using f4)
      (by
        intro p hp
        obtain ⟨q, hqm, rfl⟩ := List.mem_map.mp hp
        exact qcRow_written q (hq q (by simp [hqm])).writable _ _)
      (by
        intro p hp
        obtain ⟨q, hqm, rfl⟩ := List.mem_map.mp hp
        exact qcRow_tidy rnd q (hq q (by simp [hqm])) _ _) w hw0
      (by
        intro hn
        rcases commaJoin_mem (hw.subset hn) with h | ⟨x, hx, hc⟩
        · exact absurd h (by decide)
        · exact (p1 x hx _ hc).2.1 rfl)
      (by
        intro c hn
        rcases commaJoin_mem (hw.subset hn) with rfl | ⟨x, hx, hc⟩
        · decide
        · exact p2 x hx _ hc)
    have hread : ∀ x : List Char, readHeaders (((("UID" :: b.2).map String.toList :: Q'.map (flagFields b)).map lineOf) ++ [x]) =
        ("UID" :: b.2).map String.toList := fun x => readHeaders_table _ _ (by simp) f5
    have hmap : (Q'.map fun q => qcRow q b.1 b.2).map (fun p => lineOf (p.map Prod.fst)) = (Q'.map (flagFields b)).map lineOf := by
      rw [List.map_map, List.map_map]; rfl
    have hdict : dictRows (("UID" :: b.2).map String.toList)
        (((("UID" :: b.2).map String.toList :: Q'.map (flagFields b)).map lineOf) ++ [w]) =
        .ok ((((Q'.map fun q => qcRow q b.1 b.2).map fun p => p.map Prod.snd) ++ [splitCommas [] w]).filter (· ≠ []) |>.map
          (dictRow (("UID" :: b.2).map String.toList))) := by
      unfold dictRows
      rw [List.map_cons, List.cons_append, List.tail_cons, ← hmap, hcut]
      rfl
    obtain ⟨a, x, y, bb, g1, g2, g3, g4⟩ := splitCommas_prefix (flagFields b q) (by rw [flagFields_eq]; simp)
      (fun w hw hc => (p1 w hw _ hc).1 rfl) w hw
    have hsp : splitCommas [] w ≠ [] := by rw [g2]; simp
    by_cases hwhole : w = commaJoin (flagFields b q)
    · right
      have hall := csvRows_table ((Q' ++ [q]).map fun q => qcRow q b.1 b.2)
        (by
          intro p hp
          obtain ⟨q, _, rfl⟩ := List.mem_map.mp hp
          simpa [qcRow] using f4)
        (by
          intro p hp
          obtain ⟨q, hqm, rfl⟩ := List.mem_map.mp hp
          exact qcRow_written q (hq q hqm).writable _ _)
        (by
          intro p hp
          obtain ⟨q, hqm, rfl⟩ := List.mem_map.mp hp
          exact qcRow_tidy rnd q (hq q hqm) _ _)
      have hlast : splitCommas [] w = (qcRow q b.1 b.2).map Prod.snd := by
        rw [hwhole, splitCommas_join _ (by rw [flagFields_eq]; simp) (fun w hw hc => (p1 w hw _ hc).1 rfl)]
        unfold flagFields qcRow
        rw [List.map_map, List.map_map]; rfl
      have hlist : ((("UID" :: b.2).map String.toList) :: (Q' ++ [q]).map (flagFields b)).map lineOf =
          (("UID" :: b.2).map String.toList :: Q'.map (flagFields b)).map lineOf ++ [lineOf (flagFields b q)] := by
        rw [List.map_append, ← List.cons_append, List.map_append]; rfl
      have htail : ((("UID" :: b.2).map String.toList) :: (Q' ++ [q]).map (flagFields b)).map lineOf =
          lineOf (("UID" :: b.2).map String.toList) ::
            ((Q' ++ [q]).map fun q => qcRow q b.1 b.2).map (fun p => lineOf (p.map Prod.fst)) := by
        rw [List.map_cons, List.map_map, List.map_map]; rfl
      have hdict2 : dictRows (("UID" :: b.2).map String.toList)
          (((("UID" :: b.2).map String.toList) :: (Q' ++ [q]).map (flagFields b)).map lineOf) =
          .ok ((((Q'.map fun q => qcRow q b.1 b.2).map fun p => p.map Prod.snd) ++ [splitCommas [] w]).filter (· ≠ []) |>.map
            (dictRow (("UID" :: b.2).map String.toList))) := by
        unfold dictRows
        rw [htail, List.tail_cons, hall, hlast, List.map_append, List.map_append]
        rfl
      have hread2 := hread (lineOf (flagFields b q))
      rw [← hlist] at hread2
      unfold csvFlags
      rw [hlines, hread, hdict, hfull, hread2, hdict2]
    · left
      obtain ⟨d, v, d1, d2, d3, d4⟩ := dictRow_short H k (by rw [← f0]; exact f3) (a ++ [x]) (by
        have hl := congrArg List.length g1
        have hH := congrArg List.length f0
        have hfl : (flagFields b q).length = ("UID" :: b.2).length := by rw [flagFields_eq]; simp
        rw [hfl, hH] at hl
        simp at hl
        cases bb with
        | cons z bb => left; simp at hl ⊢; omega
        | nil =>
          right
          refine ⟨a, ?_, by simp at hl; omega⟩
          have hxy : x ≠ y := fun e => hwhole (g4 e rfl)
          have hy : y ∈ b.2.map fun v => intText (q.getQc b.1 v) := by
            have h0 := flagFields_eq b q
            rw [g1] at h0
            have h9 : a ≠ [] := by
              rintro rfl
              simp at hl
              exact f02 hl
            cases a with
            | nil => exact absurd rfl h9
            | cons z a =>
              rw [List.cons_append] at h0
              rw [← (List.cons.inj h0).2]
              simp
          obtain ⟨v, _, rfl⟩ := List.mem_map.mp hy
          rcases digit_prefix _ (hqq.flags b.1 v) x g3 with rfl | e
          · rfl
          · exact absurd e hxy)
      have hbad := addFlagRow_fails order ho b.1 d false k.toList (by rw [d2]; simp) (fun e => f01 (String.toList_injective e)) v d3 d4
      unfold csvFlags
      rw [hlines, hread, hdict, except_bind_ok, List.filter_append, List.map_append, List.filter_cons_of_pos (by simpa using hsp),
        List.filter_nil]
      show ∃ e, addFlags order b.1 (_ ++ [dictRow (("UID" :: b.2).map String.toList) (splitCommas [] w)]) R = _
      rw [g2, f0, d1]
      exact addFlags_fails order b.1 _ hbad _ R

end MarineQC
