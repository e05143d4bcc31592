import Verif.Files.Names

/-!
# C63 and C81: choosing files and making directories
-/

namespace MarineQC

namespace Spec

/-- `i` is the first place in the list where the property holds. -/
def FirstAt {α : Type} (l : List α) (P : α → Prop) (i : Nat) : Prop :=
  ∃ x, l[i]? = some x ∧ P x ∧ ∀ j < i, ∀ y, l[j]? = some y → ¬ P y

/-- There is a plain file of that name. -/
def IsFile (fs : FileSys) (p : List Char) : Prop := ∃ s, fs.file p = some s

/-- There is a plain file of that name and it is not empty. -/
def HasContent (fs : FileSys) (p : List Char) : Prop := ∃ s, fs.file p = some s ∧ s ≠ []

/-- The candidate, compressed or not, can be used. -/
def Available (fs : FileSys) (p : List Char) : Prop := HasContent fs p ∨ HasContent fs (p ++ ".bz2".toList)

end Spec

/-! ## ICOADS files -/

theorem firstFile_some (fs : FileSys) (l : List (List Char)) (p : List Char) : firstFile fs l (some p) = some p := by
  induction l with
  | nil => rfl
  | cons f l ih => simpa [firstFile] using ih

theorem firstFile_find (fs : FileSys) (l : List (List Char)) :
    firstFile fs l none = l.find? fun f => (fs.file f).isSome := by
  induction l with
  | nil => rfl
  | cons f l ih =>
    rw [firstFile, List.find?_cons]
    cases h : (fs.file f).isSome with
    | true => simp [firstFile_some]
    | false => simpa using ih

theorem find_first {α : Type} (l : List α) (q : α → Bool) (P : α → Prop) (hP : ∀ x, q x = true ↔ P x) :
    (∀ x, l.find? q = some x → ∃ i, l[i]? = some x ∧ Spec.FirstAt l P i) ∧
    (l.find? q = none → ∀ x ∈ l, ¬ P x) := by
  constructor
  · intro x hx
    induction l with
    | nil => simp at hx
    | cons a l ih =>
      rw [List.find?_cons] at hx
      cases ha : q a with
      | true =>
        rw [ha] at hx
        simp only [Option.some.injEq] at hx
        subst hx
        exact ⟨0, rfl, a, rfl, (hP a).mp ha, by simp⟩
      | false =>
        rw [ha] at hx
        obtain ⟨i, h1, x', h2, h3, h4⟩ := ih hx
        refine ⟨i + 1, h1, x', h2, h3, ?_⟩
        intro j hj y hy
        cases j with
        | zero =>
          simp only [List.getElem?_cons_zero, Option.some.injEq] at hy
          subst hy
          intro hp
          rw [(hP a).mpr hp] at ha; simp at ha
        | succ j => exact h4 j (by omega) y (by simpa using hy)
  · intro h x hx hp
    rw [List.find?_eq_none] at h
    exact h x hx ((hP x).mpr hp)

/-- **C63.** With year and month given and as many directory as file stubs, `icoads_filename_from_stub` returns the name
filled in from the first pair of stubs for which there is a file, and None if there is none. -/
theorem C63_icoads (fs : FileSys) (dirs files : List (List Char)) (year month : Int) (hl : dirs.length = files.length) :
    ∃ out, icoadsFilenameFromStub fs dirs files (some year) (some month) = .ok out ∧
      (∀ p, out = some p → ∃ i, Spec.FirstAt (dirs.zip files) (fun q => Spec.IsFile fs (makeFilename q.1 q.2 year month 1)) i ∧
        ∃ q, (dirs.zip files)[i]? = some q ∧ p = makeFilename q.1 q.2 year month 1) ∧
      (out = none → ∀ q ∈ dirs.zip files, ¬ Spec.IsFile fs (makeFilename q.1 q.2 year month 1)) := by
  refine ⟨firstFile fs (candidates dirs files year month 1) none,
    by simp only [icoadsFilenameFromStub, hl, beq_self_eq_true, pyAssert, if_true, except_bind_ok, except_pure], ?_, ?_⟩
  · intro p hp
    rw [firstFile_find, candidates, List.find?_map] at hp
    obtain ⟨q, hq, rfl⟩ := Option.map_eq_some_iff.mp hp
    obtain ⟨i, h1, h2⟩ := (find_first (dirs.zip files) _ (fun q => Spec.IsFile fs (makeFilename q.1 q.2 year month 1)) (by
      intro x
      simp only [Function.comp_apply, Option.isSome_iff_exists]; rfl)).1 q hq
    exact ⟨i, h2, q, h1, rfl⟩
  · intro hp
    rw [firstFile_find, candidates, List.find?_map, Option.map_eq_none_iff] at hp
    exact (find_first (dirs.zip files) _ (fun q => Spec.IsFile fs (makeFilename q.1 q.2 year month 1)) (by
      intro x
      simp only [Function.comp_apply, Option.isSome_iff_exists]; rfl)).2 hp

/-- **C63.** Without a year or month there is no file; with lists of different lengths there is an AssertionError. -/
theorem C63_icoads_refused (fs : FileSys) (dirs files : List (List Char)) :
    (∀ m, icoadsFilenameFromStub fs dirs files none m = .ok none) ∧
    (∀ y, icoadsFilenameFromStub fs dirs files y none = .ok none) ∧
    (dirs.length ≠ files.length → ∀ y m, icoadsFilenameFromStub fs dirs files (some y) (some m) = .error .assertion) := by
  refine ⟨fun m => rfl, fun y => by cases y <;> rfl, fun h y m => ?_⟩
  simp only [icoadsFilenameFromStub, pyAssert_bind]
  rw [if_neg (by simpa using h)]

/-- A file system with one file. -/
def oneFile (p s : List Char) : FileSys := ⟨fun q => if q = p then some s else none, fun _ => false⟩

example : icoadsFilenameFromStub (oneFile "/b/x2003-09".toList "data".toList) ["/a".toList, "/b".toList]
    ["xYYYY-MMMM".toList, "xYYYY-MMMM".toList] (some 2003) (some 9) = .ok (some "/b/x2003-09".toList) := by decide +kernel

/-! ## Background files -/

theorem isNonEmptyFile_iff (fs : FileSys) (p : List Char) : isNonEmptyFile fs p = true ↔ Spec.HasContent fs p := by
  unfold isNonEmptyFile Spec.HasContent
  cases h : fs.file p with
  | none => simp
  | some s => simp

theorem chooseBackground_some (fs : FileSys) (l : List (List Char × List Char)) (c : List Char × List Char) :
    chooseBackground fs l (some c) = some c := by
  induction l with
  | nil => rfl
  | cons f l ih => simpa [chooseBackground] using ih

theorem choose_spec (fs : FileSys) (l : List (List Char × List Char)) :
    (chooseBackground fs l none = none ∧ ∀ p ∈ l, ¬ Spec.Available fs p.1) ∨
    ∃ i p, Spec.FirstAt l (fun q => Spec.Available fs q.1) i ∧ l[i]? = some p ∧
      ((Spec.HasContent fs (p.1 ++ ".bz2".toList) ∧ chooseBackground fs l none = some (p.1 ++ ".bz2".toList, p.2)) ∨
       (¬ Spec.HasContent fs (p.1 ++ ".bz2".toList) ∧ Spec.HasContent fs p.1 ∧ chooseBackground fs l none = some p)) := by
  induction l with
  | nil => exact Or.inl ⟨rfl, by simp⟩
  | cons f l ih =>
    obtain ⟨f, n⟩ := f
    by_cases hb : Spec.HasContent fs (f ++ ".bz2".toList)
    · right
      refine ⟨0, (f, n), ⟨_, rfl, Or.inr hb, by simp⟩, rfl, Or.inl ⟨hb, ?_⟩⟩
      simp only [chooseBackground, if_pos ((isNonEmptyFile_iff fs _).mpr hb), chooseBackground_some]
    · have hb' : isNonEmptyFile fs (f ++ ".bz2".toList) = false := by
        cases h : isNonEmptyFile fs (f ++ ".bz2".toList) with
        | false => rfl
        | true => exact absurd ((isNonEmptyFile_iff fs _).mp h) hb
      by_cases hp : Spec.HasContent fs f
      · right
        refine ⟨0, (f, n), ⟨_, rfl, Or.inl hp, by simp⟩, rfl, Or.inr ⟨hb, hp, ?_⟩⟩
        simp only [chooseBackground, hb', if_pos ((isNonEmptyFile_iff fs _).mpr hp), chooseBackground_some,
          Bool.false_eq_true, if_false]
      · have hp' : isNonEmptyFile fs f = false := by
          cases h : isNonEmptyFile fs f with
          | false => rfl
          | true => exact absurd ((isNonEmptyFile_iff fs _).mp h) hp
        have step : chooseBackground fs ((f, n) :: l) none = chooseBackground fs l none := by
          simp only [chooseBackground, hb', hp', Bool.false_eq_true, if_false]
        have hna : ¬ Spec.Available fs f := by
          rintro (h | h)
          · exact hp h
          · exact hb h
        rw [step]
        rcases ih with ⟨h1, h2⟩ | ⟨i, p, ⟨x, hx1, hx2, hx3⟩, hp1, hc⟩
        · left
          refine ⟨h1, ?_⟩
          intro q hq
          rcases List.mem_cons.mp hq with rfl | hq
          · exact hna
          · exact h2 q hq
        · right
          refine ⟨i + 1, p, ⟨x, hx1, hx2, ?_⟩, hp1, hc⟩
          intro j hj y hy
          cases j with
          | zero =>
            simp only [List.getElem?_cons_zero, Option.some.injEq] at hy
            subst hy
            exact hna
          | succ j => exact hx3 j (by omega) y (by simpa using hy)

/-- The original names and the scratch names. -/
def backgroundNames (dirs files : List (List Char)) (scratch : List Char) (y m d : Int) : List (List Char × List Char) :=
  (dirs.zip files).map fun p => (makeFilename p.1 p.2 y m d, makeFilename scratch p.2 y m d)

theorem getBackground_eq (bunzip : List Char → List Char) (scratch : List Char) (fs : FileSys) (dirs files : List (List Char))
    (y m d : Int) (hl : dirs.length = files.length) :
    getBackgroundFilename bunzip (some scratch) fs dirs files (some y) (some m) (some d) =
      match chooseBackground fs (backgroundNames dirs files scratch y m d) none with
      | none => .ok (fs, none)
      | some c => .ok ((openBackground bunzip fs c.1 c.2).1, some (openBackground bunzip fs c.1 c.2).2) := by
  simp only [getBackgroundFilename, hl, beq_self_eq_true, pyAssert, if_true, except_bind_ok, backgroundNames]
  split <;> rename_i h <;> rw [h] <;> rfl

theorem contains_suffix (s t : List Char) : strContains (s ++ t) t = true := by
  unfold strContains
  rw [List.any_eq_true]
  exact ⟨t, by rw [List.mem_tails]; exact List.suffix_append s t, by rw [List.isPrefixOf_iff_prefix]⟩

theorem contains_iff (s t : List Char) : strContains s t = true ↔ t <:+: s := by
  unfold strContains
  rw [List.any_eq_true]
  constructor
  · rintro ⟨u, hu, hp⟩
    rw [List.mem_tails] at hu
    rw [List.isPrefixOf_iff_prefix] at hp
    exact hp.isInfix.trans hu.isInfix
  · rintro ⟨a, b, rfl⟩
    refine ⟨t ++ b, ?_, ?_⟩
    · rw [List.mem_tails, List.append_assoc]; exact List.suffix_append a _
    · rw [List.isPrefixOf_iff_prefix]; exact List.prefix_append t b

/-- **C63, part.** With year, month and day given, as many directory as file stubs and a scratch directory, the choice
falls on the first pair of stubs for which there is a file with content, compressed or not, the compressed one being
preferred.  None is returned exactly if there is none, and nothing else happens then.  A plain file (whose name does not
contain '.bz2') is read in place: its name is returned, it has content, and nothing else happens.  Missing: that the file
returned for a compressed one is readable, which fails (see the violation below). -/
theorem C63_background_partial (bunzip : List Char → List Char) (scratch : List Char) (fs : FileSys)
    (dirs files : List (List Char)) (y m d : Int) (hl : dirs.length = files.length) :
    (getBackgroundFilename bunzip (some scratch) fs dirs files (some y) (some m) (some d) = .ok (fs, none) ∧
      ∀ p ∈ dirs.zip files, ¬ Spec.Available fs (makeFilename p.1 p.2 y m d)) ∨
    ∃ i p, Spec.FirstAt (dirs.zip files) (fun q => Spec.Available fs (makeFilename q.1 q.2 y m d)) i ∧
      (dirs.zip files)[i]? = some p ∧
      (Spec.HasContent fs (makeFilename p.1 p.2 y m d ++ ".bz2".toList) →
        ∃ fs', getBackgroundFilename bunzip (some scratch) fs dirs files (some y) (some m) (some d) =
          .ok (fs', some (makeFilename scratch p.2 y m d)) ∧
          Spec.IsFile fs' (makeFilename scratch p.2 y m d) ∧
          ∀ q, q ≠ makeFilename scratch p.2 y m d → fs'.file q = fs.file q) ∧
      (¬ Spec.HasContent fs (makeFilename p.1 p.2 y m d ++ ".bz2".toList) →
        ¬ ".bz2".toList <:+: makeFilename p.1 p.2 y m d →
        Spec.HasContent fs (makeFilename p.1 p.2 y m d) ∧
        getBackgroundFilename bunzip (some scratch) fs dirs files (some y) (some m) (some d) =
          .ok (fs, some (makeFilename p.1 p.2 y m d))) := by
  rw [getBackground_eq bunzip scratch fs dirs files y m d hl]
  rcases choose_spec fs (backgroundNames dirs files scratch y m d) with ⟨h1, h2⟩ | ⟨i, p, hi, hp, hc⟩
  · left
    rw [h1]
    refine ⟨rfl, fun p hp => ?_⟩
    exact h2 _ (List.mem_map_of_mem hp)
  · right
    rw [backgroundNames, List.getElem?_map] at hp
    obtain ⟨q, hq, rfl⟩ := Option.map_eq_some_iff.mp hp
    refine ⟨i, q, ?_, hq, ?_, ?_⟩
    · obtain ⟨x, hx1, hx2, hx3⟩ := hi
      rw [backgroundNames, List.getElem?_map] at hx1
      obtain ⟨x', hx', rfl⟩ := Option.map_eq_some_iff.mp hx1
      refine ⟨x', hx', hx2, fun j hj z hz => ?_⟩
      exact hx3 j hj _ (by rw [backgroundNames, List.getElem?_map, hz]; rfl)
    · intro hbz
      rcases hc with ⟨_, hch⟩ | ⟨hn, _⟩
      · rw [hch]
        dsimp only
        unfold openBackground
        rw [if_pos (contains_suffix _ _)]
        split
        · rename_i hs
          exact ⟨fs, rfl, Option.isSome_iff_exists.mp hs, fun _ _ => rfl⟩
        · refine ⟨_, rfl, ⟨_, if_pos rfl⟩, fun z hz => if_neg hz⟩
      · exact absurd hbz hn
    · intro hn hname
      rcases hc with ⟨hbz, _⟩ | ⟨_, hcont, hch⟩
      · exact absurd hbz hn
      · rw [hch]
        dsimp only
        unfold openBackground
        rw [if_neg (by rw [contains_iff]; exact hname)]
        exact ⟨hcont, rfl⟩

/-- **C63, violated.** Whenever a compressed file is chosen, its scratch copy does not exist yet and there is no file with
the ending '.bz2.bz2', the name of an empty file is returned: the command line appends '.bz2' once more.  The next call
finds this empty file and returns it again. -/
theorem C63_bunzip_violation (bunzip : List Char → List Char) (scratch dir stub : List Char) (fs : FileSys) (y m d : Int)
    (hbz : Spec.HasContent fs (makeFilename dir stub y m d ++ ".bz2".toList))
    (hnew : fs.file (makeFilename scratch stub y m d) = none)
    (hno : fs.file (makeFilename dir stub y m d ++ ".bz2".toList ++ ".bz2".toList) = none)
    (hdiff : makeFilename scratch stub y m d ≠ makeFilename dir stub y m d ++ ".bz2".toList) :
    ∃ fs', getBackgroundFilename bunzip (some scratch) fs [dir] [stub] (some y) (some m) (some d) =
        .ok (fs', some (makeFilename scratch stub y m d)) ∧
      fs'.file (makeFilename scratch stub y m d) = some [] ∧
      getBackgroundFilename bunzip (some scratch) fs' [dir] [stub] (some y) (some m) (some d) =
        .ok (fs', some (makeFilename scratch stub y m d)) := by
  have choose : ∀ fs : FileSys, Spec.HasContent fs (makeFilename dir stub y m d ++ ".bz2".toList) →
      chooseBackground fs (backgroundNames [dir] [stub] scratch y m d) none =
        some (makeFilename dir stub y m d ++ ".bz2".toList, makeFilename scratch stub y m d) := by
    intro fs h
    simp only [backgroundNames, List.zip_cons_cons, List.zip_nil_right, List.map_cons, List.map_nil, chooseBackground,
      if_pos ((isNonEmptyFile_iff fs _).mpr h)]
  refine ⟨shellBunzip bunzip fs (makeFilename dir stub y m d ++ ".bz2".toList ++ ".bz2".toList)
    (makeFilename scratch stub y m d), ?_, ?_, ?_⟩
  · rw [getBackground_eq bunzip scratch fs [dir] [stub] y m d rfl, choose fs hbz]
    dsimp only
    unfold openBackground
    rw [if_pos (contains_suffix _ _), hnew]
    rfl
  · unfold shellBunzip
    dsimp only
    rw [if_pos rfl, hno]
  · rw [getBackground_eq bunzip scratch _ [dir] [stub] y m d rfl, choose _ (by
      obtain ⟨s, h1, h2⟩ := hbz
      refine ⟨s, ?_, h2⟩
      unfold shellBunzip
      dsimp only
      rw [if_neg (Ne.symm hdiff)]; exact h1)]
    dsimp only
    unfold openBackground
    rw [if_pos (contains_suffix _ _), if_pos]
    unfold shellBunzip
    dsimp only
    rw [if_pos rfl]; rfl

example : ∃ fs', getBackgroundFilename id (some "/tmp".toList) (oneFile "/d/f20030905.bz2".toList "data".toList)
    ["/d".toList] ["fYYYYMMMMDDDD".toList] (some 2003) (some 9) (some 5) = .ok (fs', some "/tmp/f20030905".toList) ∧
      fs'.file "/tmp/f20030905".toList = some [] := by
  have e1 : makeFilename "/tmp".toList "fYYYYMMMMDDDD".toList 2003 9 5 = "/tmp/f20030905".toList := by decide +kernel
  have e2 : makeFilename "/d".toList "fYYYYMMMMDDDD".toList 2003 9 5 = "/d/f20030905".toList := by decide +kernel
  obtain ⟨fs', h1, h2, _⟩ := C63_bunzip_violation id "/tmp".toList "/d".toList "fYYYYMMMMDDDD".toList
    (oneFile "/d/f20030905.bz2".toList "data".toList) 2003 9 5
    (by rw [e2]; exact ⟨"data".toList, by decide +kernel, by decide⟩)
    (by rw [e1]; decide +kernel) (by rw [e2]; decide +kernel) (by rw [e1, e2]; decide)
  rw [e1] at h1 h2
  exact ⟨fs', h1, h2⟩

/-- **C63.** Without a year, month or day there is no file; lists of different lengths raise AssertionError and a missing
scratch directory KeyError. -/
theorem C63_background_refused (bunzip : List Char → List Char) (scratch : Option (List Char)) (fs : FileSys)
    (dirs files : List (List Char)) (y m d : Option Int) :
    ((y = none ∨ m = none ∨ d = none) → getBackgroundFilename bunzip scratch fs dirs files y m d = .ok (fs, none)) ∧
    (y ≠ none → m ≠ none → d ≠ none → dirs.length ≠ files.length →
      getBackgroundFilename bunzip scratch fs dirs files y m d = .error .assertion) ∧
    (y ≠ none → m ≠ none → d ≠ none → dirs.length = files.length → scratch = none →
      getBackgroundFilename bunzip scratch fs dirs files y m d = .error .key) := by
  refine ⟨?_, ?_, ?_⟩
  · rintro (rfl | rfl | rfl)
    · rfl
    · cases y <;> rfl
    · cases y <;> cases m <;> rfl
  · intro hy hm hd hl
    obtain ⟨y, rfl⟩ := Option.ne_none_iff_exists'.mp hy
    obtain ⟨m, rfl⟩ := Option.ne_none_iff_exists'.mp hm
    obtain ⟨d, rfl⟩ := Option.ne_none_iff_exists'.mp hd
    simp only [getBackgroundFilename, pyAssert_bind]
    rw [if_neg (by simpa using hl)]
  · rintro hy hm hd hl rfl
    obtain ⟨y, rfl⟩ := Option.ne_none_iff_exists'.mp hy
    obtain ⟨m, rfl⟩ := Option.ne_none_iff_exists'.mp hm
    obtain ⟨d, rfl⟩ := Option.ne_none_iff_exists'.mp hd
    simp only [getBackgroundFilename, pyAssert_bind]
    rw [if_pos (by simpa using hl)]

/-! ## Directories -/

namespace Spec

/-- A name that can be a directory below another. -/
def IsName (s : List Char) : Prop := s ≠ [] ∧ '/' ∉ s

/-- The path is not empty and does not end with a slash. -/
def IsBase (p : List Char) : Prop := p ≠ [] ∧ p.getLast? ≠ some '/'

end Spec

theorem pathJoin_name (b s : List Char) (hb : Spec.IsBase b) (hs : Spec.IsName s) : pathJoin b s = b ++ '/' :: s := by
  unfold pathJoin
  rw [if_neg, if_neg]
  · rintro (h | h)
    · exact hb.1 h
    · exact hb.2 h
  · intro h
    exact hs.2 (List.mem_of_head? h)

theorem isBase_join (b s : List Char) (hs : Spec.IsName s) : Spec.IsBase (b ++ '/' :: s) := by
  refine ⟨by simp, fun h => ?_⟩
  have e : b ++ '/' :: s = (b ++ ['/']) ++ s := by simp
  rw [e, List.getLast?_append_of_ne_nil _ hs.1] at h
  exact hs.2 (List.mem_of_getLast? h)

theorem parentOf_join (b s : List Char) (hs : '/' ∉ s) : parentOf (b ++ '/' :: s) = b := by
  unfold parentOf
  rw [List.reverse_append, List.reverse_cons, List.append_assoc]
  have : (s.reverse ++ (['/'] ++ b.reverse)).dropWhile (· != '/') = '/' :: b.reverse := by
    have hr : ∀ t : List Char, '/' ∉ t → (t ++ (['/'] ++ b.reverse)).dropWhile (· != '/') = '/' :: b.reverse := by
      intro t ht
      induction t with
      | nil => simp
      | cons c t ih =>
        rw [List.cons_append, List.dropWhile_cons_of_pos]
        · exact ih fun h => ht (List.mem_cons_of_mem _ h)
        · have : c ≠ '/' := fun h => ht (by rw [h]; simp)
          simpa using this
    exact hr _ (by simpa using hs)
  rw [this]
  simp

theorem makeDir_file (fs : FileSys) (p : List Char) : (makeDir fs p).file = fs.file := by
  unfold makeDir
  split <;> rfl

theorem makeDir_dir (fs : FileSys) (p : List Char) (hf : fs.file p = none) (hp : fs.dir (parentOf p) = true) (q : List Char) :
    (makeDir fs p).dir q = (q == p || fs.dir q) := by
  unfold makeDir
  split
  · rename_i h
    rw [hf, hp] at h
    simp only [Option.isSome_none, Bool.or_false, Bool.not_true] at h
    by_cases hq : q = p
    · rw [hq, h]; simp
    · simp [hq]
  · rfl

/-- The directories are made one below the other. -/
theorem makeDirs_dir : ∀ (subs : List (List Char)) (base : List Char) (fs : FileSys), Spec.IsBase base →
    (∀ s ∈ subs, Spec.IsName s) → fs.dir base = true → (∀ p ∈ buildCompletions base subs, fs.file p = none) →
    ((buildCompletions base subs).foldl makeDir fs).file = fs.file ∧
    ∀ q, ((buildCompletions base subs).foldl makeDir fs).dir q = true ↔ q ∈ buildCompletions base subs ∨ fs.dir q = true
  | [], base, fs, _, _, _, _ => by simp [buildCompletions]
  | s :: l, base, fs, hb, hs, hd, hf => by
    have hname := hs s List.mem_cons_self
    have hj := pathJoin_name base s hb hname
    have hpar : fs.dir (parentOf (pathJoin base s)) = true := by rw [hj, parentOf_join base s hname.2]; exact hd
    have hfile := hf (pathJoin base s) (by simp [buildCompletions])
    have hdir := makeDir_dir fs (pathJoin base s) hfile hpar
    obtain ⟨h1, h2⟩ := makeDirs_dir l (pathJoin base s) (makeDir fs (pathJoin base s)) (by rw [hj]; exact isBase_join base s hname)
      (fun t ht => hs t (List.mem_cons_of_mem _ ht)) (by rw [hdir]; simp)
      (fun p hp => by rw [makeDir_file]; exact hf p (by rw [buildCompletions]; exact List.mem_cons_of_mem _ hp))
    rw [buildCompletions, List.foldl_cons]
    refine ⟨by rw [h1, makeDir_file], fun q => ?_⟩
    rw [h2, hdir, Bool.or_eq_true, beq_iff_eq, List.mem_cons]
    tauto

/-- **C81.** `build_completions` returns one path per name: the base directory and the names up to and including this
one, joined by slashes. -/
theorem C81_completions (base : List Char) (subs : List (List Char)) (hb : Spec.IsBase base)
    (hs : ∀ s ∈ subs, Spec.IsName s) : buildCompletions base subs = (List.range subs.length).map fun (i : Nat) =>
      base ++ ((subs.take (i + 1)).map fun s => '/' :: s).flatten := by
  induction subs generalizing base with
  | nil => rfl
  | cons s l ih =>
    have hname := hs s List.mem_cons_self
    rw [buildCompletions, pathJoin_name base s hb hname, ih _ (isBase_join base s hname)
      (fun t ht => hs t (List.mem_cons_of_mem _ ht)), List.length_cons, List.range_succ_eq_map, List.map_cons, List.map_map]
    congr 1
    · simp
    · apply List.map_congr_left
      intro i _
      simp

/-- **C81.** If the base directory exists and no plain file is in the way, then afterwards the directories are exactly
those that existed and the requested ones, each below the one before; plain files are untouched; the name returned is
the innermost directory, and it exists. -/
theorem C81_directories (fs : FileSys) (base : List Char) (subs : List (List Char)) (hb : Spec.IsBase base)
    (hs : ∀ s ∈ subs, Spec.IsName s) (hne : subs ≠ []) (hd : fs.dir base = true)
    (hf : ∀ p ∈ buildCompletions base subs, fs.file p = none) :
    ∃ fs' p, safeMakeDirGeneric fs base subs = (fs', some p) ∧ fs'.file = fs.file ∧
      (∀ q, fs'.dir q = true ↔ q ∈ buildCompletions base subs ∨ fs.dir q = true) ∧
      p = base ++ (subs.map fun s => '/' :: s).flatten ∧ fs'.dir p = true := by
  obtain ⟨h1, h2⟩ := makeDirs_dir subs base fs hb hs hd hf
  have hlast : (buildCompletions base subs).getLast? = some (base ++ (subs.map fun s => '/' :: s).flatten) := by
    rw [C81_completions base subs hb hs]
    obtain ⟨n, hn⟩ : ∃ n, subs.length = n + 1 := ⟨subs.length - 1, by
      have := List.length_pos_iff.mpr hne; omega⟩
    rw [hn, List.range_succ, List.map_append]
    have e : subs.take (n + 1) = subs := by rw [← hn, List.take_length]
    rw [List.map_cons, List.map_nil, e, List.getLast?_append_of_ne_nil _ (by simp)]
    rfl
  refine ⟨_, _, by rw [safeMakeDirGeneric, hlast], h1, h2, rfl, ?_⟩
  rw [h2]
  exact Or.inl (List.mem_of_getLast? hlast)

/-- **C81.** Asking again changes nothing and returns the same name: directories that exist already are no obstacle. -/
theorem C81_repeat (fs : FileSys) (base : List Char) (subs : List (List Char)) (hb : Spec.IsBase base)
    (hs : ∀ s ∈ subs, Spec.IsName s) (hd : fs.dir base = true)
    (hf : ∀ p ∈ buildCompletions base subs, fs.file p = none) :
    safeMakeDirGeneric (safeMakeDirGeneric fs base subs).1 base subs = safeMakeDirGeneric fs base subs := by
  obtain ⟨h1, h2⟩ := makeDirs_dir subs base fs hb hs hd hf
  have key : ∀ (l : List (List Char)) (fs : FileSys), (∀ p ∈ l, fs.dir p = true) → l.foldl makeDir fs = fs := by
    intro l
    induction l with
    | nil => intro fs _; rfl
    | cons p l ih =>
      intro fs h
      have : makeDir fs p = fs := by
        unfold makeDir
        rw [if_pos]
        simp [h p List.mem_cons_self]
      rw [List.foldl_cons, this]
      exact ih fs fun q hq => h q (List.mem_cons_of_mem _ hq)
  unfold safeMakeDirGeneric
  dsimp only
  rw [key _ _ fun p hp => (h2 p).mpr (Or.inl hp)]

/-- **C81, limits.** If neither the base directory nor any of the requested ones exists, nothing is made, although the
name is returned as if it were. -/
theorem C81_missing_base (fs : FileSys) (base s : List Char) (hb : Spec.IsBase base) (hs : Spec.IsName s)
    (hd : fs.dir base = false) :
    safeMakeDirGeneric fs base [s] = (fs, some (base ++ '/' :: s)) := by
  have : makeDir fs (base ++ '/' :: s) = fs := by
    unfold makeDir
    rw [if_pos]
    rw [parentOf_join base s hs.2, hd]
    simp
  simp [safeMakeDirGeneric, buildCompletions, pathJoin_name base s hb hs, this]

/-- An empty directory. -/
def oneDir (p : List Char) : FileSys := ⟨fun _ => none, fun q => q == p⟩

example : (safeMakeDir (oneDir "/out".toList) "/out".toList 2003 9).2 = some "/out/2003/09".toList ∧
    (safeMakeDir (oneDir "/out".toList) "/out".toList 2003 9).1.dir "/out/2003/09".toList = true ∧
    (safeMakeDir (oneDir "/out".toList) "/out".toList 2003 9).1.dir "/out/2003".toList = true := by decide +kernel

example : Spec.IsBase "/out".toList ∧ (∀ s ∈ ["2003".toList, "09".toList], Spec.IsName s) ∧
    (oneDir "/out".toList).dir "/out".toList = true := by
  refine ⟨⟨by decide, by decide⟩, ?_, by decide +kernel⟩
  intro s hs
  fin_cases hs <;> exact ⟨by decide, by decide⟩

end MarineQC
