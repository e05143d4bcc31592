import Verif.Wrapper.Command
import Verif.Base.RunTrack

/-! # What a job reads -/

namespace MarineQC

open Spec

variable {F : Type} [LinearOrder F] [Zero F]

namespace Spec

/-- The identifier of a drifter is a word without a slash, with blanks up to nine characters. -/
def PaddedWord (arg : List Char) (i : String) : Prop := IsWord arg ∧ '/' ∉ arg ∧ i.toList = targetId arg

/-- The identifiers of the drifters in the file of a month are such words. -/
def DrifterNames (E : ReadEnv F) (m : Int × Int) : Prop :=
  ∀ rec ∈ recordsIn E.excl m (linesOfFile E m), FromDrifter rec → ∀ i, textOf (rec.data "ID") = some i → ∃ arg, PaddedWord arg i

end Spec

theorem paddedWord_chars {arg : List Char} {i : String} (h : PaddedWord arg i) :
    ∀ c ∈ i.toList, c.isAlphanum = true ∨ c ∈ ['_', '-', '.', ' '] := by
  intro c hc
  rw [h.2.2] at hc
  rcases List.mem_append.mp hc with hc | hc
  · have h1 : c ≠ '/' := fun e => h.2.1 (e ▸ hc)
    rcases h.1.2.1 c hc with g | g
    · exact Or.inl g
    · right
      simp only [List.mem_cons, List.not_mem_nil, or_false] at g ⊢
      rcases g with g | g | g | g
      · exact Or.inl g
      · exact Or.inr (Or.inl g)
      · exact Or.inr (Or.inr (Or.inl g))
      · exact absurd g h1
  · rw [List.eq_of_mem_replicate hc]
    simp

theorem paddedWord_not {arg : List Char} {i : String} (h : PaddedWord arg i) (x : Char)
    (hx : x ∈ ['/', '*', '"', ',', '\n', '\\', '\r', '\x00']) : x ∉ i.toList := by
  intro hc
  have := paddedWord_chars h x hc
  clear hc h
  revert x
  decide

/-- What the tracking program finds of a drifter in the files of a chunk. -/
structure Spec.ChunkFound (rnd : Rat → Rat) (ident : String) (recs : List Imma) (R : List Report) : Prop where
  some : R ≠ []
  trackable : Trackable R
  timed : ∀ r ∈ R, r.dt ≠ none
  ident : ∀ r ∈ R, r.id = .some ident
  writable : ∀ r ∈ R, Writable r
  records : List.Forall₂ (TrackedAs rnd) recs R

theorem chunk_read (E : RunEnv F) (num : List Char → Option Rat) (rnd : Rat → Rat) (h : Numerals E.fmt num rnd)
    (ord : List (List Char) → List (List Char)) (hord : ∀ l, (ord l).Perm l) (lib : ClimLib Arr3) (hE : RunReady E lib)
    (deck : Int × Int → Deck) (months chunk : List (Int × Int)) (fs fs' : FileSys)
    (hdeck : ∀ m ∈ months, ∃ lib', checkedMonth E lib m = .ok (deck m, lib')) (htr : E.read.tracking = true)
    (ha : ∀ m ∈ months, ArchiveReady E.read m) (hbg : SoundBackground rnd E.read)
    (htext : ∀ m ∈ months, MonthText E m (deck m).reps fs')
    (hkeep : ∀ p, (∀ m ∈ months, ¬ MonthFile E.runid (monthDir E.out m.1 m.2) m.1 m.2 E.read.tracking (deck m).reps p) →
        fs'.file p = fs.file p)
    (hempty : ∀ m ∈ months, ∀ x, fs.file (monthDir E.out m.1 m.2 ++ '/' :: x) = none)
    (hsub : ∀ m ∈ chunk, m ∈ months) (hnames : ∀ m ∈ months, DrifterNames E.read m) (arg : List Char) (ident : String)
    (hw : PaddedWord arg ident) (hrec : ∀ m ∈ months, DrifterRecords rnd E.read ident m)
    (hne : trackedRecords E.read months chunk ident ≠ []) :
    ∃ R, readChunk num ord fs' E.out E.runid arg chunk = .ok R ∧ ChunkFound rnd ident (trackedRecords E.read months chunk ident) R := by
  have hb : ∀ m ∈ months, 1 ≤ m.2 ∧ m.2 ≤ 12 := fun m hm => (ha m hm).month
  have hpos : ∀ m ∈ months, 0 ≤ m.1 ∧ 0 ≤ m.2 := fun m hm => by
    have h1 := (ha m hm).year
    have h2 := hb m hm
    omega
  have hi : '"' ∉ ident.toList ∧ Tidy ident.toList ∧ ident.toList ≠ missing := by
    refine ⟨paddedWord_not hw _ (by decide), ?_, ?_⟩
    · intro c hc
      refine ⟨?_, ?_, ?_⟩ <;> rintro rfl <;> exact absurd hc (paddedWord_not hw _ (by decide))
    · intro e
      exact paddedWord_not hw '\\' (by decide) (by rw [e]; decide)
  have hrows := handedOn_records E lib deck months chunk hb hdeck ident
  have each : ∀ q ∈ handedOn deck months chunk ident, ∃ m ∈ months, ∃ rec ∈ recordsIn E.read.excl m (linesOfFile E.read m),
      FromDrifter rec ∧ textOf (rec.data "ID") = some ident ∧ q.getint "DY" = dayOf rec ∧ q.getint "YR" = some m.1 ∧
      q.getint "MO" = some m.2 ∧ q.getvar "HR" = hourGiven rec ∧ Storable rnd q ∧ Handed rnd q := by
    intro q hq
    obtain ⟨m, -, hm, h1, h2, h3⟩ := handedOn_mem hq
    obtain ⟨lib', hk⟩ := hdeck m hm
    exact ⟨m, hm, record_handed E hE.geo hE.ships.toGoodShipParams lib lib' m (ha m hm) _ hk rnd ident hi hbg (hrec m hm) q h1 h2 h3⟩
  have hst : ∀ q ∈ handedOn deck months chunk ident, Storable rnd q := fun q hq => by
    obtain ⟨m, -, rec, -, -, -, -, -, -, -, k, -⟩ := each q hq; exact k
  have hne' : handedOn deck months chunk ident ≠ [] := by
    intro e
    rw [e] at hrows
    exact hne (List.forall₂_nil_right_iff.mp hrows)
  obtain ⟨-, hR⟩ := run_readback E num rnd h ord hord deck months chunk fs fs' (by
    intro m hm
    rcases List.mem_append.mp hm with hm | hm
    · exact hpos m hm
    · exact hpos m (hsub m hm)) htr htext hkeep arg ident hw.2.2 (paddedWord_not hw _ (by decide)) (paddedWord_not hw _ (by decide)) hst
    (fun m hm r hr hdn j hj hsj => by
      obtain ⟨lib', hk⟩ := hdeck m hm
      obtain ⟨n, hn'⟩ := List.mem_iff_getElem?.mp hr
      obtain ⟨p, hp, r0, c1, c2⟩ := forall2_get (checkedMonth_records E lib lib' m (hb m hm) _ hk).flip n r hn'
      obtain ⟨e1, e2⟩ := recordsFor_source (List.mem_of_getElem? hp)
      obtain ⟨e3, e4⟩ := (after_drifts c1 c2).mp hdn
      rw [e3] at e2
      obtain ⟨arg', hw'⟩ := hnames m hm _ e2 e4 j (by rw [← (C104_contents c1).1, ← c2.id, hj])
      rw [safe_id _ (paddedWord_not hw' _ (by decide)) (paddedWord_not hw' _ (by decide))] at hsj
      exact String.toList_inj.mp hsj)
    (fun m hm _ pre _ => by
      rw [inputPath_eq]
      obtain ⟨x, hx⟩ := voyagePath_in E.runid (monthDir E.out m.1 m.2) pre.toList (targetId arg) m.1 m.2
      rw [hx]
      exact hempty m (hsub m hm) x)
  obtain ⟨R, r1, r2⟩ := hR hne'
  have hid : ∀ q ∈ handedOn deck months chunk ident, q.id = some ident := by
    intro q hqm
    obtain ⟨m, -, hm⟩ := List.mem_flatMap.mp hqm
    split at hm
    · have := (List.mem_filter.mp (List.mem_filter.mp hm).1).2
      exact (of_decide_eq_true this).1
    · cases hm
  have hmin : MinutesApart rnd (handedOn deck months chunk ident) := by
    intro a ha' b hb' _ _ ha1 hb1 g1 g2 g3 g4
    obtain ⟨m, hm, rec, a1, a2, a3, a4, a5, a6, a7, -⟩ := each a ha'
    obtain ⟨m', hm', rec', b1, b2, b3, b4, b5, b6, b7, -⟩ := each b hb'
    have e1 := g3 "YR" (by simp)
    have e2 := g3 "MO" (by simp)
    have e3 := g3 "DY" (by simp)
    rw [a5, b5, Option.some.injEq] at e1
    rw [a6, b6, Option.some.injEq] at e2
    rw [a4, b4] at e3
    have : m' = m := Prod.ext e1.symm e2.symm
    subst this
    exact (hrec m' hm).minutes rec a1 rec' b1 a2 b2 a3 b3 e3 ha1 hb1 (by rw [← a7, g1]) (by rw [← b7, g2]) g4
  obtain ⟨t1, t2, t3⟩ := handed_trackable r2 (fun q hq => by
    obtain ⟨m, -, rec, -, -, -, -, -, -, -, -, k⟩ := each q hq; exact k) hmin ident hid
  refine ⟨R, r1, ⟨?_, t1, t2, t3, ?_, ?_⟩⟩
  · rintro rfl
    exact hne' (List.forall₂_nil_right_iff.mp r2)
  · intro r hr
    obtain ⟨n, hn⟩ := List.mem_iff_getElem?.mp hr
    obtain ⟨q, q1, q2⟩ := forall2_get r2.flip n r hn
    have := (hst q (List.mem_of_getElem? q1)).writable
    exact ⟨by rw [q2.uid]; exact this.uid, by rw [q2.ident]; exact this.ident⟩
  · exact forall2_chain (R := fun rec r => ∃ (m : Int × Int) (r0 : Report),
      ReadAs E.read.hum E.read.elev E.read.params lib m.1 m.2 m rec r0 ∧ AfterChecks r0 r) (S := ReadBack rnd) (T := TrackedAs rnd)
      (fun _ _ _ ⟨_, _, x, y⟩ z => tracked_back x y z) hrows r2

/-- What is read depends on the files of the months only. -/
theorem readChunk_congr (num : List Char → Option Rat) (ord : List (List Char) → List (List Char)) (f g : FileSys)
    (out runid arg : List Char) (chunk : List (Int × Int))
    (h : ∀ m ∈ chunk, ∀ x, f.file (monthDir out m.1 m.2 ++ '/' :: x) = g.file (monthDir out m.1 m.2 ++ '/' :: x)) :
    readChunk num ord f out runid arg chunk = readChunk num ord g out runid arg chunk := by
  have key : ∀ m ∈ chunk, readMonth num ord f out runid (targetId arg) m.1 m.2 = readMonth num ord g out runid (targetId arg) m.1 m.2 := by
    intro m hm
    have p : ∀ pre : String, f.file (inputPath out runid (targetId arg) m.1 m.2 pre) = g.file (inputPath out runid (targetId arg) m.1 m.2 pre) := by
      intro pre
      rw [inputPath_eq]
      obtain ⟨x, hx⟩ := voyagePath_in runid (monthDir out m.1 m.2) pre.toList (targetId arg) m.1 m.2
      rw [hx]
      exact h m hm x
    unfold readMonth
    rw [p, p, p]
  unfold readChunk
  congr 1
  clear h
  induction chunk with
  | nil => rfl
  | cons m l ih =>
    rw [List.mapM_cons, List.mapM_cons, key m (by simp), ih fun k hk => key k (by simp [hk])]

end MarineQC
