import Verif.Alone.Spec

/-!
# Specification: reports near one another (C136)
-/

namespace MarineQC.Spec

/-- `c'` is one of the cells that a search with one of the radii looks at from `c`. -/
def Reaches (span : Int → Nat → Int) (radii : List (List Int)) (c c' : Cell) : Prop :=
  ∃ rx ry rp o, [rx, ry, rp] ∈ radii ∧ IsStep (span rx c.2.1) ry rp o ∧ IsCellAt c o c'

/-- The radii of all the buddy checks. -/
def buddyRadii (B : BuddyInputs) : List (List Int) := B.mds.limits ++ B.slpMds.limits ++ [B.sstBayes.limits, B.atBayes.limits]

/-- The report was made in the cell of one degree and five days. -/
def LiesIn (c : Cell) (r : Report) : Prop := FallsIn c ⟨r.lat, r.lon, r.getint "MO", r.getint "DY", none⟩

/-- A search for buddies of `r` looks at the cell of `s`. -/
def Near (span : Int → Nat → Int) (radii : List (List Int)) (r s : Report) : Prop :=
  ∃ c c', LiesIn c r ∧ LiesIn c' s ∧ Reaches span radii c c'

/-- The two reports are the same but for the background values. -/
structure SameButBackground (r s : Report) : Prop where
  id : s.id = r.id
  uid : s.uid = r.uid
  dt : s.dt = r.dt
  data : s.data = r.data
  clim : s.clim = r.clim
  ext : ∀ k, k ∉ ["OSTIA", "ICE", "BGVAR"] → s.ext k = r.ext k
  flags : ∀ t f, s.getQc t f = r.getQc t f

end MarineQC.Spec
