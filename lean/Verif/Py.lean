/-!
# Python run-time behaviour shared by all models

Nothing in this file models `/repo`; it fixes how Python 2 built-ins used by `/repo` are rendered.
-/

namespace MarineQC

/-- The exceptions the modelled code can raise. -/
inductive Err where
  /-- a failed `assert` statement -/
  | assertion
  /-- `IndexError`: list or array index out of range -/
  | index
  /-- `ZeroDivisionError` -/
  | zeroDiv
  /-- `TypeError`, e.g. arithmetic on `None` -/
  | type
  /-- `KeyError`: missing dictionary key -/
  | key
  /-- `ValueError`, e.g. `int('abc')` -/
  | value
  /-- recursion deeper than the model follows; theorems show it is never reached -/
  | recursion
  /-- any other exception (`UserWarning`, `Exception`) -/
  | other
deriving DecidableEq, Repr

/-- Decidable equality of outcomes, so that concrete runs can be checked by `decide`. -/
instance {α : Type} [DecidableEq α] : DecidableEq (Except Err α) := fun a b =>
  match a, b with
  | .ok x, .ok y => if h : x = y then .isTrue (by rw [h]) else .isFalse (by simp [h])
  | .error x, .error y => if h : x = y then .isTrue (by rw [h]) else .isFalse (by simp [h])
  | .ok _, .error _ => .isFalse (by simp)
  | .error _, .ok _ => .isFalse (by simp)

/-- Python `assert b`: continue if `b`, otherwise raise `AssertionError`. -/
def pyAssert (b : Bool) : Except Err Unit := if b then .ok () else .error .assertion

/-- Python list indexing `l[i]`: negative indices count from the end, others out of range raise
`IndexError`. -/
def pyIndex {α : Type} (l : List α) (i : Int) : Except Err α :=
  let j := if i < 0 then i + l.length else i
  if j < 0 then .error .index
  else match l[j.toNat]? with
    | some a => .ok a
    | none => .error .index

@[simp] theorem pyAssert_true : pyAssert true = .ok () := rfl
@[simp] theorem pyAssert_false : pyAssert false = .error .assertion := rfl

@[simp] theorem except_bind_ok {α β : Type} (a : α) (f : α → Except Err β) :
    (Except.ok a >>= f) = f a := rfl
@[simp] theorem except_bind_error {α β : Type} (e : Err) (f : α → Except Err β) :
    ((Except.error e : Except Err α) >>= f) = .error e := rfl
@[simp] theorem except_pure {α : Type} (a : α) : (pure a : Except Err α) = .ok a := rfl

theorem pyAssert_bind {β : Type} (b : Bool) (f : Unit → Except Err β) :
    (pyAssert b >>= f) = if b then f () else .error .assertion := by
  cases b <;> rfl

theorem pyIndex_of_nat {α : Type} (l : List α) (n : Nat) (h : n < l.length) :
    pyIndex l (n : Int) = .ok l[n] := by
  unfold pyIndex
  have h1 : ¬ ((n : Int) < 0) := by omega
  simp [h1, h]

/-- A loop over a list no round of which raises. -/
theorem mapM_ok {α β : Type} (f : α → Except Err β) (g : α → β) (l : List α)
    (h : ∀ a ∈ l, f a = .ok (g a)) : l.mapM f = .ok (l.map g) := by
  induction l with
  | nil => rfl
  | cons a l ih =>
    rw [List.mapM_cons, h a (by simp), ih fun b hb => h b (by simp [hb])]
    rfl

end MarineQC
