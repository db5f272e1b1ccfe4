import Verif.Model.IdLocks
/-
What a data race on the tables of identifiers is.
-/
namespace Maho.Spec

/-- The shared variables of types/identifier.go that change. -/
inductive IdVar where
  | identifiers | names | last
deriving DecidableEq

/-- The accesses of the next step of a call of `ID`: which variables, and whether it writes. Line
numbers are those of types/identifier.go: 287 reads `identifiers`, 292 writes `lastIdentifier`, 293
and 294 write the maps and read the counter. -/
def accesses : LockState → List (IdVar × Bool)
  | .reading | .writing => [(.identifiers, false)]
  | .creating => [(.last, true)]
  | .counted => [(.last, false), (.identifiers, true)]
  | .stored => [(.last, false), (.names, true)]
  | _ => []

/-- Two accesses that must not happen at the same time. -/
def Conflict (a b : IdVar × Bool) : Prop := a.1 = b.1 ∧ (a.2 = true ∨ b.2 = true)

/-- Two calls of `ID` are about to make accesses that conflict. -/
def RaceOfCalls (w : LockWorld) : Prop :=
  ∃ (i j : Nat) (c d : LockCall), i ≠ j ∧ w.calls[i]? = some c ∧ w.calls[j]? = some d ∧
    ∃ a ∈ accesses c.state, ∃ b ∈ accesses d.state, Conflict a b

/-- A call of `String` is about to read `names` and a call of `ID` is about to write it. -/
def RaceWithString (w : LockWorld) : Prop :=
  ∃ (i j : Nat) (id : Identifier) (c : LockCall), w.prints[i]? = some (id, none) ∧ w.calls[j]? = some c ∧
    ∃ a ∈ accesses c.state, Conflict a (.names, false)

end Maho.Spec
