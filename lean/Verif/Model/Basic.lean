/-
Common representation choices of the model.
-/
namespace Maho

/-- A Go `byte`. -/
abbrev Byte := BitVec 8

/-- Go `[]byte` and `string` contents. Aliasing is not represented here; where the
code depends on it (scanner buffer, trees) the model represents it separately. -/
abbrev Bytes := List Byte

/-- Go error values. Error texts are not modelled; `io.EOF` is kept apart because
the code branches on it (engine/typedtable.go:217,224,251, engine/engine.go:237,281,315,384). -/
inductive Err where
  | eof
  | other
deriving DecidableEq, Repr

/-- Outcome of a Go call: a result, an error value, or a Go panic. -/
inductive Res (α : Type) where
  | ok (a : α)
  | err (e : Err)
  | panic
deriving DecidableEq, Repr

namespace Res

/-- Sequencing: an error is returned early, a panic propagates. -/
def bind {α β : Type} (r : Res α) (f : α → Res β) : Res β :=
  match r with
  | .ok a => f a
  | .err e => .err e
  | .panic => .panic

instance : Monad Res where
  pure := Res.ok
  bind := Res.bind

@[simp] theorem bind_ok {α β : Type} (a : α) (f : α → Res β) : (Res.ok a >>= f) = f a := rfl
@[simp] theorem bind_err {α β : Type} (e : Err) (f : α → Res β) :
    ((Res.err e : Res α) >>= f) = Res.err e := rfl
@[simp] theorem bind_panic {α β : Type} (f : α → Res β) :
    ((Res.panic : Res α) >>= f) = Res.panic := rfl
@[simp] theorem pure_eq {α : Type} (a : α) : (pure a : Res α) = Res.ok a := rfl

theorem bind_eq_ok {α β : Type} {r : Res α} {f : α → Res β} {b : β} :
    (r >>= f) = Res.ok b ↔ ∃ a, r = Res.ok a ∧ f a = Res.ok b := by
  cases r <;> simp

/-- The call neither panicked nor returned an error. -/
def isOk {α : Type} : Res α → Bool
  | .ok _ => true
  | _ => false

/-- The call panicked. -/
def isPanic {α : Type} : Res α → Bool
  | .panic => true
  | _ => false

end Res

/-- `bytes.Compare` / `strings.Compare` (Go standard library): lexicographic, a proper
prefix is smaller. The Go results -1, 0, 1 are `lt`, `eq`, `gt`. -/
def bytesCompare : Bytes → Bytes → Ordering
  | [], [] => .eq
  | [], _ :: _ => .lt
  | _ :: _, [] => .gt
  | a :: as, b :: bs =>
    if a.toNat < b.toNat then .lt
    else if b.toNat < a.toNat then .gt
    else bytesCompare as bs

end Maho
