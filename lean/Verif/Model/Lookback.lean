import Verif.Model.Scan
/-
Model of the ring of tokens in parser/parser.go. `stream k` is the token that the call number `k`
of the scanner returns.
-/
namespace Maho

/-- parser/parser.go:15-26: the fields `lookBack`, `current` and `unscanned` of `Parser`, and how
many tokens the scanner has returned. -/
structure Ring where
  lookBack : Nat → Token
  current : Nat
  unscanned : Nat
  scanned : Nat

/-- parser/parser.go:27-31 `NewParser`. -/
def Ring.new : Ring := ⟨fun _ => .rune 0, 0, 0, 0⟩

/-- parser/parser.go:76-89 `scanRune`. -/
def Ring.scan (stream : Nat → Token) (r : Ring) : Token × Ring :=
  let c := (r.current + 1) % 3
  if r.unscanned > 0 then (r.lookBack c, { r with current := c, unscanned := r.unscanned - 1 })
  else
    (stream r.scanned,
      { lookBack := fun i => if i = c then stream r.scanned else r.lookBack i
        current := c
        unscanned := 0
        scanned := r.scanned + 1 })

/-- parser/parser.go:99-110 `unscan`. -/
def Ring.unscan (r : Ring) : Res Ring :=
  if r.unscanned + 1 > 3 then .panic
  else
    .ok { r with
      unscanned := r.unscanned + 1
      current := if r.current = 0 then 2 else r.current - 1 }

/-- A call of `scan` or `unscan`. -/
inductive RingCall where
  | scan
  | unscan
deriving DecidableEq

/-- Calls one after the other: the tokens that are returned. -/
def Ring.run (stream : Nat → Token) : Ring → List RingCall → Res (List Token)
  | _, [] => .ok []
  | r, .scan :: calls =>
    let (t, r) := r.scan stream
    match r.run stream calls with
    | .ok l => .ok (t :: l)
    | .err e => .err e
    | .panic => .panic
  | r, .unscan :: calls =>
    match r.unscan with
    | .ok r => r.run stream calls
    | .err e => .err e
    | .panic => .panic

end Maho
