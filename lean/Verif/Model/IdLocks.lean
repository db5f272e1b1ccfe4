import Verif.Model.Ident
/-
The calls of `ID` and `Identifier.String` (types/identifier.go:278-324) in steps that each touch
one shared variable once. Model/Ident.lean takes the two sections of `ID` as atomic; this is the
machine below them, with the `sync.RWMutex` of line 275 explicit.
-/
namespace Maho

/-- Where a goroutine is inside `ID` (types/identifier.go:301-320). -/
inductive LockState where
  /-- before `RLock`, line 306 -/
  | start
  /-- with the read lock, before the lookup in lines 279-289 -/
  | reading
  /-- with the read lock and the result of the lookup, before `RUnlock`, line 308 -/
  | read (r : Option Identifier)
  /-- before `Lock`, line 315 -/
  | missed
  /-- with the write lock, before the lookup in lines 279-289 -/
  | writing
  /-- before `lastIdentifier += 1`, line 292 -/
  | creating
  /-- before `identifiers[s] = lastIdentifier`, line 293 -/
  | counted
  /-- before `names[lastIdentifier] = s`, line 294 -/
  | stored
  /-- with the write lock and the result, before `Unlock`, line 316 -/
  | written (id : Identifier)
  /-- returned -/
  | done (id : Identifier)
deriving DecidableEq

/-- One call of `ID`. -/
structure LockCall where
  s : Bytes
  quoted : Bool
  state : LockState
deriving DecidableEq

/-- The shared tables, the mutex (the number of readers, and whether there is a writer), the calls
of `ID` and the calls of `String` with their results. -/
structure LockWorld where
  reg : Registry
  readers : Nat
  writer : Bool
  calls : List LockCall
  prints : List (Identifier × Option Bytes)
deriving DecidableEq

/-- The name under which a call stores its identifier (types/identifier.go:284, 302-304). -/
def LockCall.name (c : CaseEnv) (call : LockCall) : Bytes :=
  let s := truncateName call.s
  if call.quoted then s else c.lower s

/-- The next step of call number `i`. A call that has to wait for the mutex does nothing, and may
be scheduled again. -/
def LockWorld.advance (c : CaseEnv) (w : LockWorld) (i : Nat) (call : LockCall) : LockWorld :=
  let go (st : LockState) : List LockCall := w.calls.set i { call with state := st }
  match call.state with
  | .start =>
    if w.writer then w else { w with readers := w.readers + 1, calls := go .reading }
  | .reading =>
    { w with calls := go (.read (lookupID c w.reg (truncateName call.s) call.quoted false).1) }
  | .read (some id) => { w with readers := w.readers - 1, calls := go (.done id) }
  | .read none => { w with readers := w.readers - 1, calls := go .missed }
  | .missed =>
    if w.writer ∨ w.readers ≠ 0 then w else { w with writer := true, calls := go .writing }
  | .writing =>
    match (lookupID c w.reg (truncateName call.s) call.quoted false).1 with
    | some id => { w with calls := go (.written id) }
    | none => { w with calls := go .creating }
  | .creating => { w with reg := { w.reg with last := w.reg.last + 1 }, calls := go .counted }
  | .counted =>
    { w with reg := { w.reg with identifiers := (call.name c, w.reg.last) :: w.reg.identifiers },
             calls := go .stored }
  | .stored =>
    { w with reg := { w.reg with names := (w.reg.last, call.name c) :: w.reg.names },
             calls := go (.written w.reg.last) }
  | .written id => { w with writer := false, calls := go (.done id) }
  | .done _ => w

/-- What the scheduler does next: a goroutine enters `ID` or `String`, or a call makes a step. -/
inductive LockEvent where
  | enter (s : Bytes) (quoted : Bool)
  | run (i : Nat)
  | print (id : Identifier)
  | runPrint (i : Nat)

/-- One scheduling step. `String` (types/identifier.go:322-324) reads `names` without the mutex. -/
def LockWorld.step (c : CaseEnv) (w : LockWorld) : LockEvent → LockWorld
  | .enter s quoted => { w with calls := w.calls ++ [⟨s, quoted, .start⟩] }
  | .run i =>
    match w.calls[i]? with
    | none => w
    | some call => w.advance c i call
  | .print id => { w with prints := w.prints ++ [(id, none)] }
  | .runPrint i =>
    match w.prints[i]? with
    | some (id, none) => { w with prints := w.prints.set i (id, some (w.reg.string id)) }
    | _ => w

/-- A whole schedule. -/
def LockWorld.run (c : CaseEnv) (w : LockWorld) (events : List LockEvent) : LockWorld :=
  events.foldl (fun w e => w.step c e) w

/-- Before any call. -/
def LockWorld.initial : LockWorld := ⟨Registry.initial, 0, false, [], []⟩

end Maho
