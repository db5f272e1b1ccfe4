import Verif.Model.Basic
import Verif.Model.Value
/-
Identifiers: types/identifier.go.
-/
namespace Maho

/-- types/identifier.go:9 `Identifier` (a Go int; overflow of the 64 bit counter is not
modelled). -/
notation "Identifier" => Int

/-- types/identifier.go:12 `MaxIdentifier`. -/
def maxIdentifier : Nat := 128

/-- types/identifier.go:16-63: the known identifiers the model refers to by name. -/
def idRowid : Identifier := 36

/-- types/identifier.go:145-170: the initial contents of the map `identifiers`. The numbers
are the constants of lines 16-63. -/
def initialIdentifiers : List (String × Identifier) := [
  ("", 0),
  ("btree", 6), ("columns", 11), ("config", 12), ("constraints", 13),
  ("count", 14), ("count_all", 15), ("databases", 16), ("description", 17),
  ("field", 20), ("flags", 19), ("indexes", 21), ("info", 22),
  ("maho", 28), ("metadata", 29), ("primary", 31), ("private", 32),
  ("public", 33), ("__rowid", 36), ("schemas", 37), ("sequences", 38),
  ("system", 41), ("tables", 42), ("tree", 44)]

/-- types/identifier.go:172-271: the map `keywords`. The numbers are the constants of lines
16-63 and, negative, of lines 65-142. -/
def keywordTable : List (String × Identifier) := [
  ("ACTION", -1), ("ADD", -2), ("ALL", -3), ("ALTER", -4),
  ("AND", -5), ("ANY", -6), ("AS", -7), ("ASC", -8),
  ("BEGIN", -9), ("BY", -10), ("BIGINT", 1), ("BINARY", 2),
  ("BLOB", 3), ("BOOL", 4), ("BOOLEAN", 5), ("BYTEA", 7),
  ("BYTES", 8), ("CASCADE", -11), ("CHAR", 9), ("CHARACTER", 10),
  ("CHECK", -12), ("COLUMN", -13), ("COMMIT", -14), ("CONSTRAINT", -15),
  ("COPY", -16), ("CREATE", -17), ("CROSS", -18), ("DATABASE", -19),
  ("DEFAULT", -20), ("DELETE", -21), ("DELIMITER", -22), ("DESC", -23),
  ("DETACH", -24), ("DOUBLE", 18), ("DROP", -25), ("EXECUTE", -26),
  ("EXISTS", -27), ("EXPLAIN", -28), ("FALSE", -29), ("FOREIGN", -30),
  ("FROM", -31), ("FULL", -32), ("GROUP", -33), ("HAVING", -34),
  ("IF", -35), ("IN", -36), ("INDEX", -37), ("INNER", -38),
  ("INSERT", -39), ("INT", 23), ("INT2", 24), ("INT4", 25),
  ("INT8", 26), ("INTEGER", 27), ("INTO", -40), ("IS", -41),
  ("JOIN", -42), ("KEY", -43), ("LEFT", -44), ("NO", -45),
  ("NOT", -46), ("NULL", -47), ("ON", -48), ("OR", -49),
  ("ORDER", -50), ("OUTER", -51), ("PATH", 30), ("PRECISION", 34),
  ("PREPARE", -52), ("PRIMARY", -53), ("REAL", 35), ("RESTRICT", -55),
  ("REFERENCES", -54), ("RIGHT", -56), ("ROLLBACK", -57), ("SCHEMA", -58),
  ("SELECT", -59), ("SET", -60), ("SHOW", -61), ("SMALLINT", 39),
  ("SOME", -62), ("STDIN", 40), ("START", -63), ("TABLE", -64),
  ("TEXT", 43), ("TO", -65), ("TRANSACTION", -66), ("TRUE", -67),
  ("UNIQUE", -68), ("UPDATE", -69), ("USE", -70), ("USING", -71),
  ("VALUES", -72), ("VARBINARY", 45), ("VARCHAR", 46), ("VERBOSE", -73),
  ("WHERE", -74), ("WITH", -75)]

/-- The keyword table with byte string keys, as it is looked up in. -/
def keywords : List (Bytes × Identifier) := keywordTable.map (fun p => (ascii p.1, p.2))

/-- `strings.ToUpper` and `strings.ToLower` (Go standard library). What they do outside ASCII
depends on the Unicode tables, so they are parameters of the model. -/
structure CaseEnv where
  upper : Bytes → Bytes
  lower : Bytes → Bytes

/-- types/identifier.go:273-276: the mutable tables. A Go map is an association list; assignment
puts a new pair in front. -/
structure Registry where
  identifiers : List (Bytes × Identifier)
  names : List (Identifier × Bytes)
  last : Identifier
deriving DecidableEq

/-- types/identifier.go:352-366 `init`: `names` is filled from the two maps and `lastIdentifier`
is the largest identifier. Go iterates over a map in any order; no identifier occurs twice, so
the order makes no difference. -/
def Registry.initial : Registry :=
  let ids := initialIdentifiers.map (fun p => (ascii p.1, p.2))
  { identifiers := ids
    names := (ids ++ keywords).map (fun p => (p.2, p.1))
    last := (ids ++ keywords).foldl (fun m p => if p.2 > m then p.2 else m) 0 }

/-- types/identifier.go:278-299 `lookupID`. `none` is the result `0, false`. -/
def lookupID (c : CaseEnv) (r : Registry) (s : Bytes) (quoted create : Bool) :
    Option Identifier × Registry :=
  match (if quoted then none else keywords.lookup (c.upper s)) with
  | some id => (some id, r)
  | none =>
    let s := if quoted then s else c.lower s
    match r.identifiers.lookup s with
    | some id => (some id, r)
    | none =>
      if create then
        let id := r.last + 1
        (some id, { identifiers := (s, id) :: r.identifiers,
                    names := (id, s) :: r.names, last := id })
      else (none, r)

/-- types/identifier.go:302-304: the truncation at the start of `ID` (`s[:128]` cuts bytes). -/
def truncateName (s : Bytes) : Bytes :=
  if s.length > maxIdentifier then s.take maxIdentifier else s

/-- types/identifier.go:301-320 `ID`, run without interference: look up under the read lock,
then look up again and create under the write lock. The interleaved version is `IdWorld.run`. -/
def internID (c : CaseEnv) (r : Registry) (s : Bytes) (quoted : Bool) : Identifier × Registry :=
  let s := truncateName s
  match lookupID c r s quoted false with
  | (some id, r) => (id, r)
  | (none, r) =>
    match lookupID c r s quoted true with
    | (some id, r) => (id, r)
    | (none, r) => (0, r)

/-- A history of calls of `ID`, one after the other, and their results. -/
def internAll (c : CaseEnv) (r : Registry) : List (Bytes × Bool) → List Identifier × Registry
  | [] => ([], r)
  | (s, quoted) :: calls =>
    let (id, r) := internID c r s quoted
    let (ids, r) := internAll c r calls
    (id :: ids, r)

/-- types/identifier.go:322-324 `Identifier.String`: a missing map entry reads as "". -/
def Registry.string (r : Registry) (id : Identifier) : Bytes := (r.names.lookup id).getD []

/-- types/identifier.go:326-331 `IsReserved`. -/
def isReserved (id : Identifier) : Bool := if id < 0 then true else false

/-- types/identifier.go:345-350 `GobEncode`. -/
def gobEncodeId (r : Registry) (id : Identifier) : Bytes :=
  if isReserved id then 1#8 :: r.string id else 0#8 :: r.string id

/-- types/identifier.go:333-343 `GobDecode`. -/
def gobDecodeId (c : CaseEnv) (r : Registry) (val : Bytes) : Res Identifier × Registry :=
  match val with
  | [] => (.err .other, r)
  | b :: s =>
    if b.toNat > 1 then (.err .other, r)
    else if b = 0#8 then
      let (id, r) := internID c r s true
      (.ok id, r)
    else
      let (id, r) := internID c r s false
      (.ok id, r)

/-- Where a goroutine is inside `ID` (types/identifier.go:301-320). The mutex makes the section
of lines 306-308 and the section of lines 315-319 atomic with respect to each other, so these
sections are the steps of the concurrent model. -/
inductive IdState where
  /-- before line 306 -/
  | start
  /-- between `RUnlock` in line 308 and `Lock` in line 315 -/
  | missed
  /-- returned -/
  | done (id : Identifier)
deriving DecidableEq

/-- One call of `ID` by some goroutine. -/
structure IdCall where
  s : Bytes
  quoted : Bool
  state : IdState
deriving DecidableEq

/-- All calls made so far, finished or not, and the shared tables. -/
structure IdWorld where
  reg : Registry
  calls : List IdCall

/-- What the scheduler does next: a goroutine enters `ID`, or call number `i` runs its next
atomic section. -/
inductive IdEvent where
  | enter (s : Bytes) (quoted : Bool)
  | run (i : Nat)

/-- The next atomic section of one call. -/
def IdCall.advance (c : CaseEnv) (r : Registry) (call : IdCall) : IdCall × Registry :=
  let s := truncateName call.s
  match call.state with
  | .start =>
    match lookupID c r s call.quoted false with
    | (some id, r) => ({ call with state := .done id }, r)
    | (none, r) => ({ call with state := .missed }, r)
  | .missed =>
    match lookupID c r s call.quoted true with
    | (some id, r) => ({ call with state := .done id }, r)
    | (none, r) => ({ call with state := .done 0 }, r)
  | .done _ => (call, r)

/-- One scheduling step. -/
def IdWorld.step (c : CaseEnv) (w : IdWorld) : IdEvent → IdWorld
  | .enter s quoted => { w with calls := w.calls ++ [⟨s, quoted, .start⟩] }
  | .run i =>
    match w.calls[i]? with
    | none => w
    | some call =>
      let (call', r) := call.advance c w.reg
      { reg := r, calls := w.calls.set i call' }

/-- A whole schedule. -/
def IdWorld.run (c : CaseEnv) (w : IdWorld) (events : List IdEvent) : IdWorld :=
  events.foldl (fun w e => w.step c e) w

end Maho
