import Verif.Lemmas.Memory
import Verif.Props.Storage
/-
C84: what the store shares with its callers (storage/basic/basic.go, types/value.go).
-/
namespace Maho
open Spec

/-! ### Sample data -/

/-- (a INT PRIMARY KEY, b BYTES(100)) -/
def memTable : Table :=
  ⟨512#32, ⟨1#32, ⟨600, 601, 602⟩, [603, 604],
    [⟨.int64, 8#32, false, true⟩, ⟨.bytes, 100#32, false, false⟩], [makeColumnKey 0#32 false]⟩⟩

/-- (b BYTES(100) PRIMARY KEY) -/
def memBytesTable : Table :=
  ⟨513#32, ⟨1#32, ⟨600, 601, 605⟩, [604], [⟨.bytes, 100#32, false, true⟩], [makeColumnKey 0#32 false]⟩⟩

/-- A row (i, b). -/
def memRow (i : Nat) (b : Bytes) : Row := [some (.int (BitVec.ofNat 64 i)), some (.bytes b)]

/-- The first row of a table is fetched, and the rest of the calls follow. -/
def fetch (tbl : Table) (cols : Option (List ColumnNum)) (scan : Nat) : List MemCall :=
  [.rows tbl cols none none none, .next scan]

/-- What the last call returned. -/
def lastRow (rs : List (Res (Option Row))) : Res (Option Row) := rs.getLast?.getD .panic

/-! ### C84 -/

/-- C84 (partial): the store does what a store does that copies all it gets and all it hands out, as
long as callers do not write into the bytes of a value, nor into a row that has come from `Next`
without a list of columns. The property is claimed for all calls: see `C84_row_shared` and
`C84_bytes_shared`. -/
theorem C84_copies_partial (env : StoreEnv) (calls : List MemCall)
    (h : CopyState.AllKeep env .new calls) :
    MemState.run env .new calls = CopyState.run env .new calls :=
  MemState.sim_new.run env calls h

/-- Rows are changed after they have been inserted, fetched with columns and used for an update, and
values are moved between rows. -/
def memCalls : List MemCall :=
  [.row (memRow 1 [1, 2]), .insert memTable [0], .cell 0 0 (some (.int 2)), .cell 0 1 (some (.bytes [3])),
    .insert memTable [0], .commit] ++ fetch memTable (some [1#32, 0#32]) 0 ++
  [.copy 1 1 0 1, .cell 1 0 none, .read 1] ++ fetch memTable none 1 ++
  [.row [some (.bytes [9])], .update 1 [1#32] 3, .cell 3 0 none, .read 2] ++ fetch memTable none 2 ++
  [.delete 2, .rollback] ++ fetch memTable none 3

example : CopyState.AllKeep sampleStore .new memCalls ∧
    MemState.run sampleStore .new memCalls =
      [.ok none, .ok none, .ok none, .ok none, .ok none, .ok none,
        .ok none, .ok (some [some (.bytes [1, 2]), some (.int 1)]),
        .ok none, .ok none, .ok (some [none, some (.bytes [3])]),
        .ok none, .ok (some (memRow 1 [1, 2])),
        .ok none, .ok none, .ok none, .ok (some (memRow 1 [1, 2])),
        .ok none, .ok (some (memRow 1 [9])),
        .ok none, .ok none, .ok none, .ok (some (memRow 1 [1, 2]))] := by
  refine ⟨?_, by decide +kernel⟩
  simp only [memCalls, fetch, List.cons_append, List.nil_append, CopyState.AllKeep, CopyState.Keeps]
  refine ⟨trivial, trivial, ?_, ?_, trivial, trivial, trivial, trivial, ?_, ?_, trivial, trivial,
    trivial, trivial, trivial, ?_, trivial, trivial, trivial, trivial, trivial, trivial, trivial, trivial⟩
  all_goals
    intro x hx
    cases hx
    rfl

/-- The row is fetched without columns, changed, and the transaction is rolled back. -/
def writeFetched : List MemCall :=
  [.row (memRow 1 []), .insert memTable [0], .commit] ++ fetch memTable none 0 ++
  [.cell 1 0 (some (.int 7)), .rollback]

/-- C84 fails: `Next` without a list of columns returns the slice that is stored. A caller who writes
into the row changes the store, for other transactions too and in spite of `Rollback`. -/
theorem C84_row_shared :
    lastRow (MemState.run sampleStore .new (writeFetched ++ fetch memTable none 1)) =
      .ok (some (memRow 7 [])) ∧
    lastRow (CopyState.run sampleStore .new (writeFetched ++ fetch memTable none 1)) =
      .ok (some (memRow 1 [])) := by decide +kernel

/-- The row is then under the key that it had before: it is not found by its key, and a second row
with the same key can be inserted. -/
theorem C84_row_shared_key :
    lastRow (MemState.run sampleStore .new
      (writeFetched ++ [.row (memRow 7 []), .rows memTable none (some 2) none none, .next 1])) = .err .eof ∧
    (MemState.run sampleStore .new
      (writeFetched ++ [.row (memRow 7 [5]), .insert memTable [2]] ++ fetch memTable none 1 ++ [.next 1])).drop 8 =
      [.ok none, .ok none, .ok (some (memRow 7 [])), .ok (some (memRow 7 [5]))] := by decide +kernel

/-- C84 fails: `Insert` and `Update` keep the slices of bytes, and `Next` hands them out even with a
list of columns. -/
theorem C84_bytes_shared :
    lastRow (MemState.run sampleStore .new
      ([.row (memRow 1 [1, 2]), .insert memTable [0], .commit, .byte 0 1 0 9] ++ fetch memTable none 0)) =
      .ok (some (memRow 1 [9, 2])) ∧
    lastRow (MemState.run sampleStore .new
      ([.row (memRow 1 [1, 2]), .insert memTable [0], .row [some (.bytes [3])]] ++ fetch memTable none 0 ++
        [.update 0 [1#32] 1, .commit, .byte 1 0 0 9] ++ fetch memTable none 1)) =
      .ok (some (memRow 1 [9])) ∧
    lastRow (MemState.run sampleStore .new
      ([.row (memRow 1 [1, 2]), .insert memTable [0], .commit] ++ fetch memTable (some [1#32]) 0 ++
        [.byte 1 0 1 9, .rollback] ++ fetch memTable none 1)) =
      .ok (some (memRow 1 [1, 9])) := by decide +kernel

/-- C84 fails: bytes that are in the key are changed, so that the store has the same key twice. -/
theorem C84_bytes_key :
    (MemState.run sampleStore .new
      ([.row [some (.bytes [1])], .insert memBytesTable [0], .byte 0 0 0 2, .row [some (.bytes [2])],
        .insert memBytesTable [1]] ++ fetch memBytesTable none 0 ++ [.next 0])).drop 4 =
      [.ok none, .ok none, .ok (some [some (.bytes [2])]), .ok (some [some (.bytes [2])])] := by
  decide +kernel

end Maho
