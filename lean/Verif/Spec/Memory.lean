import Verif.Model.Memory
/-
A store that copies: what it keeps and what it hands out has nothing to do with the memory of its
callers.
-/
namespace Maho.Spec
open Maho

/-- A row of a caller. `whole`: it has come from `Next` without a list of columns. -/
structure CopyVar where
  vals : Row
  whole : Bool

/-- The tree of the store, the tree of the transaction, the rows of the caller, and the scans. -/
structure CopyState where
  stored : Tree
  tree : Tree
  vars : List CopyVar
  scans : List (Table × RowsObj)

namespace CopyState

/-- A new store and the first transaction. -/
def new : CopyState := ⟨[], [], [], []⟩

/-- The values of a row of the caller. -/
def var (st : CopyState) (k : Nat) : Option Row := (st.vars[k]?).map (·.vals)

/-- A value of a row of the caller is changed, and nothing else. -/
def setCell (st : CopyState) (k i : Nat) (v : Option Value) : Res (Option Row) × CopyState :=
  match st.vars[k]? with
  | none => (.panic, st)
  | some x =>
    if i < x.vals.length then
      (.ok none, { st with vars := st.vars.set k { x with vals := x.vals.set i v } })
    else (.panic, st)

/-- All scans are closed. -/
def closed (st : CopyState) : List (Table × RowsObj) :=
  st.scans.map fun s => (s.1, { s.2 with next := -1 })

/-- One call, and the row that it returns. -/
def step (env : StoreEnv) (st : CopyState) : MemCall → Res (Option Row) × CopyState
  | .row vals => (.ok none, { st with vars := st.vars ++ [⟨vals, false⟩] })
  | .cell k i val => st.setCell k i val
  | .copy k i k2 i2 =>
    match st.var k2 with
    | none => (.panic, st)
    | some vals =>
      match vals[i2]? with
      | none => (.panic, st)
      | some v => st.setCell k i v
  | .byte k i j b =>
    match st.var k with
    | none => (.panic, st)
    | some vals =>
      match vals[i]? with
      | some (some (.bytes s)) =>
        if j < s.length then st.setCell k i (some (.bytes (s.set j b))) else (.panic, st)
      | _ => (.panic, st)
  | .read k =>
    match st.var k with
    | none => (.panic, st)
    | some vals => (.ok (some vals), st)
  | .insert tbl ks =>
    match ks.mapM st.var with
    | none => (.panic, st)
    | some rows =>
      let (r, t) := insertRows env st.tree tbl rows
      ((fun _ => none) <$> r, { st with tree := t })
  | .rows tbl cols minRow maxRow pred =>
    match tableRows st.tree tbl cols (minRow.bind st.var) (maxRow.bind st.var) pred with
    | .ok rs => (.ok none, { st with scans := st.scans ++ [(tbl, rs)] })
    | .err e => (.err e, st)
    | .panic => (.panic, st)
  | .next s =>
    match st.scans[s]? with
    | none => (.panic, st)
    | some (tbl, rs) =>
      let (r, rs2) := rs.nextRow
      let st := { st with scans := st.scans.set s (tbl, rs2) }
      match r with
      | .ok row => (.ok (some row), { st with vars := st.vars ++ [⟨row, rs.cols.isNone⟩] })
      | .err e => (.err e, st)
      | .panic => (.panic, st)
  | .update s cols k =>
    match st.scans[s]?, st.var k with
    | some (tbl, rs), some vals =>
      match rs.current with
      | .ok key =>
        let (r, t) := updateRow env st.tree tbl key cols vals
        ((fun _ => none) <$> r, { st with tree := t })
      | .err e => (.err e, st)
      | .panic => (.panic, st)
    | _, _ => (.panic, st)
  | .delete s =>
    match st.scans[s]? with
    | none => (.panic, st)
    | some (tbl, rs) =>
      match rs.current with
      | .ok key =>
        match deleteRow st.tree tbl key with
        | .ok t => (.ok none, { st with tree := t })
        | .err e => (.err e, st)
        | .panic => (.panic, st)
      | .err e => (.err e, st)
      | .panic => (.panic, st)
  | .commit => (.ok none, { st with stored := st.tree, scans := st.closed })
  | .rollback => (.ok none, { st with tree := st.stored, scans := st.closed })

/-- Calls one after the other. -/
def run (env : StoreEnv) : CopyState → List MemCall → List (Res (Option Row))
  | _, [] => []
  | st, c :: cs =>
    let (r, st) := st.step env c
    r :: run env st cs

/-- A call that does not write into bytes, nor into a row from `Next` without a list of columns. -/
def Keeps (st : CopyState) : MemCall → Prop
  | .cell k _ _ => ∀ x, st.vars[k]? = some x → x.whole = false
  | .copy k _ _ _ => ∀ x, st.vars[k]? = some x → x.whole = false
  | .byte _ _ _ _ => False
  | _ => True

/-- None of the calls does. -/
def AllKeep (env : StoreEnv) : CopyState → List MemCall → Prop
  | _, [] => True
  | st, c :: cs => st.Keeps c ∧ AllKeep env (st.step env c).2 cs

end CopyState
end Maho.Spec
