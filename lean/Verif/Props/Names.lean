import Verif.Spec.Names
import Verif.Props.Console
/-
C85: which names of tables a session completes with its defaults (parser/sql: the methods `Resolve`).
-/
namespace Maho
open Spec

theorem outerNames_resolve (r : Resolver) (stmt : Stmt) :
    outerNames (stmt.resolve r) = (outerNames stmt).map r.table := by
  cases stmt <;> rfl

theorem innerNames_resolve (r : Resolver) (stmt : Stmt) : innerNames (stmt.resolve r) = innerNames stmt := by
  cases stmt <;> rfl

/-- C85 (partial): the names of the tables that a statement is about are all completed, and no others:
names in foreign keys, in FROM and in subqueries stay as they are. So all names are completed exactly when
those names need not be. The property is claimed for all statements: see `C85_not_resolved`. -/
theorem C85_resolved_partial (ses : Session) (stmt : Stmt) :
    allNames (stmt.resolve ses.resolver) = (outerNames stmt).map ses.resolveTable ++ innerNames stmt ∧
    (allNames (stmt.resolve ses.resolver) = (allNames stmt).map ses.resolveTable ↔
      ∀ tn ∈ innerNames stmt, ses.resolveTable tn = tn) := by
  have e : allNames (stmt.resolve ses.resolver) =
      (outerNames stmt).map ses.resolveTable ++ innerNames stmt := by
    unfold allNames
    rw [outerNames_resolve, innerNames_resolve]
    rfl
  refine ⟨e, ?_⟩
  rw [e]
  unfold allNames
  rw [List.map_append, List.append_cancel_left_eq]
  constructor
  · intro h tn ht
    have h' : (innerNames stmt).map ses.resolveTable = (innerNames stmt).map id := by rw [← h, List.map_id]
    exact List.map_inj_left.mp h' tn ht
  · intro h
    have := List.map_congr_left (l := innerNames stmt) (f := ses.resolveTable) (g := id) h
    rw [this, List.map_id]

/-- The statement that a text is read as, if it is one. -/
def stmt85 (s : String) : Option Stmt :=
  match (parse scriptParse false (tokenize scriptParse.toScanEnv (runes s))).1 with
  | .stmt stmt => stmt
  | _ => none

/-- Which of the names in the statement of a text have a database, before and after a session with
defaults completes them. -/
def names85 (s : String) : Option (List Bool × List Bool) :=
  (stmt85 s).map fun stmt =>
    ((allNames stmt).map (·.database != 0),
      (allNames (stmt.resolve (newSession 28 33).resolver)).map (·.database != 0))

example : names85 "DROP TABLE t, d.s.t" = some ([false, true], [true, true]) ∧
    names85 "INSERT INTO t VALUES (1)" = some ([false], [true]) ∧
    names85 "DELETE FROM t WHERE EXISTS (SELECT * FROM d.s.u)" = some ([false, true], [true, true]) := by
  decide +kernel

/-- C85 fails: tables in FROM, in EXPLAIN, in subqueries and in foreign keys are never completed. -/
theorem C85_not_resolved :
    names85 "SELECT * FROM t" = some ([false], [false]) ∧
    names85 "EXPLAIN SELECT * FROM t" = some ([false], [false]) ∧
    names85 "SELECT * FROM t JOIN (SELECT * FROM u) AS v ON true" = some ([false, false], [false, false]) ∧
    names85 "DELETE FROM t WHERE EXISTS (SELECT * FROM u)" = some ([false, false], [true, false]) ∧
    names85 "UPDATE t SET a = 1 WHERE a == ANY (SELECT b FROM u)" = some ([false, false], [true, false]) ∧
    names85 "CREATE TABLE t (a INT REFERENCES u)" = some ([false, false], [true, false]) ∧
    names85 "ALTER TABLE t ADD FOREIGN KEY (a) REFERENCES u" = some ([false, false], [true, false]) := by
  decide +kernel

/-- C85 fails: so a query means the same whatever the defaults of the session are. -/
theorem C85_queries_not_resolved (r : Resolver) (q : Query) (verbose : Bool) :
    (Stmt.query q).resolve r = .query q ∧ (Stmt.explain q verbose).resolve r = .explain q verbose :=
  ⟨rfl, rfl⟩

end Maho
