import Verif.Model.Sql
/-
The tables that a statement names, wherever the names are: foreign keys, FROM, and subqueries in
expressions.
-/
namespace Maho.Spec
open Maho

mutual

/-- The tables in an expression. -/
def exprNames : Expr → List TableName
  | .lit _ | .ref _ _ => []
  | .call _ args => exprsNames args
  | .unary _ e => exprNames e
  | .binary _ l r => exprNames l ++ exprNames r
  | .subquery _ _ e q => condNames e ++ queryNames q

/-- The tables in a list of expressions. -/
def exprsNames : List Expr → List TableName
  | [] => []
  | e :: es => exprNames e ++ exprsNames es

/-- The tables in an expression that may be missing. -/
def condNames : Option Expr → List TableName
  | none => []
  | some e => exprNames e

/-- The tables in FROM. -/
def fromNames : FromItem → List TableName
  | .table tn _ => [tn]
  | .index tn _ _ => [tn]
  | .stmt q _ _ => queryNames q
  | .join l r _ on _ => fromNames l ++ fromNames r ++ condNames on

/-- The tables in FROM, if there is one. -/
def maybeFromNames : Option FromItem → List TableName
  | none => []
  | some f => fromNames f

/-- The tables in the results of SELECT. -/
def resultNames : List SelectResult → List TableName
  | [] => []
  | .table _ :: rs => resultNames rs
  | .expr e _ :: rs => exprNames e ++ resultNames rs

/-- The tables in rows of expressions. -/
def rowsNames : List (List Expr) → List TableName
  | [] => []
  | r :: rs => exprsNames r ++ rowsNames rs

/-- The tables in a query. -/
def queryNames : Query → List TableName
  | .select results fromItem cond groupBy having _ =>
    resultNames results ++ maybeFromNames fromItem ++ condNames cond ++ exprsNames groupBy ++
      condNames having
  | .values rows => rowsNames rows
  | .show _ => []

end

/-- The tables that a statement is about. -/
def outerNames : Stmt → List TableName
  | .createTable s => [s.table]
  | .createIndex _ tn _ _ => [tn]
  | .alterTable tn _ => [tn]
  | .dropTable _ _ tns => tns
  | .dropIndex tn _ _ => [tn]
  | .copy tn _ _ _ => [tn]
  | .delete tn _ => [tn]
  | .insert tn _ _ => [tn]
  | .update tn _ _ => [tn]
  | _ => []

/-- The tables in foreign keys, expressions and queries of a statement. -/
def innerNames : Stmt → List TableName
  | .explain q _ => queryNames q
  | .query q => queryNames q
  | .createTable s =>
    s.columnDefaults.flatMap condNames ++ s.constraints.flatMap (fun c => condNames c.check) ++
      s.foreignKeys.map (·.refTable)
  | .alterTable _ actions => actions.filterMap fun
    | .addForeignKey fk => some fk.refTable
    | .dropConstraint _ _ _ _ => none
  | .delete _ cond => condNames cond
  | .insert _ _ rows => rows.flatMap fun r => r.flatMap condNames
  | .update _ updates cond => updates.flatMap (fun u => condNames u.2) ++ condNames cond
  | _ => []

/-- All tables that a statement names. -/
def allNames (stmt : Stmt) : List TableName := outerNames stmt ++ innerNames stmt

end Maho.Spec
