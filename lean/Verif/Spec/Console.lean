import Verif.Model.Console
import Verif.Spec.Session
import Verif.Spec.PrintStmt
import Verif.Spec.Copy
/-
Texts with several statements.
-/
namespace Maho.Spec
open Maho

/-- The statement is not a `COPY`, which takes the lines after it as its data. -/
def NotCopy : Stmt → Prop
  | .copy .. => False
  | _ => True

/-- The tokens are those of the statement as it is printed. None of these statements is `COPY`. -/
def SpellsStmt (env : ParseEnv) (s : Stmt) (ts : List Token) : Prop :=
  PrintableStmt env s ∧ NotCopy s ∧
    ∃ b l, s.print env = .ok b ∧ Encodes l b ∧ tokenize env.toScanEnv l = ts

/-- The text has these statements, one after the other, each with a `;` after it, which may be missing
after the last one. They are written with the tokens that they are printed with; so white space,
comments, and capital and small letters do not matter. -/
inductive Script (env : ParseEnv) : List Stmt → List Token → Prop
  | nil : Script env [] []
  | last (s : Stmt) (ts : List Token) : SpellsStmt env s ts → Script env [s] ts
  | cons (s : Stmt) (ts : List Token) (ss : List Stmt) (rest : List Token) :
      SpellsStmt env s ts → Script env ss rest → Script env (s :: ss) (ts ++ .endOfStatement :: rest)

/-- The lines for the results of calls of `Parse`, up to the end of the text. -/
def linesOf (env : ParseEnv) : List ReaderResult → List ConsoleLine
  | .parsed (.stmt s) _ :: rs => writeStmt env s :: linesOf env rs
  | .parsed .error _ :: rs => .error :: linesOf env rs
  | _ => []

/-- The statements among the results of calls of `Parse`, up to the end of the text. -/
def stmtsOf : List ReaderResult → List (Option Stmt)
  | .parsed (.stmt s) _ :: rs => s :: stmtsOf rs
  | .parsed .error _ :: rs => stmtsOf rs
  | _ => []

end Maho.Spec
