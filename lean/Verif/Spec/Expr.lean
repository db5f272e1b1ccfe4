import Verif.Model.Sql
/-
How the operators of an expression nest. Nothing here refers to the parser.
-/
namespace Maho.Spec
open Maho

/-- The operators that can be written in an expression, from the loosest to the tightest. -/
def levels : List (List SqlOp) :=
  [[.or], [.and], [.not], [.equal, .notEqual],
   [.lessThan, .lessEqual, .greaterThan, .greaterEqual],
   [.binaryAnd, .binaryOr, .lShift, .rShift],
   [.add, .subtract], [.multiply, .divide, .modulo], [.negate], [.concat]]

/-- How tight an operator is. -/
def tightness (op : SqlOp) : Nat := levels.findIdx (op ∈ ·)

/-- The two prefix operators. -/
def IsPrefix (op : SqlOp) : Prop := op = .not ∨ op = .negate

/-- The operators between operands. -/
def IsInfix (op : SqlOp) : Prop := op ≠ .not ∧ op ≠ .negate ∧ op ≠ .noOp

/-- A piece of an expression as it is written, from left to right. What is in parentheses, a call
and a subquery are operands. -/
inductive Part where
  | operand (e : Expr)
  | pre (op : SqlOp)
  | infix (op : SqlOp)

/-- The pieces of an expression. -/
def pieces : Expr → List Part
  | .binary op l r => pieces l ++ .infix op :: pieces r
  | .unary .noOp e => [.operand (.unary .noOp e)]
  | .unary op e => .pre op :: pieces e
  | e => [.operand e]

/-- The operator at the root of `e` is tighter than `op`, or as tight; operands are tighter than
every operator. -/
def RootAtLeast (op : SqlOp) : Expr → Prop
  | .binary b _ _ => tightness op ≤ tightness b
  | _ => True

/-- The operator at the root of `e` is tighter than `op`. -/
def RootAbove (op : SqlOp) : Expr → Prop
  | .binary b _ _ => tightness op < tightness b
  | _ => True

/-- The prefix operators of `e` that reach to its right end. -/
def openPrefixes : Expr → List SqlOp
  | .binary _ _ r => openPrefixes r
  | .unary .noOp _ => []
  | .unary op e => op :: openPrefixes e
  | _ => []

/-- Tighter operators are inside of looser ones, operators that are as tight associate to the left,
and a prefix operator reaches as far to the right as the operators are tighter than it. -/
def WellNested : Expr → Prop
  | .binary op l r =>
    IsInfix op ∧ WellNested l ∧ WellNested r ∧ RootAtLeast op l ∧ RootAbove op r ∧
      ∀ p ∈ openPrefixes l, tightness op < tightness p
  | .unary .noOp _ => True
  | .unary op e => IsPrefix op ∧ WellNested e ∧ RootAbove op e
  | _ => True

end Maho.Spec
