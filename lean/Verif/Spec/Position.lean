/-
Lines and columns of a text.
-/
namespace Maho.Spec

/-- The number of the line that follows the characters `before`. -/
def lineOf (before : List Nat) : Nat := 1 + before.count 10

/-- The number of characters in the last line of `before`. -/
def columnOf (before : List Nat) : Nat := (before.reverse.takeWhile (· ≠ 10)).length

/-- What follows the first line of a text. -/
def nextLine (l : List Nat) : List Nat := (l.dropWhile (· ≠ 10)).drop 1

end Maho.Spec
