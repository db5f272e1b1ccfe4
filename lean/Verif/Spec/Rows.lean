import Verif.Model.Rows
import Verif.Spec.Print
/-
The texts of rows and when two lists of rows are the same. Nothing here refers to how texts are read
or how lists are compared.
-/
namespace Maho.Spec
open Maho

/-- White space. -/
def Blanks (l : List Nat) : Prop := ∀ r ∈ l, isSpace r = true

/-- The value of a hex digit; what is not a hex digit counts as if it were a capital letter. -/
def laxDigit (c : Nat) : Nat :=
  if 48 ≤ c ∧ c ≤ 57 then c - 48 else if 97 ≤ c ∧ c ≤ 102 then c - 97 + 10
  else (c + 256 - 65 + 10) % 256

/-- The bytes that are written with two hex digits each. -/
inductive LaxPairs : Bytes → Bytes → Prop where
  | nil : LaxPairs [] []
  | pair (c d : Byte) (s b : Bytes) : LaxPairs s b →
      LaxPairs (c :: d :: s)
        (BitVec.ofNat 8 (laxDigit c.toNat * 16 % 256 ||| laxDigit d.toNat) :: b)

/-- The text of a value: digits and points, a word, or a constant in quotes. What is not an integer
of 64 bits is a floating point number. A NUL at the start of a string is lost. -/
def ValueText (env : RowEnv) : Option Value → List Nat → Prop
  | none, l => (∀ r ∈ l, env.letter r = true) ∧ text (l.map env.lower) = ascii "null"
  | some (.bool b), l => (∀ r ∈ l, env.letter r = true) ∧
      text (l.map env.lower) = ascii (if b then "true" else "false")
  | some (.int i), l => ∃ n, Numeral l n ∧ n < 2 ^ 63 ∧ i.toInt = n
  | some (.float f), l => l ≠ [] ∧ (∀ r ∈ l, env.digit r = true ∨ r = 46) ∧
      (∀ n, Numeral l n → 2 ^ 63 ≤ n) ∧ env.parseFloat (text l) = some f
  | some (.str s), l => ∃ m, l = [39] ++ m ++ [39] ∧ 39 ∉ m ∧ m.head? ≠ some 92 ∧
      s = text (if m.head? = some 0 then m.tail else m)
  | some (.bytes b), l => ∃ x m, l = [39, 92, x] ++ m ++ [39] ∧ (x = 120 ∨ x = 88) ∧ 39 ∉ m ∧
      LaxPairs (text m) b

/-- One or more values with commas between them, and the parenthesis after them. -/
inductive ValuesText (env : RowEnv) : Row → List Nat → Prop where
  | last (v : Option Value) (a m b : List Nat) : Blanks a → ValueText env v m → Blanks b →
      ValuesText env [v] (a ++ m ++ b ++ [41])
  | more (v : Option Value) (a m b : List Nat) (row : Row) (l : List Nat) :
      Blanks a → ValueText env v m → Blanks b → ValuesText env row l →
      ValuesText env (v :: row) (a ++ m ++ b ++ [44] ++ l)

/-- One or more rows with commas between them. -/
inductive RowsText (env : RowEnv) : List Row → List Nat → Prop where
  | last (row : Row) (a l b : List Nat) : Blanks a → ValuesText env row l → Blanks b →
      RowsText env [row] (a ++ [40] ++ l ++ b)
  | more (row : Row) (a l b : List Nat) (rows : List Row) (m : List Nat) :
      Blanks a → ValuesText env row l → Blanks b → RowsText env rows m →
      RowsText env (row :: rows) (a ++ [40] ++ l ++ b ++ [44] ++ m)

/-- A value whose text can be read back: no negative integer, no floating point number that is
printed as an integer, with a sign or with an exponent, and no string that is not UTF-8, has a quote
in it, or starts with a backslash or a NUL. -/
def ReadableValue (env : RowEnv) : Option Value → Prop
  | some (.int i) => 0 ≤ i.toInt
  | some (.float f) => ∃ l, (∀ r ∈ l, (48 ≤ r ∧ r ≤ 57) ∨ r = 46) ∧ 46 ∈ l ∧
      text l = env.formatFloat f ∧ env.parseFloat (text l) = some f
  | some (.str s) => ∃ l, Encodes l s ∧ 39 ∉ l ∧ l.head? ≠ some 92 ∧ l.head? ≠ some 0
  | _ => True

/-- A comma with white space around it. -/
def RowSeparator (sep : Bytes) : Prop :=
  ∃ a b, Encodes (a ++ [44] ++ b) sep ∧ Blanks a ∧ Blanks b

/-- The lists have the same length and the relation holds for their elements, one by one. -/
inductive OneByOne {α : Type} (R : α → α → Prop) : List α → List α → Prop where
  | nil : OneByOne R [] []
  | cons (a b : α) (l m : List α) : R a b → OneByOne R l m → OneByOne R (a :: l) (b :: m)

/-- The values of the two rows are the same in the order of SQL, one by one. -/
def SameRow (row1 row2 : Row) : Prop := OneByOne (fun v w => valueOrder v w = .eq) row1 row2

/-- The rows are the same, one by one. -/
def SameRows (rows1 rows2 : List Row) : Prop := OneByOne SameRow rows1 rows2

/-- The rows are the same, in some order. -/
def SameUnordered (rows1 rows2 : List Row) : Prop :=
  ∃ rows, rows.Perm rows2 ∧ SameRows rows1 rows

end Maho.Spec
