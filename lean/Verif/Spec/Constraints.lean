import Verif.Spec.Statement
import Verif.Spec.Storage
/-
The names of the constraints of a table, for C88.
-/
namespace Maho.Spec
open Maho

/-- A primary key or a unique key. -/
def Constraint.isKey (c : Constraint) : Prop := c.type = .primary ∨ c.type = .unique

/-- A constraint other than a check has a name that no constraint before it has; a key is not one
that there is already, and there are not two primary keys. -/
def NewAfter (c d : Constraint) : Prop :=
  (d.type ≠ .check → c.name ≠ d.name) ∧
  (Constraint.isKey d → ¬ (c.key.columns = d.key.columns ∧ c.key.reverse = d.key.reverse)) ∧
  ¬ (c.type = .primary ∧ d.type = .primary)

/-- The words before a key. -/
def keyWords (primary : Bool) : List Token :=
  if primary then [.reserved Kw.PRIMARY, .reserved Kw.KEY] else [.reserved Kw.UNIQUE]

/-- The word that the name of a key ends in. -/
def keySuffix (primary : Bool) : String := if primary then "primary" else "unique"

/-- The text that names a key without a name. -/
def keyText (env : ParseEnv) (cols : List Identifier) (primary : Bool) : Bytes :=
  (cols.map fun c => env.string c ++ [95#8]).flatten ++ ascii (keySuffix primary)

/-- A key that is written without a name. -/
def keyMade (env : ParseEnv) (k : Bool × IndexKey) : Constraint :=
  ⟨if k.1 then .primary else .unique, env.id (keyText env k.2.columns k.1) false, -1, k.2, none⟩

/-- Things with withCommas between them. -/
def withCommas : List (List Token) → List Token
  | [] => []
  | [ts] => ts
  | ts :: tss => ts ++ Tok.comma :: withCommas tss

/-- Names of letters, digits and `_` in small letters, of at most 128 bytes, are told apart. -/
def TellsApart (env : ParseEnv) : Prop :=
  ∀ a b : Bytes, a.length ≤ 128 → b.length ≤ 128 →
    (∀ c ∈ a ++ b, (97 ≤ c.toNat ∧ c.toNat ≤ 122) ∨ (48 ≤ c.toNat ∧ c.toNat ≤ 57) ∨ c = 95#8) →
    env.id a false = env.id b false → a = b

/-- A name of small letters and digits. -/
def SmallName (s : Bytes) : Prop :=
  ∀ c ∈ s, (97 ≤ c.toNat ∧ c.toNat ≤ 122) ∨ (48 ≤ c.toNat ∧ c.toNat ≤ 57)

/-- The element of the definition that is a column of a type. -/
def ColumnElement (c : Identifier × ColumnType) (ts : List Token) : Prop :=
  ∃ us, ts = .identifier c.1 :: us ∧ TypeForm c.2 us

/-- The element of the definition that is a key without a name. -/
def KeyElement (k : Bool × IndexKey) (ts : List Token) : Prop :=
  ∃ us, ts = keyWords k.1 ++ us ∧ KeyForm true k.2 us

end Maho.Spec
