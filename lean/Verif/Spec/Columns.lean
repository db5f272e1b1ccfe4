import Verif.Model.Columns
import Verif.Spec.Rows
import Verif.Spec.Statement
/-
The texts of lists of identifiers and of columns. Nothing here refers to how texts are read.
-/
namespace Maho.Spec
open Maho

/-- A letter, a digit, `_` or `$`. -/
def InName (env : RowEnv) (r : Nat) : Prop :=
  env.letter r = true ∨ env.digit r = true ∨ r = 95 ∨ r = 36

/-- One or more letters, digits, `_` and `$`, that are the name of an identifier. -/
def NameText (env : RowEnv) (id : Identifier) (l : List Nat) : Prop :=
  l ≠ [] ∧ (∀ r ∈ l, InName env r) ∧ id = env.id (text l) false

/-- A name as in statements: it starts with a letter or `_`. -/
def StatementName (env : RowEnv) (id : Identifier) (l : List Nat) : Prop :=
  PlainName env.toScanEnv l ∧ id = env.id (text l) false

/-- White space that is there. -/
def Gap (l : List Nat) : Prop := l ≠ [] ∧ Blanks l

/-- One or more identifiers with commas between them. -/
inductive NamesText (env : RowEnv) : List Identifier → List Nat → Prop where
  | last (id : Identifier) (a m b : List Nat) : Blanks a → NameText env id m → Blanks b →
      NamesText env [id] (a ++ m ++ b)
  | more (id : Identifier) (a m b : List Nat) (ids : List Identifier) (l : List Nat) :
      Blanks a → NameText env id m → Blanks b → NamesText env ids l →
      NamesText env (id :: ids) (a ++ m ++ b ++ [44] ++ l)

/-- What can be said about a column after its type. -/
inductive ColumnWord where
  | primaryKey
  | notNull
deriving DecidableEq

/-- The two words of it. -/
def ColumnWord.words : ColumnWord → Identifier × Identifier
  | .primaryKey => (Kw.PRIMARY, Kw.KEY)
  | .notNull => (Kw.NOT, Kw.NULL)

section

/-! `N` tells which texts are names and of which identifiers, and `bound` bounds the sizes. -/
variable (N : Identifier → List Nat → Prop) (bound : Nat)

/-- `PRIMARY KEY` and `NOT NULL`, any number of times. Between two words there is white space. -/
inductive WordsText : List ColumnWord → List Nat → Prop where
  | nil : WordsText [] []
  | cons (w : ColumnWord) (a m b n : List Nat) (ws : List ColumnWord) (l : List Nat) :
      Blanks a → N w.words.1 m → Gap b → N w.words.2 n →
      WordsText ws l → (ws ≠ [] → ∃ c l', l = c :: l' ∧ isSpace c = true) →
      WordsText (w :: ws) (a ++ m ++ b ++ n ++ l)

/-- A column: its name, its type and what is said about it. -/
structure ColumnDef where
  name : Identifier
  type : ColumnType
  words : List ColumnWord

/-- The name of a type, with a size in parentheses if it is a type of strings or bytes. Sizes are
taken modulo 2^32. `sized` tells whether there is one. -/
inductive SizedText : ColumnType → Bool → List Nat → Prop where
  | name (typ : Identifier) (ct : ColumnType) (m : List Nat) :
      N typ m → (typ, ct) ∈ typeNames → SizedText ct false m
  | size (typ : Identifier) (ct : ColumnType) (m a b d c : List Nat) (n : Nat) :
      N typ m → (typ, ct) ∈ typeNames → ct.type = .string ∨ ct.type = .bytes →
      Blanks a → Blanks b → Numeral d n → n < bound → Blanks c →
      SizedText { ct with size := BitVec.ofNat 32 n } true (m ++ a ++ [40] ++ b ++ d ++ c ++ [41])

/-- The text of a column. A word right after the size needs no white space before it. -/
inductive ColumnText : ColumnDef → List Nat → Prop where
  | mk (name : Identifier) (ct : ColumnType) (sized : Bool) (words : List ColumnWord)
      (a m b t l : List Nat) :
      Blanks a → N name m → Gap b → SizedText N bound ct sized t → WordsText N words l →
      (sized = false → words ≠ [] → ∃ c l', l = c :: l' ∧ isSpace c = true) →
      ColumnText
        ⟨name, { ct with notNull := decide (.notNull ∈ words) }, words⟩ (a ++ m ++ b ++ t ++ l)

/-- One or more columns with commas between them. -/
inductive ColumnsText : List ColumnDef → List Nat → Prop where
  | last (d : ColumnDef) (l b : List Nat) : ColumnText N bound d l → Blanks b →
      ColumnsText [d] (l ++ b)
  | more (d : ColumnDef) (l b : List Nat) (ds : List ColumnDef) (m : List Nat) :
      ColumnText N bound d l → Blanks b → ColumnsText ds m →
      ColumnsText (d :: ds) (l ++ b ++ [44] ++ m)

end

/-- The key: the numbers of the columns, from `n` + 1 on, once for every `PRIMARY KEY`. -/
def keyFrom : Nat → List ColumnDef → List ColumnKey
  | _, [] => []
  | n, d :: ds =>
    List.replicate (d.words.count .primaryKey) (BitVec.ofNat 32 (n + 1)) ++ keyFrom (n + 1) ds

/-- The constraint of `PRIMARY KEY` after a column. -/
def primaryOn (env : ParseEnv) (col : Identifier) : Constraint :=
  ⟨.primary, madeName env 0 [col] "primary", -1, ⟨true, [col], [false]⟩, none⟩

/-- The statement that creates the table `tn` with the columns. -/
def tableOf (env : ParseEnv) (tn : TableName) (ds : List ColumnDef) : CreateTable :=
  { table := tn
    columns := ds.map (·.name)
    columnTypes := ds.map (·.type)
    columnDefaults := ds.map fun _ => none
    ifNotExists := false
    constraints := ds.flatMap fun d => List.replicate (d.words.count .primaryKey) (primaryOn env d.name)
    foreignKeys := [] }

/-- Columns of which a table can be made: the names differ and are not reserved, `NOT NULL` is
there at most once for each column, and `PRIMARY KEY` at most once. -/
structure Definable (ds : List ColumnDef) : Prop where
  names : (ds.map (·.name)).Nodup
  free : ∀ d ∈ ds, isReserved d.name = false
  notNull : ∀ d ∈ ds, d.words.count .notNull ≤ 1
  primary : (ds.map fun d => d.words.count .primaryKey).sum ≤ 1

end Maho.Spec
