import Verif.Lemmas.Columns
/-
C77: lists of identifiers and of columns are read (testutil/parse.go).
-/
namespace Maho
open Spec

/-- Identifiers for the examples: the keywords that are needed, and some names. -/
def columnIds : List (String × Int) :=
  [("PRIMARY", Kw.PRIMARY), ("KEY", Kw.KEY), ("NOT", Kw.NOT), ("NULL", Kw.NULL), ("INT", Kw.INT),
   ("VARCHAR", Kw.VARCHAR), ("BYTES", Kw.BYTES), ("DOUBLE", Kw.DOUBLE), ("PRECISION", Kw.PRECISION),
   ("SELECT", Kw.SELECT), ("CREATE", Kw.CREATE), ("TABLE", Kw.TABLE), ("t", 1000), ("a", 1001),
   ("b", 1002), ("c_1", 1003), ("2$", 1004)]

/-- An environment for the examples. -/
def columnEnv : RowEnv where
  letter r := (65 ≤ r && r ≤ 90) || (97 ≤ r && r ≤ 122)
  digit r := 48 ≤ r && r ≤ 57
  parseFloat _ := none
  id s _ := ((columnIds.find? fun p => ascii p.1 == s).map (·.2)).getD 999
  letter_ascii _ _ := rfl
  digit_ascii _ _ := rfl
  string _ := []
  formatFloat _ := []
  formatFloatG _ := []
  lower r := if 65 ≤ r ∧ r ≤ 90 then r + 32 else r
  lower_ascii _ _ := rfl
  space_letter r h := by
    by_cases hr : r < 128
    · have : ∀ r < 128, isSpace r = true →
          ((65 ≤ r && r ≤ 90) || (97 ≤ r && r ≤ 122)) = false := by decide +kernel
      exact this r hr h
    · simp; omega
  space_digit r h := by
    by_cases hr : r < 128
    · have : ∀ r < 128, isSpace r = true → (48 ≤ r && r ≤ 57) = false := by decide +kernel
      exact this r hr h
    · simp; omega
  letter_digit r h := by simp at h ⊢; omega

/-- What is read from a text in ASCII. -/
def namesOf (s : String) : Option (List Identifier) := readIdentifiers columnEnv (source (ascii s))

/-- What is read from a text in ASCII. -/
def columnsOf (s : String) : Option (List Identifier × List ColumnType × List ColumnKey) :=
  readColumns columnEnv (source (ascii s))

/-- C77: `ParseIdentifiers` accepts exactly the texts of the grammar: one or more identifiers with
commas between them. It returns the identifiers of the text. -/
theorem C77_identifiers (env : RowEnv) (l : List Nat) (ids : List Identifier) :
    readIdentifiers env l = some ids ↔ NamesText env ids l :=
  readIdentifiersLoop_some (Nat.le_refl _)

example : namesOf " a,b ,\n2$ , SELECT" = some [1001, 1002, 1004, Kw.SELECT] ∧ namesOf "" = none ∧
    namesOf "a," = none ∧ namesOf "a b" = none ∧ namesOf "a;" = none := by decide +kernel

/-- C77: `ParseColumns` accepts exactly the texts of the grammar: one or more columns with commas
between them, each with a name, a type and any number of times `PRIMARY KEY` and `NOT NULL`. It
returns the names and the types of the columns, and the columns of the key in the order of the
text. -/
theorem C77_columns (env : RowEnv) (l : List Nat) (cols : List Identifier) (cts : List ColumnType)
    (key : List ColumnKey) :
    readColumns env l = some (cols, cts, key) ↔
      ∃ ds, ColumnsText (NameText env) (2 ^ 63) ds l ∧ cols = ds.map (·.name) ∧ cts = ds.map (·.type) ∧
        key = keyFrom 0 ds := by
  unfold readColumns
  rw [readColumnsLoop_some (Nat.le_refl _)]
  simp

example : columnsOf "a INT PRIMARY KEY, b VARCHAR( 20 )NOT NULL,c_1 BYTES, 2$ DOUBLE NOT NULL PRIMARY KEY " =
    some ([1001, 1002, 1003, 1004],
      [⟨.int64, 4, false, false⟩, ⟨.string, 20, false, true⟩, ⟨.bytes, 4294967294, false, false⟩,
       ⟨.float64, 8, false, true⟩], [1, 4]) := by decide +kernel

example : columnsOf "" = none ∧ columnsOf "a" = none ∧ columnsOf "a INT," = none ∧
    columnsOf "a b" = none ∧ columnsOf "a INT(4)" = none ∧ columnsOf "a VARCHAR()" = none ∧
    columnsOf "a VARCHAR(5" = none ∧ columnsOf "a INT PRIMARY" = none ∧
    columnsOf "a INT NOT b" = none ∧ columnsOf "a INT b" = none ∧
    columnsOf "a DOUBLE PRECISION" = none ∧ columnsOf "a INTNOT NULL" = none := by decide +kernel

/-- C77: a text describes one list of columns. -/
theorem C77_unambiguous (env : RowEnv) (l : List Nat) (ds1 ds2 : List ColumnDef)
    (h1 : ColumnsText (NameText env) (2 ^ 63) ds1 l) (h2 : ColumnsText (NameText env) (2 ^ 63) ds2 l) :
    ds1.map (·.name) = ds2.map (·.name) ∧ ds1.map (·.type) = ds2.map (·.type) ∧
      keyFrom 0 ds1 = keyFrom 0 ds2 := by
  have e1 := (C77_columns env l _ _ _).2 ⟨ds1, h1, rfl, rfl, rfl⟩
  have e2 := (C77_columns env l _ _ _).2 ⟨ds2, h2, rfl, rfl, rfl⟩
  rw [e1] at e2
  injection e2 with e2
  injection e2 with a b
  injection b with b c
  exact ⟨a, b, c⟩

/-- C77: sizes are cut to 32 bits, so that a column can be smaller than its text says. -/
theorem C77_size_wraps : columnsOf "a VARCHAR(4294967297)" =
    some ([1001], [⟨.string, 1, false, false⟩], []) := by decide +kernel

/-- C77: a column can be there twice, and in the key twice, and a column of the key can be NULL. -/
theorem C77_not_checked : columnsOf "a INT PRIMARY KEY PRIMARY KEY, a INT" =
    some ([1001, 1001], [⟨.int64, 4, false, false⟩, ⟨.int64, 4, false, false⟩], [1, 1]) := by
  decide +kernel

end Maho
