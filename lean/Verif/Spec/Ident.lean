import Verif.Model.Basic
import Verif.Model.Value
/-
What an identifier is, independently of the interning tables.
-/
namespace Maho.Spec
open Maho

/-- The reserved words of the SQL dialect (types/identifier.go:65-142). -/
def reservedWords : List String := [
  "ACTION", "ADD", "ALL", "ALTER", "AND", "ANY", "AS", "ASC",
  "BEGIN", "BY", "CASCADE", "CHECK", "COLUMN", "COMMIT", "CONSTRAINT", "COPY",
  "CREATE", "CROSS", "DATABASE", "DEFAULT", "DELETE", "DELIMITER", "DESC", "DETACH",
  "DROP", "EXECUTE", "EXISTS", "EXPLAIN", "FALSE", "FOREIGN", "FROM", "FULL",
  "GROUP", "HAVING", "IF", "IN", "INDEX", "INNER", "INSERT", "INTO",
  "IS", "JOIN", "KEY", "LEFT", "NO", "NOT", "NULL", "ON",
  "OR", "ORDER", "OUTER", "PREPARE", "PRIMARY", "REFERENCES", "RESTRICT", "RIGHT",
  "ROLLBACK", "SCHEMA", "SELECT", "SET", "SHOW", "SOME", "START", "TABLE",
  "TO", "TRANSACTION", "TRUE", "UNIQUE", "UPDATE", "USE", "USING", "VALUES",
  "VERBOSE", "WHERE", "WITH"]

/-- Words that are names of types and the like when not quoted, but are not reserved. -/
def openWords : List String := [
  "BIGINT", "BINARY", "BLOB", "BOOL", "BOOLEAN", "BYTEA", "BYTES", "CHAR",
  "CHARACTER", "DOUBLE", "INT", "INT2", "INT4", "INT8", "INTEGER", "PATH",
  "PRECISION", "REAL", "SMALLINT", "STDIN", "TEXT", "VARBINARY", "VARCHAR"]

/-- What an identifier stands for: an unquoted keyword, or a name. -/
inductive SqlName where
  | keyword (w : String)
  | name (s : Bytes)
deriving DecidableEq

/-- The name written as `s`, quoted or not: cut to 128 bytes; if it is not quoted and is a
keyword in any case, that keyword; otherwise the bytes themselves if quoted and the
lower-cased bytes if not. -/
def sqlName (upper lower : Bytes → Bytes) (s : Bytes) (quoted : Bool) : SqlName :=
  let s := s.take 128
  if quoted then .name s
  else
    match (reservedWords ++ openWords).find? (fun w => ascii w = upper s) with
    | some w => .keyword w
    | none => .name (lower s)

/-- How an identifier is written. -/
def SqlName.text : SqlName → Bytes
  | .keyword w => ascii w
  | .name s => s

/-- ASCII upper and lower case of one byte. -/
def asciiUpper (b : Byte) : Byte := if 97 ≤ b.toNat ∧ b.toNat ≤ 122 then b - 32#8 else b
@[inherit_doc asciiUpper]
def asciiLower (b : Byte) : Byte := if 65 ≤ b.toNat ∧ b.toNat ≤ 90 then b + 32#8 else b

/-- `upper` and `lower` change case as usual on ASCII texts; elsewhere they may do anything. -/
structure AsciiCase (upper lower : Bytes → Bytes) : Prop where
  upper : ∀ s : Bytes, (∀ b ∈ s, b.toNat < 128) → upper s = s.map asciiUpper
  lower : ∀ s : Bytes, (∀ b ∈ s, b.toNat < 128) → lower s = s.map asciiLower

end Maho.Spec
