import Verif.Model.Value
/-
Specification vocabulary for SQL values: order, types, numerals, UTF-8, column constraints.
Nothing here refers to how the code compares, casts or converts.
-/
namespace Maho.Spec

/-- Kinds of values: NULL, booleans, numbers, strings, byte strings. -/
def sqlRank : Option Value → Nat
  | none => 0
  | some (.bool _) => 1
  | some (.int _) => 2
  | some (.float _) => 2
  | some (.str _) => 3
  | some (.bytes _) => 4

/-- The numerical value of a number, in units of 2^-1074 (a whole number for every int64
and every float64). -/
def numberValue : Value → Int
  | .int i => i.toInt * F64.unit
  | .float f => F64.scaled f
  | _ => 0

/-- The mathematical order of SQL values: by kind, then false < true, numbers by numerical
value, strings and byte strings lexicographically. -/
def valueOrder : Option Value → Option Value → Ordering
  | some (.bool a), some (.bool b) => compare a.toNat b.toNat
  | some (.str a), some (.str b) => bytesCompare a b
  | some (.bytes a), some (.bytes b) => bytesCompare a b
  | some v, some w =>
    if sqlRank (some v) = 2 ∧ sqlRank (some w) = 2 then compare (numberValue v) (numberValue w)
    else compare (sqlRank (some v)) (sqlRank (some w))
  | v, w => compare (sqlRank v) (sqlRank w)

/-- Not a NaN. -/
def NotNaN : Option Value → Prop
  | some (.float f) => F64.isNaN f = false
  | _ => True

def IsFloat : Option Value → Prop
  | some (.float _) => True
  | _ => False

/-- Not an integer beyond ±2^53, where float64 stops representing every integer. -/
def SmallInt : Option Value → Prop
  | some (.int i) => i.toInt.natAbs ≤ 2 ^ 53
  | _ => True

/-- The SQL type of a value. -/
def HasType : Value → ValueType → Prop
  | .bool _, t => t = .bool
  | .int _, t => t = .int64
  | .float _, t => t = .float64
  | .str _, t => t = .string
  | .bytes _, t => t = .bytes

/-- One of the five types of columns and casts. -/
def ValidType (t : ValueType) : Prop :=
  t = .bool ∨ t = .int64 ∨ t = .float64 ∨ t = .string ∨ t = .bytes

/-- Blanks, tabs and newlines only. -/
def Blank (s : Bytes) : Prop := ∀ b ∈ s, b = 0x20#8 ∨ b = 0x09#8 ∨ b = 0x0a#8

/-- `s` is `t` with blanks around it. -/
def Padded (s t : Bytes) : Prop := ∃ pre post, Blank pre ∧ Blank post ∧ s = pre ++ t ++ post

/-- Positional value of a string of decimal digits. -/
def decimalValue : Bytes → Nat
  | [] => 0
  | d :: ds => (d.toNat - 48) * 10 ^ ds.length + decimalValue ds

/-- `s` is a non-empty string of decimal digits with value `n`. -/
def IsDecimal (s : Bytes) (n : Nat) : Prop :=
  s ≠ [] ∧ (∀ b ∈ s, 48 ≤ b.toNat ∧ b.toNat ≤ 57) ∧ decimalValue s = n

/-- `s` is an optionally signed decimal numeral with value `i`. -/
def IsNumeral (s : Bytes) (i : Int) : Prop :=
  (∃ n : Nat, IsDecimal s n ∧ i = n) ∨
  (∃ t, ∃ n : Nat, s = 0x2b#8 :: t ∧ IsDecimal t n ∧ i = n) ∨
  (∃ t, ∃ n : Nat, s = 0x2d#8 :: t ∧ IsDecimal t n ∧ i = -(n : Int))

/-- Unicode scalar values. -/
def IsScalar (c : Nat) : Prop := c < 0xD800 ∨ (0xE000 ≤ c ∧ c < 0x110000)

/-- The UTF-8 encoding of a scalar value (RFC 3629). -/
def utf8Encode (c : Nat) : Bytes :=
  if c < 0x80 then [BitVec.ofNat 8 c]
  else if c < 0x800 then [BitVec.ofNat 8 (0xC0 + c / 64), BitVec.ofNat 8 (0x80 + c % 64)]
  else if c < 0x10000 then
    [BitVec.ofNat 8 (0xE0 + c / 4096), BitVec.ofNat 8 (0x80 + c / 64 % 64),
     BitVec.ofNat 8 (0x80 + c % 64)]
  else
    [BitVec.ofNat 8 (0xF0 + c / 262144), BitVec.ofNat 8 (0x80 + c / 4096 % 64),
     BitVec.ofNat 8 (0x80 + c / 64 % 64), BitVec.ofNat 8 (0x80 + c % 64)]

/-- A byte string that encodes a sequence of scalar values. -/
def WellFormedUtf8 (s : Bytes) : Prop :=
  ∃ cs : List Nat, (∀ c ∈ cs, IsScalar c) ∧ s = cs.flatMap utf8Encode

/-- What a column promises about the values in it: NULL only if nullable; the right type;
strings and byte strings at most `size` bytes; integers in the range of a `size` byte signed
integer. -/
def FitsColumn (ct : ColumnType) : Option Value → Prop
  | none => ct.notNull = false
  | some v => HasType v ct.type ∧
    match v with
    | .str s => s.length ≤ ct.size.toNat
    | .bytes b => b.length ≤ ct.size.toNat
    | .int i => -(2 ^ (8 * ct.size.toNat) : Int) ≤ 2 * i.toInt ∧ 2 * i.toInt < 2 ^ (8 * ct.size.toNat)
    | _ => True

/-- Every column of a row fits. -/
def FitsRow (cts : List ColumnType) (row : Row) : Prop :=
  row.length = cts.length ∧ ∀ (i : Nat) ct v, cts[i]? = some ct → row[i]? = some v → FitsColumn ct v

end Maho.Spec
