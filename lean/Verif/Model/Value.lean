import Verif.Model.Float
/-
Model of types/value.go: values, Compare, CastValue, ConvertValue, ConvertRow.
-/
namespace Maho

/-- types/value.go:13-17 and the concrete types 51,81,111,141,158. The nil interface
(SQL NULL) is `none : Option Value`. A nil and an empty BytesValue are not
distinguished (the code never distinguishes them). -/
inductive Value where
  | bool (b : Bool)
  | int (i : BitVec 64)
  | float (f : F64)
  | str (s : Bytes)
  | bytes (b : Bytes)
deriving DecidableEq, Repr

/-- types/value.go:19 `Row`. -/
abbrev Row := List (Option Value)

/-- types/value.go:21-30 `ValueType`. `invalid n` stands for an int outside the constants. -/
inductive ValueType where
  | unknown
  | bool
  | string
  | bytes
  | float64
  | int64
  | invalid (n : Int)
deriving DecidableEq, Repr

/-- types/value.go:60,87,117,147,177 `order`. -/
def Value.order : Value → Nat
  | .bool _ => 1
  | .int _ => 2
  | .float _ => 2
  | .str _ => 3
  | .bytes _ => 4

/-- types/value.go:101-106, 124-129, 131-136: the float comparison ladder. -/
def floatLadder (a b : F64) : Ordering :=
  if F64.lt a b then .lt else if F64.lt b a then .gt else .eq

/-- types/value.go:64-79, 91-109, 121-139, 151-156, 181-186 `compare`. -/
def Value.compare : Value → Value → Res Ordering
  | .bool b, .bool b2 =>
    if b then (if b2 then .ok .eq else .ok .gt) else (if b2 then .ok .lt else .ok .eq)
  | .bool _, _ => .panic
  | .int i, .int v =>
    if i.slt v then .ok .lt else if v.slt i then .ok .gt else .ok .eq
  | .int i, .float v => .ok (floatLadder (F64.ofInt64 i) v)
  | .int _, _ => .panic
  | .float f, .int v => .ok (floatLadder f (F64.ofInt64 v))
  | .float f, .float v => .ok (floatLadder f v)
  | .float _, _ => .panic
  | .str s, .str s2 => .ok (bytesCompare s s2)
  | .str _, _ => .panic
  | .bytes s, .bytes s2 => .ok (bytesCompare s s2)
  | .bytes _, _ => .panic

/-- types/value.go:188-208 `Compare`. -/
def compareValues : Option Value → Option Value → Res Ordering
  | none, none => .ok .eq
  | none, some _ => .ok .lt
  | some _, none => .ok .gt
  | some v1, some v2 =>
    if v1.order < v2.order then .ok .lt
    else if v2.order < v1.order then .ok .gt
    else v1.compare v2

/-! ### Standard library functions used by CastValue -/

/-- Decimal digits of a natural number, most significant first (strconv.FormatInt base 10
on a non-negative number). -/
def natDigits (n : Nat) : Bytes :=
  if n < 10 then [BitVec.ofNat 8 (48 + n)]
  else natDigits (n / 10) ++ [BitVec.ofNat 8 (48 + n % 10)]
termination_by n
decreasing_by omega

/-- `strconv.FormatInt(i, 10)`. -/
def formatInt (i : Int) : Bytes :=
  if i < 0 then 45#8 :: natDigits i.natAbs else natDigits i.natAbs

/-- ASCII digit test. -/
def isDigit (b : Byte) : Bool := decide (48 ≤ b.toNat ∧ b.toNat ≤ 57)

/-- Value of a decimal digit string. -/
def digitsVal (s : Bytes) : Nat := s.foldl (fun a b => a * 10 + (b.toNat - 48)) 0

/-- strconv.ParseUint base 10 without the range check: a non-empty string of digits. -/
def parseDigits (s : Bytes) : Option Nat :=
  if s ≠ [] ∧ s.all isDigit = true then some (digitsVal s) else none

/-- `strconv.ParseInt(s, 10, 64)`: optional sign, non-empty digits, range check; `none` is
any error (syntax or range). -/
def parseInt64 (s : Bytes) : Option (BitVec 64) :=
  match s with
  | [] => none
  | c :: cs =>
    if c = 45#8 then
      match parseDigits cs with
      | some n => if n ≤ 2 ^ 63 then some (BitVec.ofInt 64 (-(n : Int))) else none
      | none => none
    else
      match parseDigits (if c = 43#8 then cs else c :: cs) with
      | some n => if n < 2 ^ 63 then some (BitVec.ofNat 64 n) else none
      | none => none

/-- The cutset `" \t\n"` of types/value.go:243,277,289. -/
def isTrimByte (b : Byte) : Bool := b = 32#8 || b = 9#8 || b = 10#8

/-- `strings.Trim(s, " \t\n")`. -/
def trimBlank (s : Bytes) : Bytes :=
  ((s.dropWhile isTrimByte).reverse.dropWhile isTrimByte).reverse

/-- Continuation byte with range restriction, as in the accept ranges of Go's unicode/utf8. -/
def inRange (b : Byte) (lo hi : Nat) : Bool := decide (lo ≤ b.toNat ∧ b.toNat ≤ hi)

/-- `utf8.Valid` (Go standard library): table driven check. First byte classes and accept
ranges as in unicode/utf8 (`first`, `acceptRanges`). -/
def utf8Valid : Bytes → Bool
  | [] => true
  | a :: rest =>
    if a.toNat < 0x80 then utf8Valid rest
    else if a.toNat < 0xC2 then false
    else if a.toNat < 0xE0 then
      match rest with
      | b :: rest => inRange b 0x80 0xBF && utf8Valid rest
      | _ => false
    else if a.toNat < 0xF0 then
      match rest with
      | b :: c :: rest =>
        inRange b (if a.toNat = 0xE0 then 0xA0 else 0x80) (if a.toNat = 0xED then 0x9F else 0xBF)
          && inRange c 0x80 0xBF && utf8Valid rest
      | _ => false
    else if a.toNat < 0xF5 then
      match rest with
      | b :: c :: d :: rest =>
        inRange b (if a.toNat = 0xF0 then 0x90 else 0x80) (if a.toNat = 0xF4 then 0x8F else 0xBF)
          && inRange c 0x80 0xBF && inRange d 0x80 0xBF && utf8Valid rest
      | _ => false
    else false

/-- Behaviour of the Go runtime and standard library that the model leaves open:
`strconv.FormatFloat(f,'g',-1,64)`, `strconv.ParseFloat(s,64)` (none = error) and the
implementation-specific result of converting NaN or an out-of-range float64 to int64. -/
structure FloatEnv where
  format : F64 → Bytes
  parse : Bytes → Option F64
  outOfRange : F64 → BitVec 64

/-- Go `int64(f)`: truncation towards zero when it fits, else implementation specific. -/
def FloatEnv.toInt64 (env : FloatEnv) (f : F64) : BitVec 64 :=
  if F64.isFinite f ∧ -(2 ^ 63 : Int) ≤ F64.trunc f ∧ F64.trunc f < 2 ^ 63 then
    BitVec.ofInt 64 (F64.trunc f)
  else env.outOfRange f

/-- The bytes of an ASCII string literal. -/
def ascii (s : String) : Bytes := s.toList.map (fun c => BitVec.ofNat 8 c.toNat)

/-- types/value.go:244: spellings of true. -/
def trueWords : List Bytes := ["t", "true", "y", "yes", "on", "1"].map ascii
/-- types/value.go:246: spellings of false. -/
def falseWords : List Bytes := ["f", "false", "n", "no", "off", "0"].map ascii

/-- types/value.go:235-302 `CastValue`. -/
def castValue (env : FloatEnv) (vt : ValueType) : Option Value → Res (Option Value)
  | none => .ok none
  | some val =>
    match vt with
    | .bool =>
      match val with
      | .str sv =>
        let s := trimBlank sv
        if s ∈ trueWords then .ok (some (.bool true))
        else if s ∈ falseWords then .ok (some (.bool false))
        else .err .other
      | .bool _ => .ok (some val)
      | _ => .err .other
    | .string =>
      match val with
      | .int i => .ok (some (.str (formatInt i.toInt)))
      | .float f => .ok (some (.str (env.format f)))
      | .bytes b => if utf8Valid b then .ok (some (.str b)) else .err .other
      | .str _ => .ok (some val)
      | .bool _ => .err .other
    | .bytes =>
      match val with
      | .str s => .ok (some (.bytes s))
      | .bytes _ => .ok (some val)
      | _ => .err .other
    | .float64 =>
      match val with
      | .int i => .ok (some (.float (F64.ofInt64 i)))
      | .str s =>
        match env.parse (trimBlank s) with
        | some d => .ok (some (.float d))
        | none => .err .other
      | .float _ => .ok (some val)
      | _ => .err .other
    | .int64 =>
      match val with
      | .float f => .ok (some (.int (env.toInt64 f)))
      | .str s =>
        match parseInt64 (trimBlank s) with
        | some i => .ok (some (.int i))
        | none => .err .other
      | .int _ => .ok (some val)
      | _ => .err .other
    | .unknown => .panic
    | .invalid _ => .panic

/-- types/column.go:15-23 `ColumnType`. -/
structure ColumnType where
  type : ValueType
  size : BitVec 32
  fixed : Bool
  notNull : Bool
deriving DecidableEq, Repr

/-- types/value.go:317-357: the checks after the cast; `uint32(len(s))` truncates. -/
def convertCheck (ct : ColumnType) (val : Option Value) : Res (Option Value) :=
  match ct.type with
  | .bool =>
    match val with
    | some (.bool _) => .ok val
    | _ => .err .other
  | .string =>
    match val with
    | some (.str s) =>
      if ct.size < BitVec.ofNat 32 s.length then .err .other else .ok val
    | _ => .err .other
  | .bytes =>
    match val with
    | some (.bytes b) =>
      if ct.size < BitVec.ofNat 32 b.length then .err .other else .ok val
    | _ => .err .other
  | .float64 =>
    match val with
    | some (.float _) => .ok val
    | _ => .err .other
  | .int64 =>
    match val with
    | some (.int i) =>
      if ct.size = 2#32 ∧ (i.toInt > 32767 ∨ i.toInt < -32768) then .err .other
      else if ct.size = 4#32 ∧ (i.toInt > 2147483647 ∨ i.toInt < -2147483648) then .err .other
      else .ok val
    | _ => .err .other
  | .unknown => .panic
  | .invalid _ => .panic

/-- types/value.go:304-360 `ConvertValue`. -/
def convertValue (env : FloatEnv) (ct : ColumnType) : Option Value → Res (Option Value)
  | none => if ct.notNull then .err .other else .ok none
  | some val => castValue env ct.type (some val) >>= convertCheck ct

/-- types/value.go:369-376: the conversion loop, position by position. -/
def convertPrefix (env : FloatEnv) : List ColumnType → Row → Res Row
  | _, [] => .ok []
  | [], _ :: _ => .panic
  | ct :: cts, v :: vs => do
    let v' ← convertValue env ct v
    let vs' ← convertPrefix env cts vs
    pure (v' :: vs')

/-- types/value.go:362-379 `ConvertRow`: short rows are padded with nil. -/
def convertRow (env : FloatEnv) (cts : List ColumnType) (row : Row) : Res Row :=
  if cts.length < row.length then .err .other
  else do
    let r ← convertPrefix env cts row
    pure (r ++ List.replicate (cts.length - row.length) none)

end Maho
