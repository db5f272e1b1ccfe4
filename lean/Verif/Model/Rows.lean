import Verif.Model.Parse
import Verif.Model.Value
/-
Model of testutil/parse.go (values and rows), testutil/rows.go and types/value.go:210-229.

The input is what the `io.RuneScanner` has not delivered yet, followed by `io.EOF`. A panic with an
error, which `ParseValue`, `ParseRow` and `ParseRows` recover from, is `none`.
-/
namespace Maho

/-- `unicode.ToLower`, as far as `strings.ToLower` uses it; its table beyond ASCII is a parameter.
White space, letters and digits are apart. -/
structure RowEnv extends ParseEnv where
  lower : Nat → Nat
  lower_ascii : ∀ r < 128, lower r = if 65 ≤ r ∧ r ≤ 90 then r + 32 else r
  space_letter : ∀ r, isSpace r = true → letter r = false
  space_digit : ∀ r, isSpace r = true → digit r = false
  letter_digit : ∀ r, letter r = true → digit r = false

/-- testutil/parse.go:42-57 `skipWhitespace`. `none` is the end of the input. -/
def skipBlank : List Nat → Option (Nat × List Nat)
  | [] => none
  | r :: rest => if isSpace r then skipBlank rest else some (r, rest)

/-- testutil/parse.go:70-96 `readRunes`, without the rune that it is given. -/
def readRunes (pred : Nat → Bool) (eofAllowed : Bool) : List Nat → Option (List Nat × List Nat)
  | [] => if eofAllowed then some ([], []) else none
  | r :: rest =>
    if pred r then (readRunes pred eofAllowed rest).map fun (s, rest) => (r :: s, rest)
    else some ([], r :: rest)

/-- testutil/parse.go:72-74: the rune that `readRunes` is given is written unless it is 0. -/
def firstRune (r : Nat) : List Nat := if r ≠ 0 then [r] else []

/-- What `strings.Builder.WriteRune` writes for the runes. -/
def builtString (l : List Nat) : Bytes := l.flatMap fun r : Nat => runeBytes r

/-- testutil/parse.go:98-105 `hexDigit`, in bytes. -/
def laxHexDigit (ch : Byte) : Byte :=
  if 48 ≤ ch.toNat ∧ ch.toNat ≤ 57 then ch - 48
  else if 97 ≤ ch.toNat ∧ ch.toNat ≤ 102 then ch - 97 + 10
  else ch - 65 + 10

/-- testutil/parse.go:153-160: the bytes of a string of digits; `none` when their number is odd. -/
def hexBytes : Bytes → Option Bytes
  | [] => some []
  | [_] => none
  | c :: d :: s => (hexBytes s).map ((laxHexDigit c <<< 4 ||| laxHexDigit d) :: ·)

/-- testutil/parse.go:140-173: the rest of a value after its first quote. -/
def parseQuoted : List Nat → Option (Value × List Nat)
  | [] => none
  | r :: rest =>
    if r = 92 then
      match rest with
      | [] => none
      | x :: rest =>
        if x ≠ 120 ∧ x ≠ 88 then none
        else do
          let (s, rest) ← readRunes (· ≠ 39) false rest
          let b ← hexBytes (builtString s)
          pure (.bytes b, rest.drop 1)
    else if r = 39 then some (.str [], rest)
    else do
      let (s, rest) ← readRunes (· ≠ 39) false rest
      pure (.str (builtString (firstRune r ++ s)), rest.drop 1)

/-- testutil/parse.go:107-174 `parseValue`. -/
def parseValue (env : RowEnv) (input : List Nat) : Option (Option Value × List Nat) := do
  let (r, rest) ← skipBlank input
  if env.digit r ∨ r = 46 then
    let (s, rest) ← readRunes (fun r => env.digit r || r == 46) true rest
    let s := builtString (firstRune r ++ s)
    match parseInt64 s with
    | some i => pure (some (.int i), rest)
    | none =>
      match env.parseFloat s with
      | some f => pure (some (.float f), rest)
      | none => none
  else if env.letter r then
    let (s, rest) ← readRunes env.letter true rest
    let s := builtString ((firstRune r ++ s).map env.lower)
    if s = ascii "true" then pure (some (.bool true), rest)
    else if s = ascii "false" then pure (some (.bool false), rest)
    else if s = ascii "null" then pure (none, rest)
    else none
  else if r ≠ 39 then none
  else (parseQuoted rest).map fun (v, rest) => (some v, rest)

/-- testutil/parse.go:197-209: the loop of `parseRow`. A pass reads at least two runes. -/
def parseRowLoop (env : RowEnv) : Nat → List Nat → Option (Row × List Nat)
  | 0, _ => none
  | fuel + 1, input => do
    let (v, rest) ← parseValue env input
    let (r, rest) ← skipBlank rest
    if r = 41 then pure ([v], rest)
    else if r ≠ 44 then none
    else
      let (row, rest) ← parseRowLoop env fuel rest
      pure (v :: row, rest)

/-- testutil/parse.go:191-212 `parseRow`. -/
def parseRow (env : RowEnv) (input : List Nat) : Option (Row × List Nat) := do
  let (r, rest) ← skipBlank input
  if r ≠ 40 then none
  else parseRowLoop env rest.length rest

/-- testutil/parse.go:233-239: the loop of `parseRows`. A pass reads at least two runes. -/
def parseRowsLoop (env : RowEnv) : Nat → List Nat → Option (List Row)
  | 0, _ => none
  | fuel + 1, input => do
    let (row, rest) ← parseRow env input
    match skipBlank rest with
    | none => pure [row]
    | some (r, rest) =>
      if r ≠ 44 then none
      else
        let rows ← parseRowsLoop env fuel rest
        pure (row :: rows)

/-- testutil/parse.go:229-257 `parseRows` and `ParseRows`. -/
def parseRows (env : RowEnv) (input : List Nat) : Option (List Row) :=
  parseRowsLoop env input.length input

/-- types/value.go:210-216 `FormatValue`. -/
def formatValue (env : ParseEnv) : Option Value → Bytes
  | none => ascii "NULL"
  | some v => env.valueString v

/-- types/value.go:220-227: the values of a row. -/
def formatValues (env : ParseEnv) : Row → Bytes
  | [] => []
  | [v] => formatValue env v
  | v :: row => formatValue env v ++ ascii ", " ++ formatValues env row

/-- types/value.go:218-229 `Row.String`. -/
def rowString (env : ParseEnv) (row : Row) : Bytes := ascii "(" ++ formatValues env row ++ ascii ")"

/-- testutil/rows.go:10-20 `FormatRows`. -/
def formatRows (env : ParseEnv) (sep : Bytes) : List Row → Bytes
  | [] => []
  | [row] => rowString env row
  | row :: rows => rowString env row ++ sep ++ formatRows env sep rows

/-- testutil/rows.go:22-40 `CompareRows`. -/
def compareRows : Row → Row → Res Ordering
  | [], [] => .ok .eq
  | _ :: _, [] => .ok .gt
  | [], _ :: _ => .ok .lt
  | v :: row1, w :: row2 => do
    let c ← compareValues v w
    if c ≠ .eq then .ok c else compareRows row1 row2

/-- `sort.Slice` (Go standard library). Nothing is promised about the order of rows of which
neither is less than the other, nor when `less` is not a strict weak order. -/
structure SortSlice where
  sort : (Row → Row → Bool) → List Row → List Row
  perm : ∀ less rows, (sort less rows).Perm rows
  sorted : ∀ less rows, (∀ a ∈ rows, ∀ b ∈ rows, less a b = true → less b a = false) →
    (∀ a ∈ rows, ∀ b ∈ rows, ∀ c ∈ rows, less b a = false → less c b = false → less c a = false) →
    (sort less rows).Pairwise fun a b => less b a = false

/-- testutil/rows.go:48-55: the function `less` of the two sorts. -/
def lessRows (row1 row2 : Row) : Bool := compareRows row1 row2 = .ok .lt

/-- testutil/rows.go:58-62: the rows are compared one by one. -/
def sameRows : List Row → List Row → Bool
  | row1 :: rows1, row2 :: rows2 => compareRows row1 row2 = .ok .eq && sameRows rows1 rows2
  | _, _ => true

/-- testutil/rows.go:42-65 `RowsEqual`, with what is in the two slices afterwards. -/
def rowsEqual (s : SortSlice) (rows1 rows2 : List Row) (unordered : Bool) :
    Bool × List Row × List Row :=
  if rows1.length ≠ rows2.length then (false, rows1, rows2)
  else
    let rows1 := if unordered then s.sort lessRows rows1 else rows1
    let rows2 := if unordered then s.sort lessRows rows2 else rows2
    (sameRows rows1 rows2, rows1, rows2)

end Maho
