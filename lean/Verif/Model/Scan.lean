import Verif.Model.Ident
/-
Model of parser/scanner/scanner.go and parser/token/token.go.

The input is what the `io.RuneReader` has not delivered yet, as a list of runes, followed either by
`io.EOF` forever or, if `fails` is true, by another error forever. `readRune` takes a rune off the
list. `unreadRune` puts it back; after `io.EOF` there is nothing to put back, and after another
error the rune 0 that `ReadRune` returned with the error is put back (`Reader` and Props/Scan.lean
show that this is what the two fields `unread` and `read` do). Line and column numbers are left
out. A `ScanCtx` is new for every `Scan`.
-/
namespace Maho

/-- `unicode.IsLetter`, `unicode.IsDigit` (their tables beyond ASCII are parameters),
`strconv.ParseFloat` and `types.ID`. Identifiers never change once they are given out (C24), so
`types.ID` is a fixed function. -/
structure ScanEnv where
  letter : Nat → Bool
  digit : Nat → Bool
  parseFloat : Bytes → Option F64
  id : Bytes → Bool → Identifier
  letter_ascii : ∀ r < 128, letter r = ((65 ≤ r && r ≤ 90) || (97 ≤ r && r ≤ 122))
  digit_ascii : ∀ r < 128, digit r = (48 ≤ r && r ≤ 57)

/-- `unicode.IsSpace` (Go standard library): the property White_Space. -/
def isSpace (r : Nat) : Bool :=
  (9 ≤ r && r ≤ 13) || r == 32 || r == 0x85 || r == 0xA0 || r == 0x1680 ||
    (0x2000 ≤ r && r ≤ 0x200A) || r == 0x2028 || r == 0x2029 || r == 0x202F || r == 0x205F ||
    r == 0x3000

/-- parser/token/token.go:7-49: the tokens, with what the scanner sets in the `ScanCtx`.
`error isNil`: token.Error; `isNil`: the error in the `ScanCtx` is nil. -/
inductive Token where
  | eof
  | endOfStatement
  | error (isNil : Bool)
  | identifier (id : Identifier)
  | reserved (id : Identifier)
  | string (s : Bytes)
  | bytes (b : Bytes)
  | integer (i : BitVec 64)
  | float (f : F64)
  | parameter (i : BitVec 64)
  | barBar
  | lessLess
  | lessEqual
  | lessGreater
  | greaterGreater
  | greaterEqual
  | equalEqual
  | bangEqual
  | rune (r : Nat)
deriving DecidableEq

/-- parser/token/token.go:63-72 `opRunes` and `IsOpRune`. -/
def isOpRune (r : Nat) : Bool :=
  r ∈ ['-', '+', '*', '/', '%', '=', '<', '>', '&', '|', '!'].map Char.toNat

/-- parser/token/token.go:51-60, 67 and 84-88 `Operators`. -/
def operators : List (List Nat × Token) :=
  [("||", .barBar), ("<<", .lessLess), ("<=", .lessEqual), ("<>", .lessGreater),
   (">>", .greaterGreater), (">=", .greaterEqual), ("==", .equalEqual), ("!=", .bangEqual)].map
    (fun p : String × Token => (p.1.toList.map Char.toNat, p.2))

/-- `bytes.Buffer.WriteRune` and `utf8.AppendRune` (Go standard library): what is written. -/
def runeBytes (r : Int) : Bytes :=
  if r < 0 then [0xEF#8, 0xBF#8, 0xBD#8]
  else
    let r := r.toNat
    if r ≤ 0x7F then [BitVec.ofNat 8 r]
    else if r ≤ 0x7FF then [BitVec.ofNat 8 (0xC0 ||| r >>> 6), BitVec.ofNat 8 (0x80 ||| r &&& 0x3F)]
    else if r > 0x10FFFF ∨ (0xD800 ≤ r ∧ r ≤ 0xDFFF) then [0xEF#8, 0xBF#8, 0xBD#8]
    else if r ≤ 0xFFFF then
      [BitVec.ofNat 8 (0xE0 ||| r >>> 12), BitVec.ofNat 8 (0x80 ||| r >>> 6 &&& 0x3F),
       BitVec.ofNat 8 (0x80 ||| r &&& 0x3F)]
    else
      [BitVec.ofNat 8 (0xF0 ||| r >>> 18), BitVec.ofNat 8 (0x80 ||| r >>> 12 &&& 0x3F),
       BitVec.ofNat 8 (0x80 ||| r >>> 6 &&& 0x3F), BitVec.ofNat 8 (0x80 ||| r &&& 0x3F)]

/-- What a function of the scanner leaves: the token, the contents of the buffer, and the input
that is left. -/
structure Scanned where
  token : Token
  buf : Bytes
  rest : List Nat
deriving DecidableEq

/-- The input after a `readRune` and an `unreadRune`. -/
def reread (fails : Bool) : List Nat → List Nat
  | [] => if fails then [0] else []
  | r :: rest => r :: rest

/-- Where the scanner is before a token. -/
inductive Skip where
  | space
  /-- in a comment up to the end of the line -/
  | line
  /-- in a comment; the rune before -/
  | block (p : Nat)
deriving DecidableEq

/-- parser/scanner/scanner.go:113-172, without the test for a semicolon: skip white space and
comments. The result is the first rune of the token and the input after it; `none` if `readRune`
does not return a rune. -/
def skip : Skip → List Nat → Option (Nat × List Nat)
  | .space, [] => none
  | .space, r :: rest =>
    if isSpace r then skip .space rest
    else if r = '-'.toNat then
      match rest with
      | [] => none
      | r2 :: rest2 => if r2 = '-'.toNat then skip .line rest2 else some (r, r2 :: rest2)
    else if r = '/'.toNat then
      match rest with
      | [] => none
      | r2 :: rest2 => if r2 = '*'.toNat then skip (.block 0) rest2 else some (r, r2 :: rest2)
    else some (r, rest)
  | .line, [] => none
  | .line, r2 :: rest => if r2 = '\n'.toNat then skip .space rest else skip .line rest
  | .block _, [] => none
  | .block p, r2 :: rest =>
    if p = '*'.toNat ∧ r2 = '/'.toNat then skip .space rest else skip (.block r2) rest

/-- parser/scanner/scanner.go:293: the runes in an identifier after the first. -/
def ScanEnv.identRune (env : ScanEnv) (r : Nat) : Bool :=
  env.letter r || env.digit r || r == '_'.toNat || r == '$'.toNat

/-- parser/scanner/scanner.go:299-303. -/
def ScanEnv.identToken (env : ScanEnv) (buf : Bytes) : Token :=
  if isReserved (env.id buf false) then .reserved (env.id buf false)
  else .identifier (env.id buf false)

/-- parser/scanner/scanner.go:284-304 `scanIdentifier`, after a rune has been written. -/
def scanIdentifier (env : ScanEnv) (fails : Bool) (buf : Bytes) : List Nat → Scanned
  | [] => if fails then ⟨.error false, buf, []⟩ else ⟨env.identToken buf, buf, []⟩
  | r :: rest =>
    if env.identRune r then scanIdentifier env fails (buf ++ runeBytes r) rest
    else ⟨env.identToken buf, buf, r :: rest⟩

/-- parser/scanner/scanner.go:324-340: the token of a number. -/
def ScanEnv.numberToken (env : ScanEnv) (negative dbl : Bool) (buf : Bytes) : Token :=
  if dbl then
    match env.parseFloat buf with
    | none => .error false
    | some f => .float (if negative then F64.neg f else f)
  else
    match parseInt64 buf with
    | none => .error false
    | some i => .integer (if negative then -i else i)

/-- parser/scanner/scanner.go:306-341 `scanNumber`, after a rune has been written. -/
def scanNumber (env : ScanEnv) (fails negative : Bool) (dbl : Bool) (buf : Bytes) :
    List Nat → Scanned
  | [] => if fails then ⟨.error false, buf, []⟩ else ⟨env.numberToken negative dbl buf, buf, []⟩
  | r :: rest =>
    if !dbl && r == '.'.toNat then scanNumber env fails negative true (buf ++ runeBytes r) rest
    else if env.digit r then scanNumber env fails negative dbl (buf ++ runeBytes r) rest
    else ⟨env.numberToken negative dbl buf, buf, r :: rest⟩

/-- parser/scanner/scanner.go:357-369: the token of a parameter. -/
def parameterToken (buf : Bytes) : Token :=
  match parseInt64 buf with
  | none => .error false
  | some i => if i = 0 then .error false else .parameter i

/-- parser/scanner/scanner.go:343-370 `scanParameter`, after a rune has been written. -/
def scanParameter (env : ScanEnv) (fails : Bool) (buf : Bytes) : List Nat → Scanned
  | [] => if fails then ⟨.error false, buf, []⟩ else ⟨parameterToken buf, buf, []⟩
  | r :: rest =>
    if env.digit r then scanParameter env fails (buf ++ runeBytes r) rest
    else ⟨parameterToken buf, buf, r :: rest⟩

/-- parser/scanner/scanner.go:372-390 `scanQuotedIdentifier`. -/
def scanQuotedIdentifier (env : ScanEnv) (delim : Nat) (buf : Bytes) : List Nat → Scanned
  | [] => ⟨.error false, buf, []⟩
  | r :: rest =>
    if r = delim then ⟨.identifier (env.id buf true), buf, rest⟩
    else scanQuotedIdentifier env delim (buf ++ runeBytes r) rest

/-- parser/scanner/scanner.go:393-400: the value of a hex digit. -/
def hexDigit (r : Nat) : Option Nat :=
  if '0'.toNat ≤ r ∧ r ≤ '9'.toNat then some (r - '0'.toNat)
  else if 'A'.toNat ≤ r ∧ r ≤ 'F'.toNat then some (r - 'A'.toNat + 10)
  else if 'a'.toNat ≤ r ∧ r ≤ 'f'.toNat then some (r - 'a'.toNat + 10)
  else none

/-- parser/scanner/scanner.go:419-430 `scanUnicode`, after digits with the value `u`, and 407-417
`scanHex` as the case of two digits. The result is the value, or none for an error, and the input
that is left. -/
def scanUnicode (u : Nat) : Nat → List Nat → Option Nat × List Nat
  | 0, rest => (some u, rest)
  | _ + 1, [] => (none, [])
  | digits + 1, r :: rest =>
    match hexDigit r with
    | none => (none, rest)
    | some d => scanUnicode (u * 16 + d) digits rest

/-- parser/scanner/scanner.go:432-441: the value of an octal digit. -/
def octalDigit (r : Nat) : Option Nat :=
  if '0'.toNat ≤ r ∧ r ≤ '7'.toNat then some (r - '0'.toNat) else none

/-- parser/scanner/scanner.go:443-455 `scanOctal`, after digits with the value `u`; the value is a
byte. -/
def scanOctal (u : Nat) : Nat → List Nat → Option Nat × List Nat
  | 0, rest => (some u, rest)
  | _ + 1, [] => (none, [])
  | digits + 1, r :: rest =>
    match octalDigit r with
    | none => (none, rest)
    | some d => scanOctal ((u * 8 + d) % 256) digits rest

/-- Go `rune(u)` for an unsigned number. -/
def toRune (u : Nat) : Int := (BitVec.ofNat 32 u).toInt

/-- The escapes of one letter: parser/scanner/scanner.go:512-525. -/
def simpleEscapes : List (Nat × Nat) :=
  [('a'.toNat, 7), ('b'.toNat, 8), ('t'.toNat, 9), ('n'.toNat, 10), ('v'.toNat, 11),
   ('f'.toNat, 12), ('r'.toNat, 13)]

/-- parser/scanner/scanner.go:509-541: the rune of an escape, or none for token.Error with an
error, and the input that is left. At the end of the input the rune is token.EOF or token.Error;
both are errors. -/
def scanEscape : List Nat → Option Int × List Nat
  | [] => (none, [])
  | r :: rest =>
    match simpleEscapes.lookup r with
    | some c => (some c, rest)
    | none =>
      if r = 'x'.toNat then
        match scanUnicode 0 2 rest with
        | (u, rest) => (u.map toRune, rest)
      else if r = 'u'.toNat then
        match scanUnicode 0 4 rest with
        | (u, rest) => (u.map toRune, rest)
      else if r = 'U'.toNat then
        match scanUnicode 0 8 rest with
        | (u, rest) => (u.map toRune, rest)
      else if '0'.toNat ≤ r ∧ r ≤ '7'.toNat then
        match scanOctal (r - '0'.toNat) 2 rest with
        | (u, rest) => (u.map toRune, rest)
      else (some (r : Int), rest)

/-- parser/scanner/scanner.go:487-494: skip the white space after a quote; whether there was a
newline in it, or before, and the input that is left. -/
def skipGap (nl : Bool) : List Nat → Bool × List Nat
  | [] => (nl, [])
  | r :: rest => if isSpace r then skipGap (nl || r == 10 || r == 13) rest else (nl, r :: rest)

theorem scanUnicode_length : ∀ (n u : Nat) (l : List Nat), (scanUnicode u n l).2.length ≤ l.length
  | 0, _, _ => Nat.le_refl _
  | _ + 1, _, [] => Nat.le_refl _
  | n + 1, u, r :: rest => by
    unfold scanUnicode
    split
    · simp
    · exact Nat.le_trans (scanUnicode_length n _ rest) (by simp)

theorem scanOctal_length : ∀ (n u : Nat) (l : List Nat), (scanOctal u n l).2.length ≤ l.length
  | 0, _, _ => Nat.le_refl _
  | _ + 1, _, [] => Nat.le_refl _
  | n + 1, u, r :: rest => by
    unfold scanOctal
    split
    · simp
    · exact Nat.le_trans (scanOctal_length n _ rest) (by simp)

theorem scanEscape_length (l : List Nat) : (scanEscape l).2.length ≤ l.length := by
  cases l with
  | nil => exact Nat.le_refl _
  | cons r rest =>
    have h2 := scanUnicode_length 2 0 rest
    have h4 := scanUnicode_length 4 0 rest
    have h8 := scanUnicode_length 8 0 rest
    have ho := scanOctal_length 2 (r - '0'.toNat) rest
    simp only [scanEscape]
    cases simpleEscapes.lookup r with
    | some c => simp
    | none =>
      simp only [List.length_cons]
      split
      · simpa using Nat.le_succ_of_le h2
      · split
        · simpa using Nat.le_succ_of_le h4
        · split
          · simpa using Nat.le_succ_of_le h8
          · split
            · simpa using Nat.le_succ_of_le ho
            · simp

theorem skipGap_length (nl : Bool) (l : List Nat) : (skipGap nl l).2.length ≤ l.length := by
  induction l generalizing nl with
  | nil => exact Nat.le_refl _
  | cons r rest ih =>
    unfold skipGap
    split
    · exact Nat.le_trans (ih _) (by simp)
    · exact Nat.le_refl _

set_option linter.unusedVariables false in
/-- parser/scanner/scanner.go:475-547 `scanQuotedConstant`, after the opening quote and with
`buf` written: none, or the error with whether it is nil; the contents of the buffer; the input
that is left. -/
def scanQuotedConstant (fails esc : Bool) (buf : Bytes) (l : List Nat) :
    Option Bool × Bytes × List Nat :=
  match l with
  | [] => (some false, buf, [])
  | r :: rest =>
    if r = '\''.toNat then
      match rest with
      | [] => (none, buf, reread fails [])
      | r2 :: rest2 =>
        if isSpace r2 then
          match hg : skipGap (r2 == 10 || r2 == 13) rest2 with
          | (_, []) => if fails then (some false, buf, []) else (none, buf, [])
          | (nl, r3 :: rest3) =>
            if r3 = '\''.toNat ∧ nl then scanQuotedConstant fails esc buf rest3
            else (none, buf, r3 :: rest3)
        else if r2 ≠ '\''.toNat then (none, buf, r2 :: rest2)
        else scanQuotedConstant fails esc (buf ++ runeBytes r2) rest2
    else if r = '\\'.toNat ∧ esc then
      match he : scanEscape rest with
      | (none, rest2) => (some false, buf, rest2)
      | (some r2, rest2) =>
        if r2 = -1 then (some false, buf, rest2)
        else if r2 = -3 then (some true, buf, rest2)
        else scanQuotedConstant fails esc (buf ++ runeBytes r2) rest2
    else scanQuotedConstant fails esc (buf ++ runeBytes r) rest
termination_by l.length
decreasing_by
  · have := skipGap_length (r2 == 10 || r2 == 13) rest2
    rw [hg] at this
    simp at *
    omega
  · simp
    omega
  · have := scanEscape_length rest
    rw [he] at this
    simp at *
    omega
  · simp

/-- parser/scanner/scanner.go:457-464 `scanString`. -/
def scanString (fails esc : Bool) (l : List Nat) : Scanned :=
  match scanQuotedConstant fails esc [] l with
  | (some isNil, buf, rest) => ⟨.error isNil, buf, rest⟩
  | (none, buf, rest) => ⟨.string buf, buf, rest⟩

/-- parser/scanner/scanner.go:466-473 `scanBytes`. -/
def scanBytes (fails esc : Bool) (l : List Nat) : Scanned :=
  match scanQuotedConstant fails esc [] l with
  | (some isNil, buf, rest) => ⟨.error isNil, buf, rest⟩
  | (none, buf, rest) => ⟨.bytes buf, buf, rest⟩

/-- parser/scanner/scanner.go:549-575 `scanHexBytes`, with `buf` written. -/
def scanHexBytes (buf : Bytes) : List Nat → Scanned
  | [] => ⟨.error false, buf, []⟩
  | r :: rest =>
    if r = '\''.toNat then ⟨.bytes buf, buf, rest⟩
    else
      match hexDigit r with
      | none => ⟨.error false, buf, rest⟩
      | some d1 =>
        match rest with
        | [] => ⟨.error false, buf, []⟩
        | r2 :: rest2 =>
          match hexDigit r2 with
          | none => ⟨.error false, buf, rest2⟩
          | some d2 => scanHexBytes (buf ++ [BitVec.ofNat 8 (d1 * 16 + d2)]) rest2

/-- parser/scanner/scanner.go:222-237: an operator that starts with `r`. -/
def scanOperator (fails : Bool) (r : Nat) : List Nat → Scanned
  | [] => ⟨.rune r, runeBytes r, reread fails []⟩
  | r2 :: rest =>
    if r2 = '-'.toNat ∨ r2 = '+'.toNat then ⟨.rune r, runeBytes r, r2 :: rest⟩
    else if isOpRune r2 then
      match operators.lookup [r, r2] with
      | some t => ⟨t, runeBytes r ++ runeBytes r2, rest⟩
      | none => ⟨.error false, runeBytes r ++ runeBytes r2, rest⟩
    else ⟨.rune r, runeBytes r, r2 :: rest⟩

/-- parser/scanner/scanner.go:112-252 `scan`, with `Scan` (lines 69-73). -/
def scan (env : ScanEnv) (fails : Bool) (l : List Nat) : Scanned :=
  match skip .space l with
  | none => ⟨if fails then .error false else .eof, [], []⟩
  | some (r, rest) =>
    if r = ';'.toNat then ⟨.endOfStatement, [], rest⟩
    else if r = 'e'.toNat ∨ r = 'E'.toNat then
      match reread fails rest with
      | [] => scanIdentifier env fails (runeBytes r) []
      | r2 :: rest2 =>
        if r2 = '\''.toNat then scanString fails true rest2
        else scanIdentifier env fails (runeBytes r) (r2 :: rest2)
    else if r = 'b'.toNat then
      match reread fails rest with
      | [] => scanIdentifier env fails (runeBytes r) []
      | r2 :: rest2 =>
        if r2 = '\''.toNat then scanBytes fails true rest2
        else scanIdentifier env fails (runeBytes r) (r2 :: rest2)
    else if r = 'x'.toNat ∨ r = 'X'.toNat then
      match reread fails rest with
      | [] => scanIdentifier env fails (runeBytes r) []
      | r2 :: rest2 =>
        if r2 = '\''.toNat then scanHexBytes [] rest2
        else scanIdentifier env fails (runeBytes r) (r2 :: rest2)
    else if env.letter r ∨ r = '_'.toNat then scanIdentifier env fails (runeBytes r) rest
    else if env.digit r then scanNumber env fails false false (runeBytes r) rest
    else if r = '+'.toNat then
      match rest with
      | [] => ⟨.rune r, [], reread fails []⟩
      | r2 :: rest2 =>
        if env.digit r2 then scanNumber env fails false false (runeBytes r2) rest2
        else ⟨.rune r, [], r2 :: rest2⟩
    else if r = '-'.toNat then
      match rest with
      | [] => ⟨.rune r, [], reread fails []⟩
      | r2 :: rest2 =>
        if env.digit r2 then scanNumber env fails true false (runeBytes r2) rest2
        else ⟨.rune r, [], r2 :: rest2⟩
    else if r = '"'.toNat ∨ r = '`'.toNat then scanQuotedIdentifier env r [] rest
    else if r = '['.toNat then scanQuotedIdentifier env ']'.toNat [] rest
    else if r = '\''.toNat then scanString fails false rest
    else if isOpRune r then scanOperator fails r rest
    else if r = '.'.toNat ∨ r = ','.toNat ∨ r = '('.toNat ∨ r = ')'.toNat ∨ r = '@'.toNat then
      ⟨.rune r, [], rest⟩
    else if r = '$'.toNat then
      match rest with
      | [] => ⟨.error false, [], []⟩
      | r2 :: rest2 =>
        if env.digit r2 then scanParameter env fails (runeBytes r2) rest2
        else ⟨.error false, [], rest2⟩
    else ⟨.error false, [], rest⟩

/-- parser/scanner/scanner.go:38-47: the fields of `Scanner` that `readRune` and
`unreadRune` use, with what the `io.RuneReader` has not delivered yet. -/
structure Reader where
  unread : Bool
  read : Int
  runes : List Nat
deriving DecidableEq

/-- parser/scanner/scanner.go:254-278 `readRune`: the rune, -1 for token.EOF or -3 for
token.Error. -/
def Reader.readRune (fails : Bool) (s : Reader) : Int × Reader :=
  if s.unread then (s.read, { s with unread := false })
  else
    match s.runes with
    | [] => if fails then (-3, { s with read := 0 }) else (-1, { s with read := -1 })
    | r :: rest => (r, { s with read := r, runes := rest })

/-- parser/scanner/scanner.go:280-282 `unreadRune`. -/
def Reader.unreadRune (s : Reader) : Reader := { s with unread := true }

/-- parser/scanner/scanner.go:69-71 and 466-473, 573-574: the value of a bytes token is a slice of
the buffer, and the next `Scan` resets the buffer and writes `written` into the same array, as long
as it has room for it (`bytes.Buffer`, Go standard library: a write of a rune asks for at most four
bytes, and the first array has 64). The result is what the slice contains then; `none` if the array
may have been given up for a larger one. -/
def sliceAfter (capacity : Nat) (value written : Bytes) : Option Bytes :=
  if written.length + 4 ≤ capacity then
    some (written.take value.length ++ value.drop written.length)
  else none

end Maho
