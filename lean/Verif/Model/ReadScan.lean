import Verif.Model.Scan
/-
Model of parser/scanner/scanner.go with the fields of `Scanner` that `readRune` and `unreadRune`
change, line and column numbers among them, after Model/Scan.lean.
-/
namespace Maho

/-- parser/scanner/scanner.go:20-24 `Position`, without the name of the file. -/
structure Position where
  line : Nat
  column : Nat
deriving DecidableEq

/-- parser/scanner/scanner.go:38-47 `Scanner`, without the name of the file. `runes` is what the
`io.RuneReader` has not delivered yet. -/
structure Scanner where
  runes : List Nat
  unread : Bool
  read : Int
  line : Nat
  column : Nat
  buf : Bytes
deriving DecidableEq

namespace Scanner

/-- parser/scanner/scanner.go:57-67 `Init`. -/
def init (l : List Nat) : Scanner := ⟨l, false, 0, 1, 0, []⟩

/-- parser/scanner/scanner.go:254-278 `readRune`: the rune, -1 for token.EOF or -3 for
token.Error. -/
def readRune (fails : Bool) (s : Scanner) : Int × Scanner :=
  if s.unread then (s.read, { s with unread := false })
  else
    match s.runes with
    | [] => if fails then (-3, { s with read := 0 }) else (-1, { s with read := -1 })
    | r :: rest =>
      (r, { s with
        read := r
        runes := rest
        line := if r = '\n'.toNat then s.line + 1 else s.line
        column := if r = '\n'.toNat then 0 else s.column + 1 })

/-- parser/scanner/scanner.go:280-282 `unreadRune`. -/
def unreadRune (s : Scanner) : Scanner := { s with unread := true }

/-- `s.buffer.WriteRune`. -/
def write (r : Int) (s : Scanner) : Scanner := { s with buf := s.buf ++ runeBytes r }

/-- A bound for the turns of the loops, each of which takes a rune. -/
def fuel (s : Scanner) : Nat := s.runes.length + 2

/-- parser/scanner/scanner.go:113-172: skip white space and comments. The result is what `readRune`
returned last, if it is a token.EOF or token.Error, or the first rune of the token. -/
def skip (fails : Bool) : Nat → Skip → Scanner → Int × Scanner
  | 0, _, s => (-1, s)
  | n + 1, .space, s =>
    let (r, s) := s.readRune fails
    if r < 0 then (r, s)
    else if isSpace r.toNat then skip fails n .space s
    else if r = ';'.toNat then (r, s)
    else if r = '-'.toNat then
      let (r2, s) := s.readRune fails
      if r2 = '-'.toNat then skip fails n .line s
      else if r2 < 0 then (r2, s)
      else (r, s.unreadRune)
    else if r = '/'.toNat then
      let (r2, s) := s.readRune fails
      if r2 = '*'.toNat then skip fails n (.block 0) s
      else if r2 < 0 then (r2, s)
      else (r, s.unreadRune)
    else (r, s)
  | n + 1, .line, s =>
    let (r2, s) := s.readRune fails
    if r2 < 0 then (r2, s)
    else if r2 = '\n'.toNat then skip fails n .space s
    else skip fails n .line s
  | n + 1, .block p, s =>
    let (r2, s) := s.readRune fails
    if r2 < 0 then (r2, s)
    else if p = '*'.toNat ∧ r2 = '/'.toNat then skip fails n .space s
    else skip fails n (.block r2.toNat) s

/-- `unicode.IsDigit` of what `readRune` returns. -/
def isDigit (env : ScanEnv) (r : Int) : Bool := decide (0 ≤ r) && env.digit r.toNat

/-- parser/scanner/scanner.go:284-304 `scanIdentifier`. -/
def scanIdentifier (env : ScanEnv) (fails : Bool) : Nat → Int → Scanner → Token × Scanner
  | 0, _, s => (.eof, s)
  | n + 1, r, s =>
    let s := s.write r
    let (r, s) := s.readRune fails
    if r = -1 then (env.identToken s.buf, s)
    else if r = -3 then (.error false, s)
    else if env.identRune r.toNat then scanIdentifier env fails n r s
    else (env.identToken s.buf, s.unreadRune)

/-- parser/scanner/scanner.go:306-341 `scanNumber`. -/
def scanNumber (env : ScanEnv) (fails negative : Bool) : Nat → Bool → Int → Scanner → Token × Scanner
  | 0, _, _, s => (.eof, s)
  | n + 1, dbl, r, s =>
    let s := s.write r
    let (r, s) := s.readRune fails
    if r = -1 then (env.numberToken negative dbl s.buf, s)
    else if r = -3 then (.error false, s)
    else if !dbl && r == '.'.toNat then scanNumber env fails negative n true r s
    else if isDigit env r then scanNumber env fails negative n dbl r s
    else (env.numberToken negative dbl s.buf, s.unreadRune)

/-- parser/scanner/scanner.go:343-370 `scanParameter`. -/
def scanParameter (env : ScanEnv) (fails : Bool) : Nat → Int → Scanner → Token × Scanner
  | 0, _, s => (.eof, s)
  | n + 1, r, s =>
    let s := s.write r
    let (r, s) := s.readRune fails
    if r = -1 then (parameterToken s.buf, s)
    else if r = -3 then (.error false, s)
    else if isDigit env r then scanParameter env fails n r s
    else (parameterToken s.buf, s.unreadRune)

/-- parser/scanner/scanner.go:372-390 `scanQuotedIdentifier`. -/
def scanQuotedIdentifier (env : ScanEnv) (fails : Bool) (delim : Nat) : Nat → Scanner → Token × Scanner
  | 0, s => (.eof, s)
  | n + 1, s =>
    let (r, s) := s.readRune fails
    if r = -1 ∨ r = -3 then (.error false, s)
    else if r = delim then (.identifier (env.id s.buf true), s)
    else scanQuotedIdentifier env fails delim n (s.write r)

/-- parser/scanner/scanner.go:392-405 `scanHexDigit`. -/
def scanHexDigit (fails : Bool) (s : Scanner) : Option Nat × Scanner :=
  let (r, s) := s.readRune fails
  (if r < 0 then none else hexDigit r.toNat, s)

/-- parser/scanner/scanner.go:419-430 `scanUnicode`, after digits with the value `u`, and 407-417
`scanHex` as the case of two digits. -/
def scanUnicode (fails : Bool) (u : Nat) : Nat → Scanner → Option Nat × Scanner
  | 0, s => (some u, s)
  | digits + 1, s =>
    let (d, s) := s.scanHexDigit fails
    match d with
    | none => (none, s)
    | some d => scanUnicode fails (u * 16 + d) digits s

/-- parser/scanner/scanner.go:432-441 `scanOctalDigit`. -/
def scanOctalDigit (fails : Bool) (s : Scanner) : Option Nat × Scanner :=
  let (r, s) := s.readRune fails
  (if r < 0 then none else octalDigit r.toNat, s)

/-- parser/scanner/scanner.go:443-455 `scanOctal`, after digits with the value `u`; the value is a
byte. -/
def scanOctal (fails : Bool) (u : Nat) : Nat → Scanner → Option Nat × Scanner
  | 0, s => (some u, s)
  | digits + 1, s =>
    let (d, s) := s.scanOctalDigit fails
    match d with
    | none => (none, s)
    | some d => scanOctal fails ((u * 8 + d) % 256) digits s

/-- parser/scanner/scanner.go:509-534: the rune of an escape, or none for token.Error with an
error. -/
def scanEscape (fails : Bool) (s : Scanner) : Option Int × Scanner :=
  let (r, s) := s.readRune fails
  if r < 0 then (none, s)
  else
    match simpleEscapes.lookup r.toNat with
    | some c => (some c, s)
    | none =>
      if r = 'x'.toNat then
        let (u, s) := s.scanUnicode fails 0 2
        (u.map toRune, s)
      else if r = 'u'.toNat then
        let (u, s) := s.scanUnicode fails 0 4
        (u.map toRune, s)
      else if r = 'U'.toNat then
        let (u, s) := s.scanUnicode fails 0 8
        (u.map toRune, s)
      else if '0'.toNat ≤ r ∧ r ≤ '7'.toNat then
        let (u, s) := s.scanOctal fails (r.toNat - '0'.toNat) 2
        (u.map toRune, s)
      else (some r, s)

/-- parser/scanner/scanner.go:488-494: skip white space after the rune `r`. The result is whether
there was a newline, and the rune that ended it. -/
def skipGap (fails : Bool) : Nat → Bool → Int → Scanner → Bool × Int × Scanner
  | 0, nl, r, s => (nl, r, s)
  | n + 1, nl, r, s =>
    if r < 0 then (nl, r, s)
    else if isSpace r.toNat then
      let nl := nl || r == 10 || r == 13
      let (r, s) := s.readRune fails
      skipGap fails n nl r s
    else (nl, r, s)

/-- parser/scanner/scanner.go:475-547 `scanQuotedConstant`: none, or the error with whether it is
nil. -/
def scanQuotedConstant (fails esc : Bool) : Nat → Scanner → Option Bool × Scanner
  | 0, s => (none, s)
  | n + 1, s =>
    let (r, s) := s.readRune fails
    if r = -1 ∨ r = -3 then (some false, s)
    else if r = '\''.toNat then
      let (r, s) := s.readRune fails
      if 0 ≤ r ∧ isSpace r.toNat then
        let (nl, r, s) := skipGap fails s.fuel false r s
        if r = '\''.toNat ∧ nl then scanQuotedConstant fails esc n s
        else if r = -3 then (some false, s)
        else (none, s.unreadRune)
      else if r ≠ '\''.toNat then (none, s.unreadRune)
      else scanQuotedConstant fails esc n (s.write r)
    else if r = '\\'.toNat ∧ esc then
      match s.scanEscape fails with
      | (none, s) => (some false, s)
      | (some r, s) =>
        if r = -1 then (some false, s)
        else if r = -3 then (some true, s)
        else scanQuotedConstant fails esc n (s.write r)
    else scanQuotedConstant fails esc n (s.write r)

/-- parser/scanner/scanner.go:457-464 `scanString`. -/
def scanString (fails esc : Bool) (s : Scanner) : Token × Scanner :=
  match s.scanQuotedConstant fails esc s.fuel with
  | (some isNil, s) => (.error isNil, s)
  | (none, s) => (.string s.buf, s)

/-- parser/scanner/scanner.go:466-473 `scanBytes`. -/
def scanBytes (fails esc : Bool) (s : Scanner) : Token × Scanner :=
  match s.scanQuotedConstant fails esc s.fuel with
  | (some isNil, s) => (.error isNil, s)
  | (none, s) => (.bytes s.buf, s)

/-- parser/scanner/scanner.go:549-575 `scanHexBytes`. -/
def scanHexBytes (fails : Bool) : Nat → Scanner → Token × Scanner
  | 0, s => (.eof, s)
  | n + 1, s =>
    let (r, s) := s.readRune fails
    if r = -1 ∨ r = -3 then (.error false, s)
    else if r = '\''.toNat then (.bytes s.buf, s)
    else
      let s := s.unreadRune
      match s.scanHexDigit fails with
      | (none, s) => (.error false, s)
      | (some d1, s) =>
        match s.scanHexDigit fails with
        | (none, s) => (.error false, s)
        | (some d2, s) =>
          scanHexBytes fails n { s with buf := s.buf ++ [BitVec.ofNat 8 (d1 * 16 + d2)] }

/-- parser/scanner/scanner.go:222-237: an operator that starts with `r`. -/
def scanOperator (fails : Bool) (r : Nat) (s : Scanner) : Token × Scanner :=
  let s := s.write r
  let (r2, s) := s.readRune fails
  if r2 = '-'.toNat ∨ r2 = '+'.toNat then (.rune r, s.unreadRune)
  else if 0 ≤ r2 ∧ isOpRune r2.toNat then
    let s := s.write r2
    match operators.lookup [r, r2.toNat] with
    | some t => (t, s)
    | none => (.error false, s)
  else (.rune r, s.unreadRune)

/-- parser/scanner/scanner.go:174-252: a token that starts with the rune `r`. -/
def scanFrom (env : ScanEnv) (fails : Bool) (r : Nat) (s : Scanner) : Token × Scanner :=
  if r = 'e'.toNat ∨ r = 'E'.toNat then
    let (r2, s) := s.readRune fails
    if r2 = '\''.toNat then s.scanString fails true
    else scanIdentifier env fails s.unreadRune.fuel r s.unreadRune
  else if r = 'b'.toNat then
    let (r2, s) := s.readRune fails
    if r2 = '\''.toNat then s.scanBytes fails true
    else scanIdentifier env fails s.unreadRune.fuel r s.unreadRune
  else if r = 'x'.toNat ∨ r = 'X'.toNat then
    let (r2, s) := s.readRune fails
    if r2 = '\''.toNat then scanHexBytes fails s.fuel s
    else scanIdentifier env fails s.unreadRune.fuel r s.unreadRune
  else if env.letter r ∨ r = '_'.toNat then scanIdentifier env fails s.fuel r s
  else if env.digit r then scanNumber env fails false s.fuel false r s
  else if r = '+'.toNat then
    let (r2, s) := s.readRune fails
    if isDigit env r2 then scanNumber env fails false s.fuel false r2 s
    else (.rune r, s.unreadRune)
  else if r = '-'.toNat then
    let (r2, s) := s.readRune fails
    if isDigit env r2 then scanNumber env fails true s.fuel false r2 s
    else (.rune r, s.unreadRune)
  else if r = '"'.toNat ∨ r = '`'.toNat then scanQuotedIdentifier env fails r s.fuel s
  else if r = '['.toNat then scanQuotedIdentifier env fails ']'.toNat s.fuel s
  else if r = '\''.toNat then s.scanString fails false
  else if isOpRune r then scanOperator fails r s
  else if r = '.'.toNat ∨ r = ','.toNat ∨ r = '('.toNat ∨ r = ')'.toNat ∨ r = '@'.toNat then
    (.rune r, s)
  else if r = '$'.toNat then
    let (r2, s) := s.readRune fails
    if isDigit env r2 then scanParameter env fails s.fuel r2 s
    else (.error false, s)
  else (.error false, s)

/-- parser/scanner/scanner.go:69-73 `Scan` and 112-252 `scan`. The first result is the token, the
second the position in the `ScanCtx`, which had the position `pos`. -/
def scan (env : ScanEnv) (fails : Bool) (pos : Position) (s : Scanner) : Token × Position × Scanner :=
  let s := { s with buf := [] }
  let (r, s) := skip fails s.fuel .space s
  if r < 0 then (if r = -3 then .error false else .eof, pos, s)
  else if r = ';'.toNat then (.endOfStatement, pos, s)
  else
    let pos : Position := ⟨s.line, s.column⟩
    let (t, s) := scanFrom env fails r.toNat s
    (t, pos, s)

/-- parser/scanner/scanner.go:79-92 `RuneReader`: skip to the next line, of what the `io.RuneReader`
has not delivered yet. The second result of the code is the field `line`. -/
def skipLine : List Nat → Scanner → Scanner
  | [], s => { s with runes := [] }
  | r :: rest, s =>
    if r = '\n'.toNat then { s with runes := rest, line := s.line + 1, column := 0 }
    else skipLine rest s

/-- parser/scanner/scanner.go:79-92 `RuneReader`. -/
def runeReader (s : Scanner) : Scanner := skipLine s.runes s

/-- parser/scanner/scanner.go:95-109: `ReadRune` of what `RuneReader` returns; none for io.EOF. -/
def readFrom (s : Scanner) : Option Nat × Scanner :=
  match s.runes with
  | [] => (none, s)
  | r :: rest =>
    (some r, { s with
      runes := rest
      line := if r = '\n'.toNat then s.line + 1 else s.line
      column := if r = '\n'.toNat then 0 else s.column + 1 })

/-- The scanner after `k` calls of `Scan`; call number `i` has a `ScanCtx` with the position
`ps i`. -/
def after (env : ScanEnv) (fails : Bool) (ps : Nat → Position) (s : Scanner) : Nat → Scanner
  | 0 => s
  | k + 1 => (scan env fails (ps k) (after env fails ps s k)).2.2

/-- parser/parser.go:76-89: the positions in the three slots of the parser after `k` calls of `Scan`,
that of the last token last, and the scanner. The next call uses the slot of the first one. -/
def slots (env : ScanEnv) (fails : Bool) (l : List Nat) :
    Nat → (Position × Position × Position) × Scanner
  | 0 => ((⟨0, 0⟩, ⟨0, 0⟩, ⟨0, 0⟩), init l)
  | k + 1 =>
    let ((a, b, c), s) := slots env fails l k
    let (_, pos, s) := scan env fails a s
    ((b, c, pos), s)

/-- parser/parser.go:72-74: the position that an error at token number `k` names. -/
def positionAt (env : ScanEnv) (fails : Bool) (l : List Nat) (k : Nat) : Position :=
  (slots env fails l (k + 1)).1.2.2

end Scanner
end Maho
