import Verif.Replay.Env
/-
parser/scanner/scanner_test.go, parser/token/token_test.go and the test of scanning in
parser/parser_test.go on the model (written by tools/replay/scanner.py).
-/
namespace Maho.Replay

/-- parser/scanner/scanner_test.go:19 -/
example : ∀ c ∈ ([("", .eof), (";", .endOfStatement), ("abc", .identifier), ("create", .reserved),
  ("'create'", .string), ("`create`", .identifier)] : List (String × Kind)), (scanned c.1).kind =
  c.2 := by decide +kernel

/-- parser/scanner/scanner_test.go:25 -/
example : ∀ c ∈ ([("[create]", .identifier), ("\"create\"", .identifier), ("'isn\\'t go fun?'",
  .string), ("12345", .integer), ("1234.5678", .float), (", ", .rune 0x2c)] : List (String ×
  Kind)), (scanned c.1).kind = c.2 := by decide +kernel

/-- parser/scanner/scanner_test.go:31 -/
example : ∀ c ∈ ([(".id", .rune 0x2e), ("(123", .rune 0x28), (")+", .rune 0x29), ("-abc", .rune
  0x2d), ("+abc", .rune 0x2b), ("*(abc)", .rune 0x2a)] : List (String × Kind)), (scanned c.1).kind
  = c.2 := by decide +kernel

/-- parser/scanner/scanner_test.go:37 -/
example : ∀ c ∈ ([("/12", .rune 0x2f), ("%", .rune 0x25), ("=123", .rune 0x3d), ("<123", .rune
  0x3c), (">123", .rune 0x3e), ("&123", .rune 0x26)] : List (String × Kind)), (scanned c.1).kind =
  c.2 := by decide +kernel

/-- parser/scanner/scanner_test.go:43 -/
example : ∀ c ∈ ([("|123", .rune 0x7c), ("||", .barBar), ("<<", .lessLess), ("<=", .lessEqual),
  ("<>", .lessGreater), (">>", .greaterGreater)] : List (String × Kind)), (scanned c.1).kind = c.2
  := by decide +kernel

/-- parser/scanner/scanner_test.go:49 -/
example : ∀ c ∈ ([(">=", .greaterEqual), ("==", .equalEqual), ("!=", .bangEqual), ("!*", .error),
  ("**", .error), (">%", .error)] : List (String × Kind)), (scanned c.1).kind = c.2 :=
  by decide +kernel

/-- parser/scanner/scanner_test.go:55 -/
example : ∀ c ∈ ([(">-123", .rune 0x3e), ("=>", .error), ("$1", .parameter), ("$25", .parameter),
  ("$-2", .error), ("$abc", .error)] : List (String × Kind)), (scanned c.1).kind = c.2 :=
  by decide +kernel

/-- parser/scanner/scanner_test.go:77 -/
example : ∀ c ∈ ([("'abc'", ascii "abc"), ("'abc' 123", ascii "abc"), ("'abc' 'def'", ascii
  "abc"), ("'abc'\n'def'", ascii "abcdef"), ("'abc'\x0d'def'", ascii "abcdef"), ("'abc'\n 'def'",
  ascii "abcdef")] : List (String × Bytes)), scanned c.1 = .string c.2 := by decide +kernel

/-- parser/scanner/scanner_test.go:83 -/
example : ∀ c ∈ ([("'abc' \x0d\n  \x0d  \n 'def'", ascii "abcdef"), ("'abc' \x0d\n  \x0d  \n 123",
  ascii "abc"), ("'abc' \x0d\n  \x0d  \n", ascii "abc"), ("'abc''def' 123", ascii "abc'def"),
  ("e'abc'\n 'def'", ascii "abcdef"), ("E'abc'\n 'def'", ascii "abcdef")] : List (String ×
  Bytes)), scanned c.1 = .string c.2 := by decide +kernel

/-- parser/scanner/scanner_test.go:89 -/
example : ∀ c ∈ ([("e'\\000abc'", ascii "\x00abc"), ("e'\\000\\141bc'", ascii "\x00abc"),
  ("e'\\141\\x62\\u0063\\U00000064e'", ascii "abcde")] : List (String × Bytes)), scanned c.1 =
  .string c.2 := by decide +kernel

/-- parser/scanner/scanner_test.go:111 -/
example : scanned "x'6263646566'" = .bytes [98, 99, 100, 101, 102] := by decide +kernel

/-- parser/scanner/scanner_test.go:112 -/
example : scanned "x''" = .bytes [] := by decide +kernel

/-- parser/scanner/scanner_test.go:132 -/
example : ∀ c ∈ ([("12345", 12345), ("999", 999), ("999 ", 999), ("999zzz", 999), ("-123",
  (-123#64)), ("+123", 123)] : List (String × BitVec 64)), scanned c.1 = .integer c.2 :=
  by decide +kernel

/-- parser/scanner/scanner_test.go:157 -/
example : ∀ c ∈ ([("123.456", 0x405edd2f1a9fbe77#64), ("999.", 0x408f380000000000#64), ("99.9 ",
  0x4058f9999999999a#64), ("9.99zzz", 0x4023fae147ae147b#64), ("-12.3", 0xc02899999999999a#64),
  ("+1.23", 0x3ff3ae147ae147ae#64)] : List (String × F64)), scanned c.1 = .float c.2 :=
  by decide +kernel

/-- parser/scanner/scanner_test.go:229 -/
example : ∀ c ∈ ([("$12345", 12345), ("$999", 999), ("$999 ", 999), ("$999zzz", 999), ("$1", 1)] :
  List (String × BitVec 64)), scanned c.1 = .parameter c.2 := by decide +kernel

/-- parser/scanner/scanner_test.go:179 -/
example : tokenize env.toScanEnv (runes
  "\n-- start with a comment\ncreate -- reserved keyword\n\"create\" /* identifier */\n'create' /* string\n\n*/\nabcd -- identifier\n")
  = [.reserved Kw.CREATE, .identifier (Q "create"), .string (ascii "create"), .identifier (Q
  "abcd")] := by decide +kernel

/-- parser/parser_test.go:29 -/
example : (tokenize env.toScanEnv (runes
  "create foobar * 123 (,) 'string' \"identifier\" ; 456.789")).map Token.kind = [.reserved,
  .identifier, .rune 0x2a, .integer, .rune 0x28, .rune 0x2c, .rune 0x29, .string, .identifier,
  .endOfStatement, .float] := by decide +kernel

/-- parser/token/token_test.go:8 -/
example : ∀ r ∈ List.range 2000, isOpRune r = decide (r ∈ "-+*/%=<>&|!".toList.map Char.toNat) :=
  by decide +kernel

/-- parser/token/token_test.go:22 -/
example : ∀ p ∈ operators, ∀ r ∈ p.1, isOpRune r = true := by decide +kernel

end Maho.Replay
