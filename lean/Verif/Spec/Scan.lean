import Verif.Model.Scan
import Verif.Spec.Value
/-
How the tokens are spelled. Nothing here refers to how the scanner proceeds.
-/
namespace Maho.Spec
open Maho

/-- The runes of a text. -/
def runes (s : String) : List Nat := s.toList.map Char.toNat

/-- The UTF-8 encoding of a code point; what is not a scalar value becomes U+FFFD. -/
def runeText (c : Nat) : Bytes :=
  if c < 0xD800 ∨ (0xE000 ≤ c ∧ c < 0x110000) then utf8Encode c else utf8Encode 0xFFFD

/-- The UTF-8 encoding of a text. -/
def text (l : List Nat) : Bytes := l.flatMap runeText

/-- `l` occurs in `m`. -/
def Occurs (l m : List Nat) : Prop := ∃ a b, m = a ++ l ++ b

/-- A letter of a hexadecimal number in upper case. -/
def upperHex (r : Nat) : Nat := if 97 ≤ r ∧ r ≤ 102 then r - 32 else r

/-- The escape that stands for the rune -3, with letters in upper or lower case. -/
def PanicEscape (l : List Nat) : Prop :=
  ∃ ds, ds.map upperHex = runes "FFFFFFFD" ∧ Occurs (runes "\\U" ++ ds) l

/-- The code points with the Unicode property White_Space. -/
def whiteSpace : List Nat :=
  [0x9, 0xA, 0xB, 0xC, 0xD, 0x20, 0x85, 0xA0, 0x1680, 0x2000, 0x2001, 0x2002, 0x2003, 0x2004, 0x2005,
   0x2006, 0x2007, 0x2008, 0x2009, 0x200A, 0x2028, 0x2029, 0x202F, 0x205F, 0x3000]

/-- White space and comments. A comment ends with the line, or with the first `*/`. -/
inductive Skipped : List Nat → Prop where
  | nil : Skipped []
  | space (r : Nat) (l : List Nat) : isSpace r = true → Skipped l → Skipped (r :: l)
  | line (body l : List Nat) : 10 ∉ body → Skipped l → Skipped (runes "--" ++ body ++ [10] ++ l)
  | block (body l : List Nat) : ¬ Occurs (runes "*/") (body ++ runes "*") → Skipped l →
      Skipped (runes "/*" ++ body ++ runes "*/" ++ l)

/-- What the scanner drops at the end of the input: a comment that is not closed, or one of the
two runes that can start a comment. -/
def Dangling (l : List Nat) : Prop :=
  l = [] ∨ l = runes "-" ∨ l = runes "/" ∨ (∃ body, l = runes "--" ++ body ∧ 10 ∉ body) ∨
    ∃ body, l = runes "/*" ++ body ∧ ¬ Occurs (runes "*/") body

/-- The positional value of digits. -/
def digitsValue (base : Nat) (value : Nat → Nat) : List Nat → Nat
  | [] => 0
  | d :: ds => value d * base ^ ds.length + digitsValue base value ds

/-- A non-empty decimal numeral with the value `n`. -/
def Numeral (l : List Nat) (n : Nat) : Prop :=
  l ≠ [] ∧ (∀ r ∈ l, 48 ≤ r ∧ r ≤ 57) ∧ digitsValue 10 (· - 48) l = n

/-- A hex digit and its value. -/
inductive Hex : Nat → Nat → Prop where
  | digit (d : Nat) : d < 10 → Hex (48 + d) d
  | upper (d : Nat) : d < 6 → Hex (65 + d) (10 + d)
  | lower (d : Nat) : d < 6 → Hex (97 + d) (10 + d)

/-- `n` hex digits and their value. -/
inductive HexNumeral : List Nat → Nat → Prop where
  | nil : HexNumeral [] 0
  | snoc (l : List Nat) (v r d : Nat) : HexNumeral l v → Hex r d →
      HexNumeral (l ++ [r]) (v * 16 + d)

/-- Pairs of hex digits and the bytes they stand for. -/
inductive HexPairs : List Nat → Bytes → Prop where
  | nil : HexPairs [] []
  | cons (r1 r2 d1 d2 : Nat) (l : List Nat) (b : Bytes) : Hex r1 d1 → Hex r2 d2 → HexPairs l b →
      HexPairs (r1 :: r2 :: l) (BitVec.ofNat 8 (d1 * 16 + d2) :: b)

/-- The letters with a meaning after a backslash. -/
def escapeLetters : List (Nat × Nat) :=
  [(97, 7), (98, 8), (116, 9), (110, 10), (118, 11), (102, 12), (114, 13)]

/-- What can follow a backslash and the code point it stands for. Octal numbers are taken
modulo 256. -/
inductive Escape : List Nat → Nat → Prop where
  | letter (r c : Nat) : (r, c) ∈ escapeLetters → Escape [r] c
  | x (l : List Nat) (v : Nat) : l.length = 2 → HexNumeral l v → Escape (120 :: l) v
  | u (l : List Nat) (v : Nat) : l.length = 4 → HexNumeral l v → Escape (117 :: l) v
  | U (l : List Nat) (v : Nat) : l.length = 8 → HexNumeral l v → v ≠ 0xFFFFFFFF →
      v ≠ 0xFFFFFFFD → Escape (85 :: l) v
  | octal (a b c : Nat) : a < 8 → b < 8 → c < 8 →
      Escape [48 + a, 48 + b, 48 + c] ((a * 64 + b * 8 + c) % 256)
  | other (r : Nat) : (∀ c, (r, c) ∉ escapeLetters) → r ∉ [120, 117, 85] → ¬ (48 ≤ r ∧ r ≤ 55) →
      Escape [r] r

/-- A piece of a constant between quotes and the bytes it stands for: a rune, a doubled quote, an
escape, or a closing and an opening quote with only white space between, on more than one line. -/
inductive Piece (esc : Bool) : List Nat → Bytes → Prop where
  | plain (r : Nat) : r ≠ 39 → (esc = true → r ≠ 92) → Piece esc [r] (runeText r)
  | quote : Piece esc [39, 39] [39#8]
  | join (ws : List Nat) : (∀ r ∈ ws, isSpace r = true) → (10 ∈ ws ∨ 13 ∈ ws) →
      Piece esc (39 :: ws ++ [39]) []
  | escape (l : List Nat) (c : Nat) : esc = true → Escape l c → Piece esc (92 :: l) (runeText c)

/-- A constant after its opening quote, with its closing quote. -/
inductive Constant (esc : Bool) : List Nat → Bytes → Prop where
  | done : Constant esc [39] []
  | piece (l m : List Nat) (v w : Bytes) : Piece esc l v → Constant esc m w →
      Constant esc (l ++ m) (v ++ w)

/-- A text that continues a constant before it. -/
def Continues (l : List Nat) : Prop :=
  (∃ m, l = 39 :: m) ∨
    ∃ ws m, l = ws ++ 39 :: m ∧ (∀ r ∈ ws, isSpace r = true) ∧ (10 ∈ ws ∨ 13 ∈ ws)

/-- A name that is not quoted. -/
def PlainName (env : ScanEnv) (l : List Nat) : Prop :=
  ∃ r m, l = r :: m ∧ (env.letter r = true ∨ r = 95) ∧
    ∀ c ∈ m, env.letter c = true ∨ env.digit c = true ∨ c = 95 ∨ c = 36

/-- The pairs of delimiters of quoted names. -/
def nameQuotes : List (Nat × Nat) := [(34, 34), (96, 96), (91, 93)]

/-- A sign and whether it is minus. -/
def Sign (l : List Nat) (minus : Bool) : Prop :=
  (l = [] ∧ minus = false) ∨ (l = [43] ∧ minus = false) ∨ (l = [45] ∧ minus = true)

/-- The text `l` spells the token. -/
def Spells (env : ScanEnv) : Token → List Nat → Prop
  | .eof, l => l = []
  | .endOfStatement, l => l = runes ";"
  | .error _, l => l ≠ []
  | .identifier id, l =>
    (PlainName env l ∧ id = env.id (text l) false ∧ 0 ≤ id) ∨
      ∃ a b body, (a, b) ∈ nameQuotes ∧ l = a :: body ++ [b] ∧ b ∉ body ∧
        id = env.id (text body) true
  | .reserved id, l => PlainName env l ∧ id = env.id (text l) false ∧ id < 0
  | .string s, l =>
    (∃ body, l = 39 :: body ∧ Constant false body s) ∨
      ∃ c body, (c = 101 ∨ c = 69) ∧ l = c :: 39 :: body ∧ Constant true body s
  | .bytes b, l =>
    (∃ body, l = 98 :: 39 :: body ∧ Constant true body b) ∨
      ∃ c body, (c = 120 ∨ c = 88) ∧ l = c :: 39 :: body ++ [39] ∧ HexPairs body b
  | .integer i, l =>
    ∃ s minus ds n, l = s ++ ds ∧ Sign s minus ∧ Numeral ds n ∧ n < 2 ^ 63 ∧
      i.toInt = if minus = true then -(n : Int) else n
  | .float f, l =>
    ∃ s minus ds es g, l = s ++ ds ++ 46 :: es ∧ Sign s minus ∧ ds ≠ [] ∧
      (∀ r ∈ ds ++ es, env.digit r = true) ∧ env.parseFloat (text (ds ++ 46 :: es)) = some g ∧
      f = if minus = true then F64.neg g else g
  | .parameter i, l =>
    ∃ ds n, l = 36 :: ds ∧ Numeral ds n ∧ 0 < n ∧ n < 2 ^ 63 ∧ i.toInt = n
  | .barBar, l => l = runes "||"
  | .lessLess, l => l = runes "<<"
  | .lessEqual, l => l = runes "<="
  | .lessGreater, l => l = runes "<>"
  | .greaterGreater, l => l = runes ">>"
  | .greaterEqual, l => l = runes ">="
  | .equalEqual, l => l = runes "=="
  | .bangEqual, l => l = runes "!="
  | .rune r, l => l = [r] ∧ r ∈ runes "+-*/%=<>&|!.,()@"

/-- The input that is left after `n` tokens. -/
def restAfter (env : ScanEnv) (fails : Bool) (l : List Nat) : Nat → List Nat
  | 0 => l
  | n + 1 => (scan env fails (restAfter env fails l n)).rest

/-- Token number `n` of the input. -/
def tokenAt (env : ScanEnv) (fails : Bool) (l : List Nat) (n : Nat) : Token :=
  (scan env fails (restAfter env fails l n)).token

/-- A text with every quote doubled. -/
def quotesDoubled (l : List Nat) : List Nat := l.flatMap (fun r => if r = 39 then [39, 39] else [r])

/-- A text with every quote and every backslash doubled. -/
def quotesEscaped (l : List Nat) : List Nat :=
  l.flatMap (fun r => if r = 39 ∨ r = 92 then [r, r] else [r])

/-- The runes that `readRune` still returns. -/
def pending (s : Reader) : List Nat :=
  if s.unread = true then if s.read = -1 then [] else s.read.toNat :: s.runes else s.runes

/-- A rune that has been put back is a rune, or the end of the input. -/
def Reading (fails : Bool) (s : Reader) : Prop :=
  s.unread = true → 0 ≤ s.read ∨ (s.read = -1 ∧ s.runes = [] ∧ fails = false)

/-- An input that consists of tokens, with white space and comments between. What is dropped at
the end of the input is `Dangling`. -/
inductive Spelled (env : ScanEnv) : List Token → List Nat → Prop where
  | nil (blank dropped : List Nat) : Skipped blank → Dangling dropped →
      Spelled env [] (blank ++ dropped)
  | cons (t : Token) (ts : List Token) (blank lexeme gap rest : List Nat) : Skipped blank →
      Spells env t lexeme → lexeme ≠ [] → t ≠ .eof → (∀ r ∈ gap, isSpace r = true) →
      Spelled env ts rest → Spelled env (t :: ts) (blank ++ lexeme ++ gap ++ rest)

end Maho.Spec
