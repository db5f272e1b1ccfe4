import Verif.Spec.Parse
import Verif.Model.Messages
/-
What messages about tokens say, for C90.
-/
namespace Maho.Spec
open Maho

/-- The text that the field `String` has when token `k` has been read: that of the last string among
the tokens `k`, `k - 3`, `k - 6` and so on. -/
inductive LeftOver (stream : Nat → Token) : Nat → Bytes → Prop where
  | own {k : Nat} {s : Bytes} : stream k = .string s → LeftOver stream k s
  | earlier {k : Nat} {s : Bytes} :
      (∀ s, stream (k + 3) ≠ .string s) → LeftOver stream k s → LeftOver stream (k + 3) s
  | absent {k : Nat} : k < 3 → (∀ s, stream k ≠ .string s) → LeftOver stream k []

/-- The token that stands where the calls have come to, counted from `pos`. -/
def placeAfter : Nat → List RingCall → Nat
  | pos, [] => pos
  | pos, .scan :: calls => placeAfter (pos + 1) calls
  | pos, .unscan :: calls => placeAfter (pos - 1) calls

/-- A nearest whole number of millionths of the absolute value of a number. -/
def Millionth (n : Nat) (f : F64) : Prop :=
  let x := F64.magScaled (F64.mag f) * 1000000
  2 * (n * F64.unit) ≤ 2 * x + F64.unit ∧ 2 * x ≤ 2 * (n * F64.unit) + F64.unit

/-- Tokens that are the same, or identifiers with the same name, or numbers of the same sign that
are the same to six digits after the point. -/
def NamedAlike (env : ParseEnv) (t u : Token) : Prop :=
  t = u ∨
  (∃ a b, t = .identifier a ∧ u = .identifier b ∧ env.string a = env.string b) ∨
  (∃ a b, t = .reserved a ∧ u = .reserved b ∧ env.string a = env.string b) ∨
  ∃ a b n, t = .float a ∧ u = .float b ∧ F64.sign a = F64.sign b ∧ Millionth n a ∧ Millionth n b

/-- Tokens other than errors, bytes and parameters. Numbers are finite and runes are ASCII. -/
def Nameable : Token → Prop
  | .error _ => False
  | .bytes _ => False
  | .parameter _ => False
  | .float f => F64.isFinite f = true
  | .rune r => 0 < r ∧ r < 128
  | _ => True

/-- The field `String` of a string has its text. -/
def Own (c : ScanCtx) : Prop := ∀ s, c.token = .string s → c.string = s

/-- Reserved identifiers have the names of the table of keywords. -/
def NamesKeywords (env : ParseEnv) : Prop :=
  ∀ p ∈ keywordTable, p.2 < 0 → env.string p.2 = ascii p.1

/-- An identifier of a reserved keyword. -/
def IsKeyword (id : Identifier) : Prop := ∃ p ∈ keywordTable, p.2 = id ∧ id < 0

/-- Names as they are listed in English: `a`, `a, or b`, `a, b, or c`. -/
def orList : List Bytes → Bytes
  | [] => []
  | [a] => a
  | [a, b] => a ++ ascii ", or " ++ b
  | a :: names => a ++ ascii ", " ++ orList names

/-- The texts that `expectIdentifier` is called with. -/
def identifierTexts : List String :=
  ["expected STDIN", "expected a column alias", "expected a column name", "expected a column",
   "expected a config variable", "expected a constraint name", "expected a data type",
   "expected a database or a schema", "expected a database", "expected a database, schema, or table",
   "expected a prepared statement", "expected a reference", "expected a schema or table",
   "expected a schema", "expected a table", "expected an alias", "expected an index",
   "expected btree"]

/-- What the parser looks for. -/
inductive Wanted where
  | keyword (ids : List Identifier)
  | identifier (text : Bytes)
  | runes (rs : List Nat)
  | number (min max : Int)
  | ended

/-- The tokens that are taken. -/
def Wanted.Takes : Wanted → Token → Prop
  | .keyword ids, t => ∃ id ∈ ids, t = .reserved id
  | .identifier _, t => ∃ id, t = .identifier id
  | .runes rs, t => ∃ r ∈ rs, t = .rune r
  | .number min max, t => ∃ i, t = .integer i ∧ min ≤ i.toInt ∧ i.toInt ≤ max
  | .ended, t => t = .eof ∨ t = .endOfStatement

/-- The text of what was expected. -/
def Wanted.expected (env : ParseEnv) : Wanted → Bytes
  | .keyword ids => ascii "expected keyword " ++ orList (ids.map env.string) ++ ascii "; got "
  | .identifier text => text ++ ascii ", got "
  | .runes rs =>
    ascii "expected " ++ orList (rs.map fun r => ascii "rune " ++ [BitVec.ofNat 8 r]) ++
      ascii ", got "
  | .number min max =>
    ascii "expected a number between " ++ formatInt min ++ ascii " and " ++ formatInt max ++
      ascii " inclusive, got "
  | .ended => ascii "expected the end of the statement, got "

/-- What the parser looks for in the code: some keywords, some ASCII runes, or an identifier for one
of its texts. -/
def Wanted.Usual : Wanted → Prop
  | .keyword ids => ids ≠ [] ∧ ∀ id ∈ ids, IsKeyword id
  | .identifier text => ∃ s ∈ identifierTexts, text = ascii s
  | .runes rs => rs ≠ [] ∧ ∀ r ∈ rs, 0 < r ∧ r < 128
  | .number _ _ => True
  | .ended => True

/-- The message that a method returns. -/
def messageOf {α : Type} : Expected α → Res (Option Bytes)
  | .ok (.ok _) => .ok none
  | .ok (.error m) => .ok (some m)
  | .err e => .err e
  | .panic => .panic

/-- The message of the method that looks for it, if there is one. -/
def Wanted.message (env : MessageEnv) (c : ScanCtx) : Wanted → Res (Option Bytes)
  | .keyword ids => messageOf (reservedOf env ids c)
  | .identifier text => messageOf (identifierOf env text c)
  | .runes rs => messageOf (tokenOf env (rs.map Token.rune) c)
  | .number min max => messageOf (integerOf env min max c)
  | .ended => messageOf (endOf env c)

/-- Without the field `String` it is the ring of Model/Lookback.lean. -/
def bareRing (r : CtxRing) : Ring := ⟨fun i => (r.lookBack i).token, r.current, r.unscanned, r.scanned⟩

/-- What a method of the parser does, by what it returns for the token it reads. -/
def readOutcome {α : Type} (r : CtxRing) (c : ScanCtx) : Expected α → RRes α
  | .ok (.ok a) => .ok a (bareRing r)
  | .ok (.error _) => .fail (c.token == .endOfStatement) (bareRing r)
  | _ => .panic

end Maho.Spec
