import Verif.Model.ReadParse
import Verif.Spec.Parse
import Verif.Spec.Scan
import Verif.Spec.Position
/-
What the parser should do with the input when there are COPY statements: the data begins on the line
after the statement.
-/
namespace Maho.Spec
open Maho

/-- Where the parser is: whether the last statement failed, the text that is left, and whether the
last statement was COPY. -/
structure Place where
  failed : Bool
  rest : List Nat
  copying : Bool

namespace Place

/-- The tokens of the text that is left. -/
def tokens (env : ParseEnv) (s : Place) : List Token := tokenize env.toScanEnv s.rest

/-- The tokens from the next statement on. -/
def statement (env : ParseEnv) (s : Place) : List Token :=
  if s.failed then afterSemicolon (s.tokens env) else s.tokens env

/-- Whether it is COPY: -16 is this reserved identifier (types/identifier.go). -/
def isCopy (env : ParseEnv) (s : Place) : Prop := (s.statement env).head? = some (.reserved (-16))

instance (env : ParseEnv) (s : Place) : Decidable (s.isCopy env) := by
  unfold isCopy
  infer_instance

/-- How many tokens a call of `Parse` takes. -/
def taken (env : ParseEnv) (s : Place) : Nat :=
  (s.tokens env).length - (Maho.parse env s.failed (s.tokens env)).2.2.length

/-- A call of `Parse` for the text `L`. After COPY the rest of the line is skipped. -/
def parse (env : ParseEnv) (L : List Nat) (s : Place) : ReaderResult × Place :=
  let result := Maho.parse env s.failed (s.tokens env)
  let rest := restAfter env.toScanEnv false s.rest (s.taken env)
  if s.isCopy env then
    let data := nextLine rest
    (.parsed result.1 (some (lineOf (L.take (L.length - data.length)))), ⟨result.2.1, data, true⟩)
  else (.parsed result.1 none, ⟨result.2.1, rest, false⟩)

/-- A call of `ReadRune`. -/
def read (s : Place) : ReaderResult × Place := (.rune s.rest.head?, { s with rest := s.rest.tail })

/-- The results of calls. -/
def run (env : ParseEnv) (L : List Nat) : Place → List ReaderCall → List ReaderResult
  | _, [] => []
  | s, .parse :: calls => (s.parse env L).1 :: run env L (s.parse env L).2 calls
  | s, .read :: calls => s.read.1 :: run env L s.read.2 calls

/-- What is asked of the text before a call of `Parse`. The first two conditions are those of C64. A
COPY statement is one that is accepted, it ends with a `;`, and nothing but white space is between a
delimiter and the `;`. -/
structure Plain (env : ParseEnv) (s : Place) : Prop where
  clean : Token.error true ∉ s.tokens env
  setting : ¬ NullSetting (s.statement env)
  accepted : s.isCopy env → ∃ t, (Maho.parse env s.failed (s.tokens env)).1 = .stmt t
  semicolon : s.isCopy env →
    tokenAt env.toScanEnv false s.rest (s.taken env - 1) = .endOfStatement
  delimiter : s.isCopy env → ∀ b, tokenAt env.toScanEnv false s.rest (s.taken env - 2) = .string b →
    (restAfter env.toScanEnv false s.rest (s.taken env - 1)).head? = some 59

/-- Every call of `Parse` is for such a text, and `ReadRune` is called only after COPY. -/
def Fine (env : ParseEnv) (L : List Nat) : Place → List ReaderCall → Prop
  | _, [] => True
  | s, .parse :: calls => s.Plain env ∧ Fine env L (s.parse env L).2 calls
  | s, .read :: calls => s.copying = true ∧ Fine env L s.read.2 calls

end Place
end Maho.Spec
