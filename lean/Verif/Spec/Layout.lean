import Verif.Spec.Scan
/-
Texts that spell given tokens, with white space and comments between them. Nothing here refers to
how the scanner proceeds.
-/
namespace Maho.Spec
open Maho

/-- No rune is more than one of a letter, a digit and white space. This is so in Unicode. -/
def ClassesApart (env : ScanEnv) : Prop :=
  ∀ r, (env.letter r = true → env.digit r = false ∧ isSpace r = false) ∧
    (env.digit r = true → isSpace r = false)

/-- A text that can come directly after a spelling of the token: it does not make the token longer
or another token. -/
def Delimited (env : ScanEnv) : Token → List Nat → Prop
  | .identifier _, rest | .reserved _, rest =>
    ∀ c, rest.head? = some c → env.letter c = false ∧ env.digit c = false ∧ c ∉ runes "_$'"
  | .string _, rest | .bytes _, rest => ¬ Continues rest
  | .integer _, rest => ∀ c, rest.head? = some c → env.digit c = false ∧ c ≠ 46
  | .float _, rest | .parameter _, rest => ∀ c, rest.head? = some c → env.digit c = false
  | .rune r, rest =>
    (r ∈ runes "-/" → rest ≠ []) ∧
      ∀ c, rest.head? = some c →
        (r ∈ runes "+-" → env.digit c = false) ∧ (r ∈ runes "-" → c ∉ runes "-") ∧
          (r ∈ runes "*/%=<>&|!" → c ∉ runes "*/%=<>&|!")
  | _, _ => True

/-- A token that is not the end of the input and not an error. -/
def Proper (t : Token) : Prop := t ≠ .eof ∧ ∀ isNil, t ≠ .error isNil

/-- A text that spells the tokens, one after the other. There can be white space and comments before
and after each of them; what is directly after a token does not change it. -/
inductive LaidOut (env : ScanEnv) : List Token → List Nat → Prop where
  | nil (blank : List Nat) : Skipped blank → LaidOut env [] blank
  | cons (t : Token) (ts : List Token) (blank lexeme rest : List Nat) : Skipped blank → Proper t →
      Spells env t lexeme → Delimited env t rest → LaidOut env ts rest →
      LaidOut env (t :: ts) (blank ++ lexeme ++ rest)

/-- A text that consists of the pieces, with white space and comments before, between and after
them, and what is dropped at the end of an input. -/
inductive Consists : List (List Nat) → List Nat → Prop where
  | nil (blank dropped : List Nat) : Skipped blank → Dangling dropped → Consists [] (blank ++ dropped)
  | cons (w : List Nat) (ws : List (List Nat)) (blank rest : List Nat) : Skipped blank →
      Consists ws rest → Consists (w :: ws) (blank ++ w ++ rest)

/-- The pieces spell the tokens, one each. -/
inductive SpelledBy (env : ScanEnv) : List Token → List (List Nat) → Prop where
  | nil : SpelledBy env [] []
  | cons (t : Token) (w : List Nat) (ts : List Token) (ws : List (List Nat)) : Spells env t w →
      SpelledBy env ts ws → SpelledBy env (t :: ts) (w :: ws)

/-- White space and comments that begin with white space, and that are not a line break between two
parts of a string. -/
def Separator (s : List Nat) : Prop :=
  (∃ r m, s = r :: m ∧ isSpace r = true ∧ Skipped m) ∧ ¬ Continues (s ++ [39])

/-- Each of the pieces with its separator after it. -/
def spread (ws seps : List (List Nat)) : List Nat := (List.zipWith (· ++ ·) ws seps).flatten

end Maho.Spec
