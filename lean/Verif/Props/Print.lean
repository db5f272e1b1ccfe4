import Verif.Lemmas.PrintExpr
import Verif.Props.Expr
import Verif.Model.Ident
/-
C62 and C63: what is printed can be parsed.
-/
namespace Maho
open Maho.Spec

/-- The case of letters in ASCII; for the examples. -/
def printCase : CaseEnv where
  upper b := b.map fun c => if 97 ≤ c.toNat ∧ c.toNat ≤ 122 then c - 32#8 else c
  lower b := b.map fun c => if 65 ≤ c.toNat ∧ c.toNat ≤ 90 then c + 32#8 else c

/-- The identifiers after some names have been seen; for the examples. -/
def printRegistry : Registry :=
  (internAll printCase Registry.initial
    [(ascii "a", false), (ascii "b", false), (ascii "c", false), (ascii "t", false),
     (ascii "u", false), (ascii "f", false), (ascii "A", true)]).2

/-- Names as in types/identifier.go, and the numbers 1 and 1.5; for the examples. -/
def printEnv : ParseEnv where
  letter r := (65 ≤ r && r ≤ 90) || (97 ≤ r && r ≤ 122)
  digit r := 48 ≤ r && r ≤ 57
  parseFloat b := if b = ascii "1.5" then some 0x3FF8000000000000#64 else none
  id b quoted := (internID printCase printRegistry b quoted).1
  letter_ascii _ _ := rfl
  digit_ascii _ _ := rfl
  string := printRegistry.string
  formatFloat f := if f = 0x3FF0000000000000#64 then ascii "1" else ascii "1.5"
  formatFloatG _ := ascii "1.5"

/-- The number of a name. -/
def printId (s : String) : Identifier := printEnv.id (ascii s) false

/-- What the parser returns for a text in ASCII as an expression. -/
def parsePrinted (b : Bytes) : PRes Expr :=
  parseExpr printEnv (tokenize printEnv.toScanEnv (source b))

/-- The tokens of a text in ASCII. -/
def printTokens (s : String) : List Token := tokenize printEnv.toScanEnv (source (ascii s))

theorem printEnv_knowsWords : KnowsWords printEnv.toScanEnv :=
  ⟨by unfold KnowsKeywords; decide +kernel, by decide +kernel, by decide +kernel⟩

theorem printEnv_plain : ∀ s ∈ ["a", "b", "c", "t", "u", "f"], Plain printEnv (printId s) := by
  intro s hs
  refine ⟨by revert s; decide +kernel, by revert s; decide +kernel, source (ascii s), ?_⟩
  have : ∀ s ∈ ["a", "b", "c", "t", "u", "f"], ∃ r ∈ List.range 128,
      source (ascii s) = [r] ∧ printEnv.letter r = true ∧ text [r] = printEnv.string (printId s) := by
    decide +kernel
  obtain ⟨r, hr, e, h1, h2⟩ := this s hs
  rw [e]
  have hlt : r < 128 := by simpa using hr
  refine ⟨⟨r, [], rfl, .inl h1, nofun⟩, fun c hc => ?_, encodes_ascii (by simpa using hr) h2⟩
  cases hc
  have h3 : ∀ r ∈ List.range 128, printEnv.letter r = true → isSpace r = false := by decide +kernel
  exact h3 r hr h1

/-! ### C62: printed expressions parse back -/

/-- What is printed of an expression is parsed, and the result is the expression with a node for
the parentheses around every operation: that is how `String` prints operations. Missing, besides
the parentheses (`C62_parentheses_added`): names that need quotes, constants that are not plain
(`C62_name_changed`, `C62_quote_lost`, `C62_bytes_changed`, `C62_float_changed`,
`C62_least_integer`), tests with `ANY` and `ALL` to the left of an operator (`C62_test_rejected`),
queries without `FROM` and with `HAVING` but without `GROUP BY` (`C62_no_from`,
`C62_having_lost`). -/
theorem C62_printed_partial (env : ParseEnv) (hw : KnowsWords env.toScanEnv) (e : Expr)
    (h : Printable env e) :
    ∃ l, Encodes l (e.print env) ∧
      parseExpr env (tokenize env.toScanEnv l) = .ok (parens e) [] := by
  obtain ⟨ts, h⟩ := expr_ok hw env.words e h
  obtain ⟨l, h1, _, _, h2⟩ := h.lex
  refine ⟨l, h1, ?_⟩
  have h2 := h2 [] closes_nil
  rw [List.append_nil, show tokenize env.toScanEnv [] = [] from rfl] at h2
  rw [h2]
  exact C61_written_partial env (parens e) ts [] h.written trivial

/-- The runes are determined by the bytes, so this holds for whatever runes the text decodes to. -/
theorem C62_decoded_partial (env : ParseEnv) (hw : KnowsWords env.toScanEnv) (e : Expr)
    (h : Printable env e) (l : List Nat) (hl : Encodes l (e.print env)) :
    parseExpr env (tokenize env.toScanEnv l) = .ok (parens e) [] := by
  obtain ⟨m, h1, h2⟩ := C62_printed_partial env hw e h
  rw [encodes_unique hl h1]
  exact h2

/-- Up to nodes for parentheses the result is the expression that was printed. -/
theorem C62_same_bare (e : Expr) : bare (parens e) = bare e := bare_parens e

/-- The result is printed in the same way as the expression. -/
theorem C62_same_text (env : ParseEnv) (e : Expr) : (parens e).print env = e.print env :=
  print_parens env e

/-- An expression that has the nodes for parentheses already is parsed back as it was. -/
theorem C62_same_partial (env : ParseEnv) (hw : KnowsWords env.toScanEnv) (e : Expr)
    (h : Printable env e) (hp : parens e = e) :
    ∃ l, Encodes l (e.print env) ∧ parseExpr env (tokenize env.toScanEnv l) = .ok e [] := by
  obtain ⟨l, h1, h2⟩ := C62_printed_partial env hw e h
  rw [hp] at h2
  exact ⟨l, h1, h2⟩

/-- With the name `é`; for the example. -/
def wideEnv : ParseEnv := { printEnv with
  letter := fun r => printEnv.letter r || r == 0xE9
  id := fun b quoted => if b = [0xC3#8, 0xA9#8] then 1000 else printEnv.id b quoted
  letter_ascii := fun r h => by
    rw [printEnv.letter_ascii r h, Bool.or_eq_left_iff_imp]
    simp
    omega
  string := fun id => if id = 1000 then [0xC3#8, 0xA9#8] else printEnv.string id }

-- Names do not have to be in ASCII.
example : KnowsWords wideEnv.toScanEnv ∧ Printable wideEnv (.ref 1000 []) ∧
    (Expr.ref 1000 []).print wideEnv = [0xC3#8, 0xA9#8] ∧
    Encodes [0xE9] [0xC3#8, 0xA9#8] := by
  have he : Encodes [0xE9] [0xC3#8, 0xA9#8] := ⟨fun r hr => by
    rw [List.mem_singleton.1 hr]
    exact .inl (by decide), by decide +kernel⟩
  refine ⟨⟨by unfold KnowsKeywords; decide +kernel, by decide +kernel, by decide +kernel⟩,
    ⟨⟨by decide, by decide +kernel, [0xE9], ⟨0xE9, [], rfl, .inl (by decide +kernel), nofun⟩, ?_, he⟩,
      nofun⟩, by decide +kernel, he⟩
  rintro r hr
  cases hr
  decide

/-- `f(a, NULL) == 'it' OR NOT EXISTS(SELECT b AS c FROM (t JOIN u USING (b)) WHERE -7)` -/
example : ∃ e, Printable printEnv e ∧
    e.print printEnv = ascii ("((f(a, NULL) == 'it') OR (NOT EXISTS(SELECT b AS c FROM " ++
      "(t JOIN u USING (b)) WHERE -7)))") ∧ parens e ≠ e ∧ parens (parens e) = parens e := by
  have h := printEnv_plain
  have ha := h "a" (by simp)
  have hb := h "b" (by simp)
  have hc := h "c" (by simp)
  have hf := h "f" (by simp)
  have ht := h "t" (by simp)
  have hu := h "u" (by simp)
  refine ⟨.binary .or (.binary .equal (.call (printId "f") [.ref (printId "a") [], .lit none])
      (.lit (some (.str (ascii "it")))))
    (.unary .not (.subquery .exists .add none (.select [.expr (.ref (printId "b") []) (printId "c")]
      (some (.join (.table ⟨0, 0, printId "t"⟩ 0) (.table ⟨0, 0, printId "u"⟩ 0) .join none
        [printId "b"])) (some (.lit (some (.int (-7))))) [] none []))), ?_, by decide +kernel, ?_, rfl⟩
  · refine ⟨by simp [IsInfix], trivial, ⟨by simp [IsInfix], trivial, ⟨hf, ⟨ha, nofun⟩, trivial, trivial⟩,
      source (ascii "it"), encodes_source (by decide) , by decide⟩, .inl (.inl rfl),
      ⟨⟨⟨⟨hb, nofun⟩, .inr hc⟩, trivial⟩, ⟨⟨⟨ht, .inl ⟨rfl, rfl⟩⟩, .inl rfl⟩,
        ⟨⟨hu, .inl ⟨rfl, rfl⟩⟩, .inl rfl⟩, trivial, by simp, by simpa using hb, by simp, by simp⟩,
        ?_, trivial, trivial, fun _ => rfl, nofun⟩, rfl, rfl⟩
    show BitVec.toInt (-7#64) ≠ -2 ^ 63
    decide
  · simp [parens]

/-- What is parsed of a text, if the text and its tokens are known. -/
theorem parsePrinted_eq {b : Bytes} {s : String} {ts : List Token} {r : PRes Expr} (h1 : b = ascii s)
    (h2 : printTokens s = ts) (h3 : parseExpr printEnv ts = r) : parsePrinted b = r := by
  rw [parsePrinted, h1]
  exact (congrArg (parseExpr printEnv) h2).trans h3

/-- Operations are printed with parentheses, and parentheses are nodes of the tree: `a + b` is
printed as `(a + b)`. -/
theorem C62_parentheses_added : ∃ e e', Printable printEnv e ∧ parsePrinted (e.print printEnv) = .ok e' [] ∧
    e' ≠ e := by
  refine ⟨.binary .add (.ref (printId "a") []) (.ref (printId "b") []),
    .unary .noOp (.binary .add (.ref 47 []) (.ref 48 [])), ?_, ?_, nofun⟩
  · exact ⟨by simp [IsInfix], trivial, ⟨printEnv_plain "a" (by simp), nofun⟩,
      printEnv_plain "b" (by simp), nofun⟩
  · exact parsePrinted_eq (s := "(a + b)")
      (ts := [Tok.lparen, .identifier 47, .rune 43, .identifier 48, Tok.rparen])
      (by decide +kernel) (by decide +kernel) rfl

/-- Names are printed without quotes: the name `"A"` (number 53) is read as the name `a`. -/
theorem C62_name_changed : printEnv.id (ascii "A") true = 53 ∧
    parsePrinted ((Expr.ref 53 []).print printEnv) = .ok (.ref 47 []) [] :=
  ⟨by decide +kernel, parsePrinted_eq (s := "A") (ts := [.identifier 47])
    (by decide +kernel) (by decide +kernel) rfl⟩

/-- Quotes in strings are not doubled: the string `a' OR 'b` is read as an operation on the strings
`a` and `b`. -/
theorem C62_quote_lost :
    parsePrinted ((Expr.lit (some (.str (ascii "a' OR 'b")))).print printEnv) =
      .ok (.binary .or (.lit (some (.str (ascii "a")))) (.lit (some (.str (ascii "b"))))) [] :=
  parsePrinted_eq (s := "'a' OR 'b'") (ts := [.string (ascii "a"), .reserved Kw.OR, .string (ascii "b")])
    (by decide +kernel) (by decide +kernel) rfl

/-- Bytes are printed as a string. -/
theorem C62_bytes_changed :
    parsePrinted ((Expr.lit (some (.bytes (ascii "ab")))).print printEnv) =
      .ok (.lit (some (.str (ascii "\\x6162")))) [] :=
  parsePrinted_eq (s := "'\\x6162'") (ts := [.string (ascii "\\x6162")])
    (by decide +kernel) (by decide +kernel) rfl

/-- The number 1.0 is printed as an integer. -/
theorem C62_float_changed :
    parsePrinted ((Expr.lit (some (.float 0x3FF0000000000000#64))).print printEnv) =
      .ok (.lit (some (.int 1))) [] :=
  parsePrinted_eq (s := "1") (ts := [.integer 1])
    (by decide +kernel) (by decide +kernel) rfl

/-- The digits of the least integer do not fit. -/
theorem C62_least_integer :
    ∃ ended rest, parsePrinted ((Expr.lit (some (.int (BitVec.ofInt 64 (-2 ^ 63))))).print printEnv) =
      .fail ended rest :=
  ⟨_, _, parsePrinted_eq (s := "-9223372036854775808") (ts := [.error false])
    (by decide +kernel) (by decide +kernel) rfl⟩

/-- The parser does not go on after a test: `(a == ANY(VALUES (1)) AND b)` is rejected. -/
theorem C62_test_rejected :
    ∃ ended rest, parsePrinted ((Expr.binary .and (.subquery .any .equal (some (.ref 47 []))
      (.values [[.lit (some (.int 1))]])) (.ref 48 [])).print printEnv) = .fail ended rest :=
  ⟨_, _, parsePrinted_eq (s := "(a == ANY(VALUES (1)) AND b)")
    (ts := [Tok.lparen, .identifier 47, .equalEqual, .reserved Kw.ANY, Tok.lparen,
      .reserved Kw.VALUES, Tok.lparen, .integer 1, Tok.rparen, Tok.rparen, .reserved Kw.AND,
      .identifier 48, Tok.rparen])
    (by decide +kernel) (by decide +kernel) rfl⟩

/-- `SELECT` without `FROM` is printed with the text of a nil interface after `FROM`. -/
theorem C62_no_from :
    ∃ ended rest, parsePrinted ((Expr.subquery .scalar .add none (.select [.expr (.ref 47 []) 0] none
      none [] none [])).print printEnv) = .fail ended rest :=
  ⟨_, _, parsePrinted_eq (s := "(SELECT a FROM %!s(<nil>))")
    (ts := [Tok.lparen, .reserved Kw.SELECT, .identifier 47, .reserved Kw.FROM, .error false,
      .identifier 54, Tok.lparen, .rune 60, .identifier 54, .rune 62, Tok.rparen, Tok.rparen])
    (by decide +kernel) (by decide +kernel) rfl⟩

/-- `HAVING` is printed only if there is `GROUP BY`. -/
theorem C62_having_lost :
    parsePrinted ((Expr.subquery .scalar .add none (.select [] (some (.table ⟨0, 0, 50⟩ 0))
      none [] (some (.ref 47 [])) [])).print printEnv) =
    .ok (.subquery .scalar .add none (.select [] (some (.table ⟨0, 0, 50⟩ 0)) none [] none [])) [] :=
  parsePrinted_eq (s := "(SELECT * FROM t)")
    (ts := [Tok.lparen, .reserved Kw.SELECT, .rune 42, .reserved Kw.FROM, .identifier 50, Tok.rparen])
    (by decide +kernel) (by decide +kernel) rfl

end Maho
