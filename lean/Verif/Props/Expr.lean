import Verif.Lemmas.GrammarSelect
import Verif.Model.Ident
/-
C61: precedence and associativity of the operators.
-/
namespace Maho
open Maho.Spec

/-- Names are numbers; for the examples. -/
def numberEnv : ParseEnv where
  letter r := (65 ≤ r && r ≤ 90) || (97 ≤ r && r ≤ 122)
  digit r := 48 ≤ r && r ≤ 57
  parseFloat _ := some 0
  id b _ := b.foldl (fun n c => 256 * n + (c.toNat : Int)) 128
  letter_ascii _ _ := rfl
  digit_ascii _ _ := rfl
  string _ := []
  formatFloat _ := ascii "0"
  formatFloatG _ := ascii "0"

/-! ### C61: expressions respect precedence and associativity -/

/-- For every way to write an expression there is exactly one tree with its operands and operators
in that order in which tighter operators are inside of looser ones and operators that are as tight
associate to the left, and the parser returns it. What is in parentheses, in calls and in queries is
written in the same way. Missing: an operator after one of the tests `IS`, `IN`, `ANY`, `SOME` and
`ALL`, and operators in parentheses to the left of such a test with a query that are not in the
order of their precedence already (`C61_test_not_nested`, `C61_test_stops`, `C61_in_not_nested`). -/
theorem C61_nested_partial (env : ParseEnv) (its : List Part) (ts rest : List Token)
    (h : PiecesText env.words its ts) (hr : Stops rest) :
    ∃ e, parseExpr env (ts ++ rest) = .ok e rest ∧ WellNested e ∧ pieces e = its ∧
      ∀ e', WellNested e' → pieces e' = its → e' = e := by
  have hb := build_spec (pieces_sequence h)
  refine ⟨build its, parseExpr_run h hr, hb.1, hb.2, fun e' h1 h2 => ?_⟩
  rw [← h2, build_pieces e' h1]

/-- The tree itself, if it is known. -/
theorem C61_written_partial (env : ParseEnv) (e : Expr) (ts rest : List Token)
    (h : Written env.words e ts) (hr : Stops rest) :
    parseExpr env (ts ++ rest) = .ok e rest := by
  obtain ⟨h1, h2⟩ := h
  rw [parseExpr_run h2 hr, build_pieces e h1]

/-- `a + b * c - NOT (d OR e) && f IS NULL` in tokens, with the names 201 to 206. -/
example : ∃ e, parseExpr numberEnv
      [.identifier 201, .rune 43, .identifier 202, .rune 42, .identifier 203, .rune 45,
       .rune 45, Tok.lparen, .identifier 204, .reserved Kw.OR, .identifier 205, Tok.rparen,
       .reserved Kw.AND, .identifier 206, .reserved Kw.IS, .reserved Kw.NULL, .reserved Kw.FROM] =
      .ok e [.reserved Kw.FROM] ∧
    e = .binary .and
      (.binary .subtract
        (.binary .add (.ref 201 []) (.binary .multiply (.ref 202 []) (.ref 203 [])))
        (.unary .negate (.unary .noOp (.binary .or (.ref 204 []) (.ref 205 [])))))
      (.call (numberEnv.id (ascii "is_null") false) [.ref 206 []]) := by
  refine ⟨_, C61_written_partial numberEnv _
    [.identifier 201, .rune 43, .identifier 202, .rune 42, .identifier 203, .rune 45,
     .rune 45, Tok.lparen, .identifier 204, .reserved Kw.OR, .identifier 205, Tok.rparen,
     .reserved Kw.AND, .identifier 206, .reserved Kw.IS, .reserved Kw.NULL]
    [.reserved Kw.FROM] ⟨?_, ?_⟩ ?_, rfl⟩
  · simp [WellNested, RootAtLeast, RootAbove, openPrefixes, IsInfix, IsPrefix]
    decide
  · have h4 : PiecesText numberEnv.words
        [.operand (.ref 204 []), .infix .or, .operand (.ref 205 [])]
        [.identifier 204, .reserved Kw.OR, .identifier 205] :=
      .infix (.ref 204 []) (by decide) (.one (.ref 205 []))
    have hp : Operand numberEnv.words
        (.unary .noOp (.binary .or (.ref 204 []) (.ref 205 [])))
        [Tok.lparen, .identifier 204, .reserved Kw.OR, .identifier 205, Tok.rparen] :=
      .paren (.mk (e := .binary .or (.ref 204 []) (.ref 205 [])) ⟨by unfold IsInfix; decide, trivial, trivial, trivial, trivial,
        nofun⟩ h4)
    exact .infix (.ref 201 []) (by decide) (.infix (.ref 202 []) (by decide)
      (.infix (.ref 203 []) (by decide) (.pre (by decide)
        (.infix hp (by decide) (.isNull (.ref 206 []))))))
  · show Kw.FROM ∉ _
    decide

/-- What the parser returns for `NOT a IS NULL == b` is not nested like this: the operator after the
test takes all that is before it, `(NOT (a IS NULL)) == b`, while `NOT a == b` is
`NOT (a == b)`. -/
theorem C61_test_not_nested : ∃ env ts e, parseExpr env ts = .ok e [] ∧ ¬ WellNested e := by
  refine ⟨numberEnv, [.reserved Kw.NOT, .identifier 201, .reserved Kw.IS, .reserved Kw.NULL,
    .equalEqual, .identifier 202], .binary .equal (.unary .not (.call (numberEnv.id (ascii "is_null")
      false) [.ref 201 []])) (.ref 202 []), rfl, ?_⟩
  intro h
  exact absurd (h.2.2.2.2.2 .not (List.mem_cons_self ..)) (by decide)

/-- `NOT a == b` with the names 201 and 202. -/
example : parseExpr numberEnv [.reserved Kw.NOT, .identifier 201, .equalEqual, .identifier 202] =
    .ok (.unary .not (.binary .equal (.ref 201 []) (.ref 202 []))) [] := rfl

/-- The parser does not go on after a test: of `a IS NULL AND b` it reads `a IS NULL`. -/
theorem C61_test_stops : parseExpr numberEnv [.identifier 201, .reserved Kw.IS, .reserved Kw.NULL,
      .reserved Kw.AND, .identifier 202] =
    .ok (.call (numberEnv.id (ascii "is_null") false) [.ref 201 []])
      [.reserved Kw.AND, .identifier 202] := rfl

/-- To the left of `IN` the operators in parentheses nest to the right, whatever their precedence:
`(2 * 3 + 1) IN (VALUES (7))` is read as `(2 * (3 + 1)) IN (VALUES (7))`. -/
theorem C61_in_not_nested :
    parseExpr numberEnv [Tok.lparen, .integer 2, .rune 42, .integer 3, .rune 43, .integer 1,
      Tok.rparen, .reserved Kw.IN, Tok.lparen, .reserved Kw.VALUES, Tok.lparen, .integer 7,
      Tok.rparen, Tok.rparen] =
    .ok (.subquery .any .equal
      (some (.unary .noOp (.binary .multiply (.lit (some (.int 2)))
        (.binary .add (.lit (some (.int 3))) (.lit (some (.int 1)))))))
      (.values [[.lit (some (.int 7))]])) [] ∧
    ¬ WellNested (.binary .multiply (.lit (some (.int 2)))
        (.binary .add (.lit (some (.int 3))) (.lit (some (.int 1))))) := by
  refine ⟨rfl, fun h => ?_⟩
  exact absurd (show tightness .multiply < tightness .add from h.2.2.2.2.1) (by decide)

/-- The numbers of the words that the parser and the grammar know are those of the keywords and of
the identifiers that are known from the start. -/
theorem C61_words :
    [("ACTION", Kw.ACTION), ("ADD", Kw.ADD), ("ALL", Kw.ALL), ("ALTER", Kw.ALTER), ("AND", Kw.AND),
    ("ANY", Kw.ANY), ("AS", Kw.AS), ("ASC", Kw.ASC), ("BEGIN", Kw.BEGIN), ("BY", Kw.BY),
    ("CASCADE", Kw.CASCADE), ("CHECK", Kw.CHECK), ("COLUMN", Kw.COLUMN), ("COMMIT", Kw.COMMIT),
    ("CONSTRAINT", Kw.CONSTRAINT), ("COPY", Kw.COPY), ("CREATE", Kw.CREATE), ("CROSS", Kw.CROSS),
    ("DATABASE", Kw.DATABASE), ("DEFAULT", Kw.DEFAULT), ("DELETE", Kw.DELETE),
    ("DELIMITER", Kw.DELIMITER), ("DESC", Kw.DESC), ("DETACH", Kw.DETACH), ("DROP", Kw.DROP),
    ("EXECUTE", Kw.EXECUTE), ("EXISTS", Kw.EXISTS), ("EXPLAIN", Kw.EXPLAIN), ("FALSE", Kw.FALSE),
    ("FOREIGN", Kw.FOREIGN), ("FROM", Kw.FROM), ("FULL", Kw.FULL), ("GROUP", Kw.GROUP),
    ("HAVING", Kw.HAVING), ("IF", Kw.IF), ("IN", Kw.IN), ("INDEX", Kw.INDEX),
    ("INNER", Kw.INNER), ("INSERT", Kw.INSERT), ("INTO", Kw.INTO), ("IS", Kw.IS),
    ("JOIN", Kw.JOIN), ("KEY", Kw.KEY), ("LEFT", Kw.LEFT), ("NO", Kw.NO), ("NOT", Kw.NOT),
    ("NULL", Kw.NULL), ("ON", Kw.ON), ("OR", Kw.OR), ("ORDER", Kw.ORDER), ("OUTER", Kw.OUTER),
    ("PREPARE", Kw.PREPARE), ("PRIMARY", Kw.PRIMARY), ("REFERENCES", Kw.REFERENCES),
    ("RESTRICT", Kw.RESTRICT), ("RIGHT", Kw.RIGHT), ("ROLLBACK", Kw.ROLLBACK),
    ("SCHEMA", Kw.SCHEMA), ("SELECT", Kw.SELECT), ("SET", Kw.SET), ("SHOW", Kw.SHOW),
    ("SOME", Kw.SOME), ("START", Kw.START), ("TABLE", Kw.TABLE), ("TO", Kw.TO),
    ("TRANSACTION", Kw.TRANSACTION), ("TRUE", Kw.TRUE), ("UNIQUE", Kw.UNIQUE),
    ("UPDATE", Kw.UPDATE), ("USE", Kw.USE), ("USING", Kw.USING), ("VALUES", Kw.VALUES),
    ("VERBOSE", Kw.VERBOSE), ("WHERE", Kw.WHERE), ("WITH", Kw.WITH), ("BIGINT", Kw.BIGINT),
    ("BINARY", Kw.BINARY), ("BLOB", Kw.BLOB), ("BOOL", Kw.BOOL), ("BOOLEAN", Kw.BOOLEAN),
    ("BYTEA", Kw.BYTEA), ("BYTES", Kw.BYTES), ("CHAR", Kw.CHAR), ("CHARACTER", Kw.CHARACTER),
    ("DOUBLE", Kw.DOUBLE), ("INT", Kw.INT), ("INT2", Kw.INT2), ("INT4", Kw.INT4),
    ("INT8", Kw.INT8), ("INTEGER", Kw.INTEGER), ("PRECISION", Kw.PRECISION), ("REAL", Kw.REAL),
    ("SMALLINT", Kw.SMALLINT), ("STDIN", Kw.STDIN), ("TEXT", Kw.TEXT),
    ("VARBINARY", Kw.VARBINARY), ("VARCHAR", Kw.VARCHAR)].all (fun p => p ∈ keywordTable) = true ∧
    [("btree", Kw.BTREE), ("columns", Kw.COLUMNS), ("config", Kw.CONFIG),
    ("constraints", Kw.CONSTRAINTS), ("count", Kw.COUNT), ("count_all", Kw.COUNT_ALL),
    ("databases", Kw.DATABASES), ("info", Kw.INFO), ("metadata", Kw.METADATA),
    ("schemas", Kw.SCHEMAS), ("system", Kw.SYSTEM), ("tables", Kw.TABLES)].all (fun p => p ∈ initialIdentifiers) = true := by
  decide +kernel

end Maho
