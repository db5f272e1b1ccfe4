import Verif.Lemmas.CompleteStmt
import Verif.Props.Parse
/-
C76: the statements that `Parse` accepts.
-/
namespace Maho
open Maho.Spec

/-- `Parse` returns a statement only if the tokens that it takes are that statement as the grammar
in the comments of parser/parser.go says, with operators in source order (C61 and C62 are about how
they nest). The statement is followed by `;` or by the end of the input. After an error, the tokens
up to the next `;` are skipped. The nil statement is a `;`, or one of three words. The tokens come
from a text: `eof` is not one of them, and no name has the number 0. -/
theorem C76_sound (env : ParseEnv) (failed f : Bool) (ts rest : List Token) (o : Option Stmt)
    (hR : Token.eof ∉ ts ∧ Token.identifier 0 ∉ ts)
    (h : parse env failed ts = (.stmt o, f, rest)) : f = false ∧
    ∃ skipped us, (match o with
      | some s => StmtForm env (ExprForm env) (QueryForm env) s us
      | none => us = [.endOfStatement] ∨
        ∃ w ∈ [Kw.DETACH, Kw.EXECUTE, Kw.PREPARE], us = [.reserved w]) ∧
      (if failed then ∃ m, Token.endOfStatement ∉ m ∧ skipped = m ++ [.endOfStatement]
        else skipped = []) ∧
      (ts = skipped ++ us ++ .endOfStatement :: rest ∨ ts = skipped ++ us ∧ rest = []) :=
  parse_sound hR h

/-- A definition with constraints of columns, a key and a foreign key. -/
def definition76 : String :=
  "CREATE TABLE t (a INT DEFAULT 1 + 2 NOT NULL PRIMARY KEY, b VARCHAR(10), " ++
  "CONSTRAINT c UNIQUE (a, b DESC), FOREIGN KEY (b) REFERENCES d ON DELETE SET NULL); BEGIN"

example : (parseText definition76).1.isStmt = true ∧
    (parseText definition76).2.2 = [.reserved Kw.BEGIN] ∧
    Token.eof ∉ tokenize asciiParse.toScanEnv (runes definition76) ∧
    Token.identifier 0 ∉ tokenize asciiParse.toScanEnv (runes definition76) := by decide +kernel

-- Texts that are not in the grammar.
example : (parseText "CREATE TABLE t (a INT, a INT)").1.isError = true ∧
    (parseText "CREATE TABLE t (a INT PRIMARY KEY, PRIMARY KEY (a))").1.isError = true ∧
    (parseText "CREATE TABLE t (a INT NOT NULL NOT NULL)").1.isError = true ∧
    (parseText "CREATE TABLE t (a INT(4))").1.isError = true ∧
    (parseText "INSERT INTO t (a, a) VALUES (1, 2)").1.isError = true ∧
    (parseText "DROP TABLE t CASCADE RESTRICT").1.isError = true ∧
    (parseText "; BEGIN").1.isError = true := by decide +kernel

/-- For the calls of `Parse` on a text: the statement that a call returns is written in the text,
before a `;` or the end. -/
theorem C76_input (env : ParseEnv) (l : List Nat) (k : Nat) (s : Stmt)
    (hid : ∀ b q, env.id b q ≠ 0)
    (hk : parsedAt env (tokenize env.toScanEnv l) k = .stmt (some s)) :
    ∃ pre us post, tokenize env.toScanEnv l = pre ++ us ++ post ∧
      StmtForm env (ExprForm env) (QueryForm env) s us ∧
      (post = [] ∨ ∃ m, post = .endOfStatement :: m) :=
  parsedAt_sound hid hk

example : (∀ b q, asciiParse.id b q ≠ 0) ∧
    (parsedAt asciiParse (tokenize asciiParse.toScanEnv (runes "a; BEGIN; c")) 1).isStmt = true := by
  refine ⟨fun b q => ?_, by decide +kernel⟩
  have hk : ∀ p ∈ keywords, p.2 ≠ 0 := by decide +kernel
  have hf : ∀ (b : Bytes) (n : Int), 0 ≤ n →
      0 ≤ b.foldl (fun (n : Int) c => 256 * n + (c.toNat : Int)) n := by
    intro b
    induction b with
    | nil => exact fun n h => h
    | cons c b ih => exact fun n h => ih _ (by show 0 ≤ 256 * n + (c.toNat : Int); omega)
  show (match if q then none else keywords.lookup b with
    | some id => id
    | none => 128 + b.foldl (fun (n : Int) c => 256 * n + (c.toNat : Int)) 0 : Int) ≠ 0
  split
  · rename_i id h
    cases q with
    | true => simp at h
    | false =>
      obtain ⟨l1, l2, h1, _⟩ := List.lookup_eq_some_iff.1 (by simpa using h)
      exact hk (b, id) (h1 ▸ by simp)
  · have := hf b 0 (by omega)
    omega

/-- What is written as the grammar says is accepted, as that statement: every form of every
statement, with queries and expressions as in Spec/Grammar.lean. The statement can be the last one
or be followed by `;`. Missing: what the code gets wrong (C61), operators after tests and tests with
a query after several operators. -/
theorem C76_complete_partial (env : ParseEnv) (failed : Bool) (skipped us : List Token)
    (o : Option Stmt)
    (h : match o with
      | some s => StmtForm env (Written env.words) (QueryText env.words) s us
      | none => us = [.endOfStatement] ∨
        ∃ w ∈ [Kw.DETACH, Kw.EXECUTE, Kw.PREPARE], us = [.reserved w])
    (hs : if failed then ∃ m, Token.endOfStatement ∉ m ∧ Token.eof ∉ m ∧ Token.error false ∉ m ∧
        skipped = m ++ [.endOfStatement]
      else skipped = []) :
    parse env failed (skipped ++ us) = (.stmt o, false, []) ∧
      ∀ rest, parse env failed (skipped ++ us ++ .endOfStatement :: rest) = (.stmt o, false, rest) :=
  parse_complete h hs

/-- The same tokens are not two statements. -/
theorem C76_unambiguous_partial (env : ParseEnv) (s1 s2 : Stmt) (us : List Token)
    (h1 : StmtForm env (Written env.words) (QueryText env.words) s1 us)
    (h2 : StmtForm env (Written env.words) (QueryText env.words) s2 us) : s1 = s2 := by
  have e1 := (C76_complete_partial env false [] us (some s1) h1 rfl).1
  have e2 := (C76_complete_partial env false [] us (some s2) h2 rfl).1
  rw [e1] at e2
  simpa using e2

/-- `CREATE TABLE IF NOT EXISTS t (a VARCHAR(9) DEFAULT 1 NOT NULL, CONSTRAINT c UNIQUE (a DESC))`
with the names 200, 201 and 202. -/
example (env : ParseEnv) : StmtForm env (Written env.words) (QueryText env.words)
    (.createTable ⟨⟨0, 0, 200⟩, [201], [⟨.string, 9, false, true⟩], [some (.lit (some (.int 1)))], true,
      [⟨.unique, 202, -1, ⟨true, [201], [true]⟩, none⟩], []⟩)
    [.reserved Kw.CREATE, .reserved Kw.TABLE, .reserved Kw.IF, .reserved Kw.NOT, .reserved Kw.EXISTS,
      .identifier 200, Tok.lparen, .identifier 201, .identifier Kw.VARCHAR, Tok.lparen, .integer 9,
      Tok.rparen, .reserved Kw.DEFAULT, .integer 1, .reserved Kw.NOT, .reserved Kw.NULL, Tok.comma,
      .reserved Kw.CONSTRAINT, .identifier 202, .reserved Kw.UNIQUE, Tok.lparen, .identifier 201,
      .reserved Kw.DESC, Tok.rparen, Tok.rparen] := by
  have d : Written env.words (.lit (some (.int 1))) [.integer 1] :=
    ⟨by simp [WellNested], .one (.integer 1)⟩
  have v : TypeForm ⟨.string, 9, false, false⟩
      (.identifier Kw.VARCHAR :: inParens [.integer 9]) :=
    .sized (ct := ⟨.string, 1, false, false⟩) (i := 9) (by decide) (.inl rfl) (by decide) (by decide)
  have k : KeyForm true ⟨true, [201], [true]⟩ (inParens [.identifier 201, .reserved Kw.DESC]) :=
    .mk (.one (.desc 201)) (by decide)
  refine .createTable (es := [_, _, _]) (ts := [_]) .yes (.one 200)
    (.cons (ts := .identifier 201 :: (.identifier Kw.VARCHAR :: inParens [.integer 9] ++
        [.reserved Kw.DEFAULT, .integer 1, .reserved Kw.NOT, .reserved Kw.NULL]))
      (.column (by decide) v (.cons (ts := [.reserved Kw.DEFAULT, .integer 1])
        (ColumnConstraintForm.default .none .unnamed d) (.cons (us := []) (ColumnConstraintForm.notNull .none rfl .unnamed) (.nil _))))
      (.one (.unique (n := 202) (ns := [_, _]) (.some 202) k ?_)))
  intro c hc
  cases hc

example : (parseText "CREATE TABLE IF NOT EXISTS t (a VARCHAR(9) DEFAULT 1 NOT NULL, CONSTRAINT c UNIQUE (a DESC))").1.isStmt =
    true := by decide +kernel

/-- `SHOW TABLES FROM d.s` after an error. -/
example (env : ParseEnv) : parse env true
    [.identifier 1, .endOfStatement, .reserved Kw.SHOW, .identifier Kw.TABLES, .reserved Kw.FROM,
      .identifier 200, Tok.dot, .identifier 201] =
    (.stmt (some (.query (infoQuery 200 Kw.METADATA Kw.TABLES
      (some (columnIs env "schema_name" (env.string 201)))))), false, []) :=
  (C76_complete_partial env true [.identifier 1, .endOfStatement]
    [.reserved Kw.SHOW, .identifier Kw.TABLES, .reserved Kw.FROM, .identifier 200, Tok.dot, .identifier 201]
    (some _) (.query (by decide) (.shows (.tablesFrom (ns := [_]) (.name _) (.two 200 201))))
    ⟨[.identifier 1], by decide, by decide, by decide, rfl⟩).1

/-- `SELECT * FROM (SHOW DATABASES) AS a`. -/
example (env : ParseEnv) : parse env false
    [.reserved Kw.SELECT, Tok.star, .reserved Kw.FROM, Tok.lparen, .reserved Kw.SHOW,
      .identifier Kw.DATABASES, Tok.rparen, .reserved Kw.AS, .identifier 200] =
    (.stmt (some (.query (.select [] (some (.stmt (infoQuery Kw.SYSTEM Kw.INFO Kw.DATABASES none)
      200 [])) none [] none []))), false, []) :=
  (C76_complete_partial env false [] _ (some _) (.query (by decide)
    (.select (ts := [_]) (ws := []) (gs := []) (hs := []) (os := []) .star
      (.some (.one (.plain (.stmt (ts := [_, _]) (vs := []) (.shows (.databases (.name _)))
        (.as 200) .none)))) (.none _) .none (.none _) .none)) rfl).1

end Maho
