import Verif.Lemmas.PrintTable
import Verif.Lemmas.SoundParse
import Verif.Props.Print
/-
C63: printed statements can be parsed.
-/
namespace Maho
open Maho.Spec

/-! ### C63: printed statements parse back -/

/-- What is printed of a statement is parsed by `Parse`, before the end of the input and before a
semicolon, and the result is the statement with a node for the parentheses around every operation.
Missing, besides what is missing from C62: the value `DEFAULT` (`C63_insert_panics`,
`C63_update_rejected`), types other than BOOL, BYTES, DOUBLE and INT (`C63_size_lost`,
`C63_type_rejected`), constraints without a name or of a column (`C63_check_rejected`,
`C63_column_check_moved`, `C63_notNull_name_lost`), foreign keys without a name or with actions
(`C63_foreign_key_rejected`, `C63_actions_lost`), `VERBOSE` (`C63_verbose_lost`), strings as values of
variables and options (`C63_set_rejected`, `C63_option_rejected`), and `COPY` without columns or with
a quote as the delimiter (`C63_copy_rejected`, `C63_delimiter_rejected`). -/
theorem C63_printed_partial (env : ParseEnv) (hw : KnowsWords env.toScanEnv) (s : Stmt)
    (h : PrintableStmt env s) :
    ∃ b l, s.print env = .ok b ∧ Encodes l b ∧
      parse env false (tokenize env.toScanEnv l) = (.stmt (some (parensStmt s)), false, []) ∧
      ∀ rest, parse env false (tokenize env.toScanEnv (l ++ 59 :: rest)) =
        (.stmt (some (parensStmt s)), false, tokenize env.toScanEnv rest) :=
  parse_printed hw h

/-- The runes are determined by the bytes, so this holds for whatever runes the text decodes to. -/
theorem C63_decoded_partial (env : ParseEnv) (hw : KnowsWords env.toScanEnv) (s : Stmt)
    (h : PrintableStmt env s) (b : Bytes) (hb : s.print env = .ok b) (l : List Nat)
    (hl : Encodes l b) :
    parse env false (tokenize env.toScanEnv l) = (.stmt (some (parensStmt s)), false, []) := by
  obtain ⟨b', m, h1, h2, h3, _⟩ := C63_printed_partial env hw s h
  rw [hb] at h1
  cases h1
  rw [encodes_unique hl h2]
  exact h3

/-- Up to nodes for parentheses the result is the statement that was printed. -/
theorem C63_same_bare (s : Stmt) : bareStmt (parensStmt s) = bareStmt s := bareStmt_parens s

/-- The result is printed in the same way as the statement. -/
theorem C63_same_text (env : ParseEnv) (s : Stmt) : (parensStmt s).print env = s.print env :=
  printStmt_parens env s

/-- The result, printed and parsed once more, does not change any more. -/
theorem C63_fixed_partial (env : ParseEnv) (hw : KnowsWords env.toScanEnv) (s : Stmt)
    (h : PrintableStmt env s) :
    ∃ b l, (parensStmt s).print env = .ok b ∧ Encodes l b ∧
      parse env false (tokenize env.toScanEnv l) = (.stmt (some (parensStmt s)), false, []) := by
  obtain ⟨b, l, h1, h2, h3, _⟩ := C63_printed_partial env hw s h
  exact ⟨b, l, by rw [C63_same_text]; exact h1, h2, h3⟩

/-- Statements without expressions and queries are parsed back as they were. -/
theorem C63_same_partial (env : ParseEnv) (hw : KnowsWords env.toScanEnv) (s : Stmt)
    (h : PrintableStmt env s) (hs : parensStmt s = s) :
    ∃ b l, s.print env = .ok b ∧ Encodes l b ∧
      parse env false (tokenize env.toScanEnv l) = (.stmt (some s), false, []) := by
  obtain ⟨b, l, h1, h2, h3, _⟩ := C63_printed_partial env hw s h
  rw [hs] at h3
  exact ⟨b, l, h1, h2, h3⟩

/-- A table with columns, constraints and a foreign key; for the examples. -/
def printedTable (a b c f t u : Identifier) : CreateTable :=
  ⟨⟨0, f, t⟩, [a, b], [⟨.int64, 4, false, true⟩, ⟨.bool, 1, false, false⟩],
    [some (.binary .add (.lit (some (.int 1))) (.lit (some (.int 2)))), none], true,
    [⟨.primary, c, -1, ⟨true, [a, b], [false, true]⟩, none⟩,
     ⟨.check, f, -1, ⟨false, [], []⟩, some (.ref b [])⟩],
    [⟨u, [b], ⟨0, 0, u⟩, [c], .noAction, .noAction⟩]⟩

theorem printedTable_printable (env : ParseEnv) {a b c f t u : Identifier} (ha : Plain env a)
    (hb : Plain env b) (hc : Plain env c) (hf : Plain env f) (ht : Plain env t) (hu : Plain env u)
    (hab : a ≠ b) (hc0 : c ≠ 0) (hf0 : f ≠ 0) (hu0 : u ≠ 0) :
    PrintableTable env (printedTable a b c f t u) where
  table := ⟨ht, .inr (.inl ⟨rfl, hf0, hf⟩)⟩
  nonempty := List.cons_ne_nil _ _
  distinct := by simpa [printedTable] using hab
  types := rfl
  defaults := rfl
  columns := by
    intro col hcol
    simp only [printedTable, List.zip_cons_cons, List.zip_nil_right, List.mem_cons, List.not_mem_nil,
      or_false] at hcol
    rcases hcol with rfl | rfl
    · refine ⟨ha, ⟨rfl, .inr (.inr (.inr ⟨rfl, rfl⟩))⟩, ?_⟩
      simp only [PrintableOpt, Printable]
      refine ⟨by simp [IsInfix], trivial, ?_, ?_⟩
      · show BitVec.toInt 1#64 ≠ -2 ^ 63
        decide
      · show BitVec.toInt 2#64 ≠ -2 ^ 63
        decide
    · exact ⟨hb, ⟨rfl, .inl ⟨rfl, rfl⟩⟩, trivial⟩
  constraints := by
    intro d hd
    simp only [printedTable, List.mem_cons, List.not_mem_nil, or_false] at hd
    rcases hd with rfl | rfl
    · exact ⟨hc0, hc, rfl, ⟨by simp, by simpa using hab, by simp [ha, hb], rfl⟩, rfl, rfl⟩
    · exact ⟨hf0, hf, rfl, rfl, rfl, by simpa [PrintableOpt, Printable] using hb⟩
  compatible := by simp [printedTable, Compatible]
  foreignKeys := by
    intro fk hfk
    obtain rfl : fk = _ := by simpa [printedTable] using hfk
    exact ⟨hu0, hu, by simp, by simpa using hb, ⟨hu, .inl ⟨rfl, rfl⟩⟩, by simpa using hc, rfl, rfl⟩

example : ∃ s, PrintableStmt printEnv (.createTable s) ∧ (Stmt.createTable s).print printEnv =
    .ok (ascii ("CREATE TABLE IF NOT EXISTS f.t (a INT NOT NULL DEFAULT (1 + 2), b BOOL, " ++
      "CONSTRAINT c PRIMARY KEY (a ASC, b DESC), CONSTRAINT f CHECK (b), " ++
      "CONSTRAINT u FOREIGN KEY (b) REFERENCES u (c))")) := by
  have h := printEnv_plain
  exact ⟨_, printedTable_printable printEnv (h "a" (by simp)) (h "b" (by simp)) (h "c" (by simp))
    (h "f" (by simp)) (h "t" (by simp)) (h "u" (by simp)) (by decide +kernel) (by decide +kernel)
    (by decide +kernel) (by decide +kernel), by decide +kernel⟩

/-- `INSERT INTO t (a, b) VALUES (1, f()), (NULL, a)` -/
example : ∃ s, PrintableStmt printEnv s ∧
    s.print printEnv = .ok (ascii "INSERT INTO t (a, b) VALUES (1, f()), (NULL, a)") := by
  have h := printEnv_plain
  have ha := h "a" (by simp)
  have hb := h "b" (by simp)
  have hf := h "f" (by simp)
  have ht := h "t" (by simp)
  refine ⟨.insert ⟨0, 0, printId "t"⟩ [printId "a", printId "b"]
    [[some (.lit (some (.int 1))), some (.call (printId "f") [])],
     [some (.lit none), some (.ref (printId "a") [])]], ?_, by decide +kernel⟩
  refine ⟨⟨ht, .inl ⟨rfl, rfl⟩⟩, by decide +kernel, by simp [ha, hb], by simp, ?_⟩
  have h1 : Printable printEnv (.lit (some (.int 1))) := by
    show BitVec.toInt 1#64 ≠ -2 ^ 63
    decide
  have h2 : Printable printEnv (.call (printId "f") []) := ⟨hf, trivial⟩
  have h3 : Printable printEnv (.lit none) := trivial
  have h4 : Printable printEnv (.ref (printId "a") []) := ⟨ha, nofun⟩
  intro row hrow
  simp only [List.mem_cons, List.not_mem_nil, or_false] at hrow
  rcases hrow with rfl | rfl
  · refine ⟨by simp, fun o ho => ?_⟩
    simp only [List.mem_cons, List.not_mem_nil, or_false] at ho
    rcases ho with rfl | rfl
    · exact ⟨rfl, h1⟩
    · exact ⟨rfl, h2⟩
  · refine ⟨by simp, fun o ho => ?_⟩
    simp only [List.mem_cons, List.not_mem_nil, or_false] at ho
    rcases ho with rfl | rfl
    · exact ⟨rfl, h3⟩
    · exact ⟨rfl, h4⟩

/-- `ALTER TABLE t DROP CONSTRAINT IF EXISTS a, ALTER COLUMN b DROP NOT NULL` -/
example : ∃ s, PrintableStmt printEnv s ∧ parensStmt s = s ∧ s.print printEnv =
    .ok (ascii "ALTER TABLE t DROP CONSTRAINT IF EXISTS a, ALTER COLUMN b DROP NOT NULL") := by
  have h := printEnv_plain
  refine ⟨.alterTable ⟨0, 0, printId "t"⟩ [.dropConstraint (printId "a") true 0 .none,
    .dropConstraint 0 false (printId "b") .notNull], ?_, rfl, by decide +kernel⟩
  refine ⟨⟨h "t" (by simp), .inl ⟨rfl, rfl⟩⟩, by simp, ?_⟩
  intro a ha
  simp only [List.mem_cons, List.not_mem_nil, or_false] at ha
  rcases ha with rfl | rfl
  · exact .inl ⟨by decide +kernel, h "a" (by simp), rfl, rfl⟩
  · exact .inr ⟨rfl, rfl, h "b" (by simp), .inr rfl⟩

/-- The parser reads a text as one statement and nothing is left. -/
def ReadsAs (text : String) (s : Stmt) : Prop :=
  parse printEnv false (printTokens text) = (.stmt (some s), false, [])

/-- The parser rejects a text. -/
def Rejects (text : String) : Prop := (parse printEnv false (printTokens text)).1 = .error

theorem readsAs_of {text : String} {s : Stmt} {ts : List Token} (h1 : printTokens text = ts)
    (h2 : parse printEnv false ts = (.stmt (some s), false, [])) : ReadsAs text s := by
  unfold ReadsAs
  rw [h1]
  exact h2

theorem rejects_of {text : String} {ts : List Token} (h1 : printTokens text = ts)
    (h2 : (parse printEnv false ts).1 = .error) : Rejects text := by
  unfold Rejects
  rw [h1]
  exact h2

/-- `INSERT` with the value `DEFAULT` cannot be printed: the value is a nil interface. -/
theorem C63_insert_panics : ∃ s, ReadsAs "INSERT INTO t VALUES (DEFAULT)" s ∧
    s.print printEnv = .panic :=
  ⟨.insert ⟨0, 0, 50⟩ [] [[none]],
    readsAs_of (ts := [.reserved Kw.INSERT, .reserved Kw.INTO, .identifier 50, .reserved Kw.VALUES, Tok.lparen, .reserved Kw.DEFAULT, Tok.rparen])
      (by decide +kernel) rfl, by decide +kernel⟩

/-- `UPDATE` with the value `DEFAULT` is printed with the text of a nil interface. -/
theorem C63_update_rejected : ∃ s, ReadsAs "UPDATE t SET a = DEFAULT" s ∧
    s.print printEnv = .ok (ascii "UPDATE t SET a = %!s(<nil>)") ∧
    Rejects "UPDATE t SET a = %!s(<nil>)" :=
  ⟨.update ⟨0, 0, 50⟩ [(47, none)] none,
    readsAs_of (ts := [.reserved Kw.UPDATE, .identifier 50, .reserved Kw.SET, .identifier 47, Tok.equal, .reserved Kw.DEFAULT])
      (by decide +kernel) rfl, by decide +kernel,
    rejects_of (ts := [.reserved Kw.UPDATE, .identifier 50, .reserved Kw.SET, .identifier 47, Tok.equal, .error false, .identifier 54, Tok.lparen, .rune 60, .identifier 54, .rune 62, Tok.rparen])
      (by decide +kernel) rfl⟩

/-- The size of a column is not printed: `BIGINT` becomes `INT`. -/
theorem C63_size_lost : ∃ s, ReadsAs "CREATE TABLE t (a BIGINT)" s ∧
    ∃ s', s.print printEnv = .ok (ascii "CREATE TABLE t (a INT)") ∧
    ReadsAs "CREATE TABLE t (a INT)" s' ∧ bareStmt s' ≠ bareStmt s :=
  ⟨.createTable ⟨⟨0, 0, 50⟩, [47], [⟨.int64, 8, false, false⟩], [none], false, [], []⟩,
    readsAs_of (ts := [.reserved Kw.CREATE, .reserved Kw.TABLE, .identifier 50, Tok.lparen, .identifier 47, .identifier Kw.BIGINT, Tok.rparen])
      (by decide +kernel) rfl,
    .createTable ⟨⟨0, 0, 50⟩, [47], [⟨.int64, 4, false, false⟩], [none], false, [], []⟩, by decide +kernel,
    readsAs_of (ts := [.reserved Kw.CREATE, .reserved Kw.TABLE, .identifier 50, Tok.lparen, .identifier 47, .identifier Kw.INT, Tok.rparen])
      (by decide +kernel) rfl, by simp [bareStmt, changeStmt]⟩

/-- The type of strings is printed as `STRING`, which the parser does not know. -/
theorem C63_type_rejected : ∃ s, ReadsAs "CREATE TABLE t (a TEXT)" s ∧
    s.print printEnv = .ok (ascii "CREATE TABLE t (a STRING)") ∧
    Rejects "CREATE TABLE t (a STRING)" :=
  ⟨.createTable ⟨⟨0, 0, 50⟩, [47], [⟨.string, BitVec.ofNat 32 maxColumnSize, false, false⟩], [none], false, [], []⟩,
    readsAs_of (ts := [.reserved Kw.CREATE, .reserved Kw.TABLE, .identifier 50, Tok.lparen, .identifier 47, .identifier Kw.TEXT, Tok.rparen])
      (by decide +kernel) rfl, by decide +kernel,
    rejects_of (ts := [.reserved Kw.CREATE, .reserved Kw.TABLE, .identifier 50, Tok.lparen, .identifier 47, .identifier 54, Tok.rparen])
      (by decide +kernel) rfl⟩

/-- `CONSTRAINT` is printed before a check without a name. -/
theorem C63_check_rejected : ∃ s, ReadsAs "CREATE TABLE t (a INT, CHECK (a))" s ∧
    s.print printEnv = .ok (ascii "CREATE TABLE t (a INT, CONSTRAINT  CHECK (a))") ∧
    Rejects "CREATE TABLE t (a INT, CONSTRAINT  CHECK (a))" :=
  ⟨.createTable ⟨⟨0, 0, 50⟩, [47], [⟨.int64, 4, false, false⟩], [none], false, [⟨.check, 0, -1, .zero, some (.ref 47 [])⟩], []⟩,
    readsAs_of (ts := [.reserved Kw.CREATE, .reserved Kw.TABLE, .identifier 50, Tok.lparen, .identifier 47, .identifier Kw.INT, Tok.comma, .reserved Kw.CHECK, Tok.lparen, .identifier 47, Tok.rparen, Tok.rparen])
      (by decide +kernel) rfl, by decide +kernel,
    rejects_of (ts := [.reserved Kw.CREATE, .reserved Kw.TABLE, .identifier 50, Tok.lparen, .identifier 47, .identifier Kw.INT, Tok.comma, .reserved Kw.CONSTRAINT, .reserved Kw.CHECK, Tok.lparen, .identifier 47, Tok.rparen, Tok.rparen])
      (by decide +kernel) rfl⟩

/-- The check of a column becomes one of the table. -/
theorem C63_column_check_moved : ∃ s, ReadsAs "CREATE TABLE t (a INT CONSTRAINT c CHECK (a))" s ∧
    ∃ s', s.print printEnv = .ok (ascii "CREATE TABLE t (a INT, CONSTRAINT c CHECK (a))") ∧
    ReadsAs "CREATE TABLE t (a INT, CONSTRAINT c CHECK (a))" s' ∧ bareStmt s' ≠ bareStmt s :=
  ⟨.createTable ⟨⟨0, 0, 50⟩, [47], [⟨.int64, 4, false, false⟩], [none], false, [⟨.check, 49, 0, .zero, some (.ref 47 [])⟩], []⟩,
    readsAs_of (ts := [.reserved Kw.CREATE, .reserved Kw.TABLE, .identifier 50, Tok.lparen, .identifier 47, .identifier Kw.INT, .reserved Kw.CONSTRAINT, .identifier 49, .reserved Kw.CHECK, Tok.lparen, .identifier 47, Tok.rparen, Tok.rparen])
      (by decide +kernel) rfl,
    .createTable ⟨⟨0, 0, 50⟩, [47], [⟨.int64, 4, false, false⟩], [none], false, [⟨.check, 49, -1, .zero, some (.ref 47 [])⟩], []⟩, by decide +kernel,
    readsAs_of (ts := [.reserved Kw.CREATE, .reserved Kw.TABLE, .identifier 50, Tok.lparen, .identifier 47, .identifier Kw.INT, Tok.comma, .reserved Kw.CONSTRAINT, .identifier 49, .reserved Kw.CHECK, Tok.lparen, .identifier 47, Tok.rparen, Tok.rparen])
      (by decide +kernel) rfl, by simp [bareStmt, changeStmt]⟩

/-- The name of `NOT NULL` is not printed. -/
theorem C63_notNull_name_lost : ∃ s, ReadsAs "CREATE TABLE t (a INT CONSTRAINT c NOT NULL)" s ∧
    ∃ s', s.print printEnv = .ok (ascii "CREATE TABLE t (a INT NOT NULL)") ∧
    ReadsAs "CREATE TABLE t (a INT NOT NULL)" s' ∧ bareStmt s' ≠ bareStmt s :=
  ⟨.createTable ⟨⟨0, 0, 50⟩, [47], [⟨.int64, 4, false, true⟩], [none], false, [⟨.notNull, 49, 0, .zero, none⟩], []⟩,
    readsAs_of (ts := [.reserved Kw.CREATE, .reserved Kw.TABLE, .identifier 50, Tok.lparen, .identifier 47, .identifier Kw.INT, .reserved Kw.CONSTRAINT, .identifier 49, .reserved Kw.NOT, .reserved Kw.NULL, Tok.rparen])
      (by decide +kernel) rfl,
    .createTable ⟨⟨0, 0, 50⟩, [47], [⟨.int64, 4, false, true⟩], [none], false, [], []⟩, by decide +kernel,
    readsAs_of (ts := [.reserved Kw.CREATE, .reserved Kw.TABLE, .identifier 50, Tok.lparen, .identifier 47, .identifier Kw.INT, .reserved Kw.NOT, .reserved Kw.NULL, Tok.rparen])
      (by decide +kernel) rfl, by simp [bareStmt, changeStmt]⟩

/-- `CONSTRAINT` is printed before a foreign key without a name. -/
theorem C63_foreign_key_rejected : ∃ s, ReadsAs "ALTER TABLE t ADD FOREIGN KEY (a) REFERENCES u" s ∧
    s.print printEnv = .ok (ascii "ALTER TABLE t ADD CONSTRAINT FOREIGN KEY (a) REFERENCES u") ∧
    Rejects "ALTER TABLE t ADD CONSTRAINT FOREIGN KEY (a) REFERENCES u" :=
  ⟨.alterTable ⟨0, 0, 50⟩ [.addForeignKey ⟨0, [47], ⟨0, 0, 51⟩, [], .noAction, .noAction⟩],
    readsAs_of (ts := [.reserved Kw.ALTER, .reserved Kw.TABLE, .identifier 50, .reserved Kw.ADD, .reserved Kw.FOREIGN, .reserved Kw.KEY, Tok.lparen, .identifier 47, Tok.rparen, .reserved Kw.REFERENCES, .identifier 51])
      (by decide +kernel) rfl, by decide +kernel,
    rejects_of (ts := [.reserved Kw.ALTER, .reserved Kw.TABLE, .identifier 50, .reserved Kw.ADD, .reserved Kw.CONSTRAINT, .reserved Kw.FOREIGN, .reserved Kw.KEY, Tok.lparen, .identifier 47, Tok.rparen, .reserved Kw.REFERENCES, .identifier 51])
      (by decide +kernel) rfl⟩

/-- The actions of a foreign key are not printed. -/
theorem C63_actions_lost : ∃ s, ReadsAs "ALTER TABLE t ADD CONSTRAINT c FOREIGN KEY (a) REFERENCES u ON DELETE CASCADE" s ∧
    ∃ s', s.print printEnv = .ok (ascii "ALTER TABLE t ADD CONSTRAINT c FOREIGN KEY (a) REFERENCES u") ∧
    ReadsAs "ALTER TABLE t ADD CONSTRAINT c FOREIGN KEY (a) REFERENCES u" s' ∧ bareStmt s' ≠ bareStmt s :=
  ⟨.alterTable ⟨0, 0, 50⟩ [.addForeignKey ⟨49, [47], ⟨0, 0, 51⟩, [], .cascade, .noAction⟩],
    readsAs_of (ts := [.reserved Kw.ALTER, .reserved Kw.TABLE, .identifier 50, .reserved Kw.ADD, .reserved Kw.CONSTRAINT, .identifier 49, .reserved Kw.FOREIGN, .reserved Kw.KEY, Tok.lparen, .identifier 47, Tok.rparen, .reserved Kw.REFERENCES, .identifier 51, .reserved Kw.ON, .reserved Kw.DELETE, .reserved Kw.CASCADE])
      (by decide +kernel) rfl,
    .alterTable ⟨0, 0, 50⟩ [.addForeignKey ⟨49, [47], ⟨0, 0, 51⟩, [], .noAction, .noAction⟩], by decide +kernel,
    readsAs_of (ts := [.reserved Kw.ALTER, .reserved Kw.TABLE, .identifier 50, .reserved Kw.ADD, .reserved Kw.CONSTRAINT, .identifier 49, .reserved Kw.FOREIGN, .reserved Kw.KEY, Tok.lparen, .identifier 47, Tok.rparen, .reserved Kw.REFERENCES, .identifier 51])
      (by decide +kernel) rfl, by simp [bareStmt, changeStmt]⟩

/-- `VERBOSE` is not printed. -/
theorem C63_verbose_lost : ∃ s, ReadsAs "EXPLAIN VERBOSE SELECT * FROM t" s ∧
    ∃ s', s.print printEnv = .ok (ascii "EXPLAIN SELECT * FROM t") ∧
    ReadsAs "EXPLAIN SELECT * FROM t" s' ∧ bareStmt s' ≠ bareStmt s :=
  ⟨.explain (.select [] (some (.table ⟨0, 0, 50⟩ 0)) none [] none []) true,
    readsAs_of (ts := [.reserved Kw.EXPLAIN, .reserved Kw.VERBOSE, .reserved Kw.SELECT, Tok.star, .reserved Kw.FROM, .identifier 50])
      (by decide +kernel) rfl,
    .explain (.select [] (some (.table ⟨0, 0, 50⟩ 0)) none [] none []) false, by decide +kernel,
    readsAs_of (ts := [.reserved Kw.EXPLAIN, .reserved Kw.SELECT, Tok.star, .reserved Kw.FROM, .identifier 50])
      (by decide +kernel) rfl, by simp [bareStmt, changeStmt]⟩

/-- A string as the value of a variable is printed without quotes. -/
theorem C63_set_rejected : ∃ s, ReadsAs "SET a = 'b'" s ∧
    s.print printEnv = .ok (ascii "SET a TO b") ∧
    Rejects "SET a TO b" :=
  ⟨.set 47 (ascii "b"),
    readsAs_of (ts := [.reserved Kw.SET, .identifier 47, Tok.equal, .string (ascii "b")])
      (by decide +kernel) rfl, by decide +kernel,
    rejects_of (ts := [.reserved Kw.SET, .identifier 47, .reserved Kw.TO, .identifier 48])
      (by decide +kernel) rfl⟩

/-- A string as the value of an option is printed without quotes. -/
theorem C63_option_rejected : ∃ s, ReadsAs "CREATE DATABASE t WITH a = 'b c'" s ∧
    s.print printEnv = .ok (ascii "CREATE DATABASE t WITH a = b c") ∧
    Rejects "CREATE DATABASE t WITH a = b c" :=
  ⟨.createDatabase 50 [(47, ascii "b c")],
    readsAs_of (ts := [.reserved Kw.CREATE, .reserved Kw.DATABASE, .identifier 50, .reserved Kw.WITH, .identifier 47, Tok.equal, .string (ascii "b c")])
      (by decide +kernel) rfl, by decide +kernel,
    rejects_of (ts := [.reserved Kw.CREATE, .reserved Kw.DATABASE, .identifier 50, .reserved Kw.WITH, .identifier 47, Tok.equal, .identifier 48, .identifier 49])
      (by decide +kernel) rfl⟩

/-- `COPY` without columns is printed with empty parentheses. -/
theorem C63_copy_rejected : ∃ s, ReadsAs "COPY t FROM STDIN" s ∧
    s.print printEnv = .ok (ascii "COPY t () FROM STDIN") ∧
    Rejects "COPY t () FROM STDIN" :=
  ⟨.copy ⟨0, 0, 50⟩ [] [] 9,
    readsAs_of (ts := [.reserved Kw.COPY, .identifier 50, .reserved Kw.FROM, .identifier Kw.STDIN])
      (by decide +kernel) rfl, by decide +kernel,
    rejects_of (ts := [.reserved Kw.COPY, .identifier 50, Tok.lparen, Tok.rparen, .reserved Kw.FROM, .identifier Kw.STDIN])
      (by decide +kernel) rfl⟩

/-- A quote as the delimiter is not doubled. -/
theorem C63_delimiter_rejected : ∃ s, ReadsAs "COPY t (a) FROM STDIN DELIMITER ''''" s ∧
    s.print printEnv = .ok (ascii "COPY t (a) FROM STDIN DELIMITER '''") ∧
    Rejects "COPY t (a) FROM STDIN DELIMITER '''" :=
  ⟨.copy ⟨0, 0, 50⟩ [47] [] 39,
    readsAs_of (ts := [.reserved Kw.COPY, .identifier 50, Tok.lparen, .identifier 47, Tok.rparen,
      .reserved Kw.FROM, .identifier Kw.STDIN, .reserved Kw.DELIMITER, .string [39#8]])
      (by decide +kernel) rfl, by decide +kernel,
    rejects_of (ts := [.reserved Kw.COPY, .identifier 50, Tok.lparen, .identifier 47, Tok.rparen,
      .reserved Kw.FROM, .identifier Kw.STDIN, .reserved Kw.DELIMITER, .error false])
      (by decide +kernel) rfl⟩

/-- A delimiter that is not ASCII is not among what is missing, although it would be printed as two
bytes: a string of one byte is always ASCII. No call of `Parse` on a text returns such a delimiter, a
column twice, or data. -/
theorem C63_copy_ascii (env : ParseEnv) (hid : ∀ b q, env.id b q ≠ 0) (failed : Bool) (l : List Nat)
    (ts : List Token) (hs : ts <:+ tokenize env.toScanEnv l) (tn : TableName)
    (cols : List Identifier) (input : List Nat) (d : Nat)
    (h : (parse env failed ts).1 = .stmt (some (.copy tn cols input d))) :
    input = [] ∧ cols.Nodup ∧ d < 128 :=
  parsed_copy hid hs h

-- The escape stands for two bytes.
example : ReadsAs "COPY t (a) FROM STDIN DELIMITER E'\\x2C'" (.copy ⟨0, 0, 50⟩ [47] [] 44) ∧
    Rejects "COPY t (a) FROM STDIN DELIMITER E'\\xE9'" :=
  ⟨readsAs_of (ts := [.reserved Kw.COPY, .identifier 50, Tok.lparen, .identifier 47, Tok.rparen,
      .reserved Kw.FROM, .identifier Kw.STDIN, .reserved Kw.DELIMITER, .string [44#8]])
      (by decide +kernel) rfl,
    rejects_of (ts := [.reserved Kw.COPY, .identifier 50, Tok.lparen, .identifier 47, Tok.rparen,
      .reserved Kw.FROM, .identifier Kw.STDIN, .reserved Kw.DELIMITER, .string [0xC3#8, 0xA9#8]])
      (by decide +kernel) rfl⟩

/-- `SELECT` without `FROM` is printed with the text of a nil interface. -/
theorem C63_no_from : ∃ s, ReadsAs "SELECT a" s ∧
    s.print printEnv = .ok (ascii "SELECT a FROM %!s(<nil>)") ∧
    Rejects "SELECT a FROM %!s(<nil>)" :=
  ⟨.query (.select [.expr (.ref 47 []) 0] none none [] none []),
    readsAs_of (ts := [.reserved Kw.SELECT, .identifier 47])
      (by decide +kernel) rfl, by decide +kernel,
    rejects_of (ts := [.reserved Kw.SELECT, .identifier 47, .reserved Kw.FROM, .error false, .identifier 54, Tok.lparen, .rune 60, .identifier 54, .rune 62, Tok.rparen])
      (by decide +kernel) rfl⟩

/-- `HAVING` is printed only if there is `GROUP BY`. -/
theorem C63_having_lost : ∃ s, ReadsAs "SELECT * FROM t HAVING a" s ∧
    ∃ s', s.print printEnv = .ok (ascii "SELECT * FROM t") ∧
    ReadsAs "SELECT * FROM t" s' ∧ bareStmt s' ≠ bareStmt s :=
  ⟨.query (.select [] (some (.table ⟨0, 0, 50⟩ 0)) none [] (some (.ref 47 [])) []),
    readsAs_of (ts := [.reserved Kw.SELECT, Tok.star, .reserved Kw.FROM, .identifier 50, .reserved Kw.HAVING, .identifier 47])
      (by decide +kernel) rfl,
    .query (.select [] (some (.table ⟨0, 0, 50⟩ 0)) none [] none []), by decide +kernel,
    readsAs_of (ts := [.reserved Kw.SELECT, Tok.star, .reserved Kw.FROM, .identifier 50])
      (by decide +kernel) rfl, by simp [bareStmt, changeStmt, bareQuery, bareOpt]⟩

end Maho
