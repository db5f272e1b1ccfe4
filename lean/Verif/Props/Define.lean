import Verif.Lemmas.DefineOnly
import Verif.Props.Columns
import Verif.Props.Parse
/-
C78: a text of columns makes the same table in the tests of the engines and in CREATE TABLE.
-/
namespace Maho
open Maho.Spec

/-- C78: let `l` be the text of columns of which a table can be made, with names as in statements
and sizes below 2^32 - 1. Then `ParseColumns` accepts `l`; `Parse` accepts `CREATE TABLE`, a name
and `l` in parentheses; and where there is no such table, evaluating the statement gives
`CreateTable` of the engine just the columns, the types and the key that `ParseColumns` returns. -/
theorem C78_accepted (env : RowEnv) (create table t b c d e l : List Nat) (tid : Identifier)
    (ds : List ColumnDef) (h1 : StatementName env Kw.CREATE create) (hb : Gap b)
    (h2 : StatementName env Kw.TABLE table) (hc : Gap c) (h3 : StatementName env tid t)
    (ht : isReserved tid = false) (hd : Blanks d) (he : Blanks e)
    (h : ColumnsText (StatementName env) (2 ^ 32 - 1) ds l) (hds : Definable ds) :
    ∃ cols cts key, readColumns env l = some (cols, cts, key) ∧
      parse env.toParseEnv false (tokenize env.toScanEnv
        (create ++ b ++ table ++ c ++ t ++ d ++ [40] ++ l ++ [41] ++ e)) =
          (.stmt (some (.createTable (tableOf env.toParseEnv ⟨0, 0, tid⟩ ds))), false, []) ∧
      ∀ (senv : SqlEnv) (tree : Tree) (tn : TableName) (er : Err),
        openEngineTable senv.toEngineEnv tree tn = .err er →
        evaluate senv tree (.createTable (tableOf env.toParseEnv tn ds)) =
          createEngineTable senv.toEngineEnv tree tn cols cts key := by
  refine ⟨ds.map (·.name), ds.map (·.type), keyFrom 0 ds, ?_, ?_, ?_⟩
  · exact (C77_columns env l _ _ _).2 ⟨ds, ColumnsText.mono (fun _ _ h => statementName_name h)
      (by decide) h, rfl, rfl, rfl⟩
  · obtain ⟨ts, hl, hch⟩ := columns_changes (E := Written env.words) h
      (s := ⟨⟨0, 0, tid⟩, [], [], [], false, [], []⟩) (by simpa using hds.names) hds.free hds.notNull
      (by simpa using hds.primary)
    have key := (parse_complete (env := env.toParseEnv) (failed := false) (skipped := [])
      (o := some _) (StmtForm.createTable .no (.one tid) hch) rfl).1
    have toks : tokenize env.toScanEnv
        (create ++ b ++ table ++ c ++ t ++ d ++ [40] ++ l ++ [41] ++ e) =
        .reserved Kw.CREATE :: .reserved Kw.TABLE :: ([] ++ ([.identifier tid] ++ inParens ts)) := by
      have e0 : tokenize env.toScanEnv e = [] := by
        have := tokenize_blanks env.toScanEnv he []
        rw [List.append_nil, tokenize_nil] at this
        exact this
      rw [List.append_assoc _ [41] e, List.append_assoc _ l,
        create_tokens h1 hb h2 hc h3 ht hd (l ++ ([41] ++ e)), hl,
        Lexes.mark env.toScanEnv (r := 41) (by decide) _ (fun _ _ => trivial), e0]
      · rfl
      · intro c hc
        cases hc
        exact endsName_mark (by omega)
    rw [toks]
    simpa [addColumns, tableOf] using key
  · intro senv tree tn er hopen
    have hk := primaryColumnKey_of env.toParseEnv ds [] (by simpa using hds.names) hds.primary
    simp only [List.nil_append, List.length_nil] at hk
    simp [evaluate, evaluateCreateTable, tableOf, hopen, hk]

/-- The hypotheses for `a INT PRIMARY KEY,b VARCHAR(20)NOT NULL`. -/
example : ∃ ds, ColumnsText (StatementName columnEnv) (2 ^ 32 - 1) ds
      (source (ascii "a INT PRIMARY KEY,b VARCHAR(20)NOT NULL")) ∧ Definable ds ∧
    StatementName columnEnv Kw.CREATE (source (ascii "CREATE")) ∧
    StatementName columnEnv Kw.TABLE (source (ascii "TABLE")) ∧
    StatementName columnEnv 1000 (source (ascii "t")) ∧ isReserved 1000 = false := by
  have name : ∀ (r : Nat) (m : List Nat), columnEnv.letter r = true →
      (∀ c ∈ m, columnEnv.letter c = true) → ∀ id, id = columnEnv.id (text (r :: m)) false →
      StatementName columnEnv id (r :: m) :=
    fun r m h1 h2 id h3 => ⟨⟨r, m, rfl, .inl h1, fun c hc => .inl (h2 c hc)⟩, h3⟩
  have gap : Gap [32] := ⟨by decide, by unfold Blanks; decide⟩
  have nil : Blanks [] := fun _ h => by cases h
  have c1 : ColumnText (StatementName columnEnv) (2 ^ 32 - 1)
      ⟨1001, ⟨.int64, 4, false, false⟩, [.primaryKey]⟩ (source (ascii "a INT PRIMARY KEY")) :=
    .mk 1001 ⟨.int64, 4, false, false⟩ false [.primaryKey] [] [97] [32] [73, 78, 84]
      [32, 80, 82, 73, 77, 65, 82, 89, 32, 75, 69, 89] nil
      (name _ _ (by decide) (by decide) _ (by decide +kernel)) gap
      (.name Kw.INT _ _ (name _ _ (by decide) (by decide) _ (by decide +kernel)) (by decide))
      (.cons .primaryKey [32] [80, 82, 73, 77, 65, 82, 89] [32] [75, 69, 89] [] []
        gap.2 (name _ _ (by decide) (by decide) _ (by decide +kernel)) gap
        (name _ _ (by decide) (by decide) _ (by decide +kernel)) .nil (fun h => absurd rfl h))
      (fun _ _ => ⟨32, _, rfl, rfl⟩)
  have c2 : ColumnText (StatementName columnEnv) (2 ^ 32 - 1)
      ⟨1002, ⟨.string, 20, false, true⟩, [.notNull]⟩ (source (ascii "b VARCHAR(20)NOT NULL")) :=
    .mk 1002 ⟨.string, 20, false, false⟩ true [.notNull] [] [98] [32]
      [86, 65, 82, 67, 72, 65, 82, 40, 50, 48, 41] [78, 79, 84, 32, 78, 85, 76, 76] nil
      (name _ _ (by decide) (by decide) _ (by decide +kernel)) gap
      (.size Kw.VARCHAR ⟨.string, 1, false, false⟩ [86, 65, 82, 67, 72, 65, 82] [] [] [50, 48] [] 20
        (name _ _ (by decide) (by decide) _ (by decide +kernel)) (by decide) (.inl rfl) nil nil
        ⟨by decide, by decide, by decide⟩ (by decide) nil)
      (.cons .notNull [] [78, 79, 84] [32] [78, 85, 76, 76] [] []
        nil (name _ _ (by decide) (by decide) _ (by decide +kernel)) gap
        (name _ _ (by decide) (by decide) _ (by decide +kernel)) .nil (fun h => absurd rfl h))
      (fun h => by cases h)
  refine ⟨_, .more _ _ [] _ _ c1 nil (.last _ _ [] c2 nil), ⟨by decide, by decide, by decide, by decide⟩,
    name _ _ (by decide) (by decide) _ (by decide +kernel),
    name _ _ (by decide) (by decide) _ (by decide +kernel),
    name _ _ (by decide) (by decide) _ (by decide +kernel), by decide⟩

/-- C78: let `ParseColumns` accept `l`, and let `Parse` accept `CREATE TABLE`, a name and `l` in
parentheses. Then the statement creates the table with the columns and the types that `ParseColumns`
returns, and where there is no such table, evaluating it gives `CreateTable` of the engine these
columns and types and the key that `ParseColumns` returns. -/
theorem C78_same_table (env : RowEnv) (create table t b c d e l : List Nat) (tid : Identifier)
    (h1 : StatementName env Kw.CREATE create) (hb : Gap b)
    (h2 : StatementName env Kw.TABLE table) (hc : Gap c) (h3 : StatementName env tid t)
    (ht : isReserved tid = false) (hd : Blanks d) (he : Blanks e)
    (cols : List Identifier) (cts : List ColumnType) (key : List ColumnKey) (s : Option Stmt)
    (h : readColumns env l = some (cols, cts, key))
    (hp : (parse env.toParseEnv false (tokenize env.toScanEnv
      (create ++ b ++ table ++ c ++ t ++ d ++ [40] ++ l ++ [41] ++ e))).1 = .stmt s) :
    ∃ ct : CreateTable, s = some (.createTable ct) ∧ ct.table = ⟨0, 0, tid⟩ ∧ ct.columns = cols ∧
      ct.columnTypes = cts ∧
      ∀ (senv : SqlEnv) (tree : Tree) (tn : TableName) (er : Err),
        openEngineTable senv.toEngineEnv tree tn = .err er →
        evaluate senv tree (.createTable { ct with table := tn }) =
          createEngineTable senv.toEngineEnv tree tn cols cts key := by
  obtain ⟨ds, hds, rfl, rfl, rfl⟩ := (C77_columns env l _ _ _).1 h
  have toks : tokenize env.toScanEnv
      (create ++ b ++ table ++ c ++ t ++ d ++ [40] ++ l ++ [41] ++ e) =
      .reserved Kw.CREATE :: .reserved Kw.TABLE :: .identifier tid :: Tok.lparen ::
        tokenize env.toScanEnv (l ++ 41 :: e) := by
    rw [List.append_assoc _ [41] e, List.append_assoc _ l,
      create_tokens h1 hb h2 hc h3 ht hd (l ++ ([41] ++ e))]
    rfl
  obtain ⟨p, n, s', ts, hl⟩ := create_of (toks ▸ hp)
  obtain ⟨a1, a2, a3, a4, a5⟩ := columns_only hds ⟨by simp, by simp⟩ (by simp) hl
  obtain ⟨cols, cts, key, b1, b2, b3⟩ := C78_accepted env create table t b c d e l tid ds h1 hb h2 hc
    h3 ht hd he a1 ⟨by simpa using a2, a3, a4, by simpa using a5⟩
  rw [h] at b1
  cases b1
  rw [b2] at hp
  cases hp
  exact ⟨_, rfl, rfl, rfl, rfl, b3⟩

/-- What `Parse` returns for the columns of a table `t`. -/
def createOf (s : String) : Parsed :=
  (parse columnEnv.toParseEnv false
    (tokenize columnEnv.toScanEnv (source (ascii ("CREATE TABLE t (" ++ s ++ ")"))))).1

/-- The columns, the types and the constraints of a statement. -/
def Parsed.definition : Parsed →
    Option (List Identifier × List ColumnType × Option (List ColumnKey))
  | .stmt (some (.createTable s)) =>
    some (s.columns, s.columnTypes,
      match primaryColumnKey s.columns s.constraints with
      | .ok (key, 0) => some key
      | _ => none)
  | _ => none

example : (createOf "a INT PRIMARY KEY, b VARCHAR( 20 )NOT NULL,c_1 BYTES ").definition =
    some ([1001, 1002, 1003],
      [⟨.int64, 4, false, false⟩, ⟨.string, 20, false, true⟩, ⟨.bytes, 4294967294, false, false⟩],
      some [1]) ∧
    columnsOf "a INT PRIMARY KEY, b VARCHAR( 20 )NOT NULL,c_1 BYTES " =
      some ([1001, 1002, 1003],
        [⟨.int64, 4, false, false⟩, ⟨.string, 20, false, true⟩, ⟨.bytes, 4294967294, false, false⟩],
        [1]) := by decide +kernel

/-- C78: texts that `ParseColumns` accepts and that are not columns of `CREATE TABLE`: two columns
in the key, a column twice, `NOT NULL` twice, a reserved word or what starts with a digit as a name,
and a size that is too big. -/
theorem C78_only_tests : ∀ s ∈ ["a INT PRIMARY KEY, b INT PRIMARY KEY", "a INT, a INT",
      "a INT NOT NULL NOT NULL", "SELECT INT", "2$ INT", "a VARCHAR(4294967295)"],
    (columnsOf s).isSome = true ∧ (createOf s).isError = true := by decide +kernel

/-- C78: texts that are columns of `CREATE TABLE` and that `ParseColumns` does not accept. -/
theorem C78_only_statements : ∀ s ∈ ["a DOUBLE PRECISION", "a INT PRIMARY KEY/**/", "[a] INT"],
    columnsOf s = none ∧ (createOf s).isStmt = true := by decide +kernel

end Maho
