import Verif.Lemmas.ColumnType
import Verif.Lemmas.Lookback
import Verif.Lemmas.ParseInput
/-
C61-C66: the parser.
-/
namespace Maho
open Maho.Spec

/-- Letters and digits of ASCII, the keywords and names of one letter; for the examples. -/
def asciiParse : ParseEnv where
  letter r := (65 ≤ r && r ≤ 90) || (97 ≤ r && r ≤ 122)
  digit r := 48 ≤ r && r ≤ 57
  parseFloat _ := some 0
  id b quoted :=
    match if quoted then none else keywords.lookup b with
    | some id => id
    | none => 128 + b.foldl (fun n c => 256 * n + (c.toNat : Int)) 0
  letter_ascii _ _ := rfl
  digit_ascii _ _ := rfl
  string id :=
    if id ≤ 128 then ((keywords.map fun p => (p.2, p.1)).lookup id).getD []
    else [BitVec.ofInt 8 (id - 128)]
  formatFloat _ := ascii "0"
  formatFloatG _ := ascii "0"

/-- What `Parse` returns first for a text. -/
def parseText (s : String) : Parsed × Bool × List Token :=
  parse asciiParse false (tokenize asciiParse.toScanEnv (runes s))

def Parsed.isStmt : Parsed → Bool
  | .stmt _ => true
  | _ => false

def Parsed.isError : Parsed → Bool
  | .error => true
  | _ => false

def Parsed.isEof : Parsed → Bool
  | .eof => true
  | _ => false

def Parsed.isPanic : Parsed → Bool
  | .panic => true
  | _ => false

/-! ### C64: parsing never crashes -/

/-- Every call of `Parse` returns a statement, an error, or the end of the input, and a call that
does not return the end of the input takes a token. Missing: inputs where the value of a variable
is `NULL` (`C64_null_panics`), and the escape of `C64_escape_panics`, which leaves the token
`error true`. -/
theorem C64_returns_partial (env : ParseEnv) (failed : Bool) (ts : List Token)
    (h : Token.error true ∉ ts ∧ Token.eof ∉ ts)
    (hn : ¬ NullSetting (if failed then afterSemicolon ts else ts)) :
    (((∃ s, (parse env failed ts).1 = .stmt s) ∨ (parse env failed ts).1 = .error) ∧
      (parse env failed ts).2.2 <:+ ts ∧ (parse env failed ts).2.2.length < ts.length) ∨
    ((parse env failed ts).1 = .eof ∧ (parse env failed ts).2.2 <:+ ts) :=
  parse_ok h hn

example : (parseText "SELECT * FROM t WHERE (a + 1) * 2 > b; DELETE FROM t").1.isStmt = true ∧
    (parseText "SELECT * FROM t WHERE (a + 1) * 2 > b; DELETE FROM t").2.2 =
      tokenize asciiParse.toScanEnv (runes "DELETE FROM t") ∧
    (parseText "SELECT FROM t; DELETE FROM t").1.isError = true := by decide +kernel

example : ¬ NullSetting (tokenize asciiParse.toScanEnv (runes "SET a = 1")) ∧
    (parseText "SET a = 1").1.isStmt = true := by
  refine ⟨?_, by decide +kernel⟩
  have e : tokenize asciiParse.toScanEnv (runes "SET a = 1") =
      [.reserved (-60), .identifier 225, .rune 61, .integer 1] := by decide +kernel
  rw [e]
  rintro (⟨rest, h⟩ | ⟨v, t, rest, h⟩) <;> simp at h

/-- On any tokens a call of `Parse` panics only for the two reasons of `C64_null_panics` and
`C64_escape_panics`, and if it does not panic it returns as in `C64_returns_partial`. -/
theorem C64_panics_only (env : ParseEnv) (failed : Bool) (ts : List Token) (h : Token.eof ∉ ts) :
    ((parse env failed ts).1 = .panic ∧
      (Token.error true ∈ ts ∨ NullSetting (if failed then afterSemicolon ts else ts))) ∨
    (((∃ s, (parse env failed ts).1 = .stmt s) ∨ (parse env failed ts).1 = .error) ∧
      (parse env failed ts).2.2 <:+ ts ∧ (parse env failed ts).2.2.length < ts.length) ∨
    ((parse env failed ts).1 = .eof ∧ (parse env failed ts).2.2 <:+ ts) :=
  parse_any h

/-- `NULL` as the value of a variable need not panic, and a token with a nil error need not either. -/
example : (parseText "USE NULL + 1").1.isError = true ∧
    (parseText "BEGIN; E'\\UFFFFFFFD'").1.isStmt = true := by decide +kernel

/-- For every text: the calls of `Parse` return statements and errors, and then the end of the input or
a panic, after at most as many calls as there are tokens. No text makes it loop. -/
theorem C64_never_loops (env : ParseEnv) (l : List Nat) :
    ∃ k ≤ (tokenize env.toScanEnv l).length,
      (parsedAt env (tokenize env.toScanEnv l) k = .eof ∨
        parsedAt env (tokenize env.toScanEnv l) k = .panic) ∧
      ∀ j < k, (∃ s, parsedAt env (tokenize env.toScanEnv l) j = .stmt s) ∨
        parsedAt env (tokenize env.toScanEnv l) j = .error := by
  obtain ⟨k, h1, h2, h3⟩ := calls_end_any (env := env) (ts := tokenize env.toScanEnv l)
    fun h => (tokenize_mem h).1 rfl
  exact ⟨k, h1, h2.imp_right And.left, h3⟩

example : (parsedAt asciiParse (tokenize asciiParse.toScanEnv (runes "a; USE NULL")) 0).isError =
      true ∧
    (parsedAt asciiParse (tokenize asciiParse.toScanEnv (runes "a; USE NULL")) 1).isPanic = true := by
  decide +kernel

/-- For a text without the escape of `C64_escape_panics` and without `NULL` as the value of a variable: the calls of
`Parse` return statements and errors, and then the end of the input, after at most as many calls
as there are tokens. -/
theorem C64_input_partial (env : ParseEnv) (l : List Nat) (h : ¬ PanicEscape l)
    (hn : ∀ ts, ts <:+ tokenize env.toScanEnv l → ¬ NullSetting ts) :
    ∃ k ≤ (tokenize env.toScanEnv l).length, parsedAt env (tokenize env.toScanEnv l) k = .eof ∧
      ∀ j < k, (∃ s, parsedAt env (tokenize env.toScanEnv l) j = .stmt s) ∨
        parsedAt env (tokenize env.toScanEnv l) j = .error :=
  calls_end (tokenize_clean h) hn

example : ¬ PanicEscape (runes "SELECT E'\\U00000041'") ∧
    (parseText "SELECT E'\\U00000041'").1.isStmt = true :=
  ⟨not_panicEscape (by decide +kernel), by decide +kernel⟩

example : (parsedAt asciiParse (tokenize asciiParse.toScanEnv (runes "a; BEGIN")) 0).isError = true ∧
    (parsedAt asciiParse (tokenize asciiParse.toScanEnv (runes "a; BEGIN")) 1).isStmt = true ∧
    (parsedAt asciiParse (tokenize asciiParse.toScanEnv (runes "a; BEGIN")) 2).isEof = true := by
  decide +kernel

/-- C64 fails for `USE NULL` and for `SET variable = NULL`: a method of the nil value is called. -/
theorem C64_null_panics (env : ParseEnv) (v : Identifier) (rest : List Token)
    (h : rest = [] ∨ ∃ m, rest = .endOfStatement :: m) :
    (parse env false (.reserved (-70) :: .reserved (-47) :: rest)).1 = .panic ∧
      (parse env false
        (.reserved (-60) :: .identifier v :: .rune 61 :: .reserved (-47) :: rest)).1 = .panic := by
  rcases h with rfl | ⟨m, rfl⟩ <;> exact ⟨rfl, rfl⟩

example : (parseText "USE NULL").1.isPanic = true ∧
    (parseText "SET a = NULL; BEGIN").1.isPanic = true := by decide +kernel

/-- C64 fails for an escape that stands for the rune -3 of token.Error: the scanner reports an
error without setting one, and the parser calls a method of the nil error. -/
theorem C64_escape_panics (env : ParseEnv) (l : List Nat) :
    tokenize env.toScanEnv (runes "E'\\UFFFFFFFD" ++ l) = .error true :: tokenize env.toScanEnv l ∧
      (parse env false (.error true :: tokenize env.toScanEnv l)).1 = .panic := by
  refine ⟨?_, rfl⟩
  have e : scan env.toScanEnv false (runes "E'\\UFFFFFFFD" ++ l) = ⟨.error true, [], l⟩ := by
    have hs : scanQuotedConstant false true [] (runes "\\UFFFFFFFD" ++ l) = (some true, [], l) := by
      rw [show runes "\\UFFFFFFFD" ++ l =
        92 :: 85 :: 70 :: 70 :: 70 :: 70 :: 70 :: 70 :: 70 :: 68 :: l from rfl, quoted_cons]
      rfl
    rw [show runes "E'\\UFFFFFFFD" ++ l = 69 :: 39 :: (runes "\\UFFFFFFFD" ++ l) from rfl]
    unfold scan
    rw [skip_start (starts_of _ (by decide) (by decide) (by decide))]
    show scanString false true _ = _
    unfold scanString
    rw [hs]
  rw [tokenize_scan _ (by rw [e]; simp), e]

example : (parseText "E'\\UFFFFFFFD'").1.isPanic = true := by decide +kernel

/-- The ring of three tokens: as long as the parser does not go back further than three tokens
from the farthest token it has read, `scan` and `unscan` do what they do in a reader that can go
back as far as it likes. -/
theorem C64_lookback (stream : Nat → Token) (calls : List RingCall) (h : Near 0 0 calls) :
    Ring.new.run stream calls = .ok (reads stream 0 calls) :=
  ring_run calls Ring.new 0 (Holds.new stream) h

example : Near 0 0 [.scan, .scan, .scan, .unscan, .unscan, .unscan, .scan] := by
  simp [Near]

example (stream : Nat → Token) : Ring.new.run stream
      [.scan, .scan, .scan, .scan, .unscan, .unscan, .unscan, .unscan] = .panic := rfl

/-! ### C65: CREATE TABLE definitions are consistent -/

/-- A definition of a table that `Parse` returns has different columns, a type and a default for
every column, at most one primary key, and a direction for every column of a key. The constraints of
columns refer to columns that there are, with the default or the `NOT NULL` that they name. -/
theorem C65_create_table (env : ParseEnv) (failed failed' : Bool) (ts rest : List Token)
    (s : CreateTable)
    (h : parse env failed ts = (.stmt (some (.createTable s)), failed', rest)) : Consistent s :=
  parse_table h

def Parsed.table : Parsed → Option (List Identifier × List ColumnType × Nat × List ConstraintType)
  | .stmt (some (.createTable s)) =>
    some (s.columns, s.columnTypes, s.columnDefaults.length, s.constraints.map (·.type))
  | _ => none

example : (parseText
    "CREATE TABLE t (a INT PRIMARY KEY, b VARCHAR(10) DEFAULT 'x' NOT NULL, UNIQUE (a, b DESC))").1.table
      = some ([225, 226], [⟨.int64, 4, false, false⟩, ⟨.string, 10, false, true⟩], 2,
        [.primary, .unique]) := by
  decide +kernel

example : (parseText "CREATE TABLE t (a INT, a INT)").1.isError = true ∧
    (parseText "CREATE TABLE t (a INT PRIMARY KEY, b INT PRIMARY KEY)").1.isError = true := by
  decide +kernel

/-- Every column can have a constraint of the same kind with a name. -/
example : (parseText ("CREATE TABLE t (a INT CONSTRAINT c NOT NULL, b INT CONSTRAINT d NOT NULL, " ++
    "UNIQUE (a), UNIQUE (a, b))")).1.table =
      some ([225, 226], [⟨.int64, 4, false, true⟩, ⟨.int64, 4, false, true⟩], 2,
        [.notNull, .notNull, .unique, .unique]) := by
  decide +kernel

/-! ### C66: column types print and parse back -/

/-- A type that the parser returns is printed, and what is printed is parsed to the same type,
when it is followed by a token that can follow a type. Missing: strings and bytes of size 0, which
are accepted but cannot be printed (`C66_size_zero`), and `REAL`, which is printed as `DOUBLE`
(`C66_real`). -/
theorem C66_round_trip_partial (env : ScanEnv) (hk : KnowsKeywords env) (ts rest : List Token)
    (ct : ColumnType) (h : parseColumnType ts = .ok ct rest)
    (h0 : ct.type = .string ∨ ct.type = .bytes → ct.size ≠ 0)
    (h4 : ct.type = .float64 → ct.size ≠ 4) :
    ∃ b, ct.print = .ok b ∧ ∀ next : List Token,
      (∀ t, next.head? = some t → t ≠ .rune 40 ∧ t ≠ .identifier 34 ∧ t ≠ .error false ∧ t ≠ .eof) →
        parseColumnType (tokenize env (source b) ++ next) = .ok ct next :=
  columnType_round_trip env hk ts rest ct h h0 h4

example : KnowsKeywords asciiParse.toScanEnv := by
  unfold KnowsKeywords
  decide +kernel

example : parseColumnType [.identifier 46, .rune 40, .integer 12, .rune 41] =
      .ok ⟨.string, 12, false, false⟩ [] ∧
    ColumnType.print ⟨.string, 12, false, false⟩ = .ok (ascii "VARCHAR(12)") :=
  ⟨parseColumnType_sized (id := 46) (ct := ⟨.string, 1, false, false⟩) (n := 12) (i := 12) rfl (by decide) (Or.inl rfl) (by decide) (by decide),
    by decide +kernel⟩

/-- C66 fails: a size of 0 is accepted, and printing the type panics. -/
theorem C66_size_zero (id : Identifier) (h : id ∈ [46, 9, 10, 45, 2, 43, 3, 7, 8]) :
    ∃ ct, parseColumnType [.identifier id, .rune 40, .integer 0, .rune 41] = .ok ct [] ∧
      ct.print = .panic := by
  simp only [List.mem_cons, List.not_mem_nil, or_false] at h
  rcases h with rfl | rfl | rfl | rfl | rfl | rfl | rfl | rfl | rfl
  all_goals
    refine ⟨_, parseColumnType_sized (n := 0) (i := 0) rfl (by decide) ?_ (by decide) (by decide), rfl⟩
    simp

example : (parseText "CREATE TABLE t (a VARCHAR(0))").1.table =
    some ([225], [⟨.string, 0, false, false⟩], 1, []) := by decide +kernel

/-- C66 fails: `REAL` is printed as `DOUBLE`, which is another type. -/
theorem C66_real (env : ScanEnv) (hk : KnowsKeywords env) :
    ∃ ct ct2 b, parseColumnType [.identifier 35] = .ok ct [] ∧ ct.print = .ok b ∧
      parseColumnType (tokenize env (source b)) = .ok ct2 [] ∧ ct ≠ ct2 := by
  refine ⟨⟨.float64, 4, false, false⟩, ⟨.float64, 8, false, false⟩, ascii "DOUBLE", rfl, rfl, ?_,
    by decide⟩
  rw [tokenize_plain hk (s := "DOUBLE") (id := 18) (by decide) (by decide) (by decide) (by decide)]
  rfl

end Maho
