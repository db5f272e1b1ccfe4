import Verif.Model.Scan
/-
Names of the identifiers and tokens that the parser knows.
-/
namespace Maho

/-! The reserved identifiers; the numbers are those of types/identifier.go:65-142
(see `keywordTable`). -/
namespace Kw
abbrev ACTION : Identifier := -1
abbrev ADD : Identifier := -2
abbrev ALL : Identifier := -3
abbrev ALTER : Identifier := -4
abbrev AND : Identifier := -5
abbrev ANY : Identifier := -6
abbrev AS : Identifier := -7
abbrev ASC : Identifier := -8
abbrev BEGIN : Identifier := -9
abbrev BY : Identifier := -10
abbrev CASCADE : Identifier := -11
abbrev CHECK : Identifier := -12
abbrev COLUMN : Identifier := -13
abbrev COMMIT : Identifier := -14
abbrev CONSTRAINT : Identifier := -15
abbrev COPY : Identifier := -16
abbrev CREATE : Identifier := -17
abbrev CROSS : Identifier := -18
abbrev DATABASE : Identifier := -19
abbrev DEFAULT : Identifier := -20
abbrev DELETE : Identifier := -21
abbrev DELIMITER : Identifier := -22
abbrev DESC : Identifier := -23
abbrev DETACH : Identifier := -24
abbrev DROP : Identifier := -25
abbrev EXECUTE : Identifier := -26
abbrev EXISTS : Identifier := -27
abbrev EXPLAIN : Identifier := -28
abbrev FALSE : Identifier := -29
abbrev FOREIGN : Identifier := -30
abbrev FROM : Identifier := -31
abbrev FULL : Identifier := -32
abbrev GROUP : Identifier := -33
abbrev HAVING : Identifier := -34
abbrev IF : Identifier := -35
abbrev IN : Identifier := -36
abbrev INDEX : Identifier := -37
abbrev INNER : Identifier := -38
abbrev INSERT : Identifier := -39
abbrev INTO : Identifier := -40
abbrev IS : Identifier := -41
abbrev JOIN : Identifier := -42
abbrev KEY : Identifier := -43
abbrev LEFT : Identifier := -44
abbrev NO : Identifier := -45
abbrev NOT : Identifier := -46
abbrev NULL : Identifier := -47
abbrev ON : Identifier := -48
abbrev OR : Identifier := -49
abbrev ORDER : Identifier := -50
abbrev OUTER : Identifier := -51
abbrev PREPARE : Identifier := -52
abbrev PRIMARY : Identifier := -53
abbrev REFERENCES : Identifier := -54
abbrev RESTRICT : Identifier := -55
abbrev RIGHT : Identifier := -56
abbrev ROLLBACK : Identifier := -57
abbrev SCHEMA : Identifier := -58
abbrev SELECT : Identifier := -59
abbrev SET : Identifier := -60
abbrev SHOW : Identifier := -61
abbrev SOME : Identifier := -62
abbrev START : Identifier := -63
abbrev TABLE : Identifier := -64
abbrev TO : Identifier := -65
abbrev TRANSACTION : Identifier := -66
abbrev TRUE : Identifier := -67
abbrev UNIQUE : Identifier := -68
abbrev UPDATE : Identifier := -69
abbrev USE : Identifier := -70
abbrev USING : Identifier := -71
abbrev VALUES : Identifier := -72
abbrev VERBOSE : Identifier := -73
abbrev WHERE : Identifier := -74
abbrev WITH : Identifier := -75
/-! The known identifiers, types/identifier.go:16-63. -/
abbrev BIGINT : Identifier := 1
abbrev BINARY : Identifier := 2
abbrev BLOB : Identifier := 3
abbrev BOOL : Identifier := 4
abbrev BOOLEAN : Identifier := 5
abbrev BTREE : Identifier := 6
abbrev BYTEA : Identifier := 7
abbrev BYTES : Identifier := 8
abbrev CHAR : Identifier := 9
abbrev CHARACTER : Identifier := 10
abbrev COLUMNS : Identifier := 11
abbrev CONFIG : Identifier := 12
abbrev CONSTRAINTS : Identifier := 13
abbrev COUNT : Identifier := 14
abbrev COUNT_ALL : Identifier := 15
abbrev DATABASES : Identifier := 16
abbrev DOUBLE : Identifier := 18
abbrev INFO : Identifier := 22
abbrev INT : Identifier := 23
abbrev INT2 : Identifier := 24
abbrev INT4 : Identifier := 25
abbrev INT8 : Identifier := 26
abbrev INTEGER : Identifier := 27
abbrev METADATA : Identifier := 29
abbrev PRECISION : Identifier := 34
abbrev REAL : Identifier := 35
abbrev SCHEMAS : Identifier := 37
abbrev SMALLINT : Identifier := 39
abbrev STDIN : Identifier := 40
abbrev SYSTEM : Identifier := 41
abbrev TABLES : Identifier := 42
abbrev TEXT : Identifier := 43
abbrev VARBINARY : Identifier := 45
abbrev VARCHAR : Identifier := 46
end Kw

/-! The tokens of one rune, parser/token/token.go:28-49. -/
namespace Tok
abbrev comma : Token := .rune 44
abbrev dot : Token := .rune 46
abbrev lparen : Token := .rune 40
abbrev rparen : Token := .rune 41
abbrev atSign : Token := .rune 64
abbrev minus : Token := .rune 45
abbrev plus : Token := .rune 43
abbrev star : Token := .rune 42
abbrev slash : Token := .rune 47
abbrev percent : Token := .rune 37
abbrev equal : Token := .rune 61
abbrev less : Token := .rune 60
abbrev greater : Token := .rune 62
abbrev ampersand : Token := .rune 38
abbrev bar : Token := .rune 124
end Tok

end Maho
