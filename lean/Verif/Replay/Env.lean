import Verif.Model.Print
import Verif.Model.Rows
import Verif.Model.Ident
import Verif.Model.Key
/-
The repository's own tests, run on the model: what they need.
-/
namespace Maho.Replay

def lowerByte (b : Byte) : Byte := if 65 ≤ b.toNat ∧ b.toNat ≤ 90 then b + 32#8 else b

def upperByte (b : Byte) : Byte := if 97 ≤ b.toNat ∧ b.toNat ≤ 122 then b - 32#8 else b

/-- A number for every name. -/
def nameNumber (s : Bytes) : Nat := s.foldl (fun n b => n * 256 + b.toNat) 1

/-- The name of a number. -/
def numberName : Nat → Nat → Bytes → Bytes
  | 0, _, acc => acc
  | fuel + 1, n, acc =>
    if n ≤ 1 then acc else numberName fuel (n / 256) (BitVec.ofNat 8 (n % 256) :: acc)

/-- The keywords. -/
def keywordNumbers : List (Nat × Identifier) := [
  (0x1414354494f4e, -1), (0x1414444, -2), (0x1414c4c, -3), (0x1414c544552, -4), (0x1414e44, -5),
  (0x1414e59, -6), (0x14153, -7), (0x1415343, -8), (0x1424547494e, -9), (0x14259, -10),
  (0x1424947494e54, 1), (0x142494e415259, 2), (0x1424c4f42, 3), (0x1424f4f4c, 4),
  (0x1424f4f4c45414e, 5), (0x14259544541, 7), (0x14259544553, 8), (0x143415343414445, -11),
  (0x143484152, 9), (0x1434841524143544552, 10), (0x1434845434b, -12), (0x1434f4c554d4e, -13),
  (0x1434f4d4d4954, -14), (0x1434f4e53545241494e54, -15), (0x1434f5059, -16),
  (0x1435245415445, -17), (0x143524f5353, -18), (0x14441544142415345, -19),
  (0x144454641554c54, -20), (0x144454c455445, -21), (0x144454c494d49544552, -22),
  (0x144455343, -23), (0x1444554414348, -24), (0x1444f55424c45, 18), (0x144524f50, -25),
  (0x145584543555445, -26), (0x1455849535453, -27), (0x14558504c41494e, -28),
  (0x146414c5345, -29), (0x1464f524549474e, -30), (0x146524f4d, -31), (0x146554c4c, -32),
  (0x147524f5550, -33), (0x1484156494e47, -34), (0x14946, -35), (0x1494e, -36),
  (0x1494e444558, -37), (0x1494e4e4552, -38), (0x1494e53455254, -39), (0x1494e54, 23),
  (0x1494e5432, 24), (0x1494e5434, 25), (0x1494e5438, 26), (0x1494e5445474552, 27),
  (0x1494e544f, -40), (0x14953, -41), (0x14a4f494e, -42), (0x14b4559, -43), (0x14c454654, -44),
  (0x14e4f, -45), (0x14e4f54, -46), (0x14e554c4c, -47), (0x14f4e, -48), (0x14f52, -49),
  (0x14f52444552, -50), (0x14f55544552, -51), (0x150415448, 30), (0x1505245434953494f4e, 34),
  (0x150524550415245, -52), (0x15052494d415259, -53), (0x15245414c, 35),
  (0x15245535452494354, -55), (0x15245464552454e434553, -54), (0x15249474854, -56),
  (0x1524f4c4c4241434b, -57), (0x1534348454d41, -58), (0x153454c454354, -59), (0x1534554, -60),
  (0x153484f57, -61), (0x1534d414c4c494e54, 39), (0x1534f4d45, -62), (0x1535444494e, 40),
  (0x15354415254, -63), (0x15441424c45, -64), (0x154455854, 43), (0x1544f, -65),
  (0x15452414e53414354494f4e, -66), (0x154525545, -67), (0x1554e49515545, -68),
  (0x1555044415445, -69), (0x1555345, -70), (0x15553494e47, -71), (0x156414c554553, -72),
  (0x156415242494e415259, 45), (0x156415243484152, 46), (0x1564552424f5345, -73),
  (0x15748455245, -74), (0x157495448, -75)]

/-- The known identifiers. -/
def knownNumbers : List (Nat × Identifier) := [
  (0x1, 0), (0x16274726565, 6), (0x1636f6c756d6e73, 11), (0x1636f6e666967, 12),
  (0x1636f6e73747261696e7473, 13), (0x1636f756e74, 14), (0x1636f756e745f616c6c, 15),
  (0x1646174616261736573, 16), (0x16465736372697074696f6e, 17), (0x16669656c64, 20),
  (0x1666c616773, 19), (0x1696e6465786573, 21), (0x1696e666f, 22), (0x16d61686f, 28),
  (0x16d65746164617461, 29), (0x17072696d617279, 31), (0x170726976617465, 32),
  (0x17075626c6963, 33), (0x15f5f726f776964, 36), (0x1736368656d6173, 37),
  (0x173657175656e636573, 38), (0x173797374656d, 41), (0x17461626c6573, 42), (0x174726565, 44)]

example : keywordNumbers = keywords.map (fun p => (nameNumber p.1, p.2)) := by decide +kernel

example : knownNumbers = Registry.initial.identifiers.map (fun p => (nameNumber p.1, p.2)) := by
  decide +kernel

/-- The identifier with a number; `none` if it is not there. -/
def findNumber (n : Nat) : List (Nat × Identifier) → Option Identifier
  | [] => none
  | (m, id) :: l => if Nat.beq n m then some id else findNumber n l

/-- The number of an identifier. -/
def findId (id : Identifier) : List (Nat × Identifier) → Option Nat
  | [] => none
  | (m, id') :: l => if id = id' then some m else findId id l

/-- `types.ID` for names in ASCII. New identifiers are 1000 and the number of the name: they do not
depend on the calls before. -/
def id (s : Bytes) (quoted : Bool) : Identifier :=
  let s := truncateName s
  match (if quoted then none else findNumber (nameNumber (s.map upperByte)) keywordNumbers) with
  | some id => id
  | none =>
    let n := nameNumber (if quoted then s else s.map lowerByte)
    match findNumber n knownNumbers with
    | some id => id
    | none => 1000 + n

/-- `Identifier.String`. -/
def string (id : Identifier) : Bytes :=
  match findId id (knownNumbers ++ keywordNumbers) with
  | some n => numberName 128 n []
  | none => numberName 128 (id.toNat - 1000) []

/-- The floating point numbers in the tests; the texts that are printed come first. -/
def floats : List (String × F64) := [
  ("0", 0x0000000000000000#64), ("123", 0x405EC00000000000#64), ("999", 0x408F380000000000#64),
  ("0.123", 0x3FBF7CED916872B0#64), ("1.23", 0x3FF3AE147AE147AE#64),
  ("1.234", 0x3FF3BE76C8B43958#64), ("-1.234", 0xBFF3BE76C8B43958#64),
  ("12.3", 0x402899999999999A#64), ("-12.3", 0xC02899999999999A#64),
  ("12.45", 0x4028E66666666666#64), ("9.99", 0x4023FAE147AE147B#64),
  ("99.9", 0x4058F9999999999A#64), ("123.4", 0x405ED9999999999A#64),
  ("123.456", 0x405EDD2F1A9FBE77#64), ("456.789", 0x407C8C9FBE76C8B4#64),
  ("987.654", 0x408EDD3B645A1CAC#64), ("1234.5678", 0x40934A456D5CFAAD#64),
  ("999.", 0x408F380000000000#64),
  (".123", 0x3FBF7CED916872B0#64), ("123.", 0x405EC00000000000#64),
  ("2.2", 0x400199999999999A#64), ("4.4", 0x401199999999999A#64), ("6.6", 0x401A666666666666#64),
  ("8.8", 0x402199999999999A#64), ("10.10", 0x4024333333333333#64), ("1.1", 0x3FF199999999999A#64),
  ("3.3", 0x400A666666666666#64), ("23.45", 0x4037733333333333#64)]

/-- What the model takes as parameters. -/
def env : ParseEnv where
  letter r := (65 ≤ r && r ≤ 90) || (97 ≤ r && r ≤ 122)
  digit r := 48 ≤ r && r ≤ 57
  parseFloat s := (floats.find? fun p => ascii p.1 == s).map (·.2)
  id := id
  letter_ascii _ _ := rfl
  digit_ascii _ _ := rfl
  string := string
  formatFloat f := ((floats.find? fun p => p.2 == f).map (fun p => ascii p.1)).getD []
  formatFloatG f := ((floats.find? fun p => p.2 == f).map (fun p => ascii p.1)).getD []

/-- What testutil takes as parameters as well. -/
def rowEnv : RowEnv where
  toParseEnv := env
  lower r := if 65 ≤ r ∧ r ≤ 90 then r + 32 else r
  lower_ascii _ _ := rfl
  space_letter r h := by simp [isSpace, env] at *; omega
  space_digit r h := by simp [isSpace, env] at *; omega
  letter_digit r h := by simp [env] at *; omega

/-- What the conversion of values takes as parameters. -/
def floatEnv : FloatEnv where
  format := env.formatFloatG
  parse := env.parseFloat
  outOfRange _ := 0

/-- The runes of a text in ASCII. -/
def runes (s : String) : List Nat := s.toList.map Char.toNat

/-- `types.ID(s, false)`. -/
def I (s : String) : Identifier := id (ascii s) false

/-- `types.ID(s, true)`. -/
def Q (s : String) : Identifier := id (ascii s) true

/-- What `Parse` returns for a text in ASCII. -/
def parsed (s : String) : Parsed :=
  (parse env false (tokenize env.toScanEnv (runes s))).1

/-- What `ParseExpr` returns for a text in ASCII, printed; `none` is an error. -/
def printedExpr (s : String) : Option Bytes :=
  match parseExpr env (tokenize env.toScanEnv (runes s)) with
  | .ok e _ => some (e.print env)
  | _ => none

/-- What the scanner returns for a text in ASCII. -/
def scanned (s : String) : Token := (scan env.toScanEnv false (runes s)).token

/-- The tokens without what is in the `ScanCtx`. -/
inductive Kind where
  | eof | endOfStatement | error | identifier | reserved | string | bytes | integer | float
  | parameter | barBar | lessLess | lessEqual | lessGreater | greaterGreater | greaterEqual
  | equalEqual | bangEqual
  | rune (r : Nat)
deriving DecidableEq

/-- `ScanCtx.Token`. -/
def _root_.Maho.Token.kind : Token → Kind
  | .eof => .eof
  | .endOfStatement => .endOfStatement
  | .error _ => .error
  | .identifier _ => .identifier
  | .reserved _ => .reserved
  | .string _ => .string
  | .bytes _ => .bytes
  | .integer _ => .integer
  | .float _ => .float
  | .parameter _ => .parameter
  | .barBar => .barBar
  | .lessLess => .lessLess
  | .lessEqual => .lessEqual
  | .lessGreater => .lessGreater
  | .greaterGreater => .greaterGreater
  | .greaterEqual => .greaterEqual
  | .equalEqual => .equalEqual
  | .bangEqual => .bangEqual
  | .rune r => .rune r

/-- `ConvertValue`, printed; `none` is an error. -/
def converted (ct : ColumnType) (val : Option Value) : Option Bytes :=
  match convertValue floatEnv ct val with
  | .ok v => some (formatValue env v)
  | _ => none

/-- `ConvertRow`, printed; `none` is an error. -/
def convertedRow (cts : List ColumnType) (row : Row) : Option Bytes :=
  match convertRow floatEnv cts row with
  | .ok r => some (rowString env r)
  | _ => none

/-- `strings.ToUpper` and `strings.ToLower` of texts in ASCII. -/
def caseEnv : CaseEnv := ⟨(·.map upperByte), (·.map lowerByte)⟩

/-- `strings.Repeat`. -/
def repeated (n : Nat) (b : Byte) : Bytes := List.replicate n b

/-- `ID` of two names, again and again: whether they are the same. -/
def internedSame (r : Registry) : List ((Bytes × Bool) × (Bytes × Bool)) → List Bool
  | [] => []
  | (a, b) :: l =>
    let (id1, r) := internID caseEnv r a.1 a.2
    let (id2, r) := internID caseEnv r b.1 b.2
    decide (id1 = id2) :: internedSame r l

/-- `ID`. -/
def interned (a : Bytes × Bool) : Identifier :=
  (internID caseEnv Registry.initial a.1 a.2).1

/-- `ID` and `Identifier.String`. -/
def internedString (a : Bytes × Bool) : Bytes :=
  let (id, r) := internID caseEnv Registry.initial a.1 a.2
  r.string id

/-- `bytes.Compare` is -1. -/
def bytesLess : Bytes → Bytes → Bool
  | _, [] => false
  | [], _ :: _ => true
  | a :: as, b :: bs => a.toNat < b.toNat || (a == b && bytesLess as bs)

/-- encode/key_test.go:12-24 `testMakeKey`. -/
def keysAscend (key : List ColumnKey) (makeRow : Option Value → Row) (values : Row) : Bool :=
  go [] values
where
  go (prev : Bytes) : Row → Bool
    | [] => true
    | v :: l =>
      match makeKey key (makeRow v) with
      | .ok buf => bytesLess prev buf && go buf l
      | _ => false

end Maho.Replay
