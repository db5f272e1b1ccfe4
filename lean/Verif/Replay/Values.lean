import Verif.Replay.Env
import Verif.Model.Ident
import Verif.Model.Encode
import Verif.Model.Key
/-
types/value_test.go, types/identifier_test.go, encode/encode_test.go and encode/key_test.go
on the model (written by tools/replay/values.py).
-/
namespace Maho.Replay

/-- types/value_test.go:16 -/
example : ∀ c ∈ ([((some (.bool true)), "true"), ((some (.bool false)), "false"), ((some (.int
  123)), "123"), ((some (.int 255)), "255"), ((some (.int (-123#64))), "-123")] : List (Option
  Value × String)), formatValue env c.1 = ascii c.2 := by decide +kernel

/-- types/value_test.go:21 -/
example : ∀ c ∈ ([((some (.int 0)), "0"), ((some (.float 0x3ff3be76c8b43958#64)), "1.234"), ((some
  (.float 0x0000000000000000#64)), "0"), ((some (.float 0xbff3be76c8b43958#64)), "-1.234"), ((some
  (.str (ascii "abcdef"))), "'abcdef'")] : List (Option Value × String)), formatValue env c.1 =
  ascii c.2 := by decide +kernel

/-- types/value_test.go:26 -/
example : ∀ c ∈ ([((some (.str (ascii ""))), "''"), ((some (.bytes [18, 239, 18, 239, 18, 239])),
  "'\\x12ef12ef12ef'"), ((some (.bytes [])), "'\\x'"), ((some (.bytes [])), "'\\x'")] : List
  (Option Value × String)), formatValue env c.1 = ascii c.2 := by decide +kernel

/-- types/value_test.go:43 -/
example : formatValue env none = ascii "NULL" := by decide +kernel

/-- types/value_test.go:70 -/
example : ValueType.print .bool = ascii "BOOL" := by decide +kernel

/-- types/value_test.go:71 -/
example : ValueType.print .string = ascii "STRING" := by decide +kernel

/-- types/value_test.go:72 -/
example : ValueType.print .bytes = ascii "BYTES" := by decide +kernel

/-- types/value_test.go:73 -/
example : ValueType.print .float64 = ascii "DOUBLE" := by decide +kernel

/-- types/value_test.go:74 -/
example : ValueType.print .int64 = ascii "INT" := by decide +kernel

/-- types/value_test.go:75 -/
example : ValueType.print .unknown = ascii "UNKNOWN" := by decide +kernel

/-- types/value_test.go:99 -/
example : ∀ c ∈ ([(none, (some (.bool true)), .lt), (none, none, .eq), ((some (.bool false)),
  none, .gt), ((some (.bool true)), (some (.bool true)), .eq), ((some (.bool false)), (some (.bool
  false)), .eq), ((some (.bool false)), (some (.bool true)), .lt)] : List (Option Value × Option
  Value × Ordering)), compareValues c.1 c.2.1 = .ok c.2.2 := by decide +kernel

/-- types/value_test.go:106 -/
example : ∀ c ∈ ([((some (.bool true)), (some (.bool false)), .gt), ((some (.bool false)), (some
  (.float 0x3ff3ae147ae147ae#64)), .lt), ((some (.float 0x3ff3ae147ae147ae#64)), (some (.bool
  false)), .gt), ((some (.float 0x3ff3ae147ae147ae#64)), (some (.int 123)), .lt), ((some (.float
  0x3ff3ae147ae147ae#64)), (some (.str (ascii "abc"))), .lt), ((some (.float
  0x3ff3ae147ae147ae#64)), (some (.float 0x4002b851eb851eb8#64)), .lt)] : List (Option Value ×
  Option Value × Ordering)), compareValues c.1 c.2.1 = .ok c.2.2 := by decide +kernel

/-- types/value_test.go:113 -/
example : ∀ c ∈ ([((some (.float 0x3ff3ae147ae147ae#64)), (some (.float 0x3ff3ae147ae147ae#64)),
  .eq), ((some (.float 0x3ff3ae147ae147ae#64)), (some (.float 0x3fbeb851eb851eb8#64)), .gt),
  ((some (.int 123)), (some (.bool false)), .gt), ((some (.int 123)), (some (.float
  0x3ff3ae147ae147ae#64)), .gt), ((some (.int 123)), (some (.str (ascii "abc"))), .lt), ((some
  (.int 123)), (some (.int 234)), .lt)] : List (Option Value × Option Value × Ordering)),
  compareValues c.1 c.2.1 = .ok c.2.2 := by decide +kernel

/-- types/value_test.go:120 -/
example : ∀ c ∈ ([((some (.int 123)), (some (.int 123)), .eq), ((some (.int 123)), (some (.int
  12)), .gt), ((some (.str (ascii "abc"))), (some (.bool false)), .gt), ((some (.str (ascii
  "abc"))), (some (.float 0x3ff3ae147ae147ae#64)), .gt), ((some (.str (ascii "abc"))), (some (.int
  123)), .gt), ((some (.str (ascii "def"))), (some (.str (ascii "ghi"))), .lt)] : List (Option
  Value × Option Value × Ordering)), compareValues c.1 c.2.1 = .ok c.2.2 := by decide +kernel

/-- types/value_test.go:127 -/
example : ∀ c ∈ ([((some (.str (ascii "def"))), (some (.str (ascii "def"))), .eq), ((some (.str
  (ascii "def"))), (some (.str (ascii "abc"))), .gt)] : List (Option Value × Option Value ×
  Ordering)), compareValues c.1 c.2.1 = .ok c.2.2 := by decide +kernel

/-- types/value_test.go:144 -/
example : rowString env [(some (.bool true)), (some (.int 123)), (some (.float
  0x0000000000000000#64))] = ascii "(true, 123, 0)" := by decide +kernel

/-- types/value_test.go:148 -/
example : rowString env [] = ascii "()" := by decide +kernel

/-- types/value_test.go:149 -/
example : rowString env [] = ascii "()" := by decide +kernel

/-- types/value_test.go:150 -/
example : rowString env [(some (.bool false))] = ascii "(false)" := by decide +kernel

/-- types/value_test.go:151 -/
example : rowString env [(some (.int 255)), (some (.int (-123#64))), (some (.float
  0x3ff3be76c8b43958#64)), (some (.str (ascii "abcdef")))] = ascii "(255, -123, 1.234, 'abcdef')"
  := by decide +kernel

/-- types/value_test.go:160 -/
example : rowString env [(some (.str (ascii ""))), (some (.bytes [18, 239, 18, 239, 18, 239])),
  (some (.bytes []))] = ascii "('', '\\x12ef12ef12ef', '\\x')" := by decide +kernel

/-- types/value_test.go:203 -/
example : ∀ c ∈ ([(⟨.bool, 0, false, true⟩, (some (.bool true)), some (ascii "true")), (⟨.bool, 0,
  false, false⟩, (some (.bool false)), some (ascii "false")), (⟨.bool, 0, false, true⟩, none,
  none), (⟨.bool, 0, false, false⟩, none, some (ascii "NULL")), (⟨.bool, 0, false, true⟩, (some
  (.str (ascii "123"))), none), (⟨.bool, 0, false, false⟩, (some (.str (ascii "123"))), none)] :
  List (ColumnType × Option Value × Option Bytes)), converted c.1 c.2.1 = c.2.2 :=
  by decide +kernel

/-- types/value_test.go:209 -/
example : ∀ c ∈ ([(⟨.bool, 0, false, true⟩, (some (.str (ascii "this"))), none), (⟨.bool, 0,
  false, true⟩, (some (.str (ascii " t"))), some (ascii "true")), (⟨.bool, 0, false, true⟩, (some
  (.str (ascii "\ttrue\n"))), some (ascii "true")), (⟨.bool, 0, false, true⟩, (some (.str (ascii
  "y"))), some (ascii "true")), (⟨.bool, 0, false, true⟩, (some (.str (ascii "yes"))), some (ascii
  "true")), (⟨.bool, 0, false, true⟩, (some (.str (ascii "on"))), some (ascii "true"))] : List
  (ColumnType × Option Value × Option Bytes)), converted c.1 c.2.1 = c.2.2 := by decide +kernel

/-- types/value_test.go:215 -/
example : ∀ c ∈ ([(⟨.bool, 0, false, true⟩, (some (.str (ascii "1"))), some (ascii "true")),
  (⟨.bool, 0, false, false⟩, (some (.str (ascii "f"))), some (ascii "false")), (⟨.bool, 0, false,
  false⟩, (some (.str (ascii "false"))), some (ascii "false")), (⟨.bool, 0, false, false⟩, (some
  (.str (ascii "n"))), some (ascii "false")), (⟨.bool, 0, false, false⟩, (some (.str (ascii
  "no"))), some (ascii "false")), (⟨.bool, 0, false, false⟩, (some (.str (ascii "off"))), some
  (ascii "false"))] : List (ColumnType × Option Value × Option Bytes)), converted c.1 c.2.1 =
  c.2.2 := by decide +kernel

/-- types/value_test.go:221 -/
example : ∀ c ∈ ([(⟨.bool, 0, false, false⟩, (some (.str (ascii "0"))), some (ascii "false")),
  (⟨.bool, 0, false, true⟩, (some (.bytes [123])), none), (⟨.bool, 0, false, true⟩, (some (.float
  0x405edd2f1a9fbe77#64)), none), (⟨.bool, 0, false, true⟩, (some (.int 123)), none), (⟨.string,
  4294967294, false, true⟩, (some (.str (ascii "abcdef"))), some (ascii "'abcdef'")), (⟨.string,
  4294967294, false, false⟩, (some (.str (ascii "abcdef"))), some (ascii "'abcdef'"))] : List
  (ColumnType × Option Value × Option Bytes)), converted c.1 c.2.1 = c.2.2 := by decide +kernel

/-- types/value_test.go:227 -/
example : ∀ c ∈ ([(⟨.string, 4294967294, false, true⟩, none, none), (⟨.string, 4294967294, false,
  false⟩, none, some (ascii "NULL")), (⟨.string, 4294967294, false, true⟩, (some (.bool true)),
  none), (⟨.string, 4294967294, false, true⟩, (some (.bytes (ascii "abcdef"))), some (ascii
  "'abcdef'")), (⟨.string, 4294967294, false, true⟩, (some (.bytes [255, 255, 255])), none),
  (⟨.string, 4294967294, false, true⟩, (some (.float 0x405edd2f1a9fbe77#64)), some (ascii
  "'123.456'"))] : List (ColumnType × Option Value × Option Bytes)), converted c.1 c.2.1 = c.2.2
  := by decide +kernel

/-- types/value_test.go:233 -/
example : ∀ c ∈ ([(⟨.string, 4294967294, false, true⟩, (some (.int 123456)), some (ascii
  "'123456'")), (⟨.string, 8, true, false⟩, (some (.str (ascii "12345678"))), some (ascii
  "'12345678'")), (⟨.string, 8, false, false⟩, (some (.str (ascii "abcdefgh"))), some (ascii
  "'abcdefgh'")), (⟨.string, 8, true, false⟩, (some (.str (ascii "123456789"))), none), (⟨.string,
  8, false, false⟩, (some (.str (ascii "abcdefghi"))), none), (⟨.bytes, 4294967294, false, true⟩,
  (some (.bytes [1, 2, 3, 4])), some (ascii "'\\x01020304'"))] : List (ColumnType × Option Value ×
  Option Bytes)), converted c.1 c.2.1 = c.2.2 := by decide +kernel

/-- types/value_test.go:239 -/
example : ∀ c ∈ ([(⟨.bytes, 4294967294, false, false⟩, (some (.bytes [1, 2, 3, 4])), some (ascii
  "'\\x01020304'")), (⟨.bytes, 4294967294, false, true⟩, none, none), (⟨.bytes, 4294967294, false,
  false⟩, none, some (ascii "NULL")), (⟨.bytes, 4294967294, false, true⟩, (some (.bool true)),
  none), (⟨.bytes, 4294967294, false, true⟩, (some (.str (ascii "abc"))), some (ascii
  "'\\x616263'")), (⟨.bytes, 4294967294, false, true⟩, (some (.float 0x405edd2f1a9fbe77#64)),
  none)] : List (ColumnType × Option Value × Option Bytes)), converted c.1 c.2.1 = c.2.2 :=
  by decide +kernel

/-- types/value_test.go:245 -/
example : ∀ c ∈ ([(⟨.bytes, 4294967294, false, true⟩, (some (.int 123456)), none), (⟨.bytes, 4,
  true, false⟩, (some (.bytes [1, 2, 3, 4])), some (ascii "'\\x01020304'")), (⟨.bytes, 4, false,
  false⟩, (some (.bytes [1, 2, 3, 4])), some (ascii "'\\x01020304'")), (⟨.bytes, 4, true, false⟩,
  (some (.bytes [1, 2, 3, 4, 5])), none), (⟨.bytes, 4, false, false⟩, (some (.bytes [1, 2, 3, 4,
  5])), none), (⟨.float64, 0, false, true⟩, (some (.float 0x405edd2f1a9fbe77#64)), some (ascii
  "123.456"))] : List (ColumnType × Option Value × Option Bytes)), converted c.1 c.2.1 = c.2.2 :=
  by decide +kernel

/-- types/value_test.go:251 -/
example : ∀ c ∈ ([(⟨.float64, 0, false, false⟩, (some (.float 0x405edd2f1a9fbe77#64)), some (ascii
  "123.456")), (⟨.float64, 0, false, true⟩, none, none), (⟨.float64, 0, false, false⟩, none, some
  (ascii "NULL")), (⟨.float64, 0, false, true⟩, (some (.bool true)), none), (⟨.float64, 0, false,
  true⟩, (some (.str (ascii "123.456"))), some (ascii "123.456")), (⟨.float64, 0, false, true⟩,
  (some (.str (ascii "abc"))), none)] : List (ColumnType × Option Value × Option Bytes)),
  converted c.1 c.2.1 = c.2.2 := by decide +kernel

/-- types/value_test.go:257 -/
example : ∀ c ∈ ([(⟨.float64, 0, false, false⟩, (some (.bytes [1, 2, 3])), none), (⟨.float64, 0,
  false, true⟩, (some (.int 123)), some (ascii "123")), (⟨.int64, 8, false, true⟩, (some (.int
  123)), some (ascii "123")), (⟨.int64, 8, false, false⟩, (some (.int (-123#64))), some (ascii
  "-123")), (⟨.int64, 8, false, true⟩, none, none), (⟨.int64, 8, false, false⟩, none, some (ascii
  "NULL"))] : List (ColumnType × Option Value × Option Bytes)), converted c.1 c.2.1 = c.2.2 :=
  by decide +kernel

/-- types/value_test.go:263 -/
example : ∀ c ∈ ([(⟨.int64, 8, false, true⟩, (some (.bool true)), none), (⟨.int64, 8, false,
  true⟩, (some (.str (ascii "123"))), some (ascii "123")), (⟨.int64, 8, false, true⟩, (some (.str
  (ascii "abc"))), none), (⟨.int64, 8, false, false⟩, (some (.bytes [1, 2, 3])), none), (⟨.int64,
  8, false, true⟩, (some (.float 0x405ec00000000000#64)), some (ascii "123")), (⟨.int64, 8, false,
  true⟩, (some (.float 0x405ed9999999999a#64)), some (ascii "123"))] : List (ColumnType × Option
  Value × Option Bytes)), converted c.1 c.2.1 = c.2.2 := by decide +kernel

/-- types/value_test.go:269 -/
example : ∀ c ∈ ([(⟨.int64, 4, false, true⟩, (some (.int 2147483647)), some (ascii "2147483647")),
  (⟨.int64, 4, false, true⟩, (some (.int (-2147483648#64))), some (ascii "-2147483648")),
  (⟨.int64, 4, false, true⟩, (some (.int 2147483648)), none), (⟨.int64, 4, false, true⟩, (some
  (.int (-2147483649#64))), none), (⟨.int64, 2, false, true⟩, (some (.int 32767)), some (ascii
  "32767")), (⟨.int64, 2, false, true⟩, (some (.int (-32768#64))), some (ascii "-32768"))] : List
  (ColumnType × Option Value × Option Bytes)), converted c.1 c.2.1 = c.2.2 := by decide +kernel

/-- types/value_test.go:275 -/
example : ∀ c ∈ ([(⟨.int64, 2, false, true⟩, (some (.int 32768)), none), (⟨.int64, 2, false,
  true⟩, (some (.int (-32769#64))), none)] : List (ColumnType × Option Value × Option Bytes)),
  converted c.1 c.2.1 = c.2.2 := by decide +kernel

/-- types/value_test.go:305 -/
example : ∀ c ∈ ([([(some (.bool true)), (some (.str (ascii "abc"))), (some (.int 123))], some
  (ascii "(true, 'abc', 123)")), ([(some (.str (ascii "t"))), (some (.str (ascii "abc"))), (some
  (.int 123))], some (ascii "(true, 'abc', 123)")), ([(some (.bool true)), (some (.str (ascii
  "abc"))), (some (.str (ascii "123")))], some (ascii "(true, 'abc', 123)")), ([(some (.bool
  true)), (some (.int 123)), (some (.int 123))], some (ascii "(true, '123', 123)")), ([(some (.str
  (ascii "t"))), (some (.bytes (ascii "abc"))), (some (.str (ascii "123")))], some (ascii
  "(true, 'abc', 123)"))] : List (Row × Option Bytes)), convertedRow [⟨.bool, 0, false, true⟩,
  ⟨.string, 4294967294, false, true⟩, ⟨.int64, 8, false, false⟩] c.1 = c.2 := by decide +kernel

/-- types/value_test.go:327 -/
example : ∀ c ∈ ([([none, (some (.bytes (ascii "abc"))), (some (.str (ascii "123")))], none),
  ([(some (.str (ascii "t"))), (some (.str (ascii ""))), (some (.str (ascii "123")))], some (ascii
  "(true, '', 123)")), ([(some (.bool true)), (some (.str (ascii "abc"))), (some (.int 123)),
  (some (.int 456))], none), ([(some (.str (ascii "t"))), (some (.str (ascii "abc")))], some
  (ascii "(true, 'abc', NULL)")), ([(some (.str (ascii "t")))], some (ascii
  "(true, NULL, NULL)"))] : List (Row × Option Bytes)), convertedRow [⟨.bool, 0, false, true⟩,
  ⟨.string, 4294967294, false, true⟩, ⟨.int64, 8, false, false⟩] c.1 = c.2 := by decide +kernel

/-- types/identifier_test.go:19 -/
example : internedSame Registry.initial [(((ascii "abc"), false), ((ascii "abc"), false)),
  (((ascii "Abc"), false), ((ascii "abc"), false)), (((ascii "aBc"), false), ((ascii "abc"),
  false)), (((ascii "ABC"), false), ((ascii "abc"), false)), (((ascii "create"), false), ((ascii
  "create"), false)), (((ascii "create"), false), ((ascii "CREATE"), false)), (((ascii "abc"),
  false), ((ascii "abcd"), false)), (((ascii "abcd"), false), ((ascii "abc"), false)), (((ascii
  "abc"), false), ((ascii "ABCD"), false))] = [true, true, true, true, true, true, false, false,
  false] := by decide +kernel

/-- types/identifier_test.go:28 -/
example : internedSame Registry.initial [(((ascii "ABCD"), false), ((ascii "abc"), false)),
  (((ascii "create"), true), ((ascii "create"), false)), (((ascii "create"), true), ((ascii
  "CREATE"), false)), (((ascii "create"), false), ((ascii "create"), true)), (((ascii "create"),
  false), ((ascii "CREATE"), true)), (((ascii "create"), true), ((ascii "create"), true)),
  (((ascii "create"), true), ((ascii "CREATE"), true)), (((ascii "abc"), true), ((ascii "abc"),
  true)), (((ascii "ABC"), true), ((ascii "ABC"), true))] = [false, false, false, false, false,
  true, false, true, true] := by decide +kernel

/-- types/identifier_test.go:37 -/
example : internedSame Registry.initial [(((ascii "abc"), false), ((ascii "abc"), true)), (((ascii
  "ABC"), false), ((ascii "ABC"), true)), (((ascii "abc"), true), ((ascii "abc"), false)),
  (((ascii "ABC"), true), ((ascii "ABC"), false)), (((ascii "abc"), true), ((ascii "abcd"),
  true)), (((ascii "abcd"), true), ((ascii "abc"), true)), (((ascii "abc"), true), ((ascii
  "ABCD"), true)), (((ascii "ABCD"), true), ((ascii "abc"), true)), (((repeated 140 120), false),
  ((repeated 162 120), false))] = [true, false, true, false, false, false, false, false, true] :=
  by decide +kernel

/-- types/identifier_test.go:71 -/
example : ∀ c ∈ ([(((ascii "abc"), false), (ascii "abc")), (((ascii "ABC"), false), (ascii
  "abc")), (((ascii "abc"), true), (ascii "abc")), (((ascii "ABC"), true), (ascii "ABC")),
  (((ascii "create"), false), (ascii "CREATE")), (((ascii "CREATE"), false), (ascii "CREATE")),
  (((ascii "create"), true), (ascii "create")), (((ascii "CREATE"), true), (ascii "CREATE"))] :
  List ((Bytes × Bool) × Bytes)), internedString c.1 = c.2 := by decide +kernel

/-- types/identifier_test.go:79 -/
example : ∀ c ∈ ([(((ascii "system"), false), (ascii "system")), (((ascii "system"), true), (ascii
  "system")), (((ascii "bigint"), false), (ascii "BIGINT")), (((ascii "bigint"), true), (ascii
  "bigint")), (((repeated 140 119), false), (repeated 128 119)), (((repeated 140 88), false),
  (repeated 128 120)), (((repeated 140 121), true), (repeated 128 121)), (((repeated 140 90),
  true), (repeated 128 90))] : List ((Bytes × Bool) × Bytes)), internedString c.1 = c.2 :=
  by decide +kernel

/-- types/identifier_test.go:103 -/
example : ∀ c ∈ ([(((ascii "abc"), false), false), (((ascii "abc"), true), false), (((ascii
  "create"), false), true), (((ascii "Create"), false), true), (((ascii "CREATE"), false), true),
  (((ascii "update"), false), true), (((ascii "select"), false), true), (((ascii "bigint"),
  false), false), (((ascii "BIGINT"), true), false), (((ascii "system"), false), false), (((ascii
  "SYSTEM"), true), false)] : List ((Bytes × Bool) × Bool)), isReserved (interned c.1) = c.2 :=
  by decide +kernel

/-- types/identifier_test.go:132 -/
example : ∀ c ∈ ([(((ascii "create"), false), Kw.CREATE, true), (((ascii "CREATE"), false),
  Kw.CREATE, true), (((ascii "CREATE"), true), Kw.CREATE, false), (((ascii "system"), false), 41,
  true), (((ascii "system"), true), 41, true), (((ascii "bigint"), false), 1, true), (((ascii
  "BIGINT"), true), 1, false)] : List ((Bytes × Bool) × Identifier × Bool)), decide (interned c.1
  = c.2.1) = c.2.2 := by decide +kernel

/-- types/identifier_test.go:154 -/
example : ∀ p ∈ keywords, p.1 = p.1.map upperByte := by decide +kernel

/-- encode/encode_test.go:14 -/
example : ∀ c ∈ ([(0, [0]), (1, [1]), (125, [125]), (126, [126]), (127, [127]), (255, [255, 1]),
  (256, [128, 2])] : List (BitVec 64 × Bytes)), encodeVarint [] c.1 = c.2 ∧ decodeVarint c.2 =
  some ([], c.1) := by decide +kernel

/-- encode/encode_test.go:14 -/
example : ∀ c ∈ ([(4095, [255, 31]), (4096, [128, 32]), (32639, [255, 254, 1]), (1234567890, [210,
  133, 216, 204, 4]), (4294967295, [255, 255, 255, 255, 15]), (18446744073709551615, [255, 255,
  255, 255, 255, 255, 255, 255, 255, 1])] : List (BitVec 64 × Bytes)), encodeVarint [] c.1 = c.2 ∧
  decodeVarint c.2 = some ([], c.1) := by decide +kernel

/-- encode/encode_test.go:48 -/
example : ∀ c ∈ ([(0, [0]), (1, [2]), (125, [250, 1]), (126, [252, 1]), (127, [254, 1]), (128,
  [128, 2]), (129, [130, 2])] : List (BitVec 64 × Bytes)), encodeZigzag64 [] c.1 = c.2 ∧
  decodeZigzag64 c.2 = some ([], c.1) := by decide +kernel

/-- encode/encode_test.go:48 -/
example : ∀ c ∈ ([(255, [254, 3]), (256, [128, 4]), (4095, [254, 63]), (4096, [128, 64]), (32639,
  [254, 253, 3]), (1234567890, [164, 139, 176, 153, 9]), (10000000000, [128, 144, 223, 192, 74])]
  : List (BitVec 64 × Bytes)), encodeZigzag64 [] c.1 = c.2 ∧ decodeZigzag64 c.2 = some ([], c.1)
  := by decide +kernel

/-- encode/encode_test.go:48 -/
example : ∀ c ∈ ([(2147483647, [254, 255, 255, 255, 15]), (9223372036854775807, [254, 255, 255,
  255, 255, 255, 255, 255, 255, 1]), ((-2147483648#64), [255, 255, 255, 255, 15]),
  ((-9223372036854775808#64), [255, 255, 255, 255, 255, 255, 255, 255, 255, 1]), ((-987654321#64),
  [225, 162, 243, 173, 7]), ((-1000000000#64), [255, 167, 214, 185, 7]), ((-125#64), [249, 1])] :
  List (BitVec 64 × Bytes)), encodeZigzag64 [] c.1 = c.2 ∧ decodeZigzag64 c.2 = some ([], c.1) :=
  by decide +kernel

/-- encode/encode_test.go:48 -/
example : ∀ c ∈ ([((-126#64), [251, 1]), ((-127#64), [253, 1]), ((-128#64), [255, 1]), ((-129#64),
  [129, 2]), ((-255#64), [253, 3])] : List (BitVec 64 × Bytes)), encodeZigzag64 [] c.1 = c.2 ∧
  decodeZigzag64 c.2 = some ([], c.1) := by decide +kernel

/-- encode/key_test.go:27 -/
def keyValues : Row := [none, (some (.bool false)), (some (.bool true)), (some (.int (-999#64))),
  (some (.int (-9#64))), (some (.int 0)), (some (.int 9)), (some (.int 999)), (some (.float
  0x7FF8000000000001#64)), (some (.float 0xc08f3f3333333333#64)), (some (.float
  0xc023cccccccccccd#64)), (some (.float 0x0000000000000000#64)), (some (.float
  0x4023cccccccccccd#64)), (some (.float 0x408f3f3333333333#64)), (some (.str (ascii "A"))), (some
  (.str (ascii "AA"))), (some (.str (ascii "AAA"))), (some (.str (ascii "AB"))), (some (.str
  (ascii "BBB"))), (some (.str (ascii "aaa"))), (some (.bytes [0])), (some (.bytes [0, 0])), (some
  (.bytes [0, 0, 0])), (some (.bytes [0, 1])), (some (.bytes [1, 1])), (some (.bytes [2, 0, 0, 0,
  1])), (some (.bytes [2, 0, 0, 1])), (some (.bytes [2, 0, 0, 2])), (some (.bytes [2, 2, 0, 0])),
  (some (.bytes [254, 0])), (some (.bytes [254, 0, 0])), (some (.bytes [254, 255])), (some (.bytes
  [255]))]

/-- encode/key_test.go:63 -/
def reverseKeyValues : Row := [none, (some (.bool true)), (some (.bool false)), (some (.int 999)),
  (some (.int 9)), (some (.int 0)), (some (.int (-9#64))), (some (.int (-999#64))), (some (.float
  0x408f3f3333333333#64)), (some (.float 0x4023cccccccccccd#64)), (some (.float
  0x0000000000000000#64)), (some (.float 0xc023cccccccccccd#64)), (some (.float
  0xc08f3f3333333333#64)), (some (.float 0x7FF8000000000001#64)), (some (.str (ascii "aaa"))),
  (some (.str (ascii "BBB"))), (some (.str (ascii "AB"))), (some (.str (ascii "AAA"))), (some
  (.str (ascii "AA"))), (some (.str (ascii "A"))), (some (.bytes [255])), (some (.bytes [254,
  255])), (some (.bytes [254, 0, 0])), (some (.bytes [254, 0])), (some (.bytes [2, 2, 0, 0])),
  (some (.bytes [2, 0, 0, 2])), (some (.bytes [2, 0, 0, 1])), (some (.bytes [2, 0, 0, 0, 1])),
  (some (.bytes [1, 1])), (some (.bytes [0, 1])), (some (.bytes [0, 0, 0])), (some (.bytes [0,
  0])), (some (.bytes [0]))]

/-- encode/key_test.go:99 -/
example : keysAscend [makeColumnKey 0 false] (fun v => [v]) keyValues = true := by decide +kernel

/-- encode/key_test.go:104 -/
example : ∀ v ∈ keyValues, keysAscend [makeColumnKey 1 false, makeColumnKey 0 false] (fun w => [v,
  w]) keyValues = true := by decide +kernel

/-- encode/key_test.go:114 -/
example : keysAscend [makeColumnKey 0 true] (fun v => [v]) reverseKeyValues = true :=
  by decide +kernel

/-- encode/key_test.go:119 -/
example : ∀ v ∈ reverseKeyValues, keysAscend [makeColumnKey 1 false, makeColumnKey 0 true] (fun w
  => [v, w]) keyValues = true := by decide +kernel

/-- encode/key_test.go:129 -/
example : ∀ v ∈ keyValues, keysAscend [makeColumnKey 0 false, makeColumnKey 1 true] (fun w => [v,
  w]) reverseKeyValues = true := by decide +kernel

end Maho.Replay
