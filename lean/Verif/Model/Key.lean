import Verif.Model.Encode
import Verif.Model.Value
/-
Model of encode/key.go and of the column keys in types/column.go.
-/
namespace Maho

/-- types/column.go:8 `ColumnNum`. -/
abbrev ColumnNum := BitVec 32
/-- types/column.go:9 `ColumnKey` (an int32). -/
abbrev ColumnKey := BitVec 32

/-- types/column.go:83-89 `MakeColumnKey`. -/
def makeColumnKey (num : ColumnNum) (reverse : Bool) : ColumnKey :=
  let num := num + 1#32
  if reverse then -num else num

/-- types/column.go:91-93 `Reverse`. -/
def ColumnKey.reverse (ck : ColumnKey) : Bool := ck.slt 0#32

/-- types/column.go:95-100 `Column`. -/
def ColumnKey.column (ck : ColumnKey) : ColumnNum :=
  let ck := if ck.slt 0#32 then -ck else ck
  ck - 1#32

/-- types/column.go:102-112 `ColumnKeyUpdated`. -/
def columnKeyUpdated (colKey : List ColumnKey) (cols : List ColumnNum) : Bool :=
  colKey.any fun ck => cols.any fun col => col == ColumnKey.column ck

/-! encode/key.go:10-25, the tags. -/
def nullKeyTag : Byte := 128#8
def boolKeyTag : Byte := 129#8
def int64NegKeyTag : Byte := 130#8
def int64NotNegKeyTag : Byte := 131#8
def float64NaNKeyTag : Byte := 140#8
def float64NegKeyTag : Byte := 141#8
def float64ZeroKeyTag : Byte := 142#8
def float64PosKeyTag : Byte := 143#8
def float64NaNReverseKeyTag : Byte := 144#8
def stringKeyTag : Byte := 150#8
def bytesKeyTag : Byte := 160#8
def maxKeyTag : Byte := 255#8

/-- encode/key.go:27-29 `MaxKey`. -/
def maxKey : Bytes := [maxKeyTag]

/-- encode/key.go:33-39: the escaped bytes and the terminator. -/
def escapeBytes : Bytes → Bytes
  | [] => [0#8]
  | b :: bs => if b = 0#8 ∨ b = 1#8 then 1#8 :: b :: escapeBytes bs else b :: escapeBytes bs

/-- encode/key.go:31-48 `encodeKeyBytes`: only what this call appends is complemented. -/
def encodeKeyBytes (buf : Bytes) (bytes : Bytes) (reverse : Bool) : Bytes :=
  if reverse then buf ++ (escapeBytes bytes).map (fun b => ~~~b)
  else buf ++ escapeBytes bytes

/-- encode/key.go:57-112: what one column contributes, appended to `buf`. -/
def appendKeyValue (buf : Bytes) (reverse : Bool) : Option Value → Bytes
  | some (.bool b) =>
    let b := if reverse then !b else b
    buf ++ [boolKeyTag] ++ (if b then [1#8] else [0#8])
  | some (.str s) => encodeKeyBytes (buf ++ [stringKeyTag]) s reverse
  | some (.bytes s) => encodeKeyBytes (buf ++ [bytesKeyTag]) s reverse
  | some (.float f) =>
    let f := if reverse then F64.neg f else f
    if F64.isNaN f then
      if reverse then buf ++ [float64NaNReverseKeyTag] else buf ++ [float64NaNKeyTag]
    else if F64.eq f F64.zero then buf ++ [float64ZeroKeyTag]
    else if f &&& (1#64 <<< 63) ≠ 0#64 then
      encodeUint64 (buf ++ [float64NegKeyTag]) (~~~f)
    else
      encodeUint64 (buf ++ [float64PosKeyTag]) f
  | some (.int i) =>
    let i := if reverse then ~~~i else i
    if i.slt 0#64 then encodeUint64 (buf ++ [int64NegKeyTag]) i
    else encodeUint64 (buf ++ [int64NotNegKeyTag]) i
  | none => buf ++ [nullKeyTag]

/-- encode/key.go:50-115 `MakeKey`, the loop; indexing the row out of range panics. -/
def makeKeyLoop (buf : Bytes) : List ColumnKey → Row → Res Bytes
  | [], _ => .ok buf
  | ck :: key, row =>
    match row[(ColumnKey.column ck).toNat]? with
    | none => .panic
    | some val => makeKeyLoop (appendKeyValue buf (ColumnKey.reverse ck) val) key row

/-- encode/key.go:50-115 `MakeKey`. -/
def makeKey (key : List ColumnKey) (row : Row) : Res Bytes := makeKeyLoop [] key row

end Maho
