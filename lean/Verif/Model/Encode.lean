import Verif.Model.Basic
/-
Model of encode/encode.go.
-/
namespace Maho

/-- `byte(u >> s)` for a 64-bit `u`. -/
def byteOf64 (u : BitVec 64) (s : Nat) : Byte := (u >>> s).setWidth 8

/-- `byte(u >> s)` for a 32-bit `u`. -/
def byteOf32 (u : BitVec 32) (s : Nat) : Byte := (u >>> s).setWidth 8

/-- encode/encode.go:3-9 `EncodeUint64`. -/
def encodeUint64 (buf : Bytes) (u : BitVec 64) : Bytes :=
  buf ++ [byteOf64 u 56, byteOf64 u 48, byteOf64 u 40, byteOf64 u 32,
          byteOf64 u 24, byteOf64 u 16, byteOf64 u 8, byteOf64 u 0]

/-- encode/encode.go:11-16 `EncodeUint32`. -/
def encodeUint32 (buf : Bytes) (u : BitVec 32) : Bytes :=
  buf ++ [byteOf32 u 24, byteOf32 u 16, byteOf32 u 8, byteOf32 u 0]

/-- encode/encode.go:18-25 `EncodeVarint`. The Go loop becomes recursion on `n`. -/
def encodeVarint (buf : Bytes) (n : BitVec 64) : Bytes :=
  if 1 <<< 7 ≤ n.toNat then
    encodeVarint (buf ++ [((n &&& 0x7f#64) ||| 0x80#64).setWidth 8]) (n >>> 7)
  else
    buf ++ [n.setWidth 8]
termination_by n.toNat
decreasing_by
  simp only [BitVec.toNat_ushiftRight, Nat.shiftRight_eq_div_pow]
  omega

/-- encode/encode.go:27-45 `DecodeVarint`, the loop body from iteration `shift` on:
`buf` is `buf[idx:]`, `n` the accumulator. `none` is the result `(nil, 0, false)`. -/
def decodeVarintLoop (buf : Bytes) (n : BitVec 64) (shift : Nat) : Option (Bytes × BitVec 64) :=
  if shift < 64 then
    match buf with
    | [] => none
    | b :: rest =>
      let n' := n ||| ((b.setWidth 64 &&& 0x7F#64) <<< shift)
      if b &&& 0x80#8 = 0#8 then some (rest, n')
      else decodeVarintLoop rest n' (shift + 7)
  else none
termination_by 64 - shift

/-- encode/encode.go:27-45 `DecodeVarint`. -/
def decodeVarint (buf : Bytes) : Option (Bytes × BitVec 64) := decodeVarintLoop buf 0#64 0

/-- encode/encode.go:47-50 `EncodeZigzag64`; `n>>63` is an arithmetic shift of an int64. -/
def encodeZigzag64 (buf : Bytes) (n : BitVec 64) : Bytes :=
  encodeVarint buf ((n <<< 1) ^^^ (n.sshiftRight 63))

/-- encode/encode.go:52-59 `DecodeZigzag64`; `(int64(n&1)<<63)>>63` shifts arithmetically. -/
def decodeZigzag64 (buf : Bytes) : Option (Bytes × BitVec 64) :=
  match decodeVarint buf with
  | none => none
  | some (rest, n) => some (rest, (n >>> 1) ^^^ (((n &&& 1#64) <<< 63).sshiftRight 63))

end Maho
