import Verif.Model.Basic
/-
Specifications for the number encodings: what number a byte string spells.
-/
namespace Maho.Spec

/-- The number spelled by a byte string in big-endian order (as `binary.BigEndian` reads it). -/
def beVal (bs : Bytes) : Nat := bs.foldl (fun a b => a * 256 + b.toNat) 0

/-- The number spelled by a byte string in little-endian base 128, ignoring the top bits. -/
def leb128 : Bytes → Nat
  | [] => 0
  | b :: bs => b.toNat % 128 + 128 * leb128 bs

/-- `a` is a proper prefix of `b`. -/
def ProperPrefix (a b : Bytes) : Prop := ∃ c cs, b = a ++ c :: cs

end Maho.Spec
