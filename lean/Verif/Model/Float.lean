import Verif.Model.Basic
/-
Go float64 values, as IEEE-754 binary64 bit patterns. Go's float operations used by
types/value.go and encode/key.go: comparison, negation, NaN test, int64 -> float64.
-/
namespace Maho

/-- A float64, given by `math.Float64bits`. -/
abbrev F64 := BitVec 64

namespace F64

/-- Sign bit. -/
def sign (f : F64) : Bool := decide (2 ^ 63 ≤ f.toNat)
/-- The 63 bits below the sign. -/
def mag (f : F64) : Nat := f.toNat % 2 ^ 63
/-- Biased exponent field. -/
def expo (f : F64) : Nat := mag f / 2 ^ 52
/-- Mantissa field. -/
def mant (f : F64) : Nat := mag f % 2 ^ 52

/-- `math.IsNaN`: exponent field all ones and a non-zero mantissa. -/
def isNaN (f : F64) : Bool := decide (2047 * 2 ^ 52 < mag f)

/-- Neither NaN nor infinite. -/
def isFinite (f : F64) : Bool := decide (mag f < 2047 * 2 ^ 52)

/-- Absolute value of a number with magnitude bits `m`, in units of 2^-1074 (the
smallest positive float64), so that it is always a whole number. Infinity gets
2^2098, which is above every finite value. -/
def magScaled (m : Nat) : Nat :=
  if m / 2 ^ 52 = 0 then m % 2 ^ 52
  else (2 ^ 52 + m % 2 ^ 52) * 2 ^ (m / 2 ^ 52 - 1)

/-- The number 1 in those units. -/
@[irreducible] def unit : Nat := 2 ^ 1074

/-- The numerical value of a non-NaN float64 times 2^1074. -/
def scaled (f : F64) : Int :=
  if sign f then - (magScaled (mag f) : Int) else (magScaled (mag f) : Int)

/-- Go `a < b` on float64 (false when either is NaN). -/
def lt (a b : F64) : Bool := !isNaN a && !isNaN b && decide (scaled a < scaled b)

/-- Go `a == b` on float64 (false when either is NaN; -0 == +0). -/
def eq (a b : F64) : Bool := !isNaN a && !isNaN b && decide (scaled a = scaled b)

/-- Go `-a` on float64: flips the sign bit. -/
def neg (a : F64) : F64 := a ^^^ (1#64 <<< 63)

/-- float64 with value 0. -/
def zero : F64 := 0#64

/-- Magnitude bits of the float64 nearest to the natural number `n` (ties to even),
for `0 < n < 2^1024`. Go's conversion of an integer to float64 rounds to nearest even. -/
def natMag (n : Nat) : Nat :=
  let l := Nat.log2 n
  if l ≤ 52 then (l + 1023) * 2 ^ 52 + (n * 2 ^ (52 - l) - 2 ^ 52)
  else
    let s := l - 52
    let q := n / 2 ^ s
    let r := n % 2 ^ s
    let q' := if 2 ^ s < 2 * r ∨ (2 ^ s = 2 * r ∧ q % 2 = 1) then q + 1 else q
    (l + 1023) * 2 ^ 52 + (q' - 2 ^ 52)

/-- Go `float64(i)` for an int64 `i`. -/
def ofInt64 (i : BitVec 64) : F64 :=
  if i.toInt = 0 then 0#64
  else if i.toInt < 0 then BitVec.ofNat 64 (2 ^ 63 + natMag i.toInt.natAbs)
  else BitVec.ofNat 64 (natMag i.toInt.natAbs)

/-- The truncated integer part of a finite float64. -/
def trunc (f : F64) : Int :=
  if sign f then - ((magScaled (mag f) / unit : Nat) : Int)
  else ((magScaled (mag f) / unit : Nat) : Int)

end F64
end Maho
