import Verif.Lemmas.Value
import Verif.Lemmas.Numeral
import Verif.Lemmas.Utf8
import Verif.Lemmas.Convert
import Verif.Lemmas.Key
/-
Properties C12-C22: values (types/value.go).
-/
namespace Maho
open Spec

/-! ### C12, C13: Compare -/

/-- C13: Compare always returns an ordering; the panics in the compare methods are unreachable. -/
theorem C13_compare_never_panics (v w : Option Value) :
    ∃ o, compareValues v w = .ok o := ⟨_, compareValues_eq v w⟩

/-- C12: Compare(a,a) = 0, NaN included. -/
theorem C12_compare_reflexive (v : Option Value) : compareValues v v = .ok .eq := by
  rw [compareValues_eq, cmp_self]

/-- C12: Compare(b,a) = -Compare(a,b). -/
theorem C12_compare_antisymmetric (v w : Option Value) (o : Ordering)
    (h : compareValues v w = .ok o) : compareValues w v = .ok o.swap := by
  rw [compareValues_eq] at h
  cases Res.ok.inj h
  rw [compareValues_eq, cmp_swap]

/-- C12: kinds come first: NULL < booleans < numbers < strings < byte strings. -/
theorem C12_compare_kinds (v w : Option Value) (h : sqlRank v < sqlRank w) :
    compareValues v w = .ok .lt := by rw [compareValues_eq, cmp_of_rank h]

example : sqlRank none < sqlRank (some (.int 5#64)) := by decide

/-- C12: strictly less is transitive on all values, NaN and mixed numbers included. -/
theorem C12_less_transitive (a b c : Option Value) (h1 : compareValues a b = .ok .lt)
    (h2 : compareValues b c = .ok .lt) : compareValues a c = .ok .lt := by
  rw [compareValues_eq] at *
  rw [cmp_lt_trans (Res.ok.inj h1) (Res.ok.inj h2)]

/-- 1.0 < 2 < 2^53 + 1. -/
example : compareValues (some (.float 0x3FF0000000000000#64)) (some (.int 2#64)) = .ok .lt ∧
    compareValues (some (.int 2#64)) (some (.int 9007199254740993#64)) = .ok .lt := by decide +kernel

/-- The full claim of C12: "at most" is transitive. -/
def CompareTransitive : Prop :=
  ∀ a b c : Option Value, compareValues a b ≠ .ok .gt → compareValues b c ≠ .ok .gt →
    compareValues a c ≠ .ok .gt

/-- C12 does not hold with NaN: 2 <= NaN and NaN <= 1 but 2 > 1. -/
theorem C12_not_transitive_nan : ¬ CompareTransitive := by
  intro h
  exact h (some (.int 2#64)) (some (.float 0x7FF8000000000000#64)) (some (.int 1#64))
    (by decide +kernel) (by decide +kernel) (by decide +kernel)

/-- C12 does not hold with integers and floats mixed, even without NaN:
2^53+1 <= 2^53 (float) and 2^53 (float) <= 2^53 but 2^53+1 > 2^53. -/
theorem C12_not_transitive_mixed :
    ∃ a b c : Option Value, NotNaN a ∧ NotNaN b ∧ NotNaN c ∧
      compareValues a b = .ok .eq ∧ compareValues b c = .ok .eq ∧ compareValues a c = .ok .gt :=
  ⟨some (.int 9007199254740993#64), some (.float 0x4340000000000000#64),
    some (.int 9007199254740992#64), trivial, by unfold NotNaN; decide, trivial, by decide +kernel,
    by decide +kernel, by decide +kernel⟩

/-- C12: the floats left out as NaN in what follows are those with all exponent bits set and
some mantissa bit set; so the infinities are compared like numbers. -/
theorem C12_nan_bits (f : F64) :
    NotNaN (some (.float f)) ↔ ¬ (f.toNat / 2 ^ 52 % 2 ^ 11 = 2047 ∧ f.toNat % 2 ^ 52 ≠ 0) := by
  have e : NotNaN (some (.float f)) ↔ ¬ 2047 * 2 ^ 52 < f.toNat % 2 ^ 63 :=
    decide_eq_false_iff_not
  rw [e]
  omega

/-- Infinity is not a NaN, the next bit pattern is. -/
example : NotNaN (some (.float 0x7FF0000000000000#64)) ∧
    ¬ NotNaN (some (.float 0x7FF0000000000001#64)) := by
  unfold NotNaN; decide

/-- C12 (partial): without NaN, and when integers beyond 2^53 are not compared with floats,
Compare is the mathematical order of values. Missing: NaN, and big integers against floats,
where the claim is false. -/
theorem C12_compare_value_partial (v w : Option Value) (hv : NotNaN v) (hw : NotNaN w)
    (h : (SmallInt v ∧ SmallInt w) ∨ (¬ IsFloat v ∧ ¬ IsFloat w)) :
    compareValues v w = .ok (valueOrder v w) := by
  rw [compareValues_eq, cmp_eq_valueOrder hv hw h]

example : NotNaN (some (.float 0x3FF8000000000000#64)) ∧ SmallInt (some (.int 1#64)) ∧
    compareValues (some (.int 1#64)) (some (.float 0x3FF8000000000000#64)) = .ok .lt := by
  refine ⟨rfl, ?_, ?_⟩
  · unfold SmallInt; decide
  · decide +kernel

/-- C12 (partial): on such values "at most" is transitive, so Compare is a total preorder
there, and equal exactly for numerically equal values. -/
theorem C12_transitive_partial (S : Option Value → Prop)
    (hn : ∀ v, S v → NotNaN v) (hs : (∀ v, S v → SmallInt v) ∨ (∀ v, S v → ¬ IsFloat v))
    (a b c : Option Value) (ha : S a) (hb : S b) (hc : S c)
    (h1 : compareValues a b ≠ .ok .gt) (h2 : compareValues b c ≠ .ok .gt) :
    compareValues a c ≠ .ok .gt := by
  have prec : ∀ v w, S v → S w → (SmallInt v ∧ SmallInt w) ∨ (¬ IsFloat v ∧ ¬ IsFloat w) := by
    intro v w hv hw
    rcases hs with hs | hs
    · exact Or.inl ⟨hs v hv, hs w hw⟩
    · exact Or.inr ⟨hs v hv, hs w hw⟩
  rw [compareValues_eq] at *
  intro hgt
  have hgt := Res.ok.inj hgt
  -- c < a
  have hlt : cmp c a = .lt := by rw [cmp_swap a c, hgt]; rfl
  -- b < a or b = a
  cases hab : cmp a b with
  | gt => exact h1 (by rw [hab])
  | lt =>
    have : cmp c b = .lt := cmp_lt_trans hlt hab
    exact h2 (by rw [cmp_swap c b, this]; rfl)
  | eq =>
    cases hbc : cmp b c with
    | gt => exact h2 (by rw [hbc])
    | lt =>
      have : cmp b a = .lt := cmp_lt_trans hbc hlt
      rw [cmp_swap a b, hab] at this
      simp at this
    | eq =>
      rw [cmp_eq_valueOrder (hn a ha) (hn b hb) (prec a b ha hb)] at hab
      rw [cmp_eq_valueOrder (hn b hb) (hn c hc) (prec b c hb hc)] at hbc
      rw [cmp_eq_valueOrder (hn a ha) (hn c hc) (prec a c ha hc)] at hgt
      have := valueOrder_eq_trans hab hbc
      rw [this] at hgt
      simp at hgt

/-! ### C14: keys against Compare -/

/-- C14: for two values of one type (no NULL, no NaN) in an ascending key column, the byte
order of the keys is the order reported by Compare. -/
theorem C14_key_order_is_compare (c : ColumnNum) (hc : c.toNat < 2 ^ 31 - 1) (r1 r2 : Row)
    (v w : Value) (hr1 : r1[c.toNat]? = some (some v)) (hr2 : r2[c.toNat]? = some (some w))
    (t : ValueType) (htv : HasType v t) (htw : HasType w t)
    (hv : NotNaN (some v)) (hw : NotNaN (some w))
    (k1 k2 : Bytes) (h1 : makeKey [makeColumnKey c false] r1 = .ok k1)
    (h2 : makeKey [makeColumnKey c false] r2 = .ok k2) :
    compareValues (some v) (some w) = .ok (bytesCompare k1 k2) := by
  obtain ⟨_, rfl⟩ := makeKey_ok_iff.1 h1
  obtain ⟨_, rfl⟩ := makeKey_ok_iff.1 h2
  have hk := makeColumnKey_read hc false
  rw [(rowKey_decides _ r1 r2).compare, compareValues_eq]
  congr 1
  have e1 : r1.getD c.toNat none = some v := by rw [List.getD_eq_getElem?_getD, hr1]; rfl
  have e2 : r2.getD c.toNat none = some w := by rw [List.getD_eq_getElem?_getD, hr2]; rfl
  have : rowOrder (keyCols [makeColumnKey c false]) r1 r2 = columnOrder false (some v) (some w) := by
    simp only [keyCols, List.map_cons, List.map_nil, hk.1, hk.2, rowOrder, e1, e2]
    cases columnOrder false (some v) (some w) <;> rfl
  rw [this]
  cases v <;> cases w <;> simp only [HasType] at htv htw <;> subst htv <;>
    first
      | (cases htw; done)
      | rfl
      | skip
  simp only [cmp, columnOrder, keyRank, if_true, Bool.false_eq_true, if_false, ascOrder, floatOrder]
  have h1 : F64.isNaN _ = false := hv
  have h2 : F64.isNaN _ = false := hw
  rw [floatLadder_eq_compare h1 h2, h1, h2]
  simp

/-- -1.0 and 2.0 in the second column. -/
example : ∃ k1 k2,
    makeKey [makeColumnKey 1#32 false] [none, some (.float 0xBFF0000000000000#64)] = .ok k1 ∧
    makeKey [makeColumnKey 1#32 false] [none, some (.float 0x4000000000000000#64)] = .ok k2 ∧
    bytesCompare k1 k2 = .lt := ⟨_, _, rfl, rfl, by decide +kernel⟩

/-! ### C15: integers to floats -/

/-- C15: converting an integer to a float never gives NaN or infinity, and no float64 is
nearer to the integer; if another float64 is as near, the result has an even mantissa. -/
theorem C15_nearest_even (i : BitVec 64) :
    F64.isFinite (F64.ofInt64 i) = true ∧
    ∀ g : F64, F64.isFinite g = true →
      (F64.scaled (F64.ofInt64 i) - i.toInt * F64.unit).natAbs
        ≤ (F64.scaled g - i.toInt * F64.unit).natAbs ∧
      ((F64.scaled (F64.ofInt64 i) - i.toInt * F64.unit).natAbs
          = (F64.scaled g - i.toInt * F64.unit).natAbs →
        F64.scaled g ≠ F64.scaled (F64.ofInt64 i) → F64.mant (F64.ofInt64 i) % 2 = 0) :=
  ⟨F64.isFinite_ofInt64 i, fun g _ => F64.ofInt64_nearest i g⟩

/-- 2^53+1 lies halfway between 2^53 and 2^53+2 and goes to the even one. -/
example : F64.ofInt64 9007199254740993#64 = 0x4340000000000000#64 ∧
    F64.ofInt64 9007199254740995#64 = 0x4340000000000002#64 ∧
    F64.ofInt64 (-3#64) = 0xC008000000000000#64 := by decide +kernel

/-- C15: exact up to 2^53. -/
theorem C15_exact (i : BitVec 64) (h : i.toInt.natAbs ≤ 2 ^ 53) :
    F64.scaled (F64.ofInt64 i) = i.toInt * F64.unit := scaled_ofInt64_exact h

/-- C15: monotone over all integers. -/
theorem C15_monotone (i j : BitVec 64) (h : i.toInt ≤ j.toInt) :
    F64.scaled (F64.ofInt64 i) ≤ F64.scaled (F64.ofInt64 j) := F64.scaled_ofInt64_mono h

/-- C15: this is the conversion CastValue performs. -/
theorem C15_cast (env : FloatEnv) (i : BitVec 64) :
    castValue env .float64 (some (.int i)) = .ok (some (.float (F64.ofInt64 i))) := rfl

/-! ### C16: casts -/

/-- C16: casting to a valid type never panics. -/
theorem C16_cast_never_panics (env : FloatEnv) (vt : ValueType) (h : ValidType vt)
    (v : Option Value) : castValue env vt v ≠ .panic := castValue_no_panic h

/-- C16: NULL stays NULL; anything else that casts gets the requested type. -/
theorem C16_cast_type (env : FloatEnv) (vt : ValueType) (v w : Option Value)
    (h : castValue env vt v = .ok w) :
    (v = none ∧ w = none) ∨ (∃ x y, v = some x ∧ w = some y ∧ HasType y vt) := by
  cases v with
  | none => cases Res.ok.inj h; exact Or.inl ⟨rfl, rfl⟩
  | some x =>
    obtain ⟨y, hy, ht⟩ := castValue_type h
    exact Or.inr ⟨x, y, rfl, hy, ht⟩

/-- C16: a value that already has the type is unchanged. -/
theorem C16_cast_same (env : FloatEnv) (vt : ValueType) (v : Value) (h : HasType v vt) :
    castValue env vt (some v) = .ok (some v) := castValue_same h

/-- C16: casting again changes nothing. -/
theorem C16_cast_idempotent (env : FloatEnv) (vt : ValueType) (v w : Option Value)
    (h : castValue env vt v = .ok w) : castValue env vt w = .ok w := by
  rcases C16_cast_type env vt v w h with ⟨_, rfl⟩ | ⟨_, y, _, rfl, hy⟩
  · rfl
  · exact castValue_same hy

/-- A concrete float environment, to show casts that use it. -/
def sampleEnv : FloatEnv := ⟨fun _ => [], fun _ => none, fun _ => 0#64⟩

example : castValue sampleEnv .int64 (some (.float 0xC008CCCCCCCCCCCD#64))
    = .ok (some (.int (-3#64))) := by decide +kernel

/-- C16: a finite float whose value, rounded towards zero, is in the int64 range casts to that
integer; what any other float casts to is what the machine's conversion gives. -/
theorem C16_float_to_int (env : FloatEnv) (f : F64) :
    ∃ i, castValue env .int64 (some (.float f)) = .ok (some (.int i)) ∧
      ((F64.isFinite f = true ∧ -(2 ^ 63 : Int) ≤ (F64.scaled f).tdiv F64.unit ∧
          (F64.scaled f).tdiv F64.unit < 2 ^ 63 →
        i.toInt = (F64.scaled f).tdiv F64.unit) ∧
      (¬ (F64.isFinite f = true ∧ -(2 ^ 63 : Int) ≤ (F64.scaled f).tdiv F64.unit ∧
          (F64.scaled f).tdiv F64.unit < 2 ^ 63) →
        i = env.outOfRange f)) := by
  have e : (F64.scaled f).tdiv F64.unit = F64.trunc f := by
    unfold F64.scaled F64.trunc
    split
    · rw [Int.neg_tdiv, Int.ofNat_tdiv]
    · rw [Int.ofNat_tdiv]
  rw [e]
  refine ⟨env.toInt64 f, rfl, fun h => ?_, fun h => ?_⟩
  · unfold FloatEnv.toInt64
    rw [if_pos h, BitVec.toInt_ofInt]
    obtain ⟨_, h1, h2⟩ := h
    exact Int.bmod_eq_of_le (by simpa using h1) (by simpa using h2)
  · unfold FloatEnv.toInt64
    rw [if_neg h]

/-- -3.1 is in the range, 2^63 is not. -/
example : F64.isFinite 0xC008CCCCCCCCCCCD#64 = true ∧
    (F64.scaled 0xC008CCCCCCCCCCCD#64).tdiv F64.unit = -3 ∧
    F64.isFinite 0x43E0000000000000#64 = true ∧
    (F64.scaled 0x43E0000000000000#64).tdiv F64.unit = 2 ^ 63 := by decide +kernel

/-! ### C17: integers and text -/

/-- C17: text casts to the integer `i` exactly when it is a signed decimal numeral for `i`
with blanks around it. (`i` ranges over int64, so numerals out of range are not accepted.) -/
theorem C17_text_to_int (env : FloatEnv) (s : Bytes) (i : BitVec 64) :
    castValue env .int64 (some (.str s)) = .ok (some (.int i)) ↔
      ∃ num, Padded s num ∧ IsNumeral num i.toInt := by
  have e : castValue env .int64 (some (.str s)) =
      match parseInt64 (trimBlank s) with
      | some i => .ok (some (.int i))
      | none => .err .other := rfl
  rw [e]
  constructor
  · intro h
    cases hp : parseInt64 (trimBlank s) with
    | none => rw [hp] at h; simp at h
    | some j =>
      rw [hp] at h
      simp only [Res.ok.injEq, Option.some.injEq, Value.int.injEq] at h
      subst h
      exact ⟨trimBlank s, trimBlank_padded s, parseInt64_iff.1 hp⟩
  · rintro ⟨num, hp, hn⟩
    rw [trimBlank_of_padded hp (numeral_no_blank hn), parseInt64_iff.2 hn]

/-- C17: all other text is an error. -/
theorem C17_text_to_int_fails (env : FloatEnv) (s : Bytes)
    (h : ∀ (i : BitVec 64) num, Padded s num → ¬ IsNumeral num i.toInt) :
    castValue env .int64 (some (.str s)) = .err .other := by
  have e : castValue env .int64 (some (.str s)) =
      match parseInt64 (trimBlank s) with
      | some i => .ok (some (.int i))
      | none => .err .other := rfl
  rw [e]
  cases hp : parseInt64 (trimBlank s) with
  | none => rfl
  | some j => exact absurd (parseInt64_iff.1 hp) (h j _ (trimBlank_padded s))

/-- C17: an integer casts to a numeral for it, ... -/
theorem C17_int_to_text (env : FloatEnv) (i : BitVec 64) :
    ∃ s, castValue env .string (some (.int i)) = .ok (some (.str s)) ∧ IsNumeral s i.toInt :=
  ⟨_, rfl, formatInt_numeral _⟩

/-- C17: ... and that text, with any blanks around it, casts back to the integer. -/
theorem C17_roundtrip (env : FloatEnv) (i : BitVec 64) (s t : Bytes)
    (h : castValue env .string (some (.int i)) = .ok (some (.str s))) (ht : Padded t s) :
    castValue env .int64 (some (.str t)) = .ok (some (.int i)) := by
  have e : s = formatInt i.toInt := by
    have h' : Res.ok (some (Value.str (formatInt i.toInt))) = .ok (some (.str s)) := h
    simp only [Res.ok.injEq, Option.some.injEq, Value.str.injEq] at h'
    exact h'.symm
  subst e
  exact (C17_text_to_int env t i).2 ⟨_, ht, formatInt_numeral _⟩

/-- C17: different integers get different texts. -/
theorem C17_text_injective (env : FloatEnv) (i j : BitVec 64) (s : Bytes)
    (hi : castValue env .string (some (.int i)) = .ok (some (.str s)))
    (hj : castValue env .string (some (.int j)) = .ok (some (.str s))) : i = j := by
  have h1 := C17_roundtrip env i s s hi ⟨[], [], by simp [Blank], by simp [Blank], by simp⟩
  have h2 := C17_roundtrip env j s s hj ⟨[], [], by simp [Blank], by simp [Blank], by simp⟩
  rw [h1] at h2
  simpa using h2

/-- C17: the text of an integer is the shortest numeral for it: no `+`, no leading zeros, and
no minus before a zero. -/
theorem C17_shortest (env : FloatEnv) (i : BitVec 64) (s num : Bytes)
    (h : castValue env .string (some (.int i)) = .ok (some (.str s)))
    (hn : IsNumeral num i.toInt) : s.length ≤ num.length := by
  have h' : Res.ok (some (Value.str (formatInt i.toInt))) = .ok (some (.str s)) := h
  simp only [Res.ok.injEq, Option.some.injEq, Value.str.injEq] at h'
  subst h'
  exact formatInt_shortest hn

example : castValue sampleEnv .string (some (.int 0#64)) = .ok (some (.str (ascii "0"))) ∧
    IsNumeral (ascii "-00") (0#64).toInt :=
  ⟨by decide +kernel,
    .inr (.inr ⟨ascii "00", 0, by decide, ⟨by decide, by decide, by decide⟩, by decide⟩)⟩

example : castValue sampleEnv .string (some (.int 0x8000000000000000#64)) =
    .ok (some (.str (ascii "-9223372036854775808"))) := by decide +kernel
example : castValue sampleEnv .int64 (some (.str (ascii "\t -9223372036854775808\n"))) =
    .ok (some (.int 0x8000000000000000#64)) := by decide +kernel
example : castValue sampleEnv .int64 (some (.str (ascii "9223372036854775808"))) =
    .err .other := by decide +kernel

/-! ### C18: strings and byte strings -/

/-- C18: text to bytes keeps the bytes; bytes to text succeeds exactly for well-formed UTF-8
and keeps the bytes. -/
theorem C18_bytes_text (env : FloatEnv) (b : Bytes) :
    castValue env .bytes (some (.str b)) = .ok (some (.bytes b)) ∧
    (WellFormedUtf8 b → castValue env .string (some (.bytes b)) = .ok (some (.str b))) ∧
    (¬ WellFormedUtf8 b → castValue env .string (some (.bytes b)) = .err .other) := by
  have e : castValue env .string (some (.bytes b)) =
      if utf8Valid b then .ok (some (.str b)) else .err .other := rfl
  refine ⟨rfl, ?_, ?_⟩
  · intro h
    rw [e, if_pos ((utf8Valid_iff b).2 h)]
  · intro h
    rw [e, if_neg (fun h' => h ((utf8Valid_iff b).1 h'))]

/-- C18: text to bytes and back. -/
theorem C18_roundtrip (env : FloatEnv) (s : Bytes) (h : WellFormedUtf8 s) :
    (castValue env .bytes (some (.str s)) >>= castValue env .string) = .ok (some (.str s)) := by
  rw [(C18_bytes_text env s).1]
  exact (C18_bytes_text env s).2.1 h

/-- "é€😀" -/
example : WellFormedUtf8 [0xC3#8, 0xA9#8, 0xE2#8, 0x82#8, 0xAC#8, 0xF0#8, 0x9F#8, 0x98#8, 0x80#8] :=
  ⟨[0xE9, 0x20AC, 0x1F600], by simp [IsScalar], by decide⟩
/-- A surrogate is not well-formed. -/
example : ¬ WellFormedUtf8 [0xED#8, 0xA0#8, 0x80#8] := by
  rw [← utf8Valid_iff]; decide +kernel

/-! ### C19: booleans and text -/

/-- The bytes of the accepted words. -/
def trueSpellings : List String := ["t", "true", "y", "yes", "on", "1"]
def falseSpellings : List String := ["f", "false", "n", "no", "off", "0"]

/-- C19: exactly the listed words, with blanks around them, cast to true and false; all other
text is an error. -/
theorem C19_text_to_bool (env : FloatEnv) (s : Bytes) :
    (castValue env .bool (some (.str s)) = .ok (some (.bool true)) ↔
      ∃ w ∈ trueSpellings, Padded s (ascii w)) ∧
    (castValue env .bool (some (.str s)) = .ok (some (.bool false)) ↔
      ∃ w ∈ falseSpellings, Padded s (ascii w)) ∧
    (castValue env .bool (some (.str s)) = .err .other ↔
      ∀ w ∈ trueSpellings ++ falseSpellings, ¬ Padded s (ascii w)) := by
  have hnb : ∀ w ∈ trueSpellings ++ falseSpellings, ∀ b ∈ ascii w, isTrimByte b = false := by
    decide +kernel
  have hpad : ∀ w ∈ trueSpellings ++ falseSpellings, (Padded s (ascii w) ↔ trimBlank s = ascii w) := by
    intro w hw
    constructor
    · intro h; exact trimBlank_of_padded h (hnb w hw)
    · intro h; rw [← h]; exact trimBlank_padded s
  have ht : trimBlank s ∈ trueWords ↔ ∃ w ∈ trueSpellings, Padded s (ascii w) := by
    have e : trueWords = trueSpellings.map ascii := rfl
    rw [e, List.mem_map]
    constructor
    · rintro ⟨w, hw, he⟩
      exact ⟨w, hw, (hpad w (List.mem_append_left _ hw)).2 he.symm⟩
    · rintro ⟨w, hw, he⟩
      exact ⟨w, hw, ((hpad w (List.mem_append_left _ hw)).1 he).symm⟩
  have hf : trimBlank s ∈ falseWords ↔ ∃ w ∈ falseSpellings, Padded s (ascii w) := by
    have e : falseWords = falseSpellings.map ascii := rfl
    rw [e, List.mem_map]
    constructor
    · rintro ⟨w, hw, he⟩
      exact ⟨w, hw, (hpad w (List.mem_append_right _ hw)).2 he.symm⟩
    · rintro ⟨w, hw, he⟩
      exact ⟨w, hw, ((hpad w (List.mem_append_right _ hw)).1 he).symm⟩
  have hdis : ∀ w ∈ trueWords, w ∉ falseWords := by decide +kernel
  have e : castValue env .bool (some (.str s)) =
      if trimBlank s ∈ trueWords then .ok (some (.bool true))
      else if trimBlank s ∈ falseWords then .ok (some (.bool false))
      else .err .other := rfl
  have hall : (∀ w ∈ trueSpellings ++ falseSpellings, ¬ Padded s (ascii w)) ↔
      trimBlank s ∉ trueWords ∧ trimBlank s ∉ falseWords := by
    rw [ht, hf]
    constructor
    · intro h
      exact ⟨fun ⟨w, hw, hp⟩ => h w (List.mem_append_left _ hw) hp,
        fun ⟨w, hw, hp⟩ => h w (List.mem_append_right _ hw) hp⟩
    · rintro ⟨h1, h2⟩ w hw hp
      rcases List.mem_append.1 hw with hw | hw
      · exact h1 ⟨w, hw, hp⟩
      · exact h2 ⟨w, hw, hp⟩
  rw [hall, ← ht, ← hf, e]
  by_cases h1 : trimBlank s ∈ trueWords
  · have h2 := hdis _ h1
    simp [h1, h2]
  · by_cases h2 : trimBlank s ∈ falseWords <;> simp [h1, h2]

example : Padded (ascii " yes\n") (ascii "yes") :=
  ⟨ascii " ", ascii "\n", by unfold Blank; decide, by unfold Blank; decide, by decide⟩

/-! ### C20, C21: ConvertValue -/

/-- The full claim of C20. -/
def ConvertValueSound : Prop :=
  ∀ (env : FloatEnv) (ct : ColumnType) (v w : Option Value), ValidType ct.type →
    convertValue env ct v = .ok w → FitsColumn ct w

/-- C20 does not hold: a string of 2^32 bytes is accepted by a column of size 0, because the
length is truncated to 32 bits before it is compared. -/
theorem C20_length_wraps : ¬ ConvertValueSound := by
  intro h
  have := h sampleEnv ⟨.string, 0#32, false, false⟩ (some (.str (List.replicate (2 ^ 32) 0#8)))
    (some (.str (List.replicate (2 ^ 32) 0#8))) (Or.inr (Or.inr (Or.inr (Or.inl rfl)))) (by
      rw [convertValue_some]
      refine ⟨_, castValue_same rfl, rfl, ?_⟩
      simp only [convertCheck, List.length_replicate]
      rw [if_neg (by decide)])
  have h2 := this.2
  simp only [List.length_replicate] at h2
  exact absurd h2 (by decide)

/-- C20 does not hold for one byte integer columns: 1000 is accepted. -/
theorem C20_int1_unchecked (env : FloatEnv) :
    convertValue env ⟨.int64, 1#32, false, false⟩ (some (.int 1000#64)) = .ok (some (.int 1000#64)) ∧
    ¬ FitsColumn ⟨.int64, 1#32, false, false⟩ (some (.int 1000#64)) :=
  ⟨rfl, fun h => absurd h.2.2 (by decide)⟩

/-- C20 (partial): for strings shorter than 2^32 bytes and integer columns of 2, 4 or at
least 8 bytes (the sizes SQL column types get), an accepted value fits its column. Missing: longer strings and other
integer sizes, where the claim is false. -/
theorem C20_convert_sound_partial (env : FloatEnv) (ct : ColumnType) (v w : Option Value)
    (hint : ct.type = .int64 → ct.size = 2#32 ∨ ct.size = 4#32 ∨ 8 ≤ ct.size.toNat)
    (hlen : ∀ s, w = some (.str s) ∨ w = some (.bytes s) → s.length < 2 ^ 32)
    (h : convertValue env ct v = .ok w) : FitsColumn ct w := by
  cases v with
  | none =>
    obtain ⟨rfl, hn⟩ := convertValue_none.1 h
    exact hn
  | some v =>
    obtain ⟨y, _, rfl, hk⟩ := convertValue_some.1 h
    apply convertCheck_fits _ hint hk
    intro s hs
    apply hlen
    rcases hs with rfl | rfl
    · exact Or.inl rfl
    · exact Or.inr rfl

example : convertValue sampleEnv ⟨.string, 5#32, false, true⟩ (some (.int 12345#64)) =
    .ok (some (.str (ascii "12345"))) := by decide +kernel
example : convertValue sampleEnv ⟨.string, 4#32, false, true⟩ (some (.int 12345#64)) =
    .err .other := by decide +kernel
example : convertValue sampleEnv ⟨.int64, 2#32, false, true⟩ (some (.str (ascii "-32768"))) =
    .ok (some (.int (-32768#64))) := by decide +kernel

/-- C20: conversion to a valid column type never panics. -/
theorem C20_convert_never_panics (env : FloatEnv) (ct : ColumnType) (h : ValidType ct.type)
    (v : Option Value) : convertValue env ct v ≠ .panic := convertValue_no_panic h

/-- C20: NULL is accepted exactly by nullable columns, and only NULL converts to NULL. -/
theorem C20_convert_null (env : FloatEnv) (ct : ColumnType) (v w : Option Value) :
    (convertValue env ct none = if ct.notNull then .err .other else .ok none) ∧
    (convertValue env ct v = .ok w → (w = none ↔ v = none)) := by
  refine ⟨rfl, ?_⟩
  intro h
  cases v with
  | none => simp [(convertValue_none.1 h).1]
  | some v =>
    obtain ⟨y, _, rfl, _⟩ := convertValue_some.1 h
    simp

/-- C21: a value that fits its column is accepted unchanged. -/
theorem C21_convert_keeps_valid (env : FloatEnv) (ct : ColumnType) (v : Option Value)
    (h : FitsColumn ct v) : convertValue env ct v = .ok v := by
  cases v with
  | none => exact convertValue_none.2 ⟨rfl, h⟩
  | some v => exact convertValue_some.2 ⟨v, castValue_same h.1, rfl, fits_convertCheck h⟩

example : FitsColumn ⟨.int64, 4#32, false, true⟩ (some (.int (-2147483648#64))) :=
  ⟨rfl, by decide⟩

/-- C21: converting twice is converting once (for every accepted value, long strings too). -/
theorem C21_convert_idempotent (env : FloatEnv) (ct : ColumnType) (v w : Option Value)
    (h : convertValue env ct v = .ok w) : convertValue env ct w = .ok w := by
  cases v with
  | none =>
    obtain ⟨rfl, _⟩ := convertValue_none.1 h
    exact h
  | some v =>
    obtain ⟨y, _, rfl, hk⟩ := convertValue_some.1 h
    exact convertValue_some.2 ⟨y, castValue_same (convertCheck_ok hk).2, rfl, hk⟩

/-! ### C22: ConvertRow -/

/-- C22: rows that are too long are rejected. -/
theorem C22_row_too_long (env : FloatEnv) (cts : List ColumnType) (row : Row)
    (h : cts.length < row.length) : convertRow env cts row = .err .other := by
  unfold convertRow; rw [if_pos h]

/-- C22: ConvertRow never panics for valid column types. -/
theorem C22_row_never_panics (env : FloatEnv) (cts : List ColumnType) (row : Row)
    (h : ∀ ct ∈ cts, ValidType ct.type) : convertRow env cts row ≠ .panic := by
  unfold convertRow
  by_cases hl : cts.length < row.length
  · rw [if_pos hl]; simp
  · rw [if_neg hl]
    have := convertPrefix_no_panic (env := env) h (by omega : row.length ≤ cts.length)
    cases hp : convertPrefix env cts row with
    | ok r => simp
    | err e => simp
    | panic => exact absurd hp this

/-- C22: an accepted row has one value per column: the converted value where the row had
one, NULL beyond its end. This determines the result. -/
theorem C22_row_exact (env : FloatEnv) (cts : List ColumnType) (row r : Row) :
    convertRow env cts row = .ok r ↔
      row.length ≤ cts.length ∧ r.length = cts.length ∧
      (∀ (i : Nat) ct v, cts[i]? = some ct → row[i]? = some v →
        ∃ w, r[i]? = some w ∧ convertValue env ct v = .ok w) ∧
      (∀ i : Nat, row.length ≤ i → i < cts.length → r[i]? = some none) := convertRow_ok

/-- The full claim of C22. -/
def ConvertRowSound : Prop :=
  ∀ (env : FloatEnv) (cts : List ColumnType) (row r : Row),
    convertRow env cts row = .ok r → FitsRow cts r

/-- C22 does not hold: an empty row for a NOT NULL column becomes a row with NULL in it. -/
theorem C22_short_row_null : ¬ ConvertRowSound := by
  intro h
  have := (h sampleEnv [⟨.int64, 8#32, false, true⟩] [] [none] rfl).2 0 _ _ rfl rfl
  exact absurd this (by unfold FitsColumn; decide)

/-- C22 (partial): a row with a value for every column, no string of 2^32 bytes or more and
the usual integer sizes converts to a row that satisfies its table. Missing: short rows,
where NOT NULL is not checked, and the cases missing in C20. -/
theorem C22_row_sound_partial (env : FloatEnv) (cts : List ColumnType) (row r : Row)
    (hfull : row.length = cts.length)
    (hint : ∀ ct ∈ cts, ct.type = .int64 → ct.size = 2#32 ∨ ct.size = 4#32 ∨ 8 ≤ ct.size.toNat)
    (hlen : ∀ s, some (.str s) ∈ r ∨ some (.bytes s) ∈ r → s.length < 2 ^ 32)
    (h : convertRow env cts row = .ok r) : FitsRow cts r := by
  obtain ⟨_, h2, h3, _⟩ := convertRow_ok.1 h
  refine ⟨h2, ?_⟩
  intro i ct w hc hw
  have hi : i < row.length := by
    have := (List.getElem?_eq_some_iff.1 hc).1; omega
  obtain ⟨w', hw', hcv⟩ := h3 i ct row[i] hc (List.getElem?_eq_getElem hi)
  rw [hw] at hw'
  cases hw'
  apply C20_convert_sound_partial env ct _ w (hint ct (List.mem_of_getElem? hc)) _ hcv
  intro s hs
  apply hlen
  have := List.mem_of_getElem? hw
  rcases hs with rfl | rfl
  · exact Or.inl this
  · exact Or.inr this

/-- C22 (partial): for a short row the same holds if the missing columns are nullable. -/
theorem C22_short_row_sound_partial (env : FloatEnv) (cts : List ColumnType) (row r : Row)
    (hshort : ∀ (i : Nat) ct, row.length ≤ i → cts[i]? = some ct → ct.notNull = false)
    (hint : ∀ ct ∈ cts, ct.type = .int64 → ct.size = 2#32 ∨ ct.size = 4#32 ∨ 8 ≤ ct.size.toNat)
    (hlen : ∀ s, some (.str s) ∈ r ∨ some (.bytes s) ∈ r → s.length < 2 ^ 32)
    (h : convertRow env cts row = .ok r) : FitsRow cts r := by
  obtain ⟨_, h2, h3, h4⟩ := convertRow_ok.1 h
  refine ⟨h2, ?_⟩
  intro i ct w hc hw
  by_cases hi : i < row.length
  · obtain ⟨w', hw', hcv⟩ := h3 i ct row[i] hc (List.getElem?_eq_getElem hi)
    rw [hw] at hw'
    cases hw'
    apply C20_convert_sound_partial env ct _ w (hint ct (List.mem_of_getElem? hc)) _ hcv
    intro s hs
    apply hlen
    have := List.mem_of_getElem? hw
    rcases hs with rfl | rfl
    · exact Or.inl this
    · exact Or.inr this
  · have := h4 i (by omega) (List.getElem?_eq_some_iff.1 hc).1
    rw [hw] at this
    cases this
    exact hshort i ct (by omega) hc

/-- C22: a row that satisfies its table is accepted unchanged. -/
theorem C22_row_keeps_valid (env : FloatEnv) (cts : List ColumnType) (row : Row)
    (h : FitsRow cts row) : convertRow env cts row = .ok row := by
  obtain ⟨h1, h2⟩ := h
  refine convertRow_ok.2 ⟨by omega, h1, ?_, ?_⟩
  · intro i ct v hc hv
    exact ⟨v, hv, C21_convert_keeps_valid env ct v (h2 i ct v hc hv)⟩
  · intro i hi hi2; omega

example : convertRow sampleEnv [⟨.int64, 4#32, false, true⟩, ⟨.string, 3#32, false, false⟩]
    [some (.str (ascii "7")), some (.int 12#64)] =
    .ok [some (.int 7#64), some (.str (ascii "12"))] := by decide +kernel

end Maho
