import Verif.Lemmas.Encode
/-
Properties C01-C05: the number encodings of encode/encode.go.
-/
namespace Maho
open Spec

/-- C01 (64 bit): the encoder only appends, appends 8 bytes, and they spell the number. -/
theorem C01_encodeUint64_value (buf : Bytes) (u : BitVec 64) :
    ∃ e, encodeUint64 buf u = buf ++ e ∧ e.length = 8 ∧ beVal e = u.toNat :=
  ⟨encodeUint64 [] u, encodeUint64_append buf u, rfl, beVal_encodeUint64 u⟩

/-- C01 (32 bit). -/
theorem C01_encodeUint32_value (buf : Bytes) (u : BitVec 32) :
    ∃ e, encodeUint32 buf u = buf ++ e ∧ e.length = 4 ∧ beVal e = u.toNat :=
  ⟨encodeUint32 [] u, encodeUint32_append buf u, rfl, beVal_encodeUint32 u⟩

/-- C01: byte order of the encodings is numerical order (also behind a common prefix). -/
theorem C01_encodeUint64_order (buf : Bytes) (u v : BitVec 64) :
    bytesCompare (encodeUint64 buf u) (encodeUint64 buf v) = compare u.toNat v.toNat := by
  rw [encodeUint64_append buf u, encodeUint64_append buf v, bytesCompare_append,
    bytesCompare_beVal (as := encodeUint64 [] u) (bs := encodeUint64 [] v) rfl, beVal_encodeUint64, beVal_encodeUint64]

theorem C01_encodeUint32_order (buf : Bytes) (u v : BitVec 32) :
    bytesCompare (encodeUint32 buf u) (encodeUint32 buf v) = compare u.toNat v.toNat := by
  rw [encodeUint32_append buf u, encodeUint32_append buf v, bytesCompare_append,
    bytesCompare_beVal (as := encodeUint32 [] u) (bs := encodeUint32 [] v) rfl, beVal_encodeUint32, beVal_encodeUint32]

/-- C01: complementing the number reverses the byte order. -/
theorem C01_encodeUint64_reverse (buf : Bytes) (u v : BitVec 64) :
    bytesCompare (encodeUint64 buf (~~~u)) (encodeUint64 buf (~~~v)) = compare v.toNat u.toNat := by
  rw [C01_encodeUint64_order, BitVec.toNat_not, BitVec.toNat_not]
  have := u.isLt
  have := v.isLt
  rcases Nat.lt_trichotomy v.toNat u.toNat with h | h | h
  · rw [Nat.compare_eq_lt.2 h, Nat.compare_eq_lt.2 (by omega)]
  · rw [Nat.compare_eq_eq.2 h, Nat.compare_eq_eq.2 (by omega)]
  · rw [Nat.compare_eq_gt.2 h, Nat.compare_eq_gt.2 (by omega)]

theorem C01_encodeUint32_reverse (buf : Bytes) (u v : BitVec 32) :
    bytesCompare (encodeUint32 buf (~~~u)) (encodeUint32 buf (~~~v)) = compare v.toNat u.toNat := by
  rw [C01_encodeUint32_order, BitVec.toNat_not, BitVec.toNat_not]
  have := u.isLt
  have := v.isLt
  rcases Nat.lt_trichotomy v.toNat u.toNat with h | h | h
  · rw [Nat.compare_eq_lt.2 h, Nat.compare_eq_lt.2 (by omega)]
  · rw [Nat.compare_eq_eq.2 h, Nat.compare_eq_eq.2 (by omega)]
  · rw [Nat.compare_eq_gt.2 h, Nat.compare_eq_gt.2 (by omega)]

example : encodeUint64 [7#8] 0x0102030405060708#64
    = [7#8, 1#8, 2#8, 3#8, 4#8, 5#8, 6#8, 7#8, 8#8] := by decide

/-- C02: decoding an encoding followed by anything gives the number and the rest. -/
theorem C02_varint_roundtrip (n : BitVec 64) (rest : Bytes) :
    decodeVarint (encodeVarint [] n ++ rest) = some (rest, n) := by
  obtain ⟨pre, b, h1, h2, h3, _, h5, h6⟩ := varintBytes_shape n.toNat
  have hn := n.isLt
  have hlen := h6 9 (by omega)
  rw [encodeVarint_eq, List.nil_append, h1, List.append_assoc, List.singleton_append,
    decodeVarint_ok h2 h3 (by omega), ← h1, h5, BitVec.ofNat_toNat, BitVec.setWidth_eq]

/-- C02: the encoder only appends to the buffer. -/
theorem C02_varint_appends (buf : Bytes) (n : BitVec 64) :
    encodeVarint buf n = buf ++ encodeVarint [] n := by
  rw [encodeVarint_eq, encodeVarint_eq, List.nil_append]

/-- C02: an encoding has between 1 and 10 bytes. -/
theorem C02_varint_length (n : BitVec 64) :
    1 ≤ (encodeVarint [] n).length ∧ (encodeVarint [] n).length ≤ 10 := by
  obtain ⟨pre, b, h1, _, _, _, _, h6⟩ := varintBytes_shape n.toNat
  have hn := n.isLt
  have hlen := h6 9 (by omega)
  rw [encodeVarint_eq, List.nil_append, h1]
  simp; omega

/-- C02: no encoding is a proper prefix of another one. -/
theorem C02_varint_prefix_free (m n : BitVec 64) :
    ¬ ProperPrefix (encodeVarint [] m) (encodeVarint [] n) := by
  rintro ⟨c, cs, h⟩
  have h1 := C02_varint_roundtrip m (c :: cs)
  have h2 := C02_varint_roundtrip n []
  rw [List.append_nil, h, h1] at h2
  simp at h2

example : encodeVarint [] 300#64 = [0xAC#8, 2#8] := by rw [encodeVarint_eq]; decide +kernel

/-- C03: the decoder succeeds exactly when one of the first ten bytes is below 128; it
consumes the bytes up to the first such byte and returns the number they spell mod 2^64. -/
theorem C03_decodeVarint_exact (buf rest : Bytes) (n : BitVec 64) :
    decodeVarint buf = some (rest, n) ↔
      ∃ pre b, buf = pre ++ b :: rest ∧ (∀ x ∈ pre, 128 ≤ x.toNat) ∧ b.toNat < 128 ∧
        pre.length < 10 ∧ n.toNat = leb128 (pre ++ [b]) % 2 ^ 64 := by
  constructor
  · intro h
    rcases varint_split buf 10 with ⟨pre, b, rest', h1, h2, h3, h4⟩ | h'
    · rw [h1, decodeVarint_ok h2 h3 h4] at h
      simp only [Option.some.injEq, Prod.mk.injEq] at h
      obtain ⟨e1, e2⟩ := h
      subst e1
      exact ⟨pre, b, h1, h2, h3, h4, by rw [← e2]; simp⟩
    · rw [decodeVarint_none h'] at h; simp at h
  · rintro ⟨pre, b, h1, h2, h3, h4, h5⟩
    rw [h1, decodeVarint_ok h2 h3 h4]
    congr 2
    apply BitVec.eq_of_toNat_eq
    rw [h5]; simp

/-- C03: it reports failure exactly when none of the first ten bytes is below 128. -/
theorem C03_decodeVarint_fails (buf : Bytes) :
    decodeVarint buf = none ↔ ∀ x ∈ buf.take 10, 128 ≤ x.toNat := by
  constructor
  · intro h
    rcases varint_split buf 10 with ⟨pre, b, rest', h1, h2, h3, h4⟩ | h'
    · rw [h1, decodeVarint_ok h2 h3 h4] at h; simp at h
    · exact h'
  · exact decodeVarint_none

example : decodeVarint [0x96#8, 1#8, 9#8] = some ([9#8], 150#64) :=
  (C03_decodeVarint_exact _ _ _).2 ⟨[0x96#8], 1#8, rfl, by decide, by decide, by decide, by decide⟩
example : decodeVarint [] = none := (C03_decodeVarint_fails _).2 (by simp)

/-- C04 does not hold: the decoder accepts an overlong encoding of zero. -/
theorem C04_varint_not_canonical :
    ∃ buf n, decodeVarint buf = some ([], n) ∧ encodeVarint [] n ≠ buf := by
  refine ⟨[0x80#8, 0#8], 0#64, ?_, ?_⟩
  · exact (C03_decodeVarint_exact _ _ _).2
      ⟨[0x80#8], 0#8, rfl, by decide, by decide, by decide, by decide⟩
  · rw [encodeVarint_eq]; decide +kernel

/-- C04 does not hold: the decoder drops bits that overflow 64 bits without an error. -/
theorem C04_varint_overflow_accepted :
    ∃ buf n, decodeVarint buf = some ([], n) ∧ leb128 buf ≠ n.toNat := by
  refine ⟨List.replicate 9 0x80#8 ++ [2#8], 0#64, ?_, by decide⟩
  exact (C03_decodeVarint_exact _ _ _).2
      ⟨List.replicate 9 0x80#8, 2#8, rfl, by decide, by decide, by decide, by decide⟩

/-- C04 (partial): the accepted bytes are the encoding of the result exactly when the last
byte is not a redundant zero and the spelled number fits in 64 bits. Missing: canonicity
of the other accepted byte strings, which is false. -/
theorem C04_varint_canonical_iff_partial (pre : Bytes) (b : Byte) (rest : Bytes) (n : BitVec 64)
    (hpre : ∀ x ∈ pre, 128 ≤ x.toNat) (hb : b.toNat < 128)
    (h : decodeVarint (pre ++ b :: rest) = some (rest, n)) :
    encodeVarint [] n = pre ++ [b] ↔
      (pre = [] ∨ b.toNat ≠ 0) ∧ leb128 (pre ++ [b]) < 2 ^ 64 := by
  have hn : n.toNat = leb128 (pre ++ [b]) % 2 ^ 64 := by
    obtain ⟨pre', b', h1, h2, h3, h4, h5⟩ := (C03_decodeVarint_exact _ _ _).1 h
    have hc : pre ++ [b] = pre' ++ [b'] := by
      have : (pre ++ [b]) ++ rest = (pre' ++ [b']) ++ rest := by simpa using h1
      exact List.append_cancel_right this
    rw [h5, hc]
  rw [encodeVarint_eq, List.nil_append]
  constructor
  · intro he
    obtain ⟨p, c, h1, _, _, h4, h5, _⟩ := varintBytes_shape n.toNat
    rw [he] at h1 h5
    obtain ⟨e1, e2⟩ := List.append_inj' h1 rfl
    simp only [List.cons.injEq, and_true] at e2
    subst e1; subst e2
    refine ⟨h4, ?_⟩
    rw [h5]; exact n.isLt
  · rintro ⟨h1, h2⟩
    rw [hn, Nat.mod_eq_of_lt h2]
    exact varintBytes_leb128 pre b hpre hb h1

example : decodeVarint ([0x96#8] ++ 1#8 :: [9#8]) = some ([9#8], 150#64) :=
  (C03_decodeVarint_exact _ _ _).2 ⟨[0x96#8], 1#8, rfl, by decide, by decide, by decide, by decide⟩

/-- C05: zigzag round trip. -/
theorem C05_zigzag_roundtrip (n : BitVec 64) (rest : Bytes) :
    decodeZigzag64 (encodeZigzag64 [] n ++ rest) = some (rest, n) := by
  unfold decodeZigzag64 encodeZigzag64
  rw [C02_varint_roundtrip]
  simp only [Option.some.injEq, Prod.mk.injEq, true_and]
  exact unzigzag_zigzag n

/-- C05: the stored number is 2n for n ≥ 0 and -2n-1 for n < 0. -/
theorem C05_zigzag_value (buf : Bytes) (n : BitVec 64) :
    ∃ u : BitVec 64, encodeZigzag64 buf n = encodeVarint buf u ∧
      (u.toNat : Int) = if n.toInt < 0 then -2 * n.toInt - 1 else 2 * n.toInt := by
  refine ⟨zigzag n, rfl, ?_⟩
  rw [zigzag_toNat]
  split <;> omega

/-- C05: numbers between -64·128^k and 64·128^k - 1 take at most k+1 bytes. -/
theorem C05_zigzag_short (n : BitVec 64) (k : Nat)
    (h1 : -(64 * 128 ^ k : Int) ≤ n.toInt) (h2 : n.toInt < (64 * 128 ^ k : Int)) :
    (encodeZigzag64 [] n).length ≤ k + 1 := by
  obtain ⟨u, hu, hv⟩ := C05_zigzag_value [] n
  rw [hu, encodeVarint_eq, List.nil_append]
  obtain ⟨pre, b, hs, _, _, _, _, h6⟩ := varintBytes_shape u.toNat
  have hlt : u.toNat < 128 ^ (k + 1) := by
    have e : ((128 ^ (k + 1) : Nat) : Int) = 128 * 128 ^ k := by
      rw [Nat.pow_succ, Nat.mul_comm]; simp
    have : (u.toNat : Int) < ((128 ^ (k + 1) : Nat) : Int) := by
      rw [e, hv]
      split <;> omega
    omega
  have := h6 k hlt
  rw [hs]; simp; omega

example : -(64 * 128 ^ 0 : Int) ≤ (BitVec.ofInt 64 (-64)).toInt ∧
    (BitVec.ofInt 64 (-64)).toInt < (64 * 128 ^ 0 : Int) := by decide

/-- C05: the zigzag encoder only appends to the buffer. -/
theorem C05_zigzag_appends (buf : Bytes) (n : BitVec 64) :
    encodeZigzag64 buf n = buf ++ encodeZigzag64 [] n :=
  C02_varint_appends buf _

end Maho
