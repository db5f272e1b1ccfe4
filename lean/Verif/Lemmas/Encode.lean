import Verif.Model.Encode
import Verif.Spec.Encode
import Verif.Lemmas.Bytes
namespace Maho
open Spec

theorem byteOf64_toNat (u : BitVec 64) (s : Nat) :
    (byteOf64 u s).toNat = u.toNat / 2 ^ s % 256 := by
  simp [byteOf64, BitVec.toNat_setWidth, Nat.shiftRight_eq_div_pow]

theorem byteOf32_toNat (u : BitVec 32) (s : Nat) :
    (byteOf32 u s).toNat = u.toNat / 2 ^ s % 256 := by
  simp [byteOf32, BitVec.toNat_setWidth, Nat.shiftRight_eq_div_pow]

theorem encodeUint64_append (buf : Bytes) (u : BitVec 64) :
    encodeUint64 buf u = buf ++ encodeUint64 [] u := by simp [encodeUint64]

theorem encodeUint32_append (buf : Bytes) (u : BitVec 32) :
    encodeUint32 buf u = buf ++ encodeUint32 [] u := by simp [encodeUint32]

theorem encodeUint64_length (u : BitVec 64) : (encodeUint64 [] u).length = 8 := rfl
theorem encodeUint32_length (u : BitVec 32) : (encodeUint32 [] u).length = 4 := rfl

theorem beVal_encodeUint64 (u : BitVec 64) : beVal (encodeUint64 [] u) = u.toNat := by
  simp only [beVal, encodeUint64, List.nil_append, List.foldl_cons, List.foldl_nil, byteOf64_toNat]
  have := u.isLt
  omega

theorem beVal_encodeUint32 (u : BitVec 32) : beVal (encodeUint32 [] u) = u.toNat := by
  simp only [beVal, encodeUint32, List.nil_append, List.foldl_cons, List.foldl_nil, byteOf32_toNat]
  have := u.isLt
  omega

theorem beVal_foldl (bs : Bytes) (a : Nat) :
    bs.foldl (fun a b => a * 256 + b.toNat) a = a * 256 ^ bs.length + beVal bs := by
  induction bs generalizing a with
  | nil => simp [beVal]
  | cons b bs ih =>
    simp only [List.foldl_cons, List.length_cons, beVal]
    rw [ih, ih (0 * 256 + b.toNat)]
    simp only [Nat.zero_mul, Nat.zero_add, Nat.add_mul, Nat.pow_succ]
    rw [Nat.mul_assoc, Nat.mul_comm 256]; omega

theorem beVal_cons (b : Byte) (bs : Bytes) :
    beVal (b :: bs) = b.toNat * 256 ^ bs.length + beVal bs := by
  have := beVal_foldl bs b.toNat
  simp only [beVal, List.foldl_cons, Nat.zero_mul, Nat.zero_add] at this ⊢
  exact this

theorem beVal_lt (bs : Bytes) : beVal bs < 256 ^ bs.length := by
  induction bs with
  | nil => simp [beVal]
  | cons b bs ih =>
    rw [beVal_cons, List.length_cons, Nat.pow_succ]
    have := b.isLt
    have h2 : b.toNat * 256 ^ bs.length + 256 ^ bs.length ≤ 256 * 256 ^ bs.length := by
      rw [← Nat.succ_mul]; exact Nat.mul_le_mul_right _ (by omega)
    omega

/-- Byte strings of equal length compare as the numbers they spell. -/
theorem bytesCompare_beVal {as bs : Bytes} (h : as.length = bs.length) :
    bytesCompare as bs = compare (beVal as) (beVal bs) := by
  induction as generalizing bs with
  | nil => cases bs with
    | nil => rfl
    | cons _ _ => simp at h
  | cons a as ih =>
    cases bs with
    | nil => simp at h
    | cons b bs =>
      simp only [List.length_cons, Nat.add_right_cancel_iff] at h
      rw [bytesCompare_cons, beVal_cons, beVal_cons, ih h, h]
      have h1 := beVal_lt as
      have h2 := beVal_lt bs
      rw [h] at h1
      rcases Nat.lt_trichotomy a.toNat b.toNat with hc | hc | hc
      · rw [Nat.compare_eq_lt.2 hc, Ordering.lt_then, eq_comm, Nat.compare_eq_lt]
        have : (a.toNat + 1) * 256 ^ bs.length ≤ b.toNat * 256 ^ bs.length :=
          Nat.mul_le_mul_right _ hc
        rw [Nat.succ_mul] at this
        omega
      · rw [Nat.compare_eq_eq.2 hc, Ordering.eq_then, hc]
        rcases Nat.lt_trichotomy (beVal as) (beVal bs) with h3 | h3 | h3
        · rw [Nat.compare_eq_lt.2 h3, Nat.compare_eq_lt.2 (by omega)]
        · rw [Nat.compare_eq_eq.2 h3, Nat.compare_eq_eq.2 (by omega)]
        · rw [Nat.compare_eq_gt.2 h3, Nat.compare_eq_gt.2 (by omega)]
      · rw [Nat.compare_eq_gt.2 hc, Ordering.gt_then, eq_comm, Nat.compare_eq_gt]
        have : (b.toNat + 1) * 256 ^ bs.length ≤ a.toNat * 256 ^ bs.length :=
          Nat.mul_le_mul_right _ hc
        rw [Nat.succ_mul] at this
        omega

/-! ### Varints -/

/-- Base-128 digits with continuation bits. -/
def varintBytes (n : Nat) : Bytes :=
  if n < 128 then [BitVec.ofNat 8 n]
  else BitVec.ofNat 8 (n % 128 + 128) :: varintBytes (n / 128)
termination_by n
decreasing_by omega

theorem encodeVarint_eq (buf : Bytes) (n : BitVec 64) :
    encodeVarint buf n = buf ++ varintBytes n.toNat := by
  fun_induction encodeVarint buf n with
  | case1 buf n h ih =>
    rw [ih]
    conv => rhs; unfold varintBytes
    have h' : ¬ n.toNat < 128 := by simpa using h
    rw [if_neg h']
    simp only [List.append_assoc, List.singleton_append, BitVec.toNat_ushiftRight,
      Nat.shiftRight_eq_div_pow]
    congr 2
    apply BitVec.eq_of_toNat_eq
    simp only [BitVec.toNat_setWidth, BitVec.toNat_or, BitVec.toNat_and, BitVec.toNat_ofNat]
    have e1 : n.toNat &&& 127 % 2 ^ 64 = n.toNat % 128 := by
      have := Nat.and_two_pow_sub_one_eq_mod n.toNat 7
      simpa using this
    rw [e1]
    have e2 : n.toNat % 128 ||| 128 % 2 ^ 64 = n.toNat % 128 + 128 := by
      have := Nat.two_pow_add_eq_or_of_lt (i := 7) (b := n.toNat % 128) (by omega) 1
      rw [Nat.or_comm, Nat.mod_eq_of_lt (by omega : 128 < 2 ^ 64)]
      have h128 : (2 : Nat) ^ 7 = 128 := rfl
      rw [h128, Nat.mul_one] at this
      omega
    rw [e2]
  | case2 buf n h =>
    have h' : n.toNat < 128 := by
      have : ¬ 128 ≤ n.toNat := by simpa using h
      omega
    unfold varintBytes
    rw [if_pos h']
    congr 2

/-- A varint is a run of bytes with the top bit set and one final byte without it. -/
theorem varintBytes_shape (n : Nat) :
    ∃ pre b, varintBytes n = pre ++ [b] ∧ (∀ x ∈ pre, 128 ≤ x.toNat) ∧ b.toNat < 128 ∧
      (pre = [] ∨ b.toNat ≠ 0) ∧ leb128 (varintBytes n) = n ∧
      ∀ k, n < 128 ^ (k + 1) → pre.length ≤ k := by
  fun_induction varintBytes n with
  | case1 n h =>
    refine ⟨[], BitVec.ofNat 8 n, rfl, by simp, ?_, Or.inl rfl, ?_, by simp⟩
    · simp; omega
    · simp [leb128]; omega
  | case2 n h ih =>
    obtain ⟨pre, b, h1, h2, h3, h4, h5, h6⟩ := ih
    refine ⟨BitVec.ofNat 8 (n % 128 + 128) :: pre, b, by rw [h1]; rfl, ?_, h3, Or.inr ?_, ?_, ?_⟩
    · intro x hx
      rcases List.mem_cons.1 hx with rfl | hx
      · simp; omega
      · exact h2 x hx
    · rcases h4 with h4 | h4
      · subst h4
        intro hb
        rw [h1] at h5
        simp only [List.nil_append, leb128] at h5
        omega
      · exact h4
    · simp only [leb128, h5]
      simp; omega
    · intro k hk
      cases k with
      | zero => simp at hk; omega
      | succ k =>
        simp only [List.length_cons]
        have := h6 k (by
          rw [Nat.div_lt_iff_lt_mul (by omega)]
          rw [Nat.pow_succ] at hk
          omega)
        omega

theorem and_low7 (b : Byte) : (b.setWidth 64 &&& 0x7F#64).toNat = b.toNat % 128 := by
  simp only [BitVec.toNat_and, BitVec.toNat_setWidth, BitVec.toNat_ofNat]
  have hb := b.isLt
  rw [Nat.mod_eq_of_lt (by omega : b.toNat < 2 ^ 64)]
  have := Nat.and_two_pow_sub_one_eq_mod b.toNat 7
  simpa using this

theorem and_top_iff (b : Byte) : b &&& 0x80#8 = 0#8 ↔ b.toNat < 128 := by
  revert b; decide

theorem leb128_lt (bs : Bytes) : leb128 bs < 128 ^ bs.length := by
  induction bs with
  | nil => simp [leb128]
  | cons b bs ih => simp only [leb128, List.length_cons, Nat.pow_succ]; omega

/-- One accumulation step of the decoder adds the digit at its position, modulo 2^64. -/
theorem or_shift_step (n : BitVec 64) (b : Byte) (shift : Nat) (hs : shift < 64)
    (hn : n.toNat < 2 ^ shift) :
    (n ||| ((b.setWidth 64 &&& 0x7F#64) <<< shift)).toNat =
      (n.toNat + b.toNat % 128 * 2 ^ shift) % 2 ^ 64 := by
  rw [BitVec.toNat_or, BitVec.toNat_shiftLeft, and_low7, Nat.shiftLeft_eq]
  have hsplit : 2 ^ 64 = 2 ^ shift * 2 ^ (64 - shift) := by
    rw [← Nat.pow_add]; congr 1; omega
  have e1 : b.toNat % 128 * 2 ^ shift % 2 ^ 64
      = 2 ^ shift * (b.toNat % 128 % 2 ^ (64 - shift)) := by
    rw [hsplit, Nat.mul_comm, Nat.mul_mod_mul_left]
  rw [e1, Nat.or_comm, ← Nat.two_pow_add_eq_or_of_lt hn]
  have hlt : 2 ^ shift * (b.toNat % 128 % 2 ^ (64 - shift)) + n.toNat < 2 ^ 64 := by
    have : b.toNat % 128 % 2 ^ (64 - shift) + 1 ≤ 2 ^ (64 - shift) :=
      Nat.mod_lt _ (Nat.two_pow_pos _)
    have h2 := Nat.mul_le_mul_left (2 ^ shift) this
    rw [← hsplit, Nat.mul_add] at h2
    omega
  rw [← e1]
  rw [← e1] at hlt
  rw [← Nat.mod_eq_of_lt hlt, Nat.add_comm n.toNat, Nat.mod_add_mod]

theorem decodeVarintLoop_ok (pre : Bytes) (b : Byte) (rest : Bytes) (n : BitVec 64) (k : Nat)
    (hpre : ∀ x ∈ pre, 128 ≤ x.toNat) (hb : b.toNat < 128) (hlen : k + pre.length < 10)
    (hn : n.toNat < 2 ^ (7 * k)) :
    decodeVarintLoop (pre ++ b :: rest) n (7 * k) =
      some (rest, BitVec.ofNat 64 (n.toNat + leb128 (pre ++ [b]) * 2 ^ (7 * k))) := by
  induction pre generalizing n k with
  | nil =>
    unfold decodeVarintLoop
    have hs : 7 * k < 64 := by simp at hlen; omega
    rw [if_pos hs]
    simp only [List.nil_append]
    rw [if_pos ((and_top_iff b).2 hb)]
    congr 2
    apply BitVec.eq_of_toNat_eq
    rw [or_shift_step n b (7 * k) hs hn, BitVec.toNat_ofNat]
    simp [leb128]
  | cons a pre ih =>
    unfold decodeVarintLoop
    have hs : 7 * k < 64 := by simp at hlen; omega
    rw [if_pos hs]
    simp only [List.cons_append]
    have ha : 128 ≤ a.toNat := hpre a (List.mem_cons_self ..)
    rw [if_neg (fun h => by have := (and_top_iff a).1 h; omega)]
    have hlen' : k + 1 + pre.length < 10 := by simp at hlen; omega
    have e7 : 7 * k + 7 = 7 * (k + 1) := by omega
    have hstep := or_shift_step n a (7 * k) hs hn
    have hpow : 2 ^ (7 * (k + 1)) = 128 * 2 ^ (7 * k) := by
      rw [← e7, Nat.pow_add, Nat.mul_comm]
    have hbound : n.toNat + a.toNat % 128 * 2 ^ (7 * k) < 2 ^ (7 * (k + 1)) := by
      have h2 : (a.toNat % 128 + 1) * 2 ^ (7 * k) ≤ 128 * 2 ^ (7 * k) :=
        Nat.mul_le_mul_right _ (Nat.mod_lt _ (by omega))
      rw [hpow]
      rw [Nat.succ_mul] at h2
      omega
    have hk64 : 2 ^ (7 * (k + 1)) ≤ 2 ^ 64 := Nat.pow_le_pow_right (by omega) (by omega)
    have hmod : (n.toNat + a.toNat % 128 * 2 ^ (7 * k)) % 2 ^ 64
        = n.toNat + a.toNat % 128 * 2 ^ (7 * k) := Nat.mod_eq_of_lt (by omega)
    rw [hmod] at hstep
    rw [e7, ih _ (k + 1) (fun x hx => hpre x (List.mem_cons_of_mem _ hx)) hlen'
      (by rw [hstep]; exact hbound), hstep]
    congr 3
    simp only [leb128, Nat.add_mul, hpow]
    rw [Nat.mul_assoc, Nat.mul_left_comm 128]
    omega

theorem decodeVarintLoop_none (buf : Bytes) (n : BitVec 64) (k : Nat)
    (h : ∀ x ∈ buf.take (10 - k), 128 ≤ x.toNat) :
    decodeVarintLoop buf n (7 * k) = none := by
  induction buf generalizing n k with
  | nil => unfold decodeVarintLoop; simp
  | cons a buf ih =>
    unfold decodeVarintLoop
    by_cases hs : 7 * k < 64
    · rw [if_pos hs]
      have e : 10 - k = (10 - (k + 1)) + 1 := by omega
      rw [e, List.take_succ_cons] at h
      have ha : 128 ≤ a.toNat := h a (List.mem_cons_self ..)
      simp only
      rw [if_neg (fun h => by have := (and_top_iff a).1 h; omega)]
      have e7 : 7 * k + 7 = 7 * (k + 1) := by omega
      rw [e7]
      exact ih _ (k + 1) (fun x hx => h x (List.mem_cons_of_mem _ hx))
    · rw [if_neg hs]

/-- Every byte string either has a terminating byte among the first ten or not. -/
theorem varint_split (buf : Bytes) (k : Nat) :
    (∃ pre b rest, buf = pre ++ b :: rest ∧ (∀ x ∈ pre, 128 ≤ x.toNat) ∧ b.toNat < 128 ∧
      pre.length < k) ∨ (∀ x ∈ buf.take k, 128 ≤ x.toNat) := by
  induction buf generalizing k with
  | nil => right; simp
  | cons a buf ih =>
    cases k with
    | zero => right; simp
    | succ k =>
      by_cases ha : a.toNat < 128
      · left; exact ⟨[], a, buf, rfl, by simp, ha, by simp⟩
      · rcases ih k with ⟨pre, b, rest, h1, h2, h3, h4⟩ | h
        · left
          refine ⟨a :: pre, b, rest, by rw [h1]; rfl, ?_, h3, by simp; omega⟩
          intro x hx
          rcases List.mem_cons.1 hx with rfl | hx
          · omega
          · exact h2 x hx
        · right
          rw [List.take_succ_cons]
          intro x hx
          rcases List.mem_cons.1 hx with rfl | hx
          · omega
          · exact h x hx

theorem decodeVarint_ok {pre : Bytes} {b : Byte} {rest : Bytes}
    (hpre : ∀ x ∈ pre, 128 ≤ x.toNat) (hb : b.toNat < 128) (hlen : pre.length < 10) :
    decodeVarint (pre ++ b :: rest) = some (rest, BitVec.ofNat 64 (leb128 (pre ++ [b]))) := by
  have := decodeVarintLoop_ok pre b rest 0#64 0 hpre hb (by omega) (by simp)
  simpa [decodeVarint] using this

theorem decodeVarint_none {buf : Bytes} (h : ∀ x ∈ buf.take 10, 128 ≤ x.toNat) :
    decodeVarint buf = none :=
  decodeVarintLoop_none buf 0#64 0 h

theorem leb128_pos (pre : Bytes) (b : Byte) (hb : 0 < b.toNat % 128) :
    0 < leb128 (pre ++ [b]) := by
  induction pre with
  | nil => simp [leb128]; omega
  | cons c pre ih => simp only [List.cons_append, leb128]; omega

/-- Canonical digit strings are determined by their value. -/
theorem varintBytes_leb128 (pre : Bytes) (b : Byte) (hpre : ∀ x ∈ pre, 128 ≤ x.toNat)
    (hb : b.toNat < 128) (hc : pre = [] ∨ b.toNat ≠ 0) :
    varintBytes (leb128 (pre ++ [b])) = pre ++ [b] := by
  induction pre with
  | nil =>
    unfold varintBytes
    simp only [List.nil_append, leb128]
    rw [if_pos (by omega)]
    congr 1
    apply BitVec.eq_of_toNat_eq
    simp; omega
  | cons a pre ih =>
    have hb0 : b.toNat ≠ 0 := by
      rcases hc with h | h
      · simp at h
      · exact h
    have ih := ih (fun x hx => hpre x (List.mem_cons_of_mem _ hx)) (Or.inr hb0)
    have ha : 128 ≤ a.toNat := hpre a (List.mem_cons_self ..)
    have ha' := a.isLt
    have hpos : 0 < leb128 (pre ++ [b]) := leb128_pos pre b (by omega)
    unfold varintBytes
    simp only [List.cons_append, leb128]
    rw [if_neg (by omega)]
    congr 1
    · apply BitVec.eq_of_toNat_eq
      simp; omega
    · have : (a.toNat % 128 + 128 * leb128 (pre ++ [b])) / 128 = leb128 (pre ++ [b]) := by omega
      rw [this, ih]

/-! ### Zigzag -/

/-- The number EncodeZigzag64 stores. -/
def zigzag (n : BitVec 64) : BitVec 64 := (n <<< 1) ^^^ (n.sshiftRight 63)

/-- What DecodeZigzag64 makes of a stored number. -/
def unzigzag (n : BitVec 64) : BitVec 64 :=
  (n >>> 1) ^^^ (((n &&& 1#64) <<< 63).sshiftRight 63)

theorem sshiftRight_63 (n : BitVec 64) :
    n.sshiftRight 63 = if 2 ^ 63 ≤ n.toNat then BitVec.allOnes 64 else 0#64 := by
  have hlt := n.isLt
  by_cases h : 2 ^ 63 ≤ n.toNat
  · rw [if_pos h]
    have hm : n.msb = true := by rw [BitVec.msb_eq_decide]; simpa using h
    rw [BitVec.sshiftRight_eq_of_msb_true hm]
    apply BitVec.eq_of_toNat_eq
    simp only [BitVec.toNat_not, BitVec.toNat_ushiftRight, Nat.shiftRight_eq_div_pow,
      BitVec.toNat_allOnes]
    omega
  · rw [if_neg h]
    have hm : n.msb = false := by rw [BitVec.msb_eq_decide]; simpa using h
    rw [BitVec.sshiftRight_eq_of_msb_false hm]
    apply BitVec.eq_of_toNat_eq
    simp only [BitVec.toNat_ushiftRight, Nat.shiftRight_eq_div_pow, BitVec.toNat_ofNat]
    omega

theorem zigzag_toNat (n : BitVec 64) :
    (zigzag n).toNat = if n.toInt < 0 then (-2 * n.toInt - 1).toNat else (2 * n.toInt).toNat := by
  have hlt := n.isLt
  unfold zigzag
  rw [sshiftRight_63, BitVec.toInt_eq_toNat_cond]
  by_cases h : 2 ^ 63 ≤ n.toNat
  · rw [if_pos h, if_neg (by omega : ¬ 2 * n.toNat < 2 ^ 64), BitVec.xor_allOnes,
      BitVec.toNat_not, BitVec.toNat_shiftLeft, Nat.shiftLeft_eq, if_pos (by omega)]
    omega
  · rw [if_neg h, if_pos (by omega : 2 * n.toNat < 2 ^ 64), BitVec.xor_zero,
      BitVec.toNat_shiftLeft, Nat.shiftLeft_eq, if_neg (by omega)]
    omega

theorem unzigzag_eq (u : BitVec 64) :
    unzigzag u = if u.toNat % 2 = 1 then ~~~(u >>> 1) else u >>> 1 := by
  unfold unzigzag
  have hand : (u &&& 1#64).toNat = u.toNat % 2 := by
    simp [BitVec.toNat_and, Nat.and_one_is_mod]
  have hsh : ((u &&& 1#64) <<< 63).toNat = u.toNat % 2 * 2 ^ 63 := by
    rw [BitVec.toNat_shiftLeft, hand, Nat.shiftLeft_eq]; omega
  rw [sshiftRight_63, hsh]
  by_cases h : u.toNat % 2 = 1
  · rw [if_pos h, if_pos (by omega), BitVec.xor_allOnes]
  · rw [if_neg h, if_neg (by omega), BitVec.xor_zero]

theorem unzigzag_zigzag (n : BitVec 64) : unzigzag (zigzag n) = n := by
  have hz := zigzag_toNat n
  rw [unzigzag_eq]
  have hlt := n.isLt
  rw [BitVec.toInt_eq_toNat_cond] at hz
  apply BitVec.eq_of_toNat_eq
  by_cases h : 2 * n.toNat < 2 ^ 64
  · rw [if_pos h, if_neg (by omega)] at hz
    rw [if_neg (by omega), BitVec.toNat_ushiftRight, Nat.shiftRight_eq_div_pow]
    omega
  · rw [if_neg h, if_pos (by omega)] at hz
    rw [if_pos (by omega), BitVec.toNat_not, BitVec.toNat_ushiftRight, Nat.shiftRight_eq_div_pow]
    omega

end Maho
