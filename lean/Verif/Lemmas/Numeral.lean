import Verif.Lemmas.Value

/-! The text of an integer is the shortest numeral for it. -/

namespace Maho

open Spec

theorem decimalValue_lt (s : Bytes) (h : ∀ b ∈ s, 48 ≤ b.toNat ∧ b.toNat ≤ 57) :
    decimalValue s < 10 ^ s.length := by
  induction s with
  | nil => simp [decimalValue]
  | cons b s ih =>
    have h1 := h b (by simp)
    have h2 := ih fun c hc => h c (by simp [hc])
    have h3 : (b.toNat - 48) * 10 ^ s.length ≤ 9 * 10 ^ s.length :=
      Nat.mul_le_mul_right _ (by omega)
    rw [decimalValue, List.length_cons, Nat.pow_succ]
    omega

theorem natDigits_length (n k : Nat) (hk : 0 < k) (h : n < 10 ^ k) : (natDigits n).length ≤ k := by
  fun_induction natDigits n generalizing k with
  | case1 n _ => exact hk
  | case2 n hn ih =>
    obtain ⟨k, rfl⟩ : ∃ j, k = j + 1 := ⟨k - 1, by omega⟩
    rw [Nat.pow_succ] at h
    have hk' : 0 < k := by
      rcases Nat.eq_zero_or_pos k with rfl | h'
      · simp at h; omega
      · exact h'
    have := ih k hk' (by omega)
    simp only [List.length_append, List.length_cons, List.length_nil]
    omega

theorem natDigits_shortest {s : Bytes} {n : Nat} (h : IsDecimal s n) :
    (natDigits n).length ≤ s.length := by
  obtain ⟨h1, h2, rfl⟩ := h
  exact natDigits_length _ _ (List.length_pos_iff.2 h1) (decimalValue_lt s h2)

theorem formatInt_shortest {s : Bytes} {i : Int} (h : IsNumeral s i) :
    (formatInt i).length ≤ s.length := by
  unfold formatInt
  rcases h with ⟨n, h, rfl⟩ | ⟨t, n, rfl, h, rfl⟩ | ⟨t, n, rfl, h, rfl⟩
  · rw [if_neg (by omega)]
    exact natDigits_shortest h
  · rw [if_neg (by omega)]
    have := natDigits_shortest h
    simp only [Int.natAbs_natCast, List.length_cons]
    omega
  · have := natDigits_shortest h
    split <;> simp only [Int.natAbs_neg, Int.natAbs_natCast, List.length_cons] <;> omega

end Maho
