import Verif.Spec.Value
namespace Maho
open Spec

theorem ofNat8_toNat {n : Nat} (h : n < 256) : (BitVec.ofNat 8 n).toNat = n := by
  rw [BitVec.toNat_ofNat]; omega

theorem byte_eq {b : Byte} {n : Nat} (h : b.toNat = n) : b = BitVec.ofNat 8 n := by
  subst h; simp

theorem inRange_iff {b : Byte} {lo hi : Nat} : inRange b lo hi = true ↔ lo ≤ b.toNat ∧ b.toNat ≤ hi := by
  simp [inRange]

theorem utf8Valid_encode {c : Nat} (h : IsScalar c) (rest : Bytes) :
    utf8Valid (utf8Encode c ++ rest) = utf8Valid rest := by
  unfold IsScalar at h
  unfold utf8Encode
  by_cases h1 : c < 0x80
  · rw [if_pos h1, List.cons_append, List.nil_append]
    conv => lhs; unfold utf8Valid
    rw [if_pos (by rw [ofNat8_toNat (by omega)]; exact h1)]
  rw [if_neg h1]
  by_cases h2 : c < 0x800
  · have ea := ofNat8_toNat (n := 0xC0 + c / 64) (by omega)
    have eb := ofNat8_toNat (n := 0x80 + c % 64) (by omega)
    rw [if_pos h2]
    simp only [List.cons_append, List.nil_append]
    conv => lhs; unfold utf8Valid
    rw [ea, if_neg (by omega), if_neg (by omega), if_pos (by omega)]
    dsimp only
    have i1 : inRange (BitVec.ofNat 8 (0x80 + c % 64)) 0x80 0xBF = true :=
      inRange_iff.2 (by rw [eb]; omega)
    rw [i1, Bool.true_and]
  rw [if_neg h2]
  by_cases h3 : c < 0x10000
  · have ea := ofNat8_toNat (n := 0xE0 + c / 4096) (by omega)
    have eb := ofNat8_toNat (n := 0x80 + c / 64 % 64) (by omega)
    have ec := ofNat8_toNat (n := 0x80 + c % 64) (by omega)
    rw [if_pos h3]
    simp only [List.cons_append, List.nil_append]
    conv => lhs; unfold utf8Valid
    rw [ea, if_neg (by omega), if_neg (by omega), if_neg (by omega), if_pos (by omega)]
    dsimp only
    have i1 : inRange (BitVec.ofNat 8 (0x80 + c / 64 % 64))
        (if 0xE0 + c / 4096 = 0xE0 then 0xA0 else 0x80)
        (if 0xE0 + c / 4096 = 0xED then 0x9F else 0xBF) = true :=
      inRange_iff.2 (by rw [eb]; constructor <;> split <;> omega)
    have i2 : inRange (BitVec.ofNat 8 (0x80 + c % 64)) 0x80 0xBF = true :=
      inRange_iff.2 (by rw [ec]; omega)
    rw [i1, i2, Bool.true_and, Bool.true_and]
  · have ea := ofNat8_toNat (n := 0xF0 + c / 262144) (by omega)
    have eb := ofNat8_toNat (n := 0x80 + c / 4096 % 64) (by omega)
    have ec := ofNat8_toNat (n := 0x80 + c / 64 % 64) (by omega)
    have ed := ofNat8_toNat (n := 0x80 + c % 64) (by omega)
    rw [if_neg h3]
    simp only [List.cons_append, List.nil_append]
    conv => lhs; unfold utf8Valid
    rw [ea, if_neg (by omega), if_neg (by omega), if_neg (by omega), if_neg (by omega),
      if_pos (by omega)]
    dsimp only
    have i1 : inRange (BitVec.ofNat 8 (0x80 + c / 4096 % 64))
        (if 0xF0 + c / 262144 = 0xF0 then 0x90 else 0x80)
        (if 0xF0 + c / 262144 = 0xF4 then 0x8F else 0xBF) = true :=
      inRange_iff.2 (by rw [eb]; constructor <;> split <;> omega)
    have i2 : inRange (BitVec.ofNat 8 (0x80 + c / 64 % 64)) 0x80 0xBF = true :=
      inRange_iff.2 (by rw [ec]; omega)
    have i3 : inRange (BitVec.ofNat 8 (0x80 + c % 64)) 0x80 0xBF = true :=
      inRange_iff.2 (by rw [ed]; omega)
    rw [i1, i2, i3, Bool.true_and, Bool.true_and, Bool.true_and]

theorem wellFormed_cons {c : Nat} {s : Bytes} (h : IsScalar c) (hs : WellFormedUtf8 s) :
    WellFormedUtf8 (utf8Encode c ++ s) := by
  obtain ⟨cs, h1, rfl⟩ := hs
  refine ⟨c :: cs, ?_, by rw [List.flatMap_cons]⟩
  intro x hx
  rcases List.mem_cons.1 hx with rfl | hx
  · exact h
  · exact h1 x hx

theorem utf8Valid_iff (s : Bytes) : utf8Valid s = true ↔ WellFormedUtf8 s := by
  constructor
  · intro h
    fun_induction utf8Valid s with
    | case1 => exact ⟨[], by simp, rfl⟩
    | case2 a rest h1 ih =>
      have e : utf8Encode a.toNat = [a] := by
        unfold utf8Encode
        rw [if_pos h1]; simp
      have := wellFormed_cons (c := a.toNat) (Or.inl (by omega)) (ih h)
      rw [e] at this; exact this
    | case3 => simp at h
    | case4 a h1 h2 h3 b rest ih =>
      rw [Bool.and_eq_true, inRange_iff] at h
      obtain ⟨hb, hr⟩ := h
      have e : utf8Encode ((a.toNat - 0xC0) * 64 + (b.toNat - 0x80)) = [a, b] := by
        unfold utf8Encode
        rw [if_neg (by omega), if_pos (by omega), ← byte_eq (b := a) (by omega),
          ← byte_eq (b := b) (by omega)]
      have := wellFormed_cons (c := (a.toNat - 0xC0) * 64 + (b.toNat - 0x80))
        (Or.inl (by omega)) (ih hr)
      rw [e] at this; exact this
    | case5 => simp at h
    | case6 a h1 h2 h3 h4 b c rest ih =>
      rw [Bool.and_eq_true, Bool.and_eq_true, inRange_iff, inRange_iff] at h
      obtain ⟨⟨hb, hc⟩, hr⟩ := h
      have hb1 : (a.toNat = 0xE0 → 0xA0 ≤ b.toNat) ∧ 0x80 ≤ b.toNat := by
        have := hb.1; split at this <;> constructor <;> omega
      have hb2 : (a.toNat = 0xED → b.toNat ≤ 0x9F) ∧ b.toNat ≤ 0xBF := by
        have := hb.2; split at this <;> constructor <;> omega
      have e : utf8Encode ((a.toNat - 0xE0) * 4096 + (b.toNat - 0x80) * 64 + (c.toNat - 0x80))
          = [a, b, c] := by
        unfold utf8Encode
        rw [if_neg (by omega), if_neg (by omega), if_pos (by omega), ← byte_eq (b := a) (by omega),
          ← byte_eq (b := b) (by omega), ← byte_eq (b := c) (by omega)]
      have := wellFormed_cons
        (c := (a.toNat - 0xE0) * 4096 + (b.toNat - 0x80) * 64 + (c.toNat - 0x80))
        (by unfold IsScalar; omega) (ih hr)
      rw [e] at this; exact this
    | case7 => simp at h
    | case8 a h1 h2 h3 h4 h5 b c d rest ih =>
      rw [Bool.and_eq_true, Bool.and_eq_true, Bool.and_eq_true, inRange_iff, inRange_iff,
        inRange_iff] at h
      obtain ⟨⟨⟨hb, hc⟩, hd⟩, hr⟩ := h
      have hb1 : (a.toNat = 0xF0 → 0x90 ≤ b.toNat) ∧ 0x80 ≤ b.toNat := by
        have := hb.1; split at this <;> constructor <;> omega
      have hb2 : (a.toNat = 0xF4 → b.toNat ≤ 0x8F) ∧ b.toNat ≤ 0xBF := by
        have := hb.2; split at this <;> constructor <;> omega
      have e : utf8Encode ((a.toNat - 0xF0) * 262144 + (b.toNat - 0x80) * 4096
          + (c.toNat - 0x80) * 64 + (d.toNat - 0x80)) = [a, b, c, d] := by
        unfold utf8Encode
        rw [if_neg (by omega), if_neg (by omega), if_neg (by omega), ← byte_eq (b := a) (by omega),
          ← byte_eq (b := b) (by omega), ← byte_eq (b := c) (by omega),
          ← byte_eq (b := d) (by omega)]
      have := wellFormed_cons
        (c := (a.toNat - 0xF0) * 262144 + (b.toNat - 0x80) * 4096
          + (c.toNat - 0x80) * 64 + (d.toNat - 0x80))
        (by unfold IsScalar; omega) (ih hr)
      rw [e] at this; exact this
    | case9 => simp at h
    | case10 => simp at h
  · rintro ⟨cs, h, rfl⟩
    induction cs with
    | nil => simp [utf8Valid]
    | cons c cs ih =>
      rw [List.flatMap_cons, utf8Valid_encode (h c (List.mem_cons_self ..))]
      exact ih (fun x hx => h x (List.mem_cons_of_mem _ hx))

end Maho
