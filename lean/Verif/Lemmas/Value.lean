import Verif.Lemmas.FloatRound
import Verif.Lemmas.Bytes
import Verif.Spec.Value
import Verif.Spec.KeyOrder
namespace Maho
open Spec

/-! ### Compare -/

theorem floatLadder_lt {a b : F64} : floatLadder a b = .lt ↔ F64.lt a b = true := by
  unfold floatLadder
  cases h : F64.lt a b
  · simp only [Bool.false_eq_true, if_false, iff_false]
    split <;> simp
  · simp

theorem flt_asymm {a b : F64} (h : F64.lt a b = true) : F64.lt b a = false := by
  simp only [F64.lt, Bool.and_eq_true, decide_eq_true_eq] at h
  simp only [F64.lt, Bool.and_eq_false_iff, decide_eq_false_iff_not]
  right; omega

theorem floatLadder_swap (a b : F64) : floatLadder b a = (floatLadder a b).swap := by
  unfold floatLadder
  cases h1 : F64.lt a b
  · cases h2 : F64.lt b a <;> simp
  · rw [flt_asymm h1]; simp

theorem floatLadder_self (a : F64) : floatLadder a a = .eq := by
  have : F64.lt a a = false := by
    simp only [F64.lt, Bool.and_eq_false_iff, decide_eq_false_iff_not]; right; omega
  unfold floatLadder; rw [this]; simp

theorem floatLadder_eq_compare {a b : F64} (ha : F64.isNaN a = false) (hb : F64.isNaN b = false) :
    floatLadder a b = compare (F64.scaled a) (F64.scaled b) := by
  unfold floatLadder F64.lt
  rw [ha, hb]
  simp only [Bool.not_false, Bool.and_true, Bool.true_and, decide_eq_true_eq]
  rcases Int.lt_trichotomy (F64.scaled a) (F64.scaled b) with h | h | h
  · rw [if_pos h, Int.compare_eq_lt.2 h]
  · rw [if_neg (by omega), if_neg (by omega), Int.compare_eq_eq.2 h]
  · rw [if_neg (by omega), if_pos h, Int.compare_eq_gt.2 h]

/-- The order of two int64 values. -/
theorem intLadder (i j : BitVec 64) :
    (if i.slt j then Res.ok Ordering.lt else if j.slt i then .ok .gt else .ok .eq) =
      .ok (compare i.toInt j.toInt) := by
  rw [BitVec.slt_eq_decide, BitVec.slt_eq_decide]
  rcases Int.lt_trichotomy i.toInt j.toInt with h | h | h
  · rw [decide_eq_true h, Int.compare_eq_lt.2 h]; rfl
  · rw [decide_eq_false (by omega), decide_eq_false (by omega), Int.compare_eq_eq.2 h]; rfl
  · rw [decide_eq_false (by omega), decide_eq_true h, Int.compare_eq_gt.2 h]; rfl

/-- The result of Compare. -/
def cmp : Option Value → Option Value → Ordering
  | some (.bool a), some (.bool b) => compare a.toNat b.toNat
  | some (.int a), some (.int b) => compare a.toInt b.toInt
  | some (.int a), some (.float b) => floatLadder (F64.ofInt64 a) b
  | some (.float a), some (.int b) => floatLadder a (F64.ofInt64 b)
  | some (.float a), some (.float b) => floatLadder a b
  | some (.str a), some (.str b) => bytesCompare a b
  | some (.bytes a), some (.bytes b) => bytesCompare a b
  | v, w => compare (sqlRank v) (sqlRank w)

theorem compareValues_eq (v w : Option Value) : compareValues v w = .ok (cmp v w) := by
  cases v with
  | none =>
    cases w with
    | none => rfl
    | some w => cases w <;> rfl
  | some v =>
    cases w with
    | none => cases v <;> rfl
    | some w =>
      have hl : ∀ o : Value, ¬ (o.order < o.order) := fun o => Nat.lt_irrefl _
      cases v <;> cases w <;>
        simp only [compareValues, Value.order, cmp, sqlRank, Nat.lt_irrefl, if_false] <;>
        first
          | (simp only [Value.compare]; done)
          | exact intLadder _ _
          | (rename_i a b; cases a <;> cases b <;> rfl)
          | rfl

theorem cmp_swap (v w : Option Value) : cmp w v = (cmp v w).swap := by
  have hn : ∀ a b : Nat, compare b a = (compare a b).swap := fun a b => (Nat.compare_swap a b).symm
  have hi : ∀ a b : Int, compare b a = (compare a b).swap := fun a b => (Int.compare_swap a b).symm
  cases v with
  | none =>
    cases w with
    | none => rfl
    | some w => cases w <;> rfl
  | some v =>
    cases w with
    | none => cases v <;> rfl
    | some w =>
      cases v <;> cases w <;> simp only [cmp] <;>
        first
          | exact hn _ _
          | exact hi _ _
          | exact floatLadder_swap _ _
          | exact (bytesCompare_swap _ _).symm

theorem cmp_self (v : Option Value) : cmp v v = .eq := by
  cases v with
  | none => rfl
  | some v =>
    cases v <;> simp only [cmp]
    · exact Nat.compare_eq_eq.2 rfl
    · exact Int.compare_eq_eq.2 rfl
    · exact floatLadder_self _
    · exact bytesCompare_self _
    · exact bytesCompare_self _

theorem flt_iff {a b : F64} : floatLadder a b = .lt ↔
    F64.isNaN a = false ∧ F64.isNaN b = false ∧ F64.scaled a < F64.scaled b := by
  rw [floatLadder_lt]; simp only [F64.lt, Bool.and_eq_true, Bool.not_eq_true', decide_eq_true_eq]
  exact ⟨fun h => ⟨h.1.1, h.1.2, h.2⟩, fun h => ⟨⟨h.1, h.2.1⟩, h.2.2⟩⟩

theorem ofInt64_lt {i j : BitVec 64} (h : F64.scaled (F64.ofInt64 i) < F64.scaled (F64.ofInt64 j)) :
    i.toInt < j.toInt := by
  rcases Int.lt_or_le i.toInt j.toInt with h' | h'
  · exact h'
  · have := F64.scaled_ofInt64_mono h'; omega

theorem cmp_lt_rank {v w : Option Value} (h : cmp v w = .lt) : sqlRank v ≤ sqlRank w := by
  cases v with
  | none => exact Nat.zero_le _
  | some v =>
    cases w with
    | none => cases v <;> exact absurd h (by simp only [cmp, sqlRank]; decide)
    | some w =>
      cases v <;> cases w <;> simp only [sqlRank] <;> first | omega | (exact absurd h (by simp only [cmp, sqlRank]; decide))

theorem cmp_of_rank {v w : Option Value} (h : sqlRank v < sqlRank w) : cmp v w = .lt := by
  cases v with
  | none =>
    cases w with
    | none => simp [sqlRank] at h
    | some w => cases w <;> rfl
  | some v =>
    cases w with
    | none => cases v <;> simp [sqlRank] at h
    | some w =>
      cases v <;> cases w <;> simp only [sqlRank] at h <;> first | omega | rfl

theorem bytesCompare_lt_trans' {a b c : Bytes} (h1 : bytesCompare a b = .lt)
    (h2 : bytesCompare b c = .lt) : bytesCompare a c = .lt := bytesCompare_lt_trans h1 h2

theorem cmp_lt_trans {a b c : Option Value} (h1 : cmp a b = .lt) (h2 : cmp b c = .lt) :
    cmp a c = .lt := by
  have r1 := cmp_lt_rank h1
  have r2 := cmp_lt_rank h2
  by_cases hr : sqlRank a < sqlRank c
  · exact cmp_of_rank hr
  have e1 : sqlRank a = sqlRank b := by omega
  have e2 : sqlRank b = sqlRank c := by omega
  clear r1 r2 hr
  cases a with
  | none =>
    cases b with
    | none => simp [cmp] at h1
    | some b => cases b <;> simp [sqlRank] at e1
  | some a =>
    cases b with
    | none => cases a <;> simp [sqlRank] at e1
    | some b =>
      cases c with
      | none => cases b <;> simp [sqlRank] at e2
      | some c =>
        cases a <;> cases b <;> simp only [sqlRank] at e1 <;> (first | omega | skip) <;>
          cases c <;> simp only [sqlRank] at e2 <;> (first | omega | skip) <;>
          simp only [cmp, flt_iff, Int.compare_eq_lt, Nat.compare_eq_lt] at h1 h2 ⊢
        · omega
        · omega
        · rename_i i j f
          have := F64.scaled_ofInt64_mono (i := i) (j := j) (by omega)
          exact ⟨F64.isNaN_ofInt64 i, h2.2.1, by omega⟩
        · rename_i i f j
          exact ofInt64_lt (by omega)
        · exact ⟨h1.1, h2.2.1, by omega⟩
        · rename_i f i j
          have := F64.scaled_ofInt64_mono (i := i) (j := j) (by omega)
          exact ⟨h1.1, F64.isNaN_ofInt64 j, by omega⟩
        · exact ⟨h1.1, h2.2.1, by omega⟩
        · exact ⟨h1.1, h2.2.1, by omega⟩
        · exact ⟨h1.1, h2.2.1, by omega⟩
        · exact bytesCompare_lt_trans h1 h2
        · exact bytesCompare_lt_trans h1 h2

theorem scaled_ofInt64_exact {i : BitVec 64} (h : i.toInt.natAbs ≤ 2 ^ 53) :
    F64.scaled (F64.ofInt64 i) = i.toInt * F64.unit := by
  rw [F64.scaled_ofInt64, F64.natRound_exact h]
  by_cases h0 : i.toInt = 0
  · rw [if_pos h0, h0, Int.zero_mul]
  · rw [if_neg h0, Int.natCast_mul]
    by_cases hn : i.toInt < 0
    · rw [if_pos hn, ← Int.neg_mul]
      congr 1; omega
    · rw [if_neg hn]
      congr 1; omega

theorem compare_mul_unit (a b : Int) :
    compare (a * (F64.unit : Int)) (b * (F64.unit : Int)) = compare a b := by
  have hp := F64.unit_pos_int
  rcases Int.lt_trichotomy a b with h | h | h
  · rw [Int.compare_eq_lt.2 h, Int.compare_eq_lt]
    exact Int.mul_lt_mul_of_pos_right h hp
  · rw [h, Int.compare_eq_eq.2 rfl, Int.compare_eq_eq.2 rfl]
  · rw [Int.compare_eq_gt.2 h, Int.compare_eq_gt]
    exact Int.mul_lt_mul_of_pos_right h hp

/-- On values without NaN and without big integers next to floats, Compare is the
mathematical order. -/
theorem cmp_eq_valueOrder {v w : Option Value} (hv : NotNaN v) (hw : NotNaN w)
    (h : (SmallInt v ∧ SmallInt w) ∨ (¬ IsFloat v ∧ ¬ IsFloat w)) : cmp v w = valueOrder v w := by
  cases v with
  | none =>
    cases w with
    | none => rfl
    | some w => cases w <;> rfl
  | some v =>
    cases w with
    | none => cases v <;> rfl
    | some w =>
      cases v <;> cases w <;> try rfl
      · rename_i a b
        simp only [cmp, valueOrder, sqlRank, numberValue, and_self, if_true]
        rw [compare_mul_unit]
      · rename_i a b
        simp only [cmp, valueOrder, sqlRank, numberValue, and_self, if_true]
        rw [floatLadder_eq_compare (F64.isNaN_ofInt64 a) hw]
        rcases h with h | h
        · rw [scaled_ofInt64_exact h.1]
        · exact absurd trivial h.2
      · rename_i a b
        simp only [cmp, valueOrder, sqlRank, numberValue, and_self, if_true]
        rw [floatLadder_eq_compare hv (F64.isNaN_ofInt64 b)]
        rcases h with h | h
        · rw [scaled_ofInt64_exact h.2]
        · exact absurd trivial h.1
      · simp only [cmp, valueOrder, sqlRank, numberValue, and_self, if_true]
        exact floatLadder_eq_compare hv hw

theorem valueOrder_eq_rank {v w : Option Value} (h : valueOrder v w = .eq) :
    sqlRank v = sqlRank w := by
  cases v with
  | none =>
    cases w with
    | none => rfl
    | some w => exact Nat.compare_eq_eq.1 h
  | some v =>
    cases w with
    | none => cases v <;> exact Nat.compare_eq_eq.1 h
    | some w => cases v <;> cases w <;> first | rfl | exact Nat.compare_eq_eq.1 h

theorem valueOrder_eq_trans {a b c : Option Value} (h1 : valueOrder a b = .eq)
    (h2 : valueOrder b c = .eq) : valueOrder a c = .eq := by
  have e1 := valueOrder_eq_rank h1
  have e2 := valueOrder_eq_rank h2
  cases a with
  | none =>
    cases b with
    | none => exact h2
    | some b => cases b <;> simp [sqlRank] at e1
  | some a =>
    cases b with
    | none => cases a <;> simp [sqlRank] at e1
    | some b =>
      cases c with
      | none => cases b <;> simp [sqlRank] at e2
      | some c =>
        cases a <;> cases b <;> simp only [sqlRank] at e1 <;> (first | omega | skip) <;>
          cases c <;> simp only [sqlRank] at e2 <;> (first | omega | skip) <;>
          simp only [valueOrder, sqlRank, and_self, if_true, Int.compare_eq_eq,
            Nat.compare_eq_eq, bytesCompare_eq_iff] at h1 h2 ⊢ <;>
          exact h1.trans h2

/-! ### Trimming -/

theorem isTrimByte_iff {b : Byte} :
    isTrimByte b = true ↔ b = 0x20#8 ∨ b = 0x09#8 ∨ b = 0x0a#8 := by
  simp [isTrimByte, or_assoc]

theorem dropWhile_append_blank {pre t : Bytes} (h : Blank pre) :
    (pre ++ t).dropWhile isTrimByte = t.dropWhile isTrimByte := by
  induction pre with
  | nil => rfl
  | cons b pre ih =>
    have hb := isTrimByte_iff.2 (h b (List.mem_cons_self ..))
    rw [List.cons_append, List.dropWhile_cons, if_pos hb]
    exact ih (fun x hx => h x (List.mem_cons_of_mem _ hx))

theorem dropWhile_blank {s : Bytes} : ∃ pre, Blank pre ∧ s = pre ++ s.dropWhile isTrimByte := by
  induction s with
  | nil => exact ⟨[], fun _ h => by simp at h, rfl⟩
  | cons b s ih =>
    by_cases hb : isTrimByte b = true
    · obtain ⟨pre, hp, he⟩ := ih
      refine ⟨b :: pre, ?_, ?_⟩
      · intro x hx
        rcases List.mem_cons.1 hx with rfl | hx
        · exact isTrimByte_iff.1 hb
        · exact hp x hx
      · rw [List.dropWhile_cons, if_pos hb, List.cons_append, ← he]
    · refine ⟨[], fun _ h => by simp at h, ?_⟩
      rw [List.dropWhile_cons, if_neg hb]; rfl

theorem blank_reverse {s : Bytes} (h : Blank s) : Blank s.reverse :=
  fun b hb => h b (List.mem_reverse.1 hb)

theorem trimBlank_padded (s : Bytes) : Padded s (trimBlank s) := by
  obtain ⟨pre, hp, he⟩ := dropWhile_blank (s := s)
  obtain ⟨post, hq, he2⟩ := dropWhile_blank (s := (s.dropWhile isTrimByte).reverse)
  refine ⟨pre, post.reverse, hp, blank_reverse hq, ?_⟩
  have := congrArg List.reverse he2
  rw [List.reverse_reverse, List.reverse_append] at this
  unfold trimBlank
  rw [List.append_assoc, ← this]
  exact he

/-- Trimming a padded string that has no blanks itself. -/
theorem trimBlank_of_padded {s t : Bytes} (h : Padded s t) (ht : ∀ b ∈ t, isTrimByte b = false) :
    trimBlank s = t := by
  obtain ⟨pre, post, hp, hq, rfl⟩ := h
  have hkeep : ∀ u : Bytes, (∀ b ∈ u, isTrimByte b = false) → u.dropWhile isTrimByte = u := by
    intro u hu
    cases u with
    | nil => rfl
    | cons b u =>
      rw [List.dropWhile_cons, if_neg (by rw [hu b (List.mem_cons_self ..)]; decide)]
  unfold trimBlank
  rw [List.append_assoc, dropWhile_append_blank hp]
  cases t with
  | nil =>
    rw [List.nil_append]
    have : post.dropWhile isTrimByte = [] := by
      have := dropWhile_append_blank (t := []) hq
      rwa [List.append_nil] at this
    rw [this]; rfl
  | cons b t =>
    rw [List.cons_append, List.dropWhile_cons,
      if_neg (by rw [ht b (List.mem_cons_self ..)]; decide), ← List.cons_append,
      List.reverse_append, dropWhile_append_blank (blank_reverse hq),
      hkeep _ (fun x hx => ht x (List.mem_reverse.1 hx)), List.reverse_reverse]

/-! ### Decimal numerals -/

theorem foldl_digits (s : Bytes) (a : Nat) :
    s.foldl (fun a b => a * 10 + (b.toNat - 48)) a = a * 10 ^ s.length + decimalValue s := by
  induction s generalizing a with
  | nil => simp [decimalValue]
  | cons b s ih =>
    rw [List.foldl_cons, ih, decimalValue, List.length_cons, Nat.pow_succ, Nat.add_mul,
      Nat.mul_assoc, Nat.mul_comm 10, Nat.add_assoc]

theorem digitsVal_eq (s : Bytes) : digitsVal s = decimalValue s := by
  unfold digitsVal; rw [foldl_digits]; simp

theorem all_isDigit {s : Bytes} :
    s.all isDigit = true ↔ ∀ b ∈ s, 48 ≤ b.toNat ∧ b.toNat ≤ 57 := by
  simp [List.all_eq_true, isDigit]

theorem parseDigits_some {s : Bytes} {n : Nat} : parseDigits s = some n ↔ IsDecimal s n := by
  unfold parseDigits IsDecimal
  rw [digitsVal_eq]
  split
  · rename_i h
    rw [all_isDigit] at h
    rw [Option.some.injEq]
    exact ⟨fun e => ⟨h.1, h.2, e⟩, fun e => e.2.2⟩
  · rename_i h
    rw [all_isDigit] at h
    constructor
    · intro h'; simp at h'
    · rintro ⟨h1, h2, _⟩; exact absurd ⟨h1, h2⟩ h

theorem isDecimal_unique {s : Bytes} {m n : Nat} (h1 : IsDecimal s m) (h2 : IsDecimal s n) : m = n :=
  h1.2.2.symm.trans h2.2.2

theorem not_decimal_sign {c : Byte} {t : Bytes} {n : Nat} (hc : c = 0x2b#8 ∨ c = 0x2d#8) :
    ¬ IsDecimal (c :: t) n := by
  rintro ⟨_, h, _⟩
  have := (h c (List.mem_cons_self ..)).1
  rcases hc with rfl | rfl <;> exact absurd this (by decide)

theorem toInt_ofNat_small {n : Nat} (h : n < 2 ^ 63) : (BitVec.ofNat 64 n).toInt = n := by
  rw [BitVec.toInt_eq_toNat_cond, BitVec.toNat_ofNat]
  have : n % 2 ^ 64 = n := by omega
  rw [this, if_pos (by omega)]

theorem parseInt64_iff {s : Bytes} {i : BitVec 64} :
    parseInt64 s = some i ↔ IsNumeral s i.toInt := by
  have hlo := BitVec.le_toInt i
  have hhi := BitVec.toInt_lt (x := i)
  cases s with
  | nil =>
    simp only [parseInt64, IsNumeral]
    constructor
    · intro h; simp at h
    · rintro (⟨n, h, _⟩ | ⟨t, n, h, _⟩ | ⟨t, n, h, _⟩)
      · exact absurd rfl h.1
      · simp at h
      · simp at h
  | cons c cs =>
    unfold parseInt64
    by_cases hc : c = 45#8
    · subst hc
      simp only [if_true]
      constructor
      · intro h
        cases hp : parseDigits cs with
        | none => rw [hp] at h; simp at h
        | some n =>
          rw [hp] at h
          simp only at h
          split at h
          · rename_i hn
            rw [Option.some.injEq] at h
            refine Or.inr (Or.inr ⟨cs, n, rfl, parseDigits_some.1 hp, ?_⟩)
            rw [← h, BitVec.toInt_ofInt]
            exact Int.bmod_eq_of_le (by omega) (by omega)
          · simp at h
      · rintro (⟨n, h, _⟩ | ⟨t, n, h, _⟩ | ⟨t, n, h, hd, hi⟩)
        · exact absurd h (not_decimal_sign (Or.inr rfl))
        · simp at h
        · simp only [List.cons.injEq] at h
          obtain ⟨_, rfl⟩ := h
          rw [parseDigits_some.2 hd]
          simp only
          rw [if_pos (by omega), ← hi, BitVec.ofInt_toInt]
    · simp only [if_neg hc]
      have body : ∀ t : Bytes,
          (match parseDigits t with
            | some n => if n < 2 ^ 63 then some (BitVec.ofNat 64 n) else none
            | none => none) = some i ↔ ∃ n : Nat, IsDecimal t n ∧ i.toInt = n := by
        intro t
        constructor
        · intro h
          cases hp : parseDigits t with
          | none => rw [hp] at h; simp at h
          | some n =>
            rw [hp] at h
            simp only at h
            split at h
            · rename_i hn
              rw [Option.some.injEq] at h
              refine ⟨n, parseDigits_some.1 hp, ?_⟩
              rw [← h, toInt_ofNat_small hn]
            · simp at h
        · rintro ⟨n, hd, hi⟩
          rw [parseDigits_some.2 hd]
          have hn : n < 2 ^ 63 := by omega
          simp only
          rw [if_pos hn, Option.some.injEq]
          apply BitVec.eq_of_toInt_eq
          rw [toInt_ofNat_small hn, hi]
      refine (body _).trans ?_
      by_cases hp : c = 43#8
      · subst hp
        simp only [if_true]
        constructor
        · rintro ⟨n, hd, hi⟩
          exact Or.inr (Or.inl ⟨cs, n, rfl, hd, hi⟩)
        · rintro (⟨n, h, _⟩ | ⟨t, n, h, hd, hi⟩ | ⟨t, n, h, _⟩)
          · exact absurd h (not_decimal_sign (Or.inl rfl))
          · simp only [List.cons.injEq] at h
            obtain ⟨_, rfl⟩ := h
            exact ⟨n, hd, hi⟩
          · simp at h
      · rw [if_neg hp]
        constructor
        · rintro ⟨n, hd, hi⟩
          exact Or.inl ⟨n, hd, hi⟩
        · rintro (h | ⟨t, n, h, _⟩ | ⟨t, n, h, _⟩)
          · exact h
          · simp only [List.cons.injEq] at h; exact absurd h.1 hp
          · simp only [List.cons.injEq] at h; exact absurd h.1 hc

theorem numeral_no_blank {s : Bytes} {i : Int} (h : IsNumeral s i) :
    ∀ b ∈ s, isTrimByte b = false := by
  have hd : ∀ t n, IsDecimal t n → ∀ b ∈ t, isTrimByte b = false := by
    intro t n ht b hb
    have := ht.2.1 b hb
    cases hx : isTrimByte b with
    | false => rfl
    | true =>
      rcases isTrimByte_iff.1 hx with rfl | rfl | rfl <;> exact absurd this (by decide)
  rcases h with ⟨n, h, _⟩ | ⟨t, n, rfl, h, _⟩ | ⟨t, n, rfl, h, _⟩
  · exact hd _ _ h
  · intro b hb
    rcases List.mem_cons.1 hb with rfl | hb
    · decide
    · exact hd _ _ h b hb
  · intro b hb
    rcases List.mem_cons.1 hb with rfl | hb
    · decide
    · exact hd _ _ h b hb

theorem decimalValue_append (s t : Bytes) :
    decimalValue (s ++ t) = decimalValue s * 10 ^ t.length + decimalValue t := by
  induction s with
  | nil => simp [decimalValue]
  | cons b s ih =>
    rw [List.cons_append, decimalValue, decimalValue, ih, List.length_append, Nat.pow_add,
      Nat.add_mul, ← Nat.mul_assoc, Nat.add_assoc]

theorem natDigits_decimal (n : Nat) : IsDecimal (natDigits n) n := by
  fun_induction natDigits n with
  | case1 n h =>
    have e : (BitVec.ofNat 8 (48 + n)).toNat = 48 + n := by rw [BitVec.toNat_ofNat]; omega
    refine ⟨by simp, ?_, ?_⟩
    · intro b hb
      rw [List.mem_singleton] at hb
      subst hb; rw [e]; omega
    · simp only [decimalValue, e]
      simp
  | case2 n h ih =>
    have e : (BitVec.ofNat 8 (48 + n % 10)).toNat = 48 + n % 10 := by rw [BitVec.toNat_ofNat]; omega
    obtain ⟨h1, h2, h3⟩ := ih
    refine ⟨by simp, ?_, ?_⟩
    · intro b hb
      rcases List.mem_append.1 hb with hb | hb
      · exact h2 b hb
      · rw [List.mem_singleton] at hb
        subst hb; rw [e]; omega
    · rw [decimalValue_append, h3]
      simp only [decimalValue, e, List.length_cons, List.length_nil]
      omega

theorem formatInt_numeral (i : Int) : IsNumeral (formatInt i) i := by
  unfold formatInt
  split
  · exact Or.inr (Or.inr ⟨_, i.natAbs, rfl, natDigits_decimal _, by omega⟩)
  · exact Or.inl ⟨i.natAbs, natDigits_decimal _, by omega⟩

end Maho
