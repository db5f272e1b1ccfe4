import Verif.Lemmas.Float
/-
int64 -> float64 conversion rounds to nearest, ties to even.
-/
namespace Maho.F64

theorem unit_mul (a : Nat) : 2 ^ a * unit = 2 ^ (a + 1074) := by
  unfold unit; rw [Nat.pow_add]

theorem pow_unit {a : Nat} (h : a = 1074) : 2 ^ a = unit := by
  unfold unit; rw [h]

theorem unit_pos : 0 < unit := by
  unfold unit; exact Nat.two_pow_pos 1074

theorem unit_pos_int : (0 : Int) < (unit : Int) := Int.natCast_pos.2 unit_pos

/-- The natural number that `natMag n` represents. -/
def natRound (n : Nat) : Nat :=
  let l := Nat.log2 n
  if l ≤ 52 then n
  else
    let s := l - 52
    let q := n / 2 ^ s
    let r := n % 2 ^ s
    (if 2 ^ s < 2 * r ∨ (2 ^ s = 2 * r ∧ q % 2 = 1) then q + 1 else q) * 2 ^ s

theorem log2_bounds {n : Nat} (h : n ≠ 0) : 2 ^ Nat.log2 n ≤ n ∧ n < 2 ^ (Nat.log2 n + 1) :=
  ⟨Nat.log2_self_le h, Nat.lt_log2_self⟩

theorem magScaled_norm (e m : Nat) (he : 0 < e) (hm : m < 2 ^ 52) :
    magScaled (e * 2 ^ 52 + m) = (2 ^ 52 + m) * 2 ^ (e - 1) := by
  have h1 : (e * 2 ^ 52 + m) / 2 ^ 52 = e := by omega
  have h2 : (e * 2 ^ 52 + m) % 2 ^ 52 = m := by omega
  unfold magScaled
  rw [h1, h2, if_neg (by omega)]

/-- Also when the significand has been rounded up to the next power of two. -/
theorem magScaled_norm' (e q : Nat) (he : 0 < e) (h1 : 2 ^ 52 ≤ q) (h2 : q ≤ 2 ^ 53) :
    magScaled (e * 2 ^ 52 + (q - 2 ^ 52)) = q * 2 ^ (e - 1) := by
  rcases Nat.lt_or_ge q (2 ^ 53) with h | h
  · have e1 : 2 ^ 52 + (q - 2 ^ 52) = q := by omega
    rw [magScaled_norm e (q - 2 ^ 52) he (by omega), e1]
  · have : q = 2 ^ 53 := by omega
    have e2 : e * 2 ^ 52 + (q - 2 ^ 52) = (e + 1) * 2 ^ 52 + 0 := by omega
    rw [e2, magScaled_norm (e + 1) 0 (by omega) (by omega), this]
    obtain ⟨k, rfl⟩ : ∃ k, e = k + 1 := ⟨e - 1, by omega⟩
    simp only [Nat.add_sub_cancel, Nat.pow_succ]
    omega

theorem shift_bounds {n : Nat} (hn : n ≠ 0) (hl : ¬ Nat.log2 n ≤ 52) :
    2 ^ 52 ≤ n / 2 ^ (Nat.log2 n - 52) ∧ n / 2 ^ (Nat.log2 n - 52) < 2 ^ 53 := by
  obtain ⟨h1, h2⟩ := log2_bounds hn
  have hp : 0 < 2 ^ (Nat.log2 n - 52) := Nat.two_pow_pos _
  constructor
  · rw [Nat.le_div_iff_mul_le hp, ← Nat.pow_add]
    have : 52 + (Nat.log2 n - 52) = Nat.log2 n := by omega
    rw [this]; exact h1
  · rw [Nat.div_lt_iff_lt_mul hp, ← Nat.pow_add]
    have : 53 + (Nat.log2 n - 52) = Nat.log2 n + 1 := by omega
    rw [this]; exact h2

theorem magScaled_natMag {n : Nat} (hn : n ≠ 0) :
    magScaled (natMag n) = natRound n * unit := by
  obtain ⟨h1, h2⟩ := log2_bounds hn
  unfold natMag natRound
  simp only
  by_cases hl : Nat.log2 n ≤ 52
  · rw [if_pos hl, if_pos hl]
    have e1 : 2 ^ Nat.log2 n * 2 ^ (52 - Nat.log2 n) = 2 ^ 52 := by
      rw [← Nat.pow_add]; congr 1; omega
    have e2 : 2 ^ (Nat.log2 n + 1) * 2 ^ (52 - Nat.log2 n) = 2 ^ 53 := by
      rw [← Nat.pow_add]; congr 1; omega
    have b1 : 2 ^ 52 ≤ n * 2 ^ (52 - Nat.log2 n) := by
      rw [← e1]; exact Nat.mul_le_mul_right _ h1
    have b2 : n * 2 ^ (52 - Nat.log2 n) ≤ 2 ^ 53 := by
      rw [← e2]; exact Nat.mul_le_mul_right _ (Nat.le_of_lt h2)
    rw [magScaled_norm' _ _ (by omega) b1 b2, Nat.mul_assoc, ← Nat.pow_add]
    rw [pow_unit (by omega)]
  · rw [if_neg hl, if_neg hl]
    obtain ⟨b1, b2⟩ := shift_bounds hn hl
    generalize hq' : (if 2 ^ (Nat.log2 n - 52) < 2 * (n % 2 ^ (Nat.log2 n - 52)) ∨
      2 ^ (Nat.log2 n - 52) = 2 * (n % 2 ^ (Nat.log2 n - 52)) ∧
      n / 2 ^ (Nat.log2 n - 52) % 2 = 1 then n / 2 ^ (Nat.log2 n - 52) + 1
      else n / 2 ^ (Nat.log2 n - 52)) = q'
    have c1 : 2 ^ 52 ≤ q' ∧ q' ≤ 2 ^ 53 := by
      rw [← hq']; split <;> omega
    have e3 : Nat.log2 n + 1023 - 1 = Nat.log2 n - 52 + 1074 := by omega
    rw [magScaled_norm' _ _ (by omega) c1.1 c1.2, Nat.mul_assoc, unit_mul, e3]

theorem natMag_bound {n : Nat} (hn : n ≠ 0) (hb : n < 2 ^ 64) : natMag n ≤ 1087 * 2 ^ 52 := by
  obtain ⟨h1, h2⟩ := log2_bounds hn
  have hl64 : Nat.log2 n ≤ 63 := by
    have := (Nat.log2_lt hn).2 hb
    omega
  unfold natMag
  simp only
  by_cases hl : Nat.log2 n ≤ 52
  · rw [if_pos hl]
    have e2 : 2 ^ (Nat.log2 n + 1) * 2 ^ (52 - Nat.log2 n) = 2 ^ 53 := by
      rw [← Nat.pow_add]; congr 1; omega
    have b2 : n * 2 ^ (52 - Nat.log2 n) ≤ 2 ^ 53 := by
      rw [← e2]; exact Nat.mul_le_mul_right _ (Nat.le_of_lt h2)
    omega
  · rw [if_neg hl]
    obtain ⟨b1, b2⟩ := shift_bounds hn hl
    split <;> omega

/-! ### Nearest multiples -/

theorem nearest_multiple (q r U : Nat) (hr : r < U) (k : Int) :
    let q' : Nat := if U < 2 * r ∨ (U = 2 * r ∧ q % 2 = 1) then q + 1 else q
    ((q' * U : Int) - (q * U + r)).natAbs ≤ (k * U - (q * U + r)).natAbs ∧
    (((q' * U : Int) - (q * U + r)).natAbs = (k * U - (q * U + r)).natAbs → k ≠ q' → q' % 2 = 0) := by
  intro q'
  have hk : k ≤ q ∨ (q : Int) + 1 ≤ k := by omega
  have hU : (0 : Int) ≤ U := by omega
  have hup : U < 2 * r ∨ (U = 2 * r ∧ q % 2 = 1) ∨ (2 * r < U ∨ (U = 2 * r ∧ q % 2 = 0)) := by omega
  have hmul : ((q + 1 : Nat) : Int) * U = q * U + U := by
    rw [Int.natCast_add, Int.add_mul]; simp
  rcases hk with hk | hk
  · have hnn : (0 : Int) ≤ ((q : Int) - k) * U := Int.mul_nonneg (by omega) hU
    have hge : k ≠ q → (U : Int) ≤ ((q : Int) - k) * U := by
      intro hne
      have : (0 : Int) ≤ ((q : Int) - k - 1) * U := Int.mul_nonneg (by omega) hU
      have e : ((q : Int) - k - 1) * U = ((q : Int) - k) * U - U := by
        rw [Int.sub_mul, Int.one_mul]
      omega
    have he : ((q : Int) - k) * U = q * U - k * U := by rw [Int.sub_mul]
    rw [he] at hnn hge
    by_cases hc : U < 2 * r ∨ (U = 2 * r ∧ q % 2 = 1)
    · have hq' : q' = q + 1 := if_pos hc
      rw [hq', hmul]
      constructor
      · omega
      · intro h1 h2
        omega
    · have hq' : q' = q := if_neg hc
      rw [hq']
      constructor
      · omega
      · intro h1 h2
        have := hge h2
        omega
  · have hnn : (0 : Int) ≤ (k - ((q : Int) + 1)) * U := Int.mul_nonneg (by omega) hU
    have hge : k ≠ (q : Int) + 1 → (U : Int) ≤ (k - ((q : Int) + 1)) * U := by
      intro hne
      have : (0 : Int) ≤ (k - ((q : Int) + 1) - 1) * U := Int.mul_nonneg (by omega) hU
      have e : (k - ((q : Int) + 1) - 1) * U = (k - ((q : Int) + 1)) * U - U := by
        rw [Int.sub_mul, Int.one_mul]
      omega
    have he : (k - ((q : Int) + 1)) * U = k * U - (q * U + U) := by
      rw [Int.sub_mul, Int.add_mul, Int.one_mul]
    rw [he] at hnn hge
    by_cases hc : U < 2 * r ∨ (U = 2 * r ∧ q % 2 = 1)
    · have hq' : q' = q + 1 := if_pos hc
      rw [hq', hmul]
      constructor
      · omega
      · intro h1 h2
        have := hge (by simpa using h2)
        omega
    · have hq' : q' = q := if_neg hc
      rw [hq']
      constructor
      · omega
      · intro h1 h2
        omega

/-- A magnitude at or above 2^l (l ≥ 52) is a multiple of the spacing there. -/
theorem magScaled_multiple (m l : Nat) (hl : 52 ≤ l) (h : 2 ^ l * unit ≤ magScaled m) :
    ∃ k : Nat, magScaled m = k * (2 ^ (l - 52) * unit) := by
  have hbase : magScaled ((l + 1023) * 2 ^ 52 + 0) = 2 ^ l * unit := by
    have e3 : 52 + (l + 1023 - 1) = l + 1074 := by omega
    rw [magScaled_norm _ _ (by omega) (by omega), Nat.add_zero, ← Nat.pow_add, unit_mul, e3]
  rw [← hbase] at h
  have hm : (l + 1023) * 2 ^ 52 ≤ m := by
    apply Classical.byContradiction
    intro hc
    have := magScaled_lt (m := m) (n := (l + 1023) * 2 ^ 52 + 0) (by omega)
    omega
  have hexp : l + 1023 ≤ m / 2 ^ 52 := by
    rw [Nat.le_div_iff_mul_le (by omega)]; exact hm
  refine ⟨(2 ^ 52 + m % 2 ^ 52) * 2 ^ (m / 2 ^ 52 - (l + 1023)), ?_⟩
  unfold magScaled
  have e3 : m / 2 ^ 52 - (l + 1023) + (l - 52 + 1074) = m / 2 ^ 52 - 1 := by omega
  rw [if_neg (by omega), Nat.mul_assoc, unit_mul, ← Nat.pow_add, e3]

/-- The nearest multiple argument, in units. -/
theorem nearest_abstract (q r U q' L T n : Nat) (x : Int)
    (hn : n = q * U + r) (hr : r < U) (hT : 0 < T)
    (hq' : q' = if U < 2 * r ∨ (U = 2 * r ∧ q % 2 = 1) then q + 1 else q)
    (hLn : L * U ≤ n)
    (hx : x < (L : Int) * U * T ∨ ∃ k : Nat, x = (k : Int) * U * T) :
    ((q' : Int) * U * T - n * T).natAbs ≤ (x - n * T).natAbs ∧
    (((q' : Int) * U * T - n * T).natAbs = (x - n * T).natAbs →
      x ≠ (q' : Int) * U * T → q' % 2 = 0) := by
  have near := nearest_multiple q r U hr
  simp only at near
  rw [← hq'] at near
  have hd : ∀ k : Int, (k * U * T - n * T).natAbs
      = (k * U - (q * U + r)).natAbs * T := by
    intro k
    have e : (n : Int) = q * U + r := by rw [hn]; push_cast; rfl
    have e2 : (T : Int).natAbs = T := Int.natAbs_natCast T
    rw [e, ← Int.sub_mul, Int.natAbs_mul, e2]
  have hcase : ∀ k : Int,
      ((q' : Int) * U * T - n * T).natAbs ≤ (k * U * T - n * T).natAbs ∧
      (((q' : Int) * U * T - n * T).natAbs = (k * U * T - n * T).natAbs → k ≠ q' → q' % 2 = 0) := by
    intro k
    have hk := near k
    rw [hd k, hd (q' : Int)]
    exact ⟨Nat.mul_le_mul_right _ hk.1, fun h3 h4 => hk.2 (Nat.eq_of_mul_eq_mul_right hT h3) h4⟩
  rcases hx with hx | ⟨k, rfl⟩
  · have hl := (hcase (L : Int)).1
    have hnl : (L : Int) * U * T ≤ n * T := by
      have := Nat.mul_le_mul_right T hLn
      have h2 := Int.ofNat_le.2 this
      push_cast at h2
      exact h2
    generalize (L : Int) * U * T = A at *
    generalize (n : Int) * T = N at *
    generalize (q' : Int) * U * T = R at *
    have : (A - N).natAbs < (x - N).natAbs := by omega
    exact ⟨by omega, fun h => by omega⟩
  · have := hcase (k : Int)
    refine ⟨this.1, fun h3 h4 => this.2 h3 ?_⟩
    intro hkq
    apply h4
    rw [hkq]

/-- Rounding a natural number gives the nearest float; on a tie the result is even. -/
theorem natRound_nearest {n : Nat} (hn : n ≠ 0) (x : Int)
    (hx : x < 0 ∨ ∃ m, x = (magScaled m : Int)) :
    ((natRound n * unit : Int) - n * unit).natAbs ≤ (x - n * unit).natAbs ∧
    (((natRound n * unit : Int) - n * unit).natAbs = (x - n * unit).natAbs →
      x ≠ natRound n * unit → natMag n % 2 = 0) := by
  obtain ⟨h1, h2⟩ := log2_bounds hn
  by_cases hl : Nat.log2 n ≤ 52
  · have e : natRound n = n := by unfold natRound; simp only; rw [if_pos hl]
    rw [e]
    generalize (n : Int) * unit = N
    constructor
    · omega
    · intro h3 h4; omega
  · obtain ⟨s, hs⟩ : ∃ s, Nat.log2 n = 52 + s := ⟨Nat.log2 n - 52, by omega⟩
    have hs' : Nat.log2 n - 52 = s := by omega
    have hround : natRound n = (if 2 ^ s < 2 * (n % 2 ^ s) ∨ (2 ^ s = 2 * (n % 2 ^ s) ∧
        n / 2 ^ s % 2 = 1) then n / 2 ^ s + 1 else n / 2 ^ s) * 2 ^ s := by
      unfold natRound; simp only; rw [if_neg hl, hs']
    obtain ⟨b1, b2⟩ := shift_bounds hn hl
    rw [hs'] at b1 b2
    have hmagp : natMag n % 2 = (if 2 ^ s < 2 * (n % 2 ^ s) ∨ (2 ^ s = 2 * (n % 2 ^ s) ∧
        n / 2 ^ s % 2 = 1) then n / 2 ^ s + 1 else n / 2 ^ s) % 2 := by
      unfold natMag; simp only; rw [if_neg hl, hs']
      have hge : 2 ^ 52 ≤ (if 2 ^ s < 2 * (n % 2 ^ s) ∨ (2 ^ s = 2 * (n % 2 ^ s) ∧
          n / 2 ^ s % 2 = 1) then n / 2 ^ s + 1 else n / 2 ^ s) := by split <;> omega
      generalize (if 2 ^ s < 2 * (n % 2 ^ s) ∨ (2 ^ s = 2 * (n % 2 ^ s) ∧
          n / 2 ^ s % 2 = 1) then n / 2 ^ s + 1 else n / 2 ^ s) = q at *
      omega
    have hdm : n = n / 2 ^ s * 2 ^ s + n % 2 ^ s := by
      have := Nat.div_add_mod n (2 ^ s)
      rw [Nat.mul_comm] at this; exact this.symm
    have hLn : 2 ^ 52 * 2 ^ s ≤ n := by rw [← Nat.pow_add, ← hs]; exact h1
    have hx' : x < ((2 ^ 52 : Nat) : Int) * (2 ^ s : Nat) * unit ∨
        ∃ k : Nat, x = (k : Int) * (2 ^ s : Nat) * unit := by
      rcases hx with hx | ⟨m, rfl⟩
      · left
        exact Int.lt_of_lt_of_le hx
          (Int.mul_nonneg (Int.mul_nonneg (Int.natCast_nonneg _) (Int.natCast_nonneg _))
            (Int.natCast_nonneg _))
      · rcases Nat.lt_or_ge (magScaled m) (2 ^ Nat.log2 n * unit) with h | h
        · left
          rw [hs, Nat.pow_add] at h
          have h2 := Int.ofNat_lt.2 h
          rw [Int.natCast_mul, Int.natCast_mul] at h2
          exact h2
        · right
          obtain ⟨k, hk⟩ := magScaled_multiple m (Nat.log2 n) (by omega) h
          refine ⟨k, ?_⟩
          rw [hk, hs', Int.natCast_mul, Int.natCast_mul, Int.mul_assoc]
    have := nearest_abstract (n / 2 ^ s) (n % 2 ^ s) (2 ^ s) _ (2 ^ 52) unit n x hdm
      (Nat.mod_lt _ (Nat.two_pow_pos s)) unit_pos rfl hLn hx'
    rw [hmagp, hround, Int.natCast_mul]
    exact this

theorem ofInt64_zero {i : BitVec 64} (h : i.toInt = 0) : ofInt64 i = 0#64 := by
  unfold ofInt64; rw [if_pos h]

theorem natAbs_bound (i : BitVec 64) : i.toInt.natAbs < 2 ^ 64 := by
  have := BitVec.toInt_lt (x := i)
  have := BitVec.le_toInt (x := i)
  omega

theorem mag_ofInt64 {i : BitVec 64} (h : i.toInt ≠ 0) :
    mag (ofInt64 i) = natMag i.toInt.natAbs ∧ sign (ofInt64 i) = decide (i.toInt < 0) := by
  have hb := natMag_bound (n := i.toInt.natAbs) (by omega) (natAbs_bound i)
  unfold ofInt64
  rw [if_neg h]
  by_cases hneg : i.toInt < 0
  · rw [if_pos hneg]
    unfold mag sign
    rw [BitVec.toNat_ofNat]
    constructor
    · omega
    · rw [decide_eq_true hneg]
      simp only [decide_eq_true_eq]; omega
  · rw [if_neg hneg]
    unfold mag sign
    rw [BitVec.toNat_ofNat]
    constructor
    · omega
    · rw [decide_eq_false hneg]
      simp only [decide_eq_false_iff_not]; omega

theorem isFinite_ofInt64 (i : BitVec 64) : isFinite (ofInt64 i) = true := by
  by_cases h : i.toInt = 0
  · rw [ofInt64_zero h]; decide
  · unfold isFinite
    rw [(mag_ofInt64 h).1]
    have hb := natMag_bound (n := i.toInt.natAbs) (by omega) (natAbs_bound i)
    simp only [decide_eq_true_eq]; omega

theorem isNaN_ofInt64 (i : BitVec 64) : isNaN (ofInt64 i) = false := by
  have := isFinite_ofInt64 i
  unfold isFinite at this
  unfold isNaN
  simp only [decide_eq_true_eq, decide_eq_false_iff_not] at *
  omega

theorem scaled_ofInt64 (i : BitVec 64) :
    scaled (ofInt64 i) =
      if i.toInt = 0 then 0
      else if i.toInt < 0 then -((natRound i.toInt.natAbs * unit : Nat) : Int)
      else ((natRound i.toInt.natAbs * unit : Nat) : Int) := by
  by_cases h : i.toInt = 0
  · have h0 : scaled 0#64 = 0 := by decide
    rw [ofInt64_zero h, if_pos h, h0]
  · rw [if_neg h]
    obtain ⟨h1, h2⟩ := mag_ofInt64 h
    unfold scaled
    rw [h1, h2, magScaled_natMag (by omega)]
    by_cases hneg : i.toInt < 0
    · rw [decide_eq_true hneg, if_pos hneg, if_pos rfl]
    · rw [decide_eq_false hneg, if_neg hneg, if_neg (by decide)]

theorem magScaled_nonneg (m : Nat) : (0 : Int) ≤ (magScaled m : Int) := by omega

/-- Every scaled value or its negation is a magnitude. -/
theorem scaled_cases (g : F64) : (∃ m, scaled g = (magScaled m : Int)) ∧ sign g = false ∨
    (∃ m, scaled g = -(magScaled m : Int)) ∧ sign g = true := by
  unfold scaled
  cases h : sign g
  · left; exact ⟨⟨_, rfl⟩, rfl⟩
  · right; exact ⟨⟨_, rfl⟩, rfl⟩

theorem scaled_shape (g : F64) : (scaled g < 0 ∨ ∃ m, scaled g = (magScaled m : Int)) ∧
    (-scaled g < 0 ∨ ∃ m, -scaled g = (magScaled m : Int)) := by
  rcases scaled_cases g with ⟨⟨m, h⟩, _⟩ | ⟨⟨m, h⟩, _⟩
  · constructor
    · exact Or.inr ⟨m, h⟩
    · rw [h]
      by_cases h0 : magScaled m = 0
      · right; exact ⟨m, by rw [h0]; rfl⟩
      · left; omega
  · constructor
    · rw [h]
      by_cases h0 : magScaled m = 0
      · right; exact ⟨m, by rw [h0]; rfl⟩
      · left; omega
    · right; exact ⟨m, by rw [h]; omega⟩

theorem mant_even_of_mag {f : F64} (h : mag f % 2 = 0) : mant f % 2 = 0 := by
  unfold mant; omega

/-- int64 -> float64 gives the nearest float64, ties to even mantissa. -/
theorem ofInt64_nearest (i : BitVec 64) (g : F64) :
    (scaled (ofInt64 i) - i.toInt * unit).natAbs ≤ (scaled g - i.toInt * unit).natAbs ∧
    ((scaled (ofInt64 i) - i.toInt * unit).natAbs = (scaled g - i.toInt * unit).natAbs →
      scaled g ≠ scaled (ofInt64 i) → mant (ofInt64 i) % 2 = 0) := by
  have hs := scaled_ofInt64 i
  by_cases h : i.toInt = 0
  · rw [if_pos h] at hs
    rw [hs, h]
    constructor
    · omega
    · intro h1 h2; omega
  · rw [if_neg h] at hs
    obtain ⟨hm, _⟩ := mag_ofInt64 h
    by_cases hneg : i.toInt < 0
    · rw [if_pos hneg] at hs
      have key := natRound_nearest (n := i.toInt.natAbs) (by omega) (-scaled g) (scaled_shape g).2
      have hi : i.toInt = -(i.toInt.natAbs : Int) := by omega
      have e1 : i.toInt * unit = -((i.toInt.natAbs : Int) * unit) := by
        conv => lhs; rw [hi]
        rw [Int.neg_mul]
      rw [hs, e1]
      push_cast at key ⊢
      generalize (i.toInt.natAbs : Int) * unit = N at *
      generalize (natRound i.toInt.natAbs : Int) * unit = R at *
      refine ⟨by omega, fun h1 h2 => mant_even_of_mag ?_⟩
      rw [hm]
      exact key.2 (by omega) (by omega)
    · rw [if_neg hneg] at hs
      have key := natRound_nearest (n := i.toInt.natAbs) (by omega) (scaled g) (scaled_shape g).1
      have hi : i.toInt = (i.toInt.natAbs : Int) := by omega
      have e1 : i.toInt * unit = ((i.toInt.natAbs : Int) * unit) := by
        conv => lhs; rw [hi]
      rw [hs, e1]
      push_cast at key ⊢
      generalize (i.toInt.natAbs : Int) * unit = N at *
      generalize (natRound i.toInt.natAbs : Int) * unit = R at *
      refine ⟨by omega, fun h1 h2 => mant_even_of_mag ?_⟩
      rw [hm]
      exact key.2 (by omega) (by omega)

theorem natRound_exact {n : Nat} (h : n ≤ 2 ^ 53) : natRound n = n := by
  unfold natRound
  simp only
  by_cases hl : Nat.log2 n ≤ 52
  · rw [if_pos hl]
  · rw [if_neg hl]
    have hn : n ≠ 0 := by rintro rfl; simp at hl
    have : n = 2 ^ 53 := by
      have := (log2_bounds hn).1
      have h53 : 2 ^ 53 ≤ 2 ^ Nat.log2 n := Nat.pow_le_pow_right (by omega) (by omega)
      omega
    subst this
    decide

/-- Monotone: from nearness. -/
theorem natRound_mono {m n : Nat} (h : m ≤ n) : natRound m ≤ natRound n := by
  by_cases hm : m = 0
  · subst hm
    have : natRound 0 = 0 := by decide
    omega
  by_cases hmn : m = n
  · rw [hmn]; exact Nat.le_refl _
  have hn : n ≠ 0 := by omega
  apply Classical.byContradiction
  intro hc
  have hTpos : (0 : Int) < unit := unit_pos_int
  have k1 := natRound_nearest hm ((natRound n * unit : Nat) : Int)
    (Or.inr ⟨natMag n, by rw [magScaled_natMag hn]⟩)
  have k2 := natRound_nearest hn ((natRound m * unit : Nat) : Int)
    (Or.inr ⟨natMag m, by rw [magScaled_natMag hm]⟩)
  have f : ∀ a b : Nat, ((a * unit : Int) - b * unit).natAbs
      = ((a : Int) - b).natAbs * (unit : Int).natAbs := by
    intro a b; rw [← Int.natAbs_mul, Int.sub_mul]
  push_cast at k1 k2
  rw [f, f] at k1 k2
  have hTn : 0 < (unit : Int).natAbs := by omega
  have k1' := Nat.le_of_mul_le_mul_right k1.1 hTn
  have k2' := Nat.le_of_mul_le_mul_right k2.1 hTn
  -- natRound n < natRound m, both at least as near
  have : natRound n < natRound m := by omega
  omega

theorem scaled_ofInt64_mono {i j : BitVec 64} (h : i.toInt ≤ j.toInt) :
    scaled (ofInt64 i) ≤ scaled (ofInt64 j) := by
  rw [scaled_ofInt64, scaled_ofInt64]
  have pos : ∀ n : Nat, (0 : Int) ≤ ((natRound n * unit : Nat) : Int) := fun n => by omega
  have p1 := pos i.toInt.natAbs
  have p2 := pos j.toInt.natAbs
  have mono : ∀ m n : Nat, m ≤ n →
      ((natRound m * unit : Nat) : Int) ≤ ((natRound n * unit : Nat) : Int) := by
    intro m n hmn
    exact Int.ofNat_le.2 (Nat.mul_le_mul_right _ (natRound_mono hmn))
  by_cases i0 : i.toInt = 0 <;> by_cases j0 : j.toInt = 0 <;>
    by_cases ineg : i.toInt < 0 <;> by_cases jneg : j.toInt < 0 <;>
    simp only [i0, j0, ineg, jneg, if_true, if_false] <;> try omega
  · have := mono j.toInt.natAbs i.toInt.natAbs (by omega)
    omega
  · have := mono i.toInt.natAbs j.toInt.natAbs (by omega)
    omega

end Maho.F64
