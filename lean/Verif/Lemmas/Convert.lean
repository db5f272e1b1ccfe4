import Verif.Spec.Value
namespace Maho
open Spec

theorem castValue_type {env : FloatEnv} {vt : ValueType} {v : Value} {w : Option Value}
    (h : castValue env vt (some v) = .ok w) : ∃ y, w = some y ∧ HasType y vt := by
  cases vt <;> simp only [castValue] at h <;> (try (simp at h; done))
  · cases v <;> simp only at h <;> (try (simp at h; done))
    · exact ⟨_, (Res.ok.inj h).symm, rfl⟩
    · split at h
      · exact ⟨_, (Res.ok.inj h).symm, rfl⟩
      · split at h
        · exact ⟨_, (Res.ok.inj h).symm, rfl⟩
        · simp at h
  · cases v <;> simp only at h <;> (try (simp at h; done))
    · exact ⟨_, (Res.ok.inj h).symm, rfl⟩
    · exact ⟨_, (Res.ok.inj h).symm, rfl⟩
    · exact ⟨_, (Res.ok.inj h).symm, rfl⟩
    · split at h
      · exact ⟨_, (Res.ok.inj h).symm, rfl⟩
      · simp at h
  · cases v <;> simp only at h <;> (try (simp at h; done))
    · exact ⟨_, (Res.ok.inj h).symm, rfl⟩
    · exact ⟨_, (Res.ok.inj h).symm, rfl⟩
  · cases v <;> simp only at h <;> (try (simp at h; done))
    · exact ⟨_, (Res.ok.inj h).symm, rfl⟩
    · exact ⟨_, (Res.ok.inj h).symm, rfl⟩
    · split at h
      · exact ⟨_, (Res.ok.inj h).symm, rfl⟩
      · simp at h
  · cases v <;> simp only at h <;> (try (simp at h; done))
    · exact ⟨_, (Res.ok.inj h).symm, rfl⟩
    · exact ⟨_, (Res.ok.inj h).symm, rfl⟩
    · split at h
      · exact ⟨_, (Res.ok.inj h).symm, rfl⟩
      · simp at h

theorem castValue_same {env : FloatEnv} {vt : ValueType} {v : Value} (h : HasType v vt) :
    castValue env vt (some v) = .ok (some v) := by
  cases v <;> simp only [HasType] at h <;> subst h <;> rfl

theorem castValue_no_panic {env : FloatEnv} {vt : ValueType} {v : Option Value}
    (h : ValidType vt) : castValue env vt v ≠ .panic := by
  cases v with
  | none => simp [castValue]
  | some v =>
    rcases h with rfl | rfl | rfl | rfl | rfl <;> cases v <;> simp only [castValue] <;>
      (repeat' split) <;> simp

theorem convertCheck_ok {ct : ColumnType} {v : Value} {w : Option Value}
    (h : convertCheck ct (some v) = .ok w) : w = some v ∧ HasType v ct.type := by
  unfold convertCheck at h
  cases ht : ct.type <;> rw [ht] at h <;> cases v <;> simp only at h <;> (try (simp at h; done)) <;>
    (repeat' split at h) <;> (try (simp at h; done)) <;>
    exact ⟨(Res.ok.inj h).symm, rfl⟩

theorem convertCheck_no_panic {ct : ColumnType} {v : Option Value} (h : ValidType ct.type) :
    convertCheck ct v ≠ .panic := by
  unfold convertCheck
  rcases h with h | h | h | h | h <;> rw [h] <;> simp only <;> (repeat' split) <;> simp

/-- A successful conversion: the cast succeeded and the result passes the check. -/
theorem convertValue_some {env : FloatEnv} {ct : ColumnType} {v : Value} {w : Option Value} :
    convertValue env ct (some v) = .ok w ↔
      ∃ y, castValue env ct.type (some v) = .ok (some y) ∧ w = some y ∧
        convertCheck ct (some y) = .ok (some y) := by
  show castValue env ct.type (some v) >>= convertCheck ct = .ok w ↔ _
  constructor
  · intro h
    cases hc : castValue env ct.type (some v) with
    | ok u =>
      rw [hc] at h
      obtain ⟨y, rfl, _⟩ := castValue_type hc
      have h' : convertCheck ct (some y) = .ok w := h
      obtain ⟨rfl, _⟩ := convertCheck_ok h'
      exact ⟨y, rfl, rfl, h'⟩
    | err e => rw [hc] at h; simp at h
    | panic => rw [hc] at h; simp at h
  · rintro ⟨y, hc, rfl, hk⟩
    rw [hc]; exact hk

theorem pow_ge {n : Nat} (h : 8 ≤ n) : (2 : Int) ^ 64 ≤ 2 ^ (8 * n) := by
  have := Nat.pow_le_pow_right (n := 2) (by omega) (show 64 ≤ 8 * n by omega)
  exact_mod_cast this

/-- Passing the check is fitting the column, given no length wrap and an integer size the
code knows. -/
theorem convertCheck_fits {ct : ColumnType} {y : Value}
    (hlen : ∀ s, y = .str s ∨ y = .bytes s → s.length < 2 ^ 32)
    (hint : ct.type = .int64 → ct.size = 2#32 ∨ ct.size = 4#32 ∨ 8 ≤ ct.size.toNat)
    (h : convertCheck ct (some y) = .ok (some y)) : FitsColumn ct (some y) := by
  have ht := (convertCheck_ok h).2
  refine ⟨ht, ?_⟩
  cases y with
  | bool b => trivial
  | float f => trivial
  | str s =>
    have ht' : ct.type = .string := ht
    have hl := hlen s (Or.inl rfl)
    simp only [convertCheck, ht'] at h
    split at h
    · simp at h
    · rename_i hn
      simp only
      rw [BitVec.lt_def, BitVec.toNat_ofNat, Nat.mod_eq_of_lt hl] at hn
      omega
  | bytes s =>
    have ht' : ct.type = .bytes := ht
    have hl := hlen s (Or.inr rfl)
    simp only [convertCheck, ht'] at h
    split at h
    · simp at h
    · rename_i hn
      simp only
      rw [BitVec.lt_def, BitVec.toNat_ofNat, Nat.mod_eq_of_lt hl] at hn
      omega
  | int i =>
    have ht' : ct.type = .int64 := ht
    simp only [convertCheck, ht'] at h
    simp only
    rcases hint ht' with hs | hs | hs
    · have e : ct.size.toNat = 2 := by rw [hs]; rfl
      rw [e]
      split at h
      · simp at h
      · rename_i hn
        simp only [hs, true_and] at hn
        omega
    · have e : ct.size.toNat = 4 := by rw [hs]; rfl
      rw [e]
      split at h
      · simp at h
      · split at h
        · simp at h
        · rename_i hn
          simp only [hs, true_and] at hn
          omega
    · have := pow_ge hs
      have h1 := BitVec.le_toInt i
      have h2 := BitVec.toInt_lt (x := i)
      generalize (2 : Int) ^ (8 * ct.size.toNat) = P at *
      omega

theorem fits_convertCheck {ct : ColumnType} {y : Value} (h : FitsColumn ct (some y)) :
    convertCheck ct (some y) = .ok (some y) := by
  obtain ⟨ht, hv⟩ := h
  unfold convertCheck
  cases y with
  | bool b => have ht' : ct.type = .bool := ht; rw [ht']
  | float f => have ht' : ct.type = .float64 := ht; rw [ht']
  | str s =>
    have ht' : ct.type = .string := ht
    simp only at hv
    rw [ht']; simp only
    rw [if_neg]
    rw [BitVec.lt_def, BitVec.toNat_ofNat]
    have := ct.size.isLt
    rw [Nat.mod_eq_of_lt (by omega)]
    omega
  | bytes s =>
    have ht' : ct.type = .bytes := ht
    simp only at hv
    rw [ht']; simp only
    rw [if_neg]
    rw [BitVec.lt_def, BitVec.toNat_ofNat]
    have := ct.size.isLt
    rw [Nat.mod_eq_of_lt (by omega)]
    omega
  | int i =>
    have ht' : ct.type = .int64 := ht
    simp only at hv
    rw [ht']; simp only
    rw [if_neg, if_neg]
    · rintro ⟨hs, hc⟩
      have e : ct.size.toNat = 4 := by rw [hs]; rfl
      rw [e] at hv
      omega
    · rintro ⟨hs, hc⟩
      have e : ct.size.toNat = 2 := by rw [hs]; rfl
      rw [e] at hv
      omega

theorem convertValue_no_panic {env : FloatEnv} {ct : ColumnType} {v : Option Value}
    (h : ValidType ct.type) : convertValue env ct v ≠ .panic := by
  cases v with
  | none => simp only [convertValue]; split <;> simp
  | some v =>
    show castValue env ct.type (some v) >>= convertCheck ct ≠ .panic
    cases hc : castValue env ct.type (some v) with
    | ok u => exact convertCheck_no_panic h
    | err e => simp
    | panic => exact absurd hc (castValue_no_panic h)

theorem convertValue_none {env : FloatEnv} {ct : ColumnType} {w : Option Value} :
    convertValue env ct none = .ok w ↔ w = none ∧ ct.notNull = false := by
  simp only [convertValue]
  cases ct.notNull <;> simp [eq_comm]

/-! ### ConvertRow -/

theorem convertPrefix_ok {env : FloatEnv} {cts : List ColumnType} {row r : Row} :
    convertPrefix env cts row = .ok r ↔
      row.length ≤ cts.length ∧ r.length = row.length ∧
      ∀ (i : Nat) ct v, cts[i]? = some ct → row[i]? = some v →
        ∃ w, r[i]? = some w ∧ convertValue env ct v = .ok w := by
  induction row generalizing cts r with
  | nil =>
    simp only [convertPrefix]
    constructor
    · intro h; cases Res.ok.inj h; exact ⟨Nat.zero_le _, rfl, by simp⟩
    · rintro ⟨_, h, _⟩
      rw [List.length_nil, List.length_eq_zero_iff] at h
      rw [h]
  | cons v vs ih =>
    cases cts with
    | nil =>
      simp only [convertPrefix]
      constructor
      · intro h; simp at h
      · rintro ⟨h, _⟩; simp at h
    | cons ct cts =>
      simp only [convertPrefix]
      constructor
      · intro h
        rw [Res.bind_eq_ok] at h
        obtain ⟨v', hv, h⟩ := h
        rw [Res.bind_eq_ok] at h
        obtain ⟨vs', hvs, h⟩ := h
        cases Res.ok.inj h
        obtain ⟨h1, h2, h3⟩ := ih.1 hvs
        refine ⟨by simp; omega, by simp [h2], ?_⟩
        intro i ct' x hc hx
        cases i with
        | zero =>
          simp only [List.getElem?_cons_zero, Option.some.injEq] at *
          subst hc; subst hx
          exact ⟨v', rfl, hv⟩
        | succ i =>
          simp only [List.getElem?_cons_succ] at *
          exact h3 i ct' x hc hx
      · rintro ⟨h1, h2, h3⟩
        cases r with
        | nil => simp at h2
        | cons w ws =>
          obtain ⟨w', e, hv⟩ := h3 0 ct v rfl rfl
          simp only [List.getElem?_cons_zero, Option.some.injEq] at e
          subst e
          have := (ih (cts := cts) (r := ws)).2 ⟨by simpa using h1, by simpa using h2, fun i c x hc hx =>
            h3 (i + 1) c x (by simpa using hc) (by simpa using hx)⟩
          rw [hv, this]; rfl

theorem convertPrefix_no_panic {env : FloatEnv} {cts : List ColumnType} {row : Row}
    (h : ∀ ct ∈ cts, ValidType ct.type) (hl : row.length ≤ cts.length) :
    convertPrefix env cts row ≠ .panic := by
  induction row generalizing cts with
  | nil => simp [convertPrefix]
  | cons v vs ih =>
    cases cts with
    | nil => simp at hl
    | cons ct cts =>
      simp only [convertPrefix]
      have h1 := convertValue_no_panic (env := env) (v := v) (h ct (List.mem_cons_self ..))
      have h2 := ih (cts := cts) (fun c hc => h c (List.mem_cons_of_mem _ hc)) (by simpa using hl)
      cases hc : convertValue env ct v with
      | ok w =>
        cases hp : convertPrefix env cts vs with
        | ok ws => simp
        | err e => simp
        | panic => exact absurd hp h2
      | err e => simp
      | panic => exact absurd hc h1

theorem convertRow_ok {env : FloatEnv} {cts : List ColumnType} {row r : Row} :
    convertRow env cts row = .ok r ↔
      row.length ≤ cts.length ∧ r.length = cts.length ∧
      (∀ (i : Nat) ct v, cts[i]? = some ct → row[i]? = some v →
        ∃ w, r[i]? = some w ∧ convertValue env ct v = .ok w) ∧
      (∀ i : Nat, row.length ≤ i → i < cts.length → r[i]? = some none) := by
  unfold convertRow
  by_cases hl : cts.length < row.length
  · rw [if_pos hl]
    constructor
    · intro h; simp at h
    · rintro ⟨h, _⟩; omega
  · rw [if_neg hl, Res.bind_eq_ok]
    constructor
    · rintro ⟨p, hp, h⟩
      cases Res.ok.inj h
      obtain ⟨h1, h2, h3⟩ := convertPrefix_ok.1 hp
      refine ⟨h1, by simp [h2]; omega, ?_, ?_⟩
      · intro i ct v hc hv
        obtain ⟨w, hw, hcv⟩ := h3 i ct v hc hv
        refine ⟨w, ?_, hcv⟩
        have : i < p.length := (List.getElem?_eq_some_iff.1 hw).1
        rw [List.getElem?_append_left this, hw]
      · intro i h4 h5
        rw [List.getElem?_append_right (by omega), List.getElem?_replicate, if_pos (by omega)]
    · rintro ⟨h1, h2, h3, h4⟩
      refine ⟨r.take row.length, convertPrefix_ok.2 ⟨h1, by simp; omega, ?_⟩, ?_⟩
      · intro i ct v hc hv
        obtain ⟨w, hw, hcv⟩ := h3 i ct v hc hv
        refine ⟨w, ?_, hcv⟩
        have : i < row.length := (List.getElem?_eq_some_iff.1 hv).1
        rw [List.getElem?_take_of_lt this, hw]
      · show Res.ok _ = Res.ok _
        congr 1
        apply List.ext_getElem?
        intro i
        by_cases hi : i < row.length
        · rw [List.getElem?_append_left (by simp; omega), List.getElem?_take_of_lt hi]
        · by_cases hi2 : i < cts.length
          · rw [List.getElem?_append_right (by simp; omega), List.getElem?_replicate,
              if_pos (by simp; omega), h4 i (by omega) hi2]
          · rw [List.getElem?_eq_none (by simp; omega), List.getElem?_eq_none (by omega)]

end Maho
