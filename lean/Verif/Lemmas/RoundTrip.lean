import Verif.Lemmas.Typed
/-
Lemmas on reading structs back from rows.
-/
namespace Maho
open Spec

theorem res_bind_ok {α β : Type} {x : Res α} {f : α → Res β} {b : β} :
    (x >>= f) = .ok b ↔ ∃ a, x = .ok a ∧ f a = .ok b := by
  cases x <;> simp

theorem ite_ok {α : Type} {a b : Nat} {x y : α} (h : (if a < b then Res.panic else .ok x) = .ok y) :
    b ≤ a ∧ x = y := by
  split at h
  · simp at h
  · exact ⟨by omega, by simpa using h⟩

/-- What `typedField` makes of a field. -/
structure FieldColumn (fld : Field) (ct : ColumnType) : Prop where
  notBytes : fld.pointer = true → fld.kind ≠ .bytes
  known : ∃ size, kindType size fld.kind = .ok (ct.type, ct.size)
  notNull : fld.kind ≠ .bytes → ct.notNull = !fld.pointer

theorem typedField_column {env : EngineEnv} {fld : Field} {id : Identifier} {ct : ColumnType}
    {p : Bool} (h : typedField env fld = .ok (id, ct, p)) : FieldColumn fld ct := by
  unfold typedField at h
  obtain ⟨tags, -, h⟩ := res_bind_ok.1 h
  obtain ⟨name, -, h⟩ := res_bind_ok.1 h
  obtain ⟨size, -, h⟩ := res_bind_ok.1 h
  split at h
  · simp at h
  · next hp =>
    obtain ⟨⟨vt, sz⟩, hk, h⟩ := res_bind_ok.1 h
    simp only at h
    split at h
    · simp at h
    · simp only [Res.ok.injEq, Prod.mk.injEq] at h
      obtain ⟨-, rfl, -⟩ := h
      exact ⟨fun hpt hb => hp ⟨hpt, hb⟩, ⟨size, hk⟩, fun hb => by simp [hb]⟩

theorem typedFields_columns {env : EngineEnv} : ∀ {flds : List Field} {idx : Nat}
    {names : List Identifier} {cts : List ColumnType} {key : List ColumnKey},
    typedFields env idx flds = .ok (names, cts, key) →
      All2 FieldColumn flds cts ∧ ∀ ck ∈ key, ∃ i, idx ≤ i ∧ i < idx + flds.length ∧
        ck = makeColumnKey (BitVec.ofNat 32 i) false
  | [], idx, names, cts, key, h => by
    simp only [typedFields, Res.ok.injEq, Prod.mk.injEq] at h
    obtain ⟨-, rfl, rfl⟩ := h
    exact ⟨.nil, by simp⟩
  | fld :: flds, idx, names, cts, key, h => by
    unfold typedFields at h
    obtain ⟨⟨id, ct, p⟩, h1, h⟩ := res_bind_ok.1 h
    obtain ⟨⟨ns, cs, ks⟩, h2, h⟩ := res_bind_ok.1 h
    simp only [Res.ok.injEq, Prod.mk.injEq] at h
    obtain ⟨-, rfl, rfl⟩ := h
    obtain ⟨ih1, ih2⟩ := typedFields_columns h2
    refine ⟨.cons (typedField_column h1) ih1, ?_⟩
    intro ck hck
    rcases List.mem_append.1 hck with hck | hck
    · cases p
      · simp at hck
      · simp at hck
        exact ⟨idx, Nat.le_refl _, by simp, hck⟩
    · obtain ⟨i, a, b, c⟩ := ih2 ck hck
      exact ⟨i, by omega, by simp; omega, c⟩

theorem signExtend_of_range {i : BitVec 64} {w : Nat} (hw : w ≤ 64) (hw0 : 0 < w)
    (h1 : -2 ^ (w - 1) ≤ i.toInt) (h2 : i.toInt < 2 ^ (w - 1)) :
    (i.setWidth w).signExtend 64 = i := by
  apply BitVec.eq_of_toInt_eq
  rw [BitVec.toInt_signExtend_of_le hw, BitVec.toInt_setWidth]
  rw [show (i.toNat : Int).bmod (2 ^ w) = (i.toInt).bmod (2 ^ w) from ?_]
  · apply Int.bmod_eq_of_le
    · have : ((2 ^ w : Nat) : Int) = 2 * 2 ^ (w - 1) := by
        have : w = (w - 1) + 1 := by omega
        rw [this, Nat.pow_succ]; push_cast; rw [Int.mul_comm]
      omega
    · have : ((2 ^ w : Nat) : Int) = 2 * 2 ^ (w - 1) := by
        have : w = (w - 1) + 1 := by omega
        rw [this, Nat.pow_succ]; push_cast; rw [Int.mul_comm]
      omega
  · rw [BitVec.toInt_eq_toNat_bmod]
    rw [Int.bmod_bmod_of_dvd]
    exact Nat.pow_dvd_pow 2 hw

theorem all2_get {α β : Type} {R : α → β → Prop} {as : List α} {bs : List β} (h : All2 R as bs) :
    as.length = bs.length ∧ ∀ (i : Nat) a b, as[i]? = some a → bs[i]? = some b → R a b := by
  induction h with
  | nil => simp
  | cons h1 _ ih =>
    refine ⟨by simp [ih.1], ?_⟩
    intro i a b ha hb
    cases i with
    | zero => simp at ha hb; subst ha; subst hb; exact h1
    | succ i => simp at ha hb; exact ih.2 i a b ha hb

theorem exported_iff {fld : Field} : fld.exported = true ↔ FieldExported fld := by
  obtain ⟨name, tag, ptr, kind⟩ := fld
  unfold Field.exported FieldExported
  cases name <;> simp [isUpperByte]

/-- One field that is exported: it fits its column, and it is read back exactly if it is not a
pointer to the wrong kind. -/
theorem exported_round {env : EngineEnv} {fld : Field} {ct : ColumnType} {v : FieldVal}
    {val : Option Value} (hc : FieldColumn fld ct) (hv : FieldOf env fld v)
    (h : fieldToValue ct fld.kind v = .ok val) (he : fld.exported = true) :
    FitsColumn ct val ∧ ((∃ w, valueToField env fld ct val = .ok w ∧ SameField ct v w) ↔
      ∀ s, v = .pointer (some s) → fld.kind ∈ [Kind.bool, .string, .float64, .int64]) := by
  obtain ⟨name, tag, ptr, kind⟩ := fld
  obtain ⟨vt, sz, fx, nn⟩ := ct
  obtain ⟨hb, ⟨size, hk⟩, hnn⟩ := hc
  simp only at hb hk hnn
  have rng : ∀ i : BitVec 64, -(2 ^ 64 : Int) ≤ 2 * i.toInt ∧ 2 * i.toInt < 2 ^ 64 := by
    intro i
    have h1 := BitVec.le_toInt i
    have h2 := BitVec.toInt_lt (x := i)
    simp at h1 h2
    omega
  cases v with
  | slice b =>
    obtain ⟨hp, hkb⟩ := hv
    simp only at hp hkb
    subst hp; subst hkb
    simp only [kindType, Res.ok.injEq, Prod.mk.injEq] at hk
    obtain ⟨rfl, rfl⟩ := hk
    cases nn <;> cases b <;>
      simp [fieldToValue, sliceToValue] at h
    · subst h; simp [FitsColumn, valueToField, he, SameField]
    · obtain ⟨h1, rfl⟩ := ite_ok h
      simp [FitsColumn, HasType, valueToField, he, SameField, h1]
    · subst h
      simp [FitsColumn, HasType, valueToField, he, SameField]
    · obtain ⟨h1, rfl⟩ := ite_ok h
      simp [FitsColumn, HasType, valueToField, he, SameField, h1]
  | plain s =>
    obtain ⟨hp, hs⟩ := hv
    simp only at hp hs
    subst hp
    cases kind <;> cases s <;> simp only [ScalarOf] at hs <;>
      simp only [kindType, Res.ok.injEq, Prod.mk.injEq] at hk <;>
      obtain ⟨rfl, rfl⟩ := hk <;>
      (have hn : nn = true := by simpa using hnn) <;> subst hn <;>
      simp [fieldToValue, scalarToValue, stringToValue] at h
    case bool.bool b => subst h; simp [FitsColumn, HasType, valueToField, he, SameField, setPlain]
    case int.int i =>
      subst h
      simp [FitsColumn, HasType, valueToField, he, SameField, setPlain, setInt]
      exact rng i
    case int8.int i =>
      subst h
      simp [FitsColumn, HasType, valueToField, he, SameField, setPlain, setInt]
      exact ⟨by omega, (signExtend_of_range (w := 8) (by decide) (by decide) hs.1 hs.2).symm⟩
    case int16.int i =>
      subst h
      simp [FitsColumn, HasType, valueToField, he, SameField, setPlain, setInt]
      exact ⟨by omega, (signExtend_of_range (w := 16) (by decide) (by decide) hs.1 hs.2).symm⟩
    case int32.int i =>
      subst h
      simp [FitsColumn, HasType, valueToField, he, SameField, setPlain, setInt]
      exact ⟨by omega, (signExtend_of_range (w := 32) (by decide) (by decide) hs.1 hs.2).symm⟩
    case int64.int i =>
      subst h
      simp [FitsColumn, HasType, valueToField, he, SameField, setPlain, setInt]
      exact rng i
    case float32.float f =>
      subst h; simp [FitsColumn, HasType, valueToField, he, SameField, setPlain, setFloat, hs]
    case float64.float f =>
      subst h; simp [FitsColumn, HasType, valueToField, he, SameField, setPlain, setFloat]
    case string.str s =>
      obtain ⟨h1, rfl⟩ := ite_ok h
      simp [FitsColumn, HasType, valueToField, he, SameField, setPlain, h1]
  | pointer s =>
    have hp : ptr = true := by cases s with
      | none => exact hv
      | some s => exact hv.1
    subst hp
    have hkb := hb rfl
    have hn : nn = false := by simpa [hkb] using hnn
    subst hn
    cases s with
    | none =>
      simp [fieldToValue] at h
      subst h
      simp [FitsColumn, valueToField, he, SameField, hkb]
    | some s =>
      have hs := hv.2
      simp only at hs
      cases kind <;> cases s <;> simp only [ScalarOf] at hs <;>
        simp only [kindType, Res.ok.injEq, Prod.mk.injEq] at hk <;>
        obtain ⟨rfl, rfl⟩ := hk <;>
        simp [fieldToValue, scalarToValue, stringToValue] at h
      case bool.bool b => subst h; simp [FitsColumn, HasType, valueToField, he, SameField, setPointer]
      case int.int i =>
        subst h
        simp [FitsColumn, HasType, valueToField, he, SameField, setPointer]
        exact rng i
      case int8.int i =>
        subst h
        simp [FitsColumn, HasType, valueToField, he, SameField, setPointer]
        omega
      case int16.int i =>
        subst h
        simp [FitsColumn, HasType, valueToField, he, SameField, setPointer]
        omega
      case int32.int i =>
        subst h
        simp [FitsColumn, HasType, valueToField, he, SameField, setPointer]
        omega
      case int64.int i =>
        subst h
        simp [FitsColumn, HasType, valueToField, he, SameField, setPointer]
        exact rng i
      case float32.float f =>
        subst h; simp [FitsColumn, HasType, valueToField, he, SameField, setPointer]
      case float64.float f =>
        subst h; simp [FitsColumn, HasType, valueToField, he, SameField, setPointer]
      case string.str s =>
        obtain ⟨h1, rfl⟩ := ite_ok h
        simp [FitsColumn, HasType, valueToField, he, SameField, setPointer, h1]

/-- One field: it fits its column, and it is read back exactly if it is recoverable. -/
theorem field_round {env : EngineEnv} {fld : Field} {ct : ColumnType} {v : FieldVal}
    {val : Option Value} (hc : FieldColumn fld ct) (hv : FieldOf env fld v)
    (h : fieldToValue ct fld.kind v = .ok val) :
    FitsColumn ct val ∧
      ((∃ w, valueToField env fld ct val = .ok w ∧ SameField ct v w) ↔ Recoverable fld v) := by
  cases he : fld.exported with
  | true =>
    obtain ⟨h1, h2⟩ := exported_round hc hv h he
    exact ⟨h1, h2.trans ⟨fun x => ⟨exported_iff.1 he, x⟩, fun x => x.2⟩⟩
  | false =>
    obtain ⟨name, tag, ptr, kind⟩ := fld
    refine ⟨(exported_round (env := env) (fld := ⟨[65#8], tag, ptr, kind⟩) ⟨hc.1, hc.2, hc.3⟩
      (by unfold FieldOf at hv ⊢; exact hv) h rfl).1, ?_⟩
    simp [valueToField, he, Recoverable, ← exported_iff]

theorem fieldsToRow_length : ∀ {cts : List ColumnType} {flds : List Field} {vals : List FieldVal}
    {row : Row}, fieldsToRow cts flds vals = .ok row → row.length = cts.length
  | [], _, _, row, h => by simp only [fieldsToRow, Res.ok.injEq] at h; subst h; rfl
  | _ :: _, [], _, row, h => by simp [fieldsToRow] at h
  | _ :: _, _ :: _, [], row, h => by simp [fieldsToRow] at h
  | ct :: cts, fld :: flds, v :: vs, row, h => by
    unfold fieldsToRow at h
    obtain ⟨x, -, h⟩ := res_bind_ok.1 h
    obtain ⟨r, h2, h⟩ := res_bind_ok.1 h
    simp only [Res.ok.injEq] at h
    subst h
    simp [fieldsToRow_length h2]

theorem fields_round {env : EngineEnv} : ∀ {flds : List Field} {cts : List ColumnType}
    {vals : List FieldVal} {row : Row}, All2 FieldColumn flds cts → All2 (FieldOf env) flds vals →
    fieldsToRow cts flds vals = .ok row →
    FitsRow cts row ∧ ((∃ ws, rowToFields env flds cts row = .ok ws ∧ vals.length = ws.length ∧
        ∀ (i : Nat) ct v w, cts[i]? = some ct → vals[i]? = some v → ws[i]? = some w →
          SameField ct v w) ↔
      ∀ (i : Nat) fld v, flds[i]? = some fld → vals[i]? = some v → Recoverable fld v)
  | _, _, _, row, .nil, .nil, h => by
    simp only [fieldsToRow, Res.ok.injEq] at h
    subst h
    exact ⟨⟨rfl, by simp⟩, by simp [rowToFields]⟩
  | fld :: flds, ct :: cts, v :: vals, row, .cons c1 c2, .cons v1 v2, h => by
    unfold fieldsToRow at h
    obtain ⟨x, h1, h⟩ := res_bind_ok.1 h
    obtain ⟨r, h2, h⟩ := res_bind_ok.1 h
    simp only [Res.ok.injEq] at h
    subst h
    obtain ⟨f1, g1⟩ := field_round c1 v1 h1
    obtain ⟨f2, g2⟩ := fields_round c2 v2 h2
    refine ⟨⟨by simp [f2.1], ?_⟩, ?_⟩
    · intro i ct' v' hc hv
      cases i with
      | zero => simp at hc hv; subst hc; subst hv; exact f1
      | succ i => simp at hc hv; exact f2.2 i ct' v' hc hv
    · constructor
      · rintro ⟨ws, hr, hlen, hsame⟩
        simp only [rowToFields] at hr
        obtain ⟨y, hy, hr⟩ := res_bind_ok.1 hr
        obtain ⟨ys, hys, hr⟩ := res_bind_ok.1 hr
        simp only [Res.ok.injEq] at hr
        subst hr
        intro i fld' v' hf hv
        cases i with
        | zero =>
          simp at hf hv; subst hf; subst hv
          exact g1.1 ⟨y, hy, hsame 0 ct v y rfl rfl rfl⟩
        | succ i =>
          simp at hf hv
          exact g2.1 ⟨ys, hys, by simpa using hlen, fun i c a b hc ha hb =>
            hsame (i + 1) c a b (by simpa using hc) (by simpa using ha) (by simpa using hb)⟩
            i fld' v' hf hv
      · intro hall
        obtain ⟨w, a1, b1⟩ := g1.2 (hall 0 fld v rfl rfl)
        obtain ⟨ws, a2, hlen, b2⟩ := g2.2 (fun i f c hf hc => hall (i + 1) f c
          (by simpa using hf) (by simpa using hc))
        refine ⟨w :: ws, by simp [rowToFields, a1, a2], by simp [hlen], ?_⟩
        intro i c a b hc ha hb
        cases i with
        | zero => simp at hc ha hb; subst hc; subst ha; subst hb; exact b1
        | succ i => simp at hc ha hb; exact b2 i c a b hc ha hb

end Maho
