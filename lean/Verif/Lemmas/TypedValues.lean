import Verif.Spec.TypedValues
import Verif.Lemmas.RoundTrip
/-
Lemmas on the values of fields in rows, for C89.
-/
namespace Maho.TVal
open Spec

/-- One field, unless a string column gets a value that is not a string. -/
theorem fieldToValue_eq {ct : ColumnType} {kind : Kind} {v : FieldVal}
    (hs : ct.type = .string → OfColumn ct v) :
    fieldToValue ct kind v =
      if OfColumn ct v ∧ ShortEnough ct (stored ct v) then .ok (stored ct v) else .panic := by
  obtain ⟨vt, sz, fx, nn⟩ := ct
  cases v with
  | plain s =>
    cases nn <;> cases vt <;> cases s <;>
      simp_all [fieldToValue, scalarToValue, stringToValue, OfColumn, ShortEnough, stored, scalarType,
        scalarValue] <;> (split <;> split <;> simp_all <;> omega)
  | pointer s =>
    cases s with
    | none =>
      cases nn <;> cases vt <;>
        simp_all [fieldToValue, OfColumn, ShortEnough, stored]
    | some s =>
      cases nn <;> cases vt <;> cases s <;>
        simp_all [fieldToValue, scalarToValue, stringToValue, OfColumn, ShortEnough, stored, scalarType,
          scalarValue] <;> (split <;> split <;> simp_all <;> omega)
  | slice s =>
    cases s <;> cases nn <;> cases vt <;>
      simp_all [fieldToValue, sliceToValue, OfColumn, ShortEnough, stored] <;>
      (split <;> split <;> simp_all <;> omega)

theorem ofColumn {env : EngineEnv} {fld : Field} {ct : ColumnType} {v : FieldVal}
    (hc : FieldColumn fld ct) (hv : FieldOf env fld v) : OfColumn ct v := by
  obtain ⟨name, tag, ptr, kind⟩ := fld
  obtain ⟨vt, sz, fx, nn⟩ := ct
  obtain ⟨hb, ⟨size, hk⟩, hnn⟩ := hc
  simp only at hb hk hnn
  cases v with
  | slice b =>
    obtain ⟨hp, hkb⟩ := hv
    simp only at hp hkb
    subst hp; subst hkb
    simp only [kindType, Res.ok.injEq, Prod.mk.injEq] at hk
    cases b <;> simp [OfColumn, hk.1.symm]
  | plain s =>
    obtain ⟨hp, hs⟩ := hv
    simp only at hp hs
    subst hp
    cases kind <;> cases s <;> simp only [ScalarOf] at hs <;>
      simp only [kindType, Res.ok.injEq, Prod.mk.injEq] at hk <;>
      simp_all [OfColumn, scalarType]
  | pointer s =>
    cases s with
    | none =>
      have hp : ptr = true := hv
      subst hp
      have := hb rfl
      simp_all [OfColumn]
    | some s =>
      obtain ⟨hp, hs⟩ := hv
      simp only at hp hs
      subst hp
      cases kind <;> cases s <;> simp only [ScalarOf] at hs <;>
        simp only [kindType, Res.ok.injEq, Prod.mk.injEq] at hk <;>
        simp_all [OfColumn, scalarType]

theorem allShort_cons {ct : ColumnType} {cts : List ColumnType} {v : FieldVal}
    {vs : List FieldVal} : AllShort (ct :: cts) (v :: vs) ↔
      ShortEnough ct (stored ct v) ∧ AllShort cts vs := by
  simp [AllShort]

theorem fieldsToRow_eq {env : EngineEnv} : ∀ {flds : List Field} {cts : List ColumnType}
    {vals : List FieldVal}, All2 FieldColumn flds cts → All2 (FieldOf env) flds vals →
    fieldsToRow cts flds vals =
      if AllShort cts vals then .ok (structRow cts vals) else .panic
  | _, _, _, .nil, .nil => by simp [fieldsToRow, AllShort, structRow]
  | fld :: flds, ct :: cts, v :: vals, .cons c1 c2, .cons v1 v2 => by
    have ho := ofColumn c1 v1
    rw [fieldsToRow, fieldToValue_eq (fun _ => ho), fieldsToRow_eq c2 v2]
    by_cases h1 : ShortEnough ct (stored ct v)
    · by_cases h2 : AllShort cts vals
      · rw [if_pos ⟨ho, h1⟩, if_pos h2, if_pos (allShort_cons.2 ⟨h1, h2⟩)]
        rfl
      · rw [if_pos ⟨ho, h1⟩, if_neg h2, if_neg (fun h => h2 (allShort_cons.1 h).2)]
        rfl
    · rw [if_neg (fun h => h1 h.2), if_neg (fun h => h1 (allShort_cons.1 h).1)]
      rfl

/-! ### Reading -/

theorem lowBits_iff {w : Nat} (hw : 0 < w) (hw' : w ≤ 64) {i j : BitVec 64} :
    LowBits w i j ↔ j = (i.setWidth w).signExtend 64 := by
  have hp : (2 ^ w : Int) = 2 * 2 ^ (w - 1) := by
    rw [show w = (w - 1) + 1 by omega, Int.pow_succ, Int.mul_comm]; rfl
  have key : ((i.setWidth w).signExtend 64).toInt = i.toInt.bmod (2 ^ w) := by
    rw [BitVec.toInt_signExtend_of_le hw', BitVec.toInt_setWidth, BitVec.toInt_eq_toNat_bmod,
      Int.bmod_bmod_of_dvd (Nat.pow_dvd_pow 2 hw')]
  have hcast : ((2 ^ w : Nat) : Int) = 2 ^ w := by simp
  constructor
  · rintro ⟨h1, h2, h3⟩
    apply BitVec.eq_of_toInt_eq
    rw [key]
    have : j.toInt.bmod (2 ^ w) = j.toInt := by
      apply Int.bmod_eq_of_le <;> rw [hcast] <;> omega
    rw [← this]
    exact Int.bmod_eq_bmod_iff_bmod_sub_eq_zero.2 (by
      rw [← Int.dvd_iff_bmod_eq_zero, hcast]; exact h3)
  · rintro rfl
    have hpos : 0 < 2 ^ w := Nat.two_pow_pos w
    have a := Int.le_bmod (x := i.toInt) hpos
    have b := Int.bmod_lt (x := i.toInt) hpos
    rw [hcast] at a b
    refine ⟨?_, ?_, ?_⟩
    · rw [key]; omega
    · rw [key]; omega
    · rw [key, ← hcast, Int.dvd_iff_bmod_eq_zero]
      simp

theorem setPlain_iff {env : EngineEnv} {kind : Kind} {ct : ColumnType} {val : Option Value}
    {w : Scalar} : setPlain env kind ct val = .ok w ↔
      ∃ v, val = some (scalarValue v) ∧ scalarType v = ct.type ∧ SetTo env kind v w := by
  have h8 := @lowBits_iff 8 (by decide) (by decide)
  have h16 := @lowBits_iff 16 (by decide) (by decide)
  have h32 := @lowBits_iff 32 (by decide) (by decide)
  obtain ⟨vt, sz, fx, nn⟩ := ct
  constructor
  · intro h
    unfold setPlain at h
    split at h
    · next b e =>
      refine ⟨.bool b, rfl, e.symm, ?_⟩
      split at h
      · next hk =>
        simp only [Res.ok.injEq] at h
        rw [← h, hk]
        rfl
      · simp at h
    · next s e =>
      refine ⟨.str s, rfl, e.symm, ?_⟩
      split at h
      · next hk =>
        simp only [Res.ok.injEq] at h
        rw [← h, hk]
        rfl
      · simp at h
    · next f e =>
      refine ⟨.float f, rfl, e.symm, ?_⟩
      unfold setFloat at h
      split at h <;> simp_all [SetTo]
    · next i e =>
      refine ⟨.int i, rfl, e.symm, ?_⟩
      unfold setInt at h
      split at h <;> simp_all [SetTo]
    · simp at h
  · rintro ⟨v, rfl, h1, h2⟩
    simp only at h1
    subst h1
    cases kind <;> cases v <;> simp only [SetTo] at h2 <;>
      simp_all [setPlain, scalarValue, scalarType, setFloat, setInt] <;>
      (obtain ⟨j, rfl, rfl⟩ := h2; rfl)

theorem setPointer_iff {kind : Kind} {ct : ColumnType} {val : Option Value}
    {w : Scalar} : setPointer kind ct val = .ok w ↔
      val = some (scalarValue w) ∧ scalarType w = ct.type ∧ PointsTo kind w := by
  obtain ⟨vt, sz, fx, nn⟩ := ct
  cases vt <;> rcases val with _ | (_ | _ | _ | _ | _) <;> cases kind <;> cases w <;>
    simp [setPointer, scalarValue, scalarType, PointsTo, eq_comm]

theorem valueToField_iff {env : EngineEnv} {fld : Field} {ct : ColumnType} {val : Option Value}
    {w : FieldVal} : valueToField env fld ct val = .ok w ↔
      FieldExported fld ∧ ReadAs env fld ct val w := by
  rw [← exported_iff]
  unfold valueToField
  cases he : fld.exported with
  | false => simp
  | true =>
    simp only [Bool.true_eq_false, if_false, true_and]
    split
    · next h =>
      obtain ⟨h1, rfl⟩ := h
      constructor
      · intro h
        split at h <;> simp only [Res.ok.injEq] at h <;> subst h
        · next hk => exact .nilSlice h1 hk
        · next hk => exact .nilPointer h1 hk
      · intro h
        cases h with
        | nilSlice _ hk => simp [hk]
        | nilPointer _ hk => simp [hk]
    · next hne =>
      split
      · next hb =>
        constructor
        · intro h
          split at h
          · split at h
            · next hk => simp only [Res.ok.injEq] at h; subst h; exact .slice _ hb hk
            · simp at h
          · simp at h
        · intro h
          cases h with
          | nilSlice h1 => exact absurd ⟨h1, rfl⟩ hne
          | nilPointer h1 => exact absurd ⟨h1, rfl⟩ hne
          | slice b _ hk => simp [hk]
          | plain v w _ ht => rw [hb] at ht; cases v <;> simp [scalarType] at ht
          | pointer v _ ht => rw [hb] at ht; cases v <;> simp [scalarType] at ht
      · next hb =>
        split
        · next hn =>
          constructor
          · intro h
            obtain ⟨x, hx, h⟩ := res_bind_ok.1 h
            simp only [Res.ok.injEq] at h
            subst h
            obtain ⟨v, rfl, ht, hs⟩ := setPlain_iff.1 hx
            exact .plain v x hn ht hs
          · intro h
            cases h with
            | nilSlice h1 => simp [hn] at h1
            | nilPointer h1 => simp [hn] at h1
            | slice b h1 => exact absurd h1 hb
            | plain v w _ ht hs =>
              exact res_bind_ok.2 ⟨w, setPlain_iff.2 ⟨v, rfl, ht, hs⟩, rfl⟩
            | pointer v h1 => simp [hn] at h1
        · next hn =>
          constructor
          · intro h
            obtain ⟨x, hx, h⟩ := res_bind_ok.1 h
            simp only [Res.ok.injEq] at h
            subst h
            obtain ⟨rfl, ht, hs⟩ := setPointer_iff.1 hx
            exact .pointer x (by simpa using hn) ht hs
          · intro h
            cases h with
            | nilSlice h1 => exact absurd ⟨h1, rfl⟩ hne
            | nilPointer h1 => exact absurd ⟨h1, rfl⟩ hne
            | slice b h1 => exact absurd h1 hb
            | plain v w h1 => exact absurd h1 hn
            | pointer v _ ht hs =>
              exact res_bind_ok.2 ⟨v, setPointer_iff.2 ⟨rfl, ht, hs⟩, rfl⟩

theorem rowToFields_iff {env : EngineEnv} : ∀ {flds : List Field} {cts : List ColumnType} {row : Row}
    {vs : List FieldVal}, rowToFields env flds cts row = .ok vs ↔ RowReadAs env flds cts row vs
  | flds, [], row, vs => by simp [rowToFields, RowReadAs, eq_comm]
  | [], _ :: _, row, vs => by cases vs <;> cases row <;> simp [rowToFields, RowReadAs]
  | _ :: _, _ :: _, [], vs => by cases vs <;> simp [rowToFields, RowReadAs]
  | fld :: flds, ct :: cts, val :: row, vs => by
    rw [rowToFields]
    constructor
    · intro h
      obtain ⟨v, hv, h⟩ := res_bind_ok.1 h
      obtain ⟨ws, hw, h⟩ := res_bind_ok.1 h
      simp only [Res.ok.injEq] at h
      subst h
      obtain ⟨h1, h2⟩ := valueToField_iff.1 hv
      exact ⟨h1, h2, rowToFields_iff.1 hw⟩
    · intro h
      cases vs with
      | nil => simp [RowReadAs] at h
      | cons v vs =>
        obtain ⟨h1, h2, h3⟩ := h
        exact res_bind_ok.2 ⟨v, valueToField_iff.2 ⟨h1, h2⟩,
          res_bind_ok.2 ⟨vs, rowToFields_iff.2 h3, rfl⟩⟩

/-- Nothing here returns an error. -/
theorem bind_noErr {α β : Type} {x : Res α} {f : α → Res β} (h1 : ∀ e, x ≠ .err e)
    (h2 : ∀ a e, f a ≠ .err e) : ∀ e, (x >>= f) ≠ .err e := by
  intro e
  cases x with
  | ok a => exact h2 a e
  | err e' => exact absurd rfl (h1 e')
  | panic => intro h; simp at h

theorem valueToField_noErr {env : EngineEnv} {fld : Field} {ct : ColumnType} {val : Option Value} :
    ∀ e, valueToField env fld ct val ≠ .err e := by
  have hp : ∀ e, setPlain env fld.kind ct val ≠ .err e := by
    intro e
    unfold setPlain setFloat setInt
    repeat' split
    all_goals simp
  have hq : ∀ e, setPointer fld.kind ct val ≠ .err e := by
    intro e
    unfold setPointer
    repeat' split
    all_goals simp
  intro e
  unfold valueToField
  split
  · simp
  · split
    · simp
    · split
      · repeat' split
        all_goals simp
      · split
        · exact bind_noErr hp (by simp) e
        · exact bind_noErr hq (by simp) e

theorem rowToFields_noErr {env : EngineEnv} : ∀ {flds : List Field} {cts : List ColumnType} {row : Row}
    e, rowToFields env flds cts row ≠ .err e
  | flds, [], row, e => by simp [rowToFields]
  | [], _ :: _, row, e => by simp [rowToFields]
  | _ :: _, _ :: _, [], e => by simp [rowToFields]
  | fld :: flds, ct :: cts, val :: row, e => by
    rw [rowToFields]
    exact bind_noErr valueToField_noErr
      (fun _ => bind_noErr rowToFields_noErr (by simp)) e

/-! ### Updates -/

theorem fieldNameToColumn_eq {names : List Bytes} {name : Bytes} :
    fieldNameToColumn names name =
      match columnOfField names name with
      | some i => .ok i
      | none => .panic := rfl

theorem structToColsVals_of {ti : TypedInfo} : ∀ {flds : List Field} {vs : List FieldVal}
    {cols : List ColumnNum} {vals : List (Option Value)}, UpdateFits ti flds vs →
    UpdateSays ti flds vs cols vals → ti.structToColsVals flds vs = .ok (cols, vals)
  | [], vs, cols, vals, _, h => by cases h; rfl
  | fld :: flds, v :: vs, _, _, hf, .cons (i := i) (ct := ct) hu hs => by
    have hf0 := hf.2 (fld, v) (by simp)
    obtain ⟨i', ct', hu', ho, hsh⟩ := hf0
    obtain ⟨u1, u2⟩ := hu
    obtain ⟨u1', u2'⟩ := hu'
    simp only at u1' u2'
    rw [u1, Option.some.injEq] at u1'
    subst u1'
    rw [u2, Option.some.injEq] at u2'
    subst u2'
    have ih := structToColsVals_of (ti := ti) (flds := flds) (vs := vs)
      ⟨by simpa using hf.1, fun p hp => hf.2 p (by simp [hp])⟩ hs
    simp only [TypedInfo.structToColsVals]
    rw [fieldNameToColumn_eq, u1]
    simp only [Res.bind_ok, u2, ih]
    simp only at ho hsh
    rw [fieldToValue_eq (fun _ => ho), if_pos ⟨ho, hsh⟩]
    rfl

theorem updateSays_of {ti : TypedInfo} : ∀ {flds : List Field} {vs : List FieldVal},
    UpdateFits ti flds vs → ∃ cols vals, UpdateSays ti flds vs cols vals
  | [], vs, _ => ⟨[], [], .nil⟩
  | _ :: _, [], h => by simp [UpdateFits] at h
  | fld :: flds, v :: vs, h => by
    obtain ⟨i, ct, hu, -⟩ := h.2 (fld, v) (by simp)
    obtain ⟨cols, vals, ih⟩ := updateSays_of (ti := ti) (flds := flds) (vs := vs)
      ⟨by simpa using h.1, fun p hp => h.2 p (by simp [hp])⟩
    exact ⟨_, _, .cons hu ih⟩

/-- Fields for string columns are strings. -/
def StringsOnly (ti : TypedInfo) (flds : List Field) (vs : List FieldVal) : Prop :=
  ∀ p ∈ flds.zip vs, ∀ i ct, Updates ti p.1 i ct → ct.type = .string → OfColumn ct p.2

theorem updateFits_of {ti : TypedInfo} : ∀ {flds : List Field} {vs : List FieldVal}
    {cols : List ColumnNum} {vals : List (Option Value)}, StringsOnly ti flds vs →
    ti.structToColsVals flds vs = .ok (cols, vals) → UpdateFits ti flds vs
  | [], vs, _, _, _, _ => ⟨by simp, by simp⟩
  | _ :: _, [], _, _, _, h => by simp [TypedInfo.structToColsVals] at h
  | fld :: flds, v :: vs, _, _, hs, h => by
    simp only [TypedInfo.structToColsVals, fieldNameToColumn_eq] at h
    cases hc : columnOfField ti.fldNames fld.name with
    | none => simp [hc] at h
    | some i =>
      simp only [hc, Res.bind_ok] at h
      cases ht : ti.colTypes[i]? with
      | none => simp [ht] at h
      | some ct =>
        simp only [ht] at h
        obtain ⟨val, h1, h⟩ := res_bind_ok.1 h
        obtain ⟨⟨cs, ws⟩, h2, h⟩ := res_bind_ok.1 h
        have hu : Updates ti fld i ct := ⟨hc, ht⟩
        rw [fieldToValue_eq (fun e => hs (fld, v) (by simp) i ct hu e)] at h1
        split at h1
        · next hok =>
          have ih := updateFits_of (ti := ti) (fun p hp => hs p (by simp [hp])) h2
          refine ⟨by simpa using ih.1, ?_⟩
          intro p hp
          simp only [List.zip_cons_cons, List.mem_cons] at hp
          rcases hp with rfl | hp
          · exact ⟨i, ct, hu, hok⟩
          · exact ih.2 p hp
        · simp at h1

theorem fieldToValue_noErr {ct : ColumnType} {kind : Kind} {v : FieldVal} :
    ∀ e, fieldToValue ct kind v ≠ .err e := by
  intro e
  have hs : ∀ s, stringToValue ct s ≠ .err e := by
    intro s; unfold stringToValue; split <;> simp
  have hc : ∀ t s, scalarToValue ct t s ≠ .err e := by
    intro t s
    unfold scalarToValue
    split <;> simp [hs]
  have hl : ∀ b, sliceToValue ct b ≠ .err e := by
    intro b
    unfold sliceToValue
    split
    · split <;> simp
    · exact hs _
    · simp
  unfold fieldToValue
  repeat' split
  all_goals simp [hs, hc, hl]

theorem structToColsVals_noErr {ti : TypedInfo} : ∀ {flds : List Field} {vs : List FieldVal} e,
    ti.structToColsVals flds vs ≠ .err e
  | [], _, e => by simp [TypedInfo.structToColsVals]
  | _ :: _, [], e => by simp [TypedInfo.structToColsVals]
  | fld :: flds, v :: vs, e => by
    simp only [TypedInfo.structToColsVals, fieldNameToColumn_eq]
    cases hc : columnOfField ti.fldNames fld.name with
    | none => simp
    | some i =>
      simp only [Res.bind_ok]
      cases ht : ti.colTypes[i]? with
      | none => simp
      | some ct =>
        simp only []
        exact bind_noErr fieldToValue_noErr
          (fun _ => bind_noErr structToColsVals_noErr (by simp)) e

/-! ### Arguments -/

theorem argsToRows_pointers {ti : TypedInfo} : ∀ sts : List Struct,
    ti.argsToRows (sts.map .pointer) = ti.structsToRows sts
  | [] => rfl
  | st :: sts => by
    simp only [List.map_cons, TypedInfo.argsToRows, TypedInfo.structsToRows, TypedInfo.argToRow,
      argsToRows_pointers sts]
    cases ti.structToRow st <;> simp

theorem typedInsertArgs_pointers (env : EngineEnv) (t : Tree) (ti : TypedInfo) (sts : List Struct) :
    typedInsertArgs env t ti (sts.map .pointer) = typedInsert env t ti sts := by
  unfold typedInsertArgs typedInsert
  rw [argsToRows_pointers]

theorem structsToRows_ok {ti : TypedInfo} : ∀ {sts : List Struct} {f : Struct → Row},
    (∀ st ∈ sts, ti.structToRow st = .ok (f st)) → ti.structsToRows sts = .ok (sts.map f)
  | [], f, _ => rfl
  | st :: sts, f, h => by
    have ih : ti.structsToRows sts = .ok (sts.map f) :=
      structsToRows_ok (fun s hs => h s (by simp [hs]))
    simp [TypedInfo.structsToRows, h st (by simp), ih]

theorem structsToRows_panic {ti : TypedInfo} : ∀ {sts : List Struct}, (∀ st ∈ sts,
    ∀ e, ti.structToRow st ≠ .err e) → (∃ st ∈ sts, ti.structToRow st = .panic) →
    ti.structsToRows sts = .panic
  | [], _, h => by simp at h
  | st :: sts, hn, h => by
    simp only [TypedInfo.structsToRows]
    cases hr : ti.structToRow st with
    | panic => rfl
    | err e => exact absurd hr (hn st (by simp) e)
    | ok row =>
      obtain ⟨s, hs, hp⟩ := h
      rcases List.mem_cons.1 hs with rfl | hs
      · rw [hr] at hp; simp at hp
      · rw [Res.bind_ok, structsToRows_panic (fun s hs => hn s (by simp [hs])) ⟨s, hs, hp⟩]
        rfl

end Maho.TVal
