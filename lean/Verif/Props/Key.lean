import Verif.Lemmas.Key
/-
Properties C06-C11: index keys (encode/key.go) and column keys (types/column.go).
-/
namespace Maho
open Spec

/-- MakeKey returns a key exactly when the row has every key column; otherwise indexing panics. -/
theorem C06_makeKey_defined (key : List ColumnKey) (r : Row) :
    (HasColumns (keyCols key) r → ∃ k, makeKey key r = .ok k) ∧
    (¬ HasColumns (keyCols key) r → makeKey key r = .panic) :=
  ⟨fun h => ⟨_, makeKey_eq h⟩, fun h => makeKeyLoop_panic [] key r h⟩

/-- C06: byte order of keys is the column by column order of the rows. -/
theorem C06_key_order (key : List ColumnKey) (r1 r2 : Row) (k1 k2 : Bytes)
    (h1 : makeKey key r1 = .ok k1) (h2 : makeKey key r2 = .ok k2) :
    bytesCompare k1 k2 = rowOrder (keyCols key) r1 r2 := by
  obtain ⟨_, rfl⟩ := makeKey_ok_iff.1 h1
  obtain ⟨_, rfl⟩ := makeKey_ok_iff.1 h2
  exact (rowKey_decides key r1 r2).compare

/-- A two column key, the second descending, and two rows that differ in the second column. -/
example : makeKey [makeColumnKey 1#32 false, makeColumnKey 0#32 true]
      [some (.str [0#8, 1#8]), some (.int 5#64)] =
    .ok [131#8, 0#8, 0#8, 0#8, 0#8, 0#8, 0#8, 0#8, 5#8, 150#8, 254#8, 255#8, 254#8, 254#8, 255#8] := by
  decide

/-- The column keys of C10's range are read as the column and direction they were made from. -/
theorem C06_keyCols_made (kcs : List (ColumnNum × Bool)) (h : ∀ kc ∈ kcs, kc.1.toNat < 2 ^ 31 - 1) :
    keyCols (kcs.map fun kc => makeColumnKey kc.1 kc.2) = kcs.map fun kc => (kc.1.toNat, kc.2) := by
  induction kcs with
  | nil => rfl
  | cons kc kcs ih =>
    have hk := h kc (List.mem_cons_self ..)
    have ih := ih (fun x hx => h x (List.mem_cons_of_mem _ hx))
    simp only [keyCols, List.map_cons, List.map_map] at ih ⊢
    rw [List.cons.injEq]
    refine ⟨?_, ih⟩
    obtain ⟨num, rev⟩ := kc
    simp only at hk
    have hadd : (num + 1#32).toNat = num.toNat + 1 := by
      rw [BitVec.toNat_add]; simp; omega
    have hneg : (-(num + 1#32)).toNat = 2 ^ 32 - (num.toNat + 1) := by
      rw [BitVec.toNat_neg, hadd]; omega
    have hz : ∀ x : BitVec 32, x.slt 0#32 = decide (2 ^ 31 ≤ x.toNat) := by
      intro x
      rw [BitVec.slt_eq_decide, BitVec.toInt_eq_toNat_cond]
      have := x.isLt
      have h0 : (0#32).toInt = 0 := by decide
      rw [h0]
      apply decide_eq_decide.2
      split <;> omega
    cases rev
    · simp only [makeColumnKey, ColumnKey.column, ColumnKey.reverse, Bool.false_eq_true, if_false]
      rw [hz, hadd, decide_eq_false (by omega)]
      simp; omega
    · simp only [makeColumnKey, ColumnKey.column, ColumnKey.reverse, if_true]
      rw [hz, hneg, decide_eq_true (by omega)]
      simp; omega

/-- C06 with the key given as (column, descending) pairs. -/
theorem C06_key_order_columns (kcs : List (ColumnNum × Bool)) (r1 r2 : Row) (k1 k2 : Bytes)
    (hk : ∀ kc ∈ kcs, kc.1.toNat < 2 ^ 31 - 1)
    (h1 : makeKey (kcs.map fun kc => makeColumnKey kc.1 kc.2) r1 = .ok k1)
    (h2 : makeKey (kcs.map fun kc => makeColumnKey kc.1 kc.2) r2 = .ok k2) :
    bytesCompare k1 k2 = rowOrder (kcs.map fun kc => (kc.1.toNat, kc.2)) r1 r2 := by
  rw [C06_key_order _ _ _ _ _ h1 h2, C06_keyCols_made kcs hk]

/-- C07: two rows have the same key exactly when all key columns hold equal values. -/
theorem C07_key_injective (key : List ColumnKey) (r1 r2 : Row) (k1 k2 : Bytes)
    (h1 : makeKey key r1 = .ok k1) (h2 : makeKey key r2 = .ok k2) :
    k1 = k2 ↔ ∀ kc ∈ keyCols key, SameKeyValue (r1.getD kc.1 none) (r2.getD kc.1 none) := by
  rw [← bytesCompare_eq_iff, C06_key_order key r1 r2 k1 k2 h1 h2, rowOrder_eq_iff]

/-- Non-zero and zero bytes side by side: different strings get different keys. -/
example : makeKey [makeColumnKey 0#32 false] [some (.str [0#8])] = .ok [150#8, 1#8, 0#8, 0#8] ∧
    makeKey [makeColumnKey 0#32 false] [some (.str [])] = .ok [150#8, 0#8] := by decide
/-- -0 and +0 have the same key. -/
example : makeKey [makeColumnKey 0#32 false] [some (.float 0#64)] =
    makeKey [makeColumnKey 0#32 false] [some (.float (1#64 <<< 63))] := by decide

/-- C08: no key is a proper prefix of another key for the same key definition. -/
theorem C08_key_prefix_free (key : List ColumnKey) (r1 r2 : Row) (k1 k2 : Bytes) (x : Byte)
    (rest : Bytes) (h1 : makeKey key r1 = .ok k1) (h2 : makeKey key r2 = .ok k2) :
    k2 ≠ k1 ++ x :: rest := by
  obtain ⟨_, rfl⟩ := makeKey_ok_iff.1 h1
  obtain ⟨_, rfl⟩ := makeKey_ok_iff.1 h2
  intro he
  have h := rowKey_decides key r1 r2
  have e1 := h.compare
  have e2 := h (x :: rest) []
  rw [List.append_nil, ← he, bytesCompare_self, bytesCompare_cons_nil] at e2
  rw [he] at e1
  have e3 := bytesCompare_append (rowKey key r1) [] (x :: rest)
  rw [List.append_nil, e1, bytesCompare_nil_cons] at e3
  rw [e3] at e2
  simp at e2

/-- C08: the key on the first columns is a prefix of the key on all columns. -/
theorem C08_key_prefix (key1 key2 : List ColumnKey) (r : Row) (k : Bytes)
    (h : makeKey (key1 ++ key2) r = .ok k) :
    ∃ k1 k2, makeKey key1 r = .ok k1 ∧ makeKey key2 r = .ok k2 ∧ k = k1 ++ k2 := by
  obtain ⟨hc, rfl⟩ := makeKey_ok_iff.1 h
  have hc1 : HasColumns (keyCols key1) r := fun kc hkc => hc kc (by
    simp only [keyCols, List.map_append, List.mem_append] at *
    exact Or.inl hkc)
  have hc2 : HasColumns (keyCols key2) r := fun kc hkc => hc kc (by
    simp only [keyCols, List.map_append, List.mem_append] at *
    exact Or.inr hkc)
  exact ⟨_, _, makeKey_eq hc1, makeKey_eq hc2, rowKey_append key1 key2 r⟩

/-- C08: every key is below MaxKey. -/
theorem C08_key_below_max (key : List ColumnKey) (r : Row) (k : Bytes)
    (h : makeKey key r = .ok k) : bytesCompare k maxKey = .lt := by
  obtain ⟨_, rfl⟩ := makeKey_ok_iff.1 h
  cases key with
  | nil => rfl
  | cons ck key =>
    simp only [rowKey]
    obtain ⟨t, rest, e, _, hu⟩ := keyBytes_tag (ColumnKey.reverse ck)
      (r.getD (ColumnKey.column ck).toNat none)
    rw [e]
    have hmax : ∀ n, tagHi n ≤ 160 := by
      intro n
      unfold tagHi
      split <;> omega
    have := hmax (keyRank (r.getD (ColumnKey.column ck).toNat none))
    exact bytesCompare_cons_lt (by show t.toNat < 255; omega) _ _

example : makeKey [makeColumnKey 0#32 false] [some (.bytes [255#8])] = .ok [160#8, 255#8, 0#8] := by
  decide

/-- C09 does not hold: NULL comes before other values in both directions. -/
theorem C09_desc_not_reverse :
    ∃ (v w : Option Value) (ka kb kc kd : Bytes),
      makeKey [makeColumnKey 0#32 false] [v] = .ok ka ∧
      makeKey [makeColumnKey 0#32 false] [w] = .ok kb ∧
      makeKey [makeColumnKey 0#32 true] [v] = .ok kc ∧
      makeKey [makeColumnKey 0#32 true] [w] = .ok kd ∧
      bytesCompare kc kd ≠ bytesCompare kb ka :=
  ⟨none, some (.bool true), [128#8], [129#8, 1#8], [128#8], [129#8, 0#8], by decide⟩

/-- C09 (partial): for two values of the same kind (in particular two non-NULL values of a
typed column, NaN included) DESC is the exact reverse of ASC. Missing: NULL against a value,
where it is false. -/
theorem C09_desc_reverse_partial (v w : Option Value) (hkind : keyRank v = keyRank w)
    (ka kb kc kd : Bytes)
    (ha : makeKey [makeColumnKey 0#32 false] [v] = .ok ka)
    (hb : makeKey [makeColumnKey 0#32 false] [w] = .ok kb)
    (hc : makeKey [makeColumnKey 0#32 true] [v] = .ok kc)
    (hd : makeKey [makeColumnKey 0#32 true] [w] = .ok kd) :
    bytesCompare kc kd = bytesCompare kb ka := by
  rw [C06_key_order _ _ _ _ _ hc hd, C06_key_order _ _ _ _ _ hb ha]
  have e1 : keyCols [makeColumnKey 0#32 true] = [(0, true)] := by decide
  have e2 : keyCols [makeColumnKey 0#32 false] = [(0, false)] := by decide
  rw [e1, e2]
  simp only [rowOrder, List.getD_cons_zero, Ordering.then_eq]
  unfold columnOrder
  rw [if_pos hkind, if_pos hkind.symm]
  simp

example : keyRank (some (.str [1#8])) = keyRank (some (.str [])) := rfl

/-- The round trip of C10 for one argument pair. -/
def ColumnKeyRoundTrip (num : ColumnNum) (reverse : Bool) : Prop :=
  ColumnKey.column (makeColumnKey num reverse) = num ∧
  ColumnKey.reverse (makeColumnKey num reverse) = reverse

/-- C10 does not hold for every uint32: column number 2^31-1 becomes a descending key. -/
theorem C10_columnKey_overflow :
    ¬ ColumnKeyRoundTrip (2147483647#32) false := by
  unfold ColumnKeyRoundTrip; decide

/-- C10 (partial): the round trip holds for every column number below 2^31 - 1 (a table with
more columns than that cannot exist in memory). Missing: the other numbers, where it is
false except for two boundary cases. -/
theorem C10_columnKey_roundtrip_partial (num : ColumnNum) (reverse : Bool)
    (h : num.toNat < 2 ^ 31 - 1) : ColumnKeyRoundTrip num reverse := by
  have := C06_keyCols_made [(num, reverse)] (by simpa using h)
  simp only [keyCols, List.map_cons, List.map_nil, List.cons.injEq, Prod.mk.injEq, and_true] at this
  exact ⟨BitVec.eq_of_toNat_eq this.1, this.2⟩

/-- C10: distinct (column, direction) pairs in that range get distinct keys. -/
theorem C10_columnKey_injective_partial (n1 n2 : ColumnNum) (r1 r2 : Bool)
    (h1 : n1.toNat < 2 ^ 31 - 1) (h2 : n2.toNat < 2 ^ 31 - 1)
    (h : makeColumnKey n1 r1 = makeColumnKey n2 r2) : n1 = n2 ∧ r1 = r2 := by
  have a := C10_columnKey_roundtrip_partial n1 r1 h1
  have b := C10_columnKey_roundtrip_partial n2 r2 h2
  unfold ColumnKeyRoundTrip at a b
  rw [h] at a
  exact ⟨a.1.symm.trans b.1, a.2.symm.trans b.2⟩

/-- C10: every column number from 2^31 - 1 on fails in at least one direction. -/
theorem C10_columnKey_fails_above (num : ColumnNum) (h : 2 ^ 31 - 1 ≤ num.toNat) :
    ¬ (ColumnKeyRoundTrip num false ∧ ColumnKeyRoundTrip num true) := by
  rintro ⟨⟨_, h2⟩, ⟨_, h4⟩⟩
  simp only [makeColumnKey, ColumnKey.reverse, Bool.false_eq_true, if_false, if_true] at h2 h4
  have hlt := num.isLt
  have hz : ∀ x : BitVec 32, x.slt 0#32 = decide (2 ^ 31 ≤ x.toNat) := by
    intro x
    rw [BitVec.slt_eq_decide, BitVec.toInt_eq_toNat_cond]
    have := x.isLt
    have h0 : (0#32).toInt = 0 := by decide
    rw [h0]
    apply decide_eq_decide.2
    split <;> omega
  rw [hz] at h2 h4
  simp only [decide_eq_false_iff_not, decide_eq_true_eq] at h2 h4
  rw [BitVec.toNat_neg, BitVec.toNat_add] at h4
  rw [BitVec.toNat_add] at h2
  simp at h2 h4
  omega

example : (5#32 : ColumnNum).toNat < 2 ^ 31 - 1 := by decide

/-- C11: key update detection is exactly "an updated column is a key column". -/
theorem C11_columnKeyUpdated (key : List ColumnKey) (cols : List ColumnNum) :
    columnKeyUpdated key cols = true ↔ ∃ col ∈ cols, col.toNat ∈ (keyCols key).map (·.1) := by
  simp only [columnKeyUpdated, List.any_eq_true, beq_iff_eq, keyCols, List.map_map, List.mem_map,
    Function.comp_apply]
  constructor
  · rintro ⟨ck, hck, col, hcol, he⟩
    exact ⟨col, hcol, ck, hck, by rw [he]⟩
  · rintro ⟨col, hcol, ck, hck, he⟩
    exact ⟨ck, hck, col, hcol, BitVec.eq_of_toNat_eq he.symm⟩

example : columnKeyUpdated [makeColumnKey 2#32 true] [0#32, 2#32] = true := by decide

end Maho
