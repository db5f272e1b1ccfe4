import Verif.Spec.TypedScan
import Verif.Props.Storage
/-
Lemmas on going through the rows of a typed table with a callback.
-/
namespace Maho
open Spec

/-- The relation of the rows of a table. -/
def Table.rel (tbl : Table) : BitVec 64 := toRelationId tbl.tid 0#32

/-- The trees differ only in the rows of the table. -/
def SameOutside (tbl : Table) (t t' : Tree) : Prop :=
  ∀ rel, tbl.rel ≠ rel → t'.filter (fun it => it.rel == rel) = t.filter (fun it => it.rel == rel)

theorem SameOutside.trans {tbl : Table} {a b c : Tree} (h1 : SameOutside tbl a b)
    (h2 : SameOutside tbl b c) : SameOutside tbl a c := fun rel h => (h2 rel h).trans (h1 rel h)

/-- One call of the callback does to the table what `choice` says, or fails in a way that `bad`
allows. -/
def StepOk {σ : Type} (tbl : Table) (step : Bytes → Row → σ × Tree → Res Unit × (σ × Tree))
    (choice : Row → σ → Res (List Row) × σ) (bad : Prop) : Prop :=
  ∀ x t it, TableOk tbl t → it ∈ t → it.rel = tbl.rel →
    (∃ (new : List Item) (x' : σ) (t' : Tree) (R : List Item),
      choice it.row x = (.ok (new.map (·.row)), x') ∧
      step it.key it.row (x, t) = (.ok (), (x', t')) ∧ TableOk tbl t' ∧ SameOutside tbl t t' ∧
      t.Perm (it :: R) ∧ t'.Perm (new ++ R) ∧ ∀ n ∈ new, n.rel = tbl.rel) ∨
    (∃ e x', choice it.row x = (.err e, x') ∧ step it.key it.row (x, t) = (.err e, (x', t))) ∨
    (∃ x', choice it.row x = (.panic, x') ∧ step it.key it.row (x, t) = (.panic, (x', t))) ∨
    (bad ∧ (step it.key it.row (x, t)).1 ≠ .ok () ∧ (step it.key it.row (x, t)).1 ≠ .err .eof)

theorem selectLoop_visit {σ : Type} {tbl : Table}
    {step : Bytes → Row → σ × Tree → Res Unit × (σ × Tree)}
    {choice : Row → σ → Res (List Row) × σ} {bad : Prop} (hstep : StepOk tbl step choice bad)
    (inRange : Row → Bool) (rest : List Item) : ∀ (done : List Item) (x : σ) (t : Tree),
    TableOk tbl t → (t.filter (fun it => it.rel == tbl.rel)).Perm (done ++ rest) →
    (∃ t', selectLoop step (rest.filter fun it => inRange it.row) (x, t) =
        ((visit inRange choice (rest.map (·.row)) x).1,
          ((visit inRange choice (rest.map (·.row)) x).2.1, t')) ∧
      TableOk tbl t' ∧ SameOutside tbl t t' ∧
      (rowsOf t' tbl.tid).Perm
        (done.map (·.row) ++ (visit inRange choice (rest.map (·.row)) x).2.2)) ∨
    (bad ∧ (selectLoop step (rest.filter fun it => inRange it.row) (x, t)).1 ≠ .ok ()) := by
  induction rest with
  | nil =>
    intro done x t hok hp
    left
    refine ⟨t, rfl, hok, fun _ _ => rfl, ?_⟩
    have := hp.map (·.row)
    simpa [visit, rowsOf, Table.rel] using this
  | cons it rest ih =>
    intro done x t hok hp
    have hmem : it ∈ t ∧ it.rel = tbl.rel := by
      have : it ∈ t.filter (fun it => it.rel == tbl.rel) := hp.mem_iff.2 (by simp)
      simpa using List.mem_filter.1 this
    have hstay : (rowsOf t tbl.tid).Perm (done.map (·.row) ++ (it.row :: rest.map (·.row))) := by
      have := hp.map (·.row)
      simpa [rowsOf, Table.rel] using this
    by_cases hin : inRange it.row = true
    · rw [List.filter_cons_of_pos (by simpa using hin)]
      simp only [List.map_cons, visit, hin, if_true, selectLoop]
      rcases hstep x t it hok hmem.1 hmem.2 with ⟨new, x', t', R, hc, hs, hok', ho, hp1, hp2, hn⟩ |
        ⟨e, x', hc, hs⟩ | ⟨x', hc, hs⟩ | ⟨hb, h1, h2⟩
      · simp only [hc, hs]
        have hp1' := (hp1.filter (fun it => it.rel == tbl.rel)).symm.trans hp
        rw [List.filter_cons_of_pos (by simp [hmem.2])] at hp1'
        have hR := (hp1'.trans List.perm_middle).cons_inv
        have hp2' := hp2.filter (fun it => it.rel == tbl.rel)
        have hnew : new.filter (fun it => it.rel == tbl.rel) = new :=
          List.filter_eq_self.2 (by simpa using hn)
        rw [List.filter_append, hnew] at hp2'
        have hp3 : (t'.filter (fun it => it.rel == tbl.rel)).Perm ((done ++ new) ++ rest) := by
          refine hp2'.trans ?_
          refine (List.Perm.append_left new hR).trans ?_
          rw [← List.append_assoc]
          exact List.Perm.append_right rest List.perm_append_comm
        rcases ih (done ++ new) x' t' hok' hp3 with ⟨t'', e1, h1, h2, h3⟩ | h
        · left
          refine ⟨t'', e1, h1, ho.trans h2, ?_⟩
          simpa using h3
        · exact .inr h
      · left
        simp only [hc, hs]
        cases e <;> exact ⟨t, rfl, hok, fun _ _ => rfl, hstay⟩
      · left
        simp only [hc, hs]
        exact ⟨t, rfl, hok, fun _ _ => rfl, hstay⟩
      · right
        refine ⟨hb, ?_⟩
        generalize step it.key it.row (x, t) = q at h1 h2
        obtain ⟨r, s⟩ := q
        rcases r with _ | e | _
        · exact absurd rfl h1
        · cases e
          · exact absurd rfl h2
          · simp
        · simp
    · rw [List.filter_cons_of_neg (by simpa using hin)]
      simp only [List.map_cons, visit, hin]
      rcases ih (done ++ [it]) x t hok (by simpa using hp) with ⟨t'', e1, h1, h2, h3⟩ | h
      · left
        refine ⟨t'', by simpa using e1, h1, h2, ?_⟩
        simpa using h3
      · exact .inr h

theorem openTyped_table {env : EngineEnv} {ti : TypedInfo} {t : Tree} {tbl : Table}
    (h : openTyped env t ti = .ok tbl) :
    tbl.tid = ti.tid ∧ tbl.tt.columnTypes = ti.colTypes ∧ tbl.tt.key = ti.primary.getD [] := by
  obtain ⟨tt, _, rfl, _, _, h1, h2⟩ := openTable_ok.1 h
  exact ⟨rfl, h1.symm, h2.symm⟩

/-- The whole of a select: the loop over the items in the range. -/
theorem typedSelect_items {σ : Type} {env : EngineEnv} {ti : TypedInfo} {t : Tree} {tbl : Table}
    (hopen : openTyped env t ti = .ok tbl) (hok : TableOk tbl t)
    {minSt maxSt : Option Struct} {mn mx : Option Row}
    (hmin : ti.boundRow minSt = .ok mn) (hmax : ti.boundRow maxSt = .ok mx)
    (cmin : ∀ m, mn = some m → HasColumns (keyCols tbl.tt.key) m)
    (cmax : ∀ m, mx = some m → HasColumns (keyCols tbl.tt.key) m)
    (fn : Table → Bytes → Row → σ × Tree → Res Unit × (σ × Tree)) (x : σ) :
    typedSelect env ti minSt maxSt fn (x, t) =
      selectLoop (fn tbl) ((t.filter (fun it => it.rel == tbl.rel)).filter
        fun it => within tbl.tt.key mn mx it.row) (x, t) := by
  obtain ⟨items, hi⟩ := collectItems_ok (t := t) (tbl := tbl) (minRow := mn) (maxRow := mx)
    (pred := none) cmin cmax trivial (fun _ _ => trivial)
  have hs := collectItems_spec hok hi
  have ht : tableRows t tbl none mn mx none = .ok ⟨none, items, 0⟩ :=
    tableRows_ok.2 ⟨items, hi, rfl⟩
  unfold typedSelect
  rw [hopen]
  simp only [hmin, hmax, Res.bind_ok, ht]
  rw [hs]
  congr 1
  rw [List.filter_filter]
  congr 1
  funext it
  simp [satisfies, Table.rel, within, Bool.and_comm]

/-- Going through the rows of a typed table does what `visit` says. -/
theorem typedSelect_visit {σ : Type} {env : EngineEnv} {ti : TypedInfo} {t : Tree} {tbl : Table}
    (hopen : openTyped env t ti = .ok tbl) (hok : TableOk tbl t)
    {minSt maxSt : Option Struct} {mn mx : Option Row}
    (hmin : ti.boundRow minSt = .ok mn) (hmax : ti.boundRow maxSt = .ok mx)
    (cmin : ∀ m, mn = some m → HasColumns (keyCols tbl.tt.key) m)
    (cmax : ∀ m, mx = some m → HasColumns (keyCols tbl.tt.key) m)
    {fn : Table → Bytes → Row → σ × Tree → Res Unit × (σ × Tree)}
    {choice : Row → σ → Res (List Row) × σ} {bad : Prop} (hstep : StepOk tbl (fn tbl) choice bad)
    (x : σ) :
    (∃ t', typedSelect env ti minSt maxSt fn (x, t) =
        ((visit (within tbl.tt.key mn mx) choice (rowsOf t tbl.tid) x).1,
          ((visit (within tbl.tt.key mn mx) choice (rowsOf t tbl.tid) x).2.1, t')) ∧
      TableOk tbl t' ∧ SameOutside tbl t t' ∧
      (rowsOf t' tbl.tid).Perm
        (visit (within tbl.tt.key mn mx) choice (rowsOf t tbl.tid) x).2.2) ∨
    (bad ∧ (typedSelect env ti minSt maxSt fn (x, t)).1 ≠ .ok ()) := by
  rw [typedSelect_items hopen hok hmin hmax cmin cmax]
  have := selectLoop_visit hstep (within tbl.tt.key mn mx)
    (t.filter (fun it => it.rel == tbl.rel)) [] x t hok (List.Perm.refl _)
  simpa [rowsOf, Table.rel] using this

/-! ### Order -/

theorem tableOk_ascending {tbl : Table} {t : Tree} (h : TableOk tbl t) :
    (rowsOf t tbl.tid).Pairwise (fun a b => rowOrder (keyCols tbl.tt.key) a b = .lt) := by
  have := C28_scan_ordered t tbl none none none h
  have e : scanRows t tbl none none none = rowsOf t tbl.tid := by
    simp [scanRows, atLeast, atMost, satisfies, List.filter_eq_self]
  rw [e] at this
  exact this

theorem ascending_ext {key : List ColumnKey} : ∀ {l l' : List Row},
    l.Pairwise (fun a b => rowOrder (keyCols key) a b = .lt) →
    l'.Pairwise (fun a b => rowOrder (keyCols key) a b = .lt) → l.Perm l' → l = l' := by
  intro l l' h1 h2 hp
  refine List.Perm.eq_of_pairwise (fun a b _ _ hab hba => ?_) h1 h2 hp
  rw [← rowKey_compare] at hab hba
  rw [← bytesCompare_swap, hab] at hba
  cases hba

/-- The rows after a visit, where every row in the range is replaced by at most one row with the
same key, are in order. -/
theorem visit_keys {σ : Type} {inRange : Row → Bool} {choice : Row → σ → Res (List Row) × σ}
    {key : List ColumnKey}
    (h : ∀ r x new x', choice r x = (.ok new, x') →
      new = [] ∨ ∃ r', new = [r'] ∧ rowKey key r' = rowKey key r) (rows : List Row) : ∀ (x : σ),
    ((visit inRange choice rows x).2.2.map (rowKey key)).Sublist (rows.map (rowKey key)) := by
  induction rows with
  | nil => intro x; exact List.Sublist.refl _
  | cons r rows ih =>
    intro x
    unfold visit
    split
    · split
      · next new x' hc =>
        simp only [List.map_append, List.map_cons]
        rcases h r x new x' hc with rfl | ⟨r', rfl, hk⟩
        · exact (ih x').cons _
        · simp only [List.map_cons, List.map_nil, List.singleton_append, hk]
          exact (ih x').cons_cons _
      all_goals exact List.Sublist.refl _
    · exact (ih x).cons_cons _

theorem visit_ascending {σ : Type} {inRange : Row → Bool} {choice : Row → σ → Res (List Row) × σ}
    {key : List ColumnKey}
    (h : ∀ r x new x', choice r x = (.ok new, x') →
      new = [] ∨ ∃ r', new = [r'] ∧ rowKey key r' = rowKey key r) {rows : List Row} (x : σ)
    (ha : rows.Pairwise (fun a b => rowOrder (keyCols key) a b = .lt)) :
    (visit inRange choice rows x).2.2.Pairwise (fun a b => rowOrder (keyCols key) a b = .lt) := by
  have e : (fun a b => rowOrder (keyCols key) a b = .lt) =
      (fun a b => bytesCompare (rowKey key a) (rowKey key b) = .lt) := by
    funext a b; rw [rowKey_compare]
  rw [e] at ha ⊢
  have := (List.pairwise_map (f := rowKey key) (R := fun a b => bytesCompare a b = .lt)).2 ha
  exact List.pairwise_map.1 (this.sublist (visit_keys h rows x))

/-! ### The steps -/

theorem stepOk_reading {σ : Type} (tbl : Table) (fn : Row → σ → Res Unit × σ) :
    StepOk tbl (fun _ row s => ((fn row s.1).1, ((fn row s.1).2, s.2))) (reading fn) False := by
  intro x t it hok hit hrel
  unfold reading
  cases hf : fn it.row x with
  | mk r x' =>
    cases r with
    | ok u =>
      left
      obtain ⟨a, b, rfl⟩ := List.append_of_mem hit
      exact ⟨[it], x', _, a ++ b, rfl, by simp [hf], hok, fun _ _ => rfl, List.perm_middle,
        List.perm_middle, by simpa using hrel⟩
    | err e => exact .inr (.inl ⟨e, x', rfl, by simp [hf]⟩)
    | panic => exact .inr (.inr (.inl ⟨x', rfl, by simp [hf]⟩))

theorem stepOk_deleting {σ : Type} (tbl : Table) (fn : Row → σ → Res Bool × σ) :
    StepOk tbl (deleteCurrent fn tbl) (deleting fn) False := by
  intro x t it hok hit hrel
  unfold deleting deleteCurrent
  cases hf : fn it.row x with
  | mk r x' =>
    cases r with
    | ok b =>
      left
      cases b with
      | true =>
        obtain ⟨t', hd, hp, hok'⟩ := C32_delete t tbl it hok hit hrel
        refine ⟨[], x', t', t', rfl, by simp [hd], hok', ?_, hp, List.Perm.refl _, by simp⟩
        exact fun rel hne => deleteRow_other (tableOk_iff.1 hok).1 hd hne
      | false =>
        obtain ⟨a, b, rfl⟩ := List.append_of_mem hit
        exact ⟨[it], x', _, a ++ b, rfl, by simp, hok, fun _ _ => rfl, List.perm_middle,
          List.perm_middle, by simpa using hrel⟩
    | err e => exact .inr (.inl ⟨e, x', rfl, by simp⟩)
    | panic => exact .inr (.inr (.inl ⟨x', rfl, by simp⟩))

theorem structToColsVals_ok {ti : TypedInfo} : ∀ {flds : List Field} {vs : List FieldVal}
    {cols : List ColumnNum} {vals : List (Option Value)},
    ti.structToColsVals flds vs = .ok (cols, vals) →
    cols.length = vals.length ∧ ∀ c ∈ cols, c.toNat < ti.colTypes.length := by
  intro flds
  induction flds with
  | nil =>
    intro vs cols vals h
    simp only [TypedInfo.structToColsVals, Res.ok.injEq, Prod.mk.injEq] at h
    obtain ⟨rfl, rfl⟩ := h
    simp
  | cons fld flds ih =>
    intro vs cols vals h
    cases vs with
    | nil => simp [TypedInfo.structToColsVals] at h
    | cons v vs =>
      simp only [TypedInfo.structToColsVals] at h
      rw [Res.bind_eq_ok] at h
      obtain ⟨cdx, _, h⟩ := h
      cases hct : ti.colTypes[cdx]? with
      | none => simp [hct] at h
      | some ct =>
        simp only [hct] at h
        rw [Res.bind_eq_ok] at h
        obtain ⟨val, _, h⟩ := h
        rw [Res.bind_eq_ok] at h
        obtain ⟨⟨cols', vals'⟩, h2, h⟩ := h
        simp only [Res.ok.injEq, Prod.mk.injEq] at h
        obtain ⟨rfl, rfl⟩ := h
        obtain ⟨h3, h4⟩ := ih h2
        have hlt : cdx < ti.colTypes.length := (List.getElem?_eq_some_iff.1 hct).1
        refine ⟨by simp [h3], ?_⟩
        intro c hc
        rcases List.mem_cons.1 hc with rfl | hc
        · rw [BitVec.toNat_ofNat]
          exact Nat.lt_of_le_of_lt (Nat.mod_le _ _) hlt
        · exact h4 c hc

theorem touchesKey_eq (key : List ColumnKey) (cols : List ColumnNum) :
    touchesKey key cols = columnKeyUpdated key cols := by
  rw [Bool.eq_iff_iff]
  simp only [touchesKey, columnKeyUpdated, keyCols, List.any_eq_true, List.mem_map, beq_iff_eq]
  constructor
  · rintro ⟨c, hc, _, ⟨ck, hck, rfl⟩, he⟩
    exact ⟨ck, hck, c, hc, (BitVec.eq_of_toNat_eq he).symm⟩
  · rintro ⟨ck, hck, c, hc, rfl⟩
    exact ⟨_, hc, _, ⟨ck, hck, rfl⟩, rfl⟩

theorem castValue_not_eof {env : FloatEnv} {vt : ValueType} {v : Option Value} :
    castValue env vt v ≠ .err .eof := by
  intro h
  unfold castValue at h
  repeat' split at h
  all_goals first | (simp at h; done) | (simp only at h; repeat' split at h)
  all_goals simp at h

theorem convertRow_not_eof {env : FloatEnv} {cts : List ColumnType} {row : Row} :
    convertRow env cts row ≠ .err .eof := by
  have h1 : ∀ ct v, convertCheck ct v ≠ .err .eof := by
    intro ct v h
    unfold convertCheck at h
    repeat' split at h
    all_goals simp at h
  have h2 : ∀ ct v, convertValue env ct v ≠ .err .eof := by
    intro ct v h
    cases v with
    | none =>
      unfold convertValue at h
      simp only at h
      split at h <;> cases h
    | some v =>
      unfold convertValue at h
      simp only at h
      cases hc : castValue env ct.type (some v) with
      | ok w => rw [hc] at h; exact h1 _ _ h
      | err e => rw [hc] at h; cases e <;> first | exact castValue_not_eof hc | cases h
      | panic => rw [hc] at h; cases h
  have h3 : ∀ (cts : List ColumnType) (row : Row), convertPrefix env cts row ≠ .err .eof := by
    intro cts row
    induction row generalizing cts with
    | nil => cases cts <;> simp [convertPrefix]
    | cons v vs ih =>
      cases cts with
      | nil => simp [convertPrefix]
      | cons ct cts =>
        intro h
        unfold convertPrefix at h
        cases hc : convertValue env ct v with
        | ok w =>
          rw [hc] at h
          cases hp : convertPrefix env cts vs with
          | ok w => simp [hp] at h
          | err e => simp [hp] at h; subst h; exact ih cts hp
          | panic => simp [hp] at h
        | err e => rw [hc] at h; cases e <;> first | exact h2 _ _ hc | cases h
        | panic => rw [hc] at h; cases h
  intro h
  unfold convertRow at h
  split at h
  · simp at h
  · cases hp : convertPrefix env cts row with
    | ok w => simp [hp] at h
    | err e => simp [hp] at h; subst h; exact h3 _ _ hp
    | panic => simp [hp] at h

/-- An update changes the table as `changedRow` says, or fails while changing the key. -/
theorem stepOk_updating {σ : Type} {env : EngineEnv} {ti : TypedInfo} {tbl : Table}
    (htypes : tbl.tt.columnTypes = ti.colTypes) (fn : Row → σ → Res (Option Struct) × σ)
    {bad : Prop}
    (hbad : ∀ r x st x' cols vals, fn r x = (.ok (some st), x') →
      ti.structToColsVals st.typ st.vals = .ok (cols, vals) → touchesKey tbl.tt.key cols = true →
      bad) :
    StepOk tbl (updateCurrent env ti fn tbl)
      (updating ti (changedRow env.toStoreEnv tbl.tt) fn) bad := by
  intro x t it hok hit hrel
  unfold updating updateCurrent
  cases hf : fn it.row x with
  | mk r x' =>
    cases r with
    | ok o =>
      cases o with
      | none =>
        left
        obtain ⟨a, b, rfl⟩ := List.append_of_mem hit
        exact ⟨[it], x', _, a ++ b, rfl, by simp, hok, fun _ _ => rfl, List.perm_middle,
          List.perm_middle, by simpa using hrel⟩
      | some st =>
        simp only
        cases hsc : ti.structToColsVals st.typ st.vals with
        | panic => exact .inr (.inr (.inl ⟨x', by simp, by simp⟩))
        | err e => exact .inr (.inl ⟨e, x', by simp, by simp⟩)
        | ok cv =>
          obtain ⟨cols, vals⟩ := cv
          obtain ⟨hlen, hcols⟩ := structToColsVals_ok hsc
          obtain ⟨hs, hk⟩ := tableOk_iff.1 hok
          have hok' : TableOk tbl (updateRow env.toStoreEnv t tbl it.key cols vals).2 :=
            tableOk_iff.2 ⟨updateRow_sorted hs, updateRow_kept hs hk (fun _ => ⟨rfl, rfl⟩)⟩
          have hother : SameOutside tbl t (updateRow env.toStoreEnv t tbl it.key cols vals).2 :=
            fun rel hne => updateRow_other hs hne
          simp only [Res.bind_ok]
          unfold changedRow
          rw [touchesKey_eq]
          cases hku : columnKeyUpdated tbl.tt.key cols with
          | false =>
            left
            obtain ⟨h1, R, h2, h3⟩ := C32_update_in_place env.toStoreEnv t tbl it cols vals hok hit
              hrel hlen (by rw [htypes]; exact hcols) hku
            refine ⟨[⟨it.rel, it.key, replaceColumns it.row cols vals⟩], x', _, R, by simp, ?_, hok',
              hother, h2, h3, by simpa using hrel⟩
            rw [h1]
          | true =>
            by_cases hres : (updateRow env.toStoreEnv t tbl it.key cols vals).1 = .ok ()
            · left
              obtain ⟨R, row, key, h1, h2, _, _, h3⟩ := C32_update_moves env.toStoreEnv t tbl it cols
                vals hok hit hrel hku hres
              refine ⟨[⟨it.rel, key, row⟩], x', _, R, by simp [h2], ?_, hok', hother, h1, h3,
                by simpa using hrel⟩
              rw [hres]
            · right; right; right
              refine ⟨hbad _ _ _ _ _ _ hf hsc (by rw [touchesKey_eq, hku]), hres, ?_⟩
              intro he
              rcases updateRow_cases (env := env.toStoreEnv) (tbl := tbl) (key := it.key)
                (cols := cols) (vals := vals) hs with e' | ⟨it', _, _, _, _, _, ⟨_, t1, _, e'⟩ | ⟨_, _, e'⟩⟩
              · rw [e'] at he; cases he
              · rw [e'] at he
                unfold insertRows at he
                split at he
                · cases he
                · next hcr => cases he; exact convertRow_not_eof hcr
                · split at he
                  · cases he
                  · next hri => exact absurd hri rowToItem_no_err
                  · split at he
                    · cases he
                    · cases he
              · rw [e'] at he; cases he
    | err e => exact .inr (.inl ⟨e, x', rfl, by simp⟩)
    | panic => exact .inr (.inr (.inl ⟨x', rfl, by simp⟩))

end Maho
