import Verif.Lemmas.TypedScan
import Verif.Lemmas.Typed
import Verif.Lemmas.EngineSample
/-
C71: going through a typed table with a callback changes exactly the chosen rows.
-/
namespace Maho
open Spec

/-- C71, deleting: for every callback and every range, the rows in the range are offered to the
callback in the order of the key until it ends the visit; exactly those for which it says so are
deleted; the outcome is that of the callback, where an end of file counts as success; nothing else
in the store changes. -/
theorem C71_delete {σ : Type} (env : EngineEnv) (ti : TypedInfo) (t : Tree) (tbl : Table)
    (hopen : openTyped env t ti = .ok tbl) (hok : TableOk tbl t)
    (minSt maxSt : Option Struct) (mn mx : Option Row)
    (hmin : ti.boundRow minSt = .ok mn) (hmax : ti.boundRow maxSt = .ok mx)
    (cmin : ∀ m, mn = some m → HasColumns (keyCols tbl.tt.key) m)
    (cmax : ∀ m, mx = some m → HasColumns (keyCols tbl.tt.key) m)
    (fn : Row → σ → Res Bool × σ) (x : σ) :
    let after := visit (within tbl.tt.key mn mx) (deleting fn) (rowsOf t ti.tid) x
    ∃ t', typedDelete env ti minSt maxSt fn (x, t) = (after.1, (after.2.1, t')) ∧
      rowsOf t' ti.tid = after.2.2 ∧ TableOk tbl t' ∧
      ∀ rel, rel ≠ toRelationId ti.tid 0#32 →
        t'.filter (fun it => it.rel == rel) = t.filter (fun it => it.rel == rel) := by
  intro after
  obtain ⟨hid, _, _⟩ := openTyped_table hopen
  rcases typedSelect_visit hopen hok hmin hmax cmin cmax (stepOk_deleting tbl fn) x with
    ⟨t', h1, h2, h3, h4⟩ | ⟨h, _⟩
  · rw [hid] at h1 h4
    refine ⟨t', h1, ?_, h2, fun rel hne => h3 rel (by unfold Table.rel; rw [hid]; exact hne.symm)⟩
    have ha := tableOk_ascending h2
    have hb := tableOk_ascending hok
    rw [hid] at ha hb
    refine ascending_ext ha (visit_ascending ?_ x hb) h4
    intro r x new x' hc
    unfold deleting at hc
    split at hc <;> simp only [Prod.mk.injEq, Res.ok.injEq, reduceCtorEq, false_and] at hc
    · exact .inl hc.1.symm
    · exact .inr ⟨r, hc.1.symm, rfl⟩
  · exact h.elim

/-- C71, reading: the callback is called for exactly the rows in the range, in the order of the
key, until it ends the visit, and the store does not change. -/
theorem C71_select {σ : Type} (env : EngineEnv) (ti : TypedInfo) (t : Tree) (tbl : Table)
    (hopen : openTyped env t ti = .ok tbl) (hok : TableOk tbl t)
    (minSt maxSt : Option Struct) (mn mx : Option Row)
    (hmin : ti.boundRow minSt = .ok mn) (hmax : ti.boundRow maxSt = .ok mx)
    (cmin : ∀ m, mn = some m → HasColumns (keyCols tbl.tt.key) m)
    (cmax : ∀ m, mx = some m → HasColumns (keyCols tbl.tt.key) m)
    (fn : Row → σ → Res Unit × σ) (x : σ) :
    let after := visit (within tbl.tt.key mn mx) (reading fn) (rowsOf t ti.tid) x
    typedSelect env ti minSt maxSt
      (fun _ _ row s => ((fn row s.1).1, ((fn row s.1).2, s.2))) (x, t) =
        (after.1, (after.2.1, t)) := by
  intro after
  obtain ⟨hid, _, _⟩ := openTyped_table hopen
  rcases typedSelect_visit hopen hok hmin hmax cmin cmax
      (fn := fun _ _ row s => ((fn row s.1).1, ((fn row s.1).2, s.2))) (stepOk_reading tbl fn) x with
    ⟨t', h1, _⟩ | ⟨h, _⟩
  · rw [hid] at h1
    have hsame : ∀ (its : List Item) (s : σ × Tree), (selectLoop
        (fun _ row s => ((fn row s.1).1, ((fn row s.1).2, s.2))) its s).2.2 = s.2 := by
      intro its
      induction its with
      | nil => intro s; rfl
      | cons it its ih =>
        intro s
        unfold selectLoop
        cases hf : fn it.row s.1 with
        | mk r x' =>
          rcases r with _ | e | _
          · simp only; exact ih _
          · cases e <;> rfl
          · rfl
    have : t' = t := by
      rw [typedSelect_items hopen hok hmin hmax cmin cmax] at h1
      have h2 := hsame ((t.filter (fun it => it.rel == tbl.rel)).filter
        fun it => within tbl.tt.key mn mx it.row) (x, t)
      rw [h1] at h2
      exact h2
    rw [h1, this]
  · exact h.elim

/-- C71 (partial), updating: for every callback whose structs leave the key alone, and every range,
the rows in the range are offered to the callback in the order of the key until it ends the visit;
exactly those for which it gives a struct get the values of its fields, in place; nothing else in
the store changes. Missing: structs with fields of the key, see `C71_update_key_partial`. -/
theorem C71_update_partial {σ : Type} (env : EngineEnv) (ti : TypedInfo) (t : Tree) (tbl : Table)
    (hopen : openTyped env t ti = .ok tbl) (hok : TableOk tbl t)
    (minSt maxSt : Option Struct) (mn mx : Option Row)
    (hmin : ti.boundRow minSt = .ok mn) (hmax : ti.boundRow maxSt = .ok mx)
    (cmin : ∀ m, mn = some m → HasColumns (keyCols tbl.tt.key) m)
    (cmax : ∀ m, mx = some m → HasColumns (keyCols tbl.tt.key) m)
    (fn : Row → σ → Res (Option Struct) × σ)
    (hkey : ∀ r x st x' cols vals, fn r x = (.ok (some st), x') →
      ti.structToColsVals st.typ st.vals = .ok (cols, vals) → touchesKey tbl.tt.key cols = false)
    (x : σ) :
    let after := visit (within tbl.tt.key mn mx)
      (updating ti (fun r cols vals => .ok (replaceColumns r cols vals)) fn) (rowsOf t ti.tid) x
    ∃ t', typedUpdate env ti minSt maxSt fn (x, t) = (after.1, (after.2.1, t')) ∧
      rowsOf t' ti.tid = after.2.2 ∧ TableOk tbl t' ∧
      ∀ rel, rel ≠ toRelationId ti.tid 0#32 →
        t'.filter (fun it => it.rel == rel) = t.filter (fun it => it.rel == rel) := by
  intro after
  obtain ⟨hid, htypes, _⟩ := openTyped_table hopen
  have hch : updating ti (changedRow env.toStoreEnv tbl.tt) fn =
      updating ti (fun r cols vals => .ok (replaceColumns r cols vals)) fn := by
    funext r x
    unfold updating
    cases hf : fn r x with
    | mk q x' =>
      rcases q with o | e | _
      · cases o with
        | none => rfl
        | some st =>
          simp only
          cases hsc : ti.structToColsVals st.typ st.vals with
          | panic => rfl
          | err e => rfl
          | ok cv =>
            obtain ⟨cols, vals⟩ := cv
            simp [changedRow, hkey _ _ _ _ _ _ hf hsc]
      · rfl
      · rfl
  have hstep := stepOk_updating (env := env) htypes fn (bad := False) (by
    intro r x st x' cols vals h1 h2 h3
    rw [hkey _ _ _ _ _ _ h1 h2] at h3
    cases h3)
  rw [hch] at hstep
  rcases typedSelect_visit hopen hok hmin hmax cmin cmax hstep x with ⟨t', h1, h2, h3, h4⟩ | ⟨h, _⟩
  · rw [hid] at h1 h4
    refine ⟨t', h1, ?_, h2, fun rel hne => h3 rel (by unfold Table.rel; rw [hid]; exact hne.symm)⟩
    have ha := tableOk_ascending h2
    have hb := tableOk_ascending hok
    rw [hid] at ha hb
    refine ascending_ext ha (visit_ascending ?_ x hb) h4
    intro r x new x' hc
    unfold updating at hc
    split at hc <;> simp only [Prod.mk.injEq, Res.ok.injEq, reduceCtorEq, false_and] at hc
    · exact .inr ⟨r, hc.1.symm, rfl⟩
    · next st x'' hf =>
      obtain ⟨hc, _⟩ := hc
      rw [Res.bind_eq_ok] at hc
      obtain ⟨⟨cols, vals⟩, hsc, hc⟩ := hc
      simp only [Res.bind_ok, Res.ok.injEq] at hc
      refine .inr ⟨_, hc.symm, ?_⟩
      have := hkey _ _ _ _ _ _ hf hsc
      rw [touchesKey_eq] at this
      exact rowKey_replaceColumns this r vals
  · exact h.elim

/-- C71 (partial), updating in general: if the update succeeds, the rows afterwards are those of the
visit, in the order of the new keys. Missing: an update of the key that fails, see
`C71_failed_update_loses_row` and `C71_shift_fails`. -/
theorem C71_update_key_partial {σ : Type} (env : EngineEnv) (ti : TypedInfo) (t : Tree) (tbl : Table)
    (hopen : openTyped env t ti = .ok tbl) (hok : TableOk tbl t)
    (minSt maxSt : Option Struct) (mn mx : Option Row)
    (hmin : ti.boundRow minSt = .ok mn) (hmax : ti.boundRow maxSt = .ok mx)
    (cmin : ∀ m, mn = some m → HasColumns (keyCols tbl.tt.key) m)
    (cmax : ∀ m, mx = some m → HasColumns (keyCols tbl.tt.key) m)
    (fn : Row → σ → Res (Option Struct) × σ) (x : σ)
    (hres : (typedUpdate env ti minSt maxSt fn (x, t)).1 = .ok ()) :
    let after := visit (within tbl.tt.key mn mx)
      (updating ti (changedRow env.toStoreEnv tbl.tt) fn) (rowsOf t ti.tid) x
    ∃ t', typedUpdate env ti minSt maxSt fn (x, t) = (.ok (), (after.2.1, t')) ∧
      after.1 = .ok () ∧ (rowsOf t' ti.tid).Perm after.2.2 ∧
      (rowsOf t' ti.tid).Pairwise (fun a b => rowOrder (keyCols tbl.tt.key) a b = .lt) ∧
      TableOk tbl t' ∧
      ∀ rel, rel ≠ toRelationId ti.tid 0#32 →
        t'.filter (fun it => it.rel == rel) = t.filter (fun it => it.rel == rel) := by
  intro after
  obtain ⟨hid, htypes, _⟩ := openTyped_table hopen
  have hstep := stepOk_updating (env := env) htypes fn (bad := True) (by intros; trivial)
  rcases typedSelect_visit hopen hok hmin hmax cmin cmax hstep x with ⟨t', h1, h2, h3, h4⟩ | ⟨_, h⟩
  · have h1' : typedUpdate env ti minSt maxSt fn (x, t) = _ := h1
    rw [hid] at h1' h4
    have ha := tableOk_ascending h2
    rw [hid] at ha
    have hr : after.1 = .ok () := by rw [h1'] at hres; exact hres
    refine ⟨t', ?_, hr, h4, ha, h2,
      fun rel hne => h3 rel (by unfold Table.rel; rw [hid]; exact hne.symm)⟩
    rw [h1', ← hr]
  · exact absurd hres h

/-! ### Samples -/

/-- A struct type with a key and a name. -/
def scanFields : List Field :=
  [⟨ascii "Id", ascii "primary", false, .int64⟩, ⟨ascii "Name", ascii "size=3", false, .string⟩]

def scanInfo : TypedInfo :=
  match makeTypedInfo sampleEngine 600#32 ⟨28, 33, sampleEngine.ident (ascii "t")⟩ scanFields with
  | .ok ti => ti
  | _ => default

def scanStruct (i : Int) (s : String) : Struct :=
  ⟨scanFields, [.plain (.int (BitVec.ofInt 64 i)), .plain (.str (ascii s))]⟩

def scanRow (i : Int) (s : String) : Row :=
  [some (.int (BitVec.ofInt 64 i)), some (.str (ascii s))]

/-- The table with four rows. -/
def scanTree : Tree :=
  match createTypedTable sampleEngine [] scanInfo with
  | .ok t => (typedInsert sampleEngine t scanInfo
      [scanStruct 3 "c", scanStruct 1 "a", scanStruct 4 "d", scanStruct 2 "b"]).2
  | _ => []

def scanTable : Table :=
  match openTyped sampleEngine scanTree scanInfo with
  | .ok tbl => tbl
  | _ => ⟨0#32, sampleType⟩

theorem scanTree_open : openTyped sampleEngine scanTree scanInfo = .ok scanTable := by
  decide +kernel

theorem scanTree_ok : TableOk scanTable scanTree := by
  refine ⟨?_, ?_, ?_⟩
  · unfold Ascending; decide +kernel
  · decide +kernel
  · decide +kernel

theorem scanTree_rows : rowsOf scanTree 600#32 =
    [scanRow 1 "a", scanRow 2 "b", scanRow 3 "c", scanRow 4 "d"] := by decide +kernel

/-- A callback that counts its calls, chooses every row but the second one it sees, and ends the
visit at the fourth call. -/
def everyOther (_ : Row) (n : Nat) : Res Bool × Nat :=
  if n = 3 then (.err .eof, n + 1) else (.ok (n != 1), n + 1)

/-- A callback that renames the rows with an odd number. -/
def renameOdd (r : Row) (_ : Unit) : Res (Option Struct) × Unit :=
  match r with
  | some (.int i) :: _ =>
    if i.toInt % 2 = 1 then
      (.ok (some ⟨[⟨ascii "Name", [], false, .string⟩], [.plain (.str (ascii "x"))]⟩), ())
    else (.ok none, ())
  | _ => (.panic, ())

/-- A callback that adds to the number of every row. -/
def shiftBy (n : Int) (r : Row) (_ : Unit) : Res (Option Struct) × Unit :=
  match r with
  | some (.int i) :: _ =>
    (.ok (some ⟨[⟨ascii "Id", [], false, .int64⟩], [.plain (.int (i + BitVec.ofInt 64 n))]⟩), ())
  | _ => (.panic, ())

/-- The hypotheses of the theorems on the bounds. -/
example : scanInfo.boundRow (some (scanStruct 2 "")) = .ok (some (scanRow 2 "")) ∧
    scanInfo.boundRow none = .ok none ∧
    HasColumns (keyCols scanTable.tt.key) (scanRow 2 "") := by
  refine ⟨by decide +kernel, by decide +kernel, ?_⟩
  unfold HasColumns
  decide +kernel

example : (typedDelete sampleEngine scanInfo none none everyOther (0, scanTree)).1 = .ok () ∧
    rowsOf (typedDelete sampleEngine scanInfo none none everyOther (0, scanTree)).2.2 600#32 =
      [scanRow 2 "b", scanRow 4 "d"] := by decide +kernel

example : (typedDelete sampleEngine scanInfo (some (scanStruct 2 "")) (some (scanStruct 3 ""))
      everyOther (0, scanTree)).1 = .ok () ∧
    rowsOf (typedDelete sampleEngine scanInfo (some (scanStruct 2 "")) (some (scanStruct 3 ""))
      everyOther (0, scanTree)).2.2 600#32 =
      [scanRow 1 "a", scanRow 3 "c", scanRow 4 "d"] := by decide +kernel

/-- `renameOdd` leaves the key alone. -/
example : ∀ r x st x' cols vals, renameOdd r x = (.ok (some st), x') →
    scanInfo.structToColsVals st.typ st.vals = .ok (cols, vals) →
    touchesKey scanTable.tt.key cols = false := by
  intro r x st x' cols vals h1 h2
  unfold renameOdd at h1
  split at h1
  · split at h1
    · simp only [Prod.mk.injEq, Res.ok.injEq, Option.some.injEq] at h1
      obtain ⟨rfl, _⟩ := h1
      have e : scanInfo.structToColsVals [⟨ascii "Name", [], false, .string⟩]
        [.plain (.str (ascii "x"))] = .ok ([1#32], [some (.str (ascii "x"))]) := by decide +kernel
      rw [e] at h2
      simp only [Res.ok.injEq, Prod.mk.injEq] at h2
      obtain ⟨rfl, rfl⟩ := h2
      decide +kernel
    · simp at h1
  · simp at h1

example : rowsOf (typedUpdate sampleEngine scanInfo none none renameOdd ((), scanTree)).2.2 600#32 =
      [scanRow 1 "x", scanRow 2 "b", scanRow 3 "x", scanRow 4 "d"] := by decide +kernel

example : (typedUpdate sampleEngine scanInfo none none (shiftBy (-1)) ((), scanTree)).1 = .ok () ∧
    rowsOf (typedUpdate sampleEngine scanInfo none none (shiftBy (-1)) ((), scanTree)).2.2 600#32 =
      [scanRow 0 "a", scanRow 1 "b", scanRow 2 "c", scanRow 3 "d"] := by decide +kernel

/-- C71 fails for updates of the key: adding one to the key of every row gives different keys for
different rows, but it is refused because the first row gets the key of the second before the second
is moved. -/
theorem C71_shift_fails :
    (visit (within scanTable.tt.key none none)
      (updating scanInfo (changedRow sampleEngine.toStoreEnv scanTable.tt) (shiftBy 1))
      (rowsOf scanTree 600#32) ()).1 = .ok () ∧
    (visit (within scanTable.tt.key none none)
      (updating scanInfo (changedRow sampleEngine.toStoreEnv scanTable.tt) (shiftBy 1))
      (rowsOf scanTree 600#32) ()).2.2 =
        [scanRow 2 "a", scanRow 3 "b", scanRow 4 "c", scanRow 5 "d"] ∧
    (typedUpdate sampleEngine scanInfo none none (shiftBy 1) ((), scanTree)).1 = .err .other := by
  decide +kernel

/-- C71 fails for updates of the key that are refused: the row that was to be updated is gone. -/
theorem C71_failed_update_loses_row :
    (typedUpdate sampleEngine scanInfo none none (shiftBy 1) ((), scanTree)).1 = .err .other ∧
    rowsOf (typedUpdate sampleEngine scanInfo none none (shiftBy 1) ((), scanTree)).2.2 600#32 =
      [scanRow 2 "b", scanRow 3 "c", scanRow 4 "d"] := by decide +kernel

-- A lookup that were offered a second row would panic.
example (env : EngineEnv) (ti : TypedInfo) (row : Row) (st : Struct) (t : Tree) :
    lookupRow env ti row (some st, t) = (.panic, (some st, t)) := rfl

end Maho
