import Verif.Lemmas.Tree
import Verif.Lemmas.Key
import Verif.Lemmas.Convert
import Verif.Spec.Storage
/-
Lemmas on the storage operations.
-/
namespace Maho
open Spec

theorem ascending_iff {t : Tree} : Ascending t ↔ SortedTree t := by
  unfold Ascending SortedTree
  constructor
  · intro h; exact h.imp (fun h => lessItems_iff.2 h)
  · intro h; exact h.imp (fun h => lessItems_iff.1 h)

theorem rowToItem_some {rel : BitVec 64} {key : List ColumnKey} {row : Row} {it : Item} :
    rowToItem rel key (some row) = .ok it ↔
      HasColumns (keyCols key) row ∧ it = ⟨rel, rowKey key row, row⟩ := by
  simp only [rowToItem]
  rw [Res.bind_eq_ok]
  constructor
  · rintro ⟨k, hk, h⟩
    cases h
    obtain ⟨h1, rfl⟩ := makeKey_ok_iff.1 hk
    exact ⟨h1, rfl⟩
  · rintro ⟨h, rfl⟩
    exact ⟨_, makeKey_eq h, rfl⟩

theorem rowToItem_no_err {rel : BitVec 64} {key : List ColumnKey} {row : Option Row} {e : Err} :
    rowToItem rel key row ≠ .err e := by
  cases row with
  | none => simp [rowToItem]
  | some row =>
    simp only [rowToItem]
    by_cases h : HasColumns (keyCols key) row
    · rw [makeKey_eq h]; simp
    · rw [show makeKey key row = .panic from makeKeyLoop_panic [] key row h]; simp

/-- The byte order of two keys of the same table is the order of the rows. -/
theorem rowKey_compare (key : List ColumnKey) (r1 r2 : Row) :
    bytesCompare (rowKey key r1) (rowKey key r2) = rowOrder (keyCols key) r1 r2 :=
  (rowKey_decides key r1 r2).compare

/-! ### The predicate -/

theorem rowTest_some {tt : TableType} {pred : Option Predicate} {test : Row → Res Bool}
    (h : rowTest tt pred = .ok test) {r : Row} {b : Bool} (hb : test r = .ok b) :
    b = satisfies pred r := by
  cases pred with
  | none =>
    simp only [rowTest] at h; cases h; simp only at hb; cases hb; rfl
  | some p =>
    simp only [rowTest] at h
    split at h
    · cases h
    · next ct hct =>
      rw [Res.bind_eq_ok] at h
      obtain ⟨f, hf, h⟩ := h
      cases h
      simp only at hb
      unfold satisfies
      simp only
      split at hb
      · cases hb
      · next val hval =>
        rw [hval]
        unfold predicateFunction at hf
        split at hf
        · cases hf
        · cases hf
        all_goals
          split at hf
          · cases hf
          · next g hg =>
            cases hf
            simp only at hb
            split at hb
            · cases hb; simp [hg]
            · cases hb

theorem rowTest_ok {tt : TableType} {pred : Option Predicate} (h : FitsTable tt pred) :
    ∃ test, rowTest tt pred = .ok test ∧ ∀ r, Testable tt r pred → ∃ b, test r = .ok b := by
  cases pred with
  | none => exact ⟨_, rfl, fun r _ => ⟨true, rfl⟩⟩
  | some p =>
    obtain ⟨ct, hct, hcan⟩ := h
    have hf : ∃ f, predicateFunction p ct = .ok f ∧
        ∀ v, HasType v ct.type → ∃ b, f (some v) = .ok b := by
      unfold predicateFunction
      unfold CanTest at hcan
      cases hty : ct.type <;> rw [hty] at hcan <;> simp only at hcan ⊢
      all_goals
        obtain ⟨g, hg⟩ := Option.isSome_iff_exists.1 hcan
        rw [hg]
        refine ⟨_, rfl, ?_⟩
        intro v hv
        cases v <;> simp [HasType] at hv
        exact ⟨_, rfl⟩
    obtain ⟨f, hf, hft⟩ := hf
    refine ⟨_, by simp only [rowTest, hct, hf, Res.bind_ok]; rfl, ?_⟩
    rintro r ⟨ct', v, hct', hr, hv⟩
    rw [hct] at hct'; cases hct'
    simp only [hr]
    exact hft v hv

theorem rowTest_no_err {tt : TableType} {pred : Option Predicate} {e : Err} :
    rowTest tt pred ≠ .err e := by
  cases pred with
  | none => simp [rowTest]
  | some p =>
    simp only [rowTest]
    split
    · simp
    · unfold predicateFunction
      split <;> (try simp) <;> split <;> simp

theorem rowTest_test_no_err {tt : TableType} {pred : Option Predicate} {test : Row → Res Bool}
    (h : rowTest tt pred = .ok test) (r : Row) (e : Err) : test r ≠ .err e := by
  cases pred with
  | none => simp only [rowTest] at h; cases h; simp
  | some p =>
    simp only [rowTest] at h
    split at h
    · cases h
    · next ct hct =>
      rw [Res.bind_eq_ok] at h
      obtain ⟨f, hf, h⟩ := h
      cases h
      simp only
      split
      · simp
      · unfold predicateFunction at hf
        split at hf
        · cases hf
        · cases hf
        all_goals
          split at hf
          · cases hf
          · cases hf
            simp only
            split <;> simp

/-! ### Scanning -/

theorem scanItems_filter {rel : BitVec 64} {mx : Option Item} {test : Row → Res Bool}
    {l items : List Item} (hs : SortedTree l) (hge : ∀ x ∈ l, rel.toNat ≤ x.rel.toNat)
    (h : scanItems rel mx test l = .ok items) :
    items = l.filter (fun it => it.rel == rel && !(mx.map (fun m => lessItems m it)).getD false &&
      decide (test it.row = .ok true)) ∧
    ∀ it ∈ l, it.rel = rel → (mx.map (fun m => lessItems m it)).getD false = false →
      ∃ b, test it.row = .ok b := by
  induction l generalizing items with
  | nil => simp only [scanItems] at h; cases h; simp
  | cons it its ih =>
    have hs' := List.pairwise_cons.1 hs
    unfold scanItems at h
    split at h
    · next hrel =>
      cases h
      have hgt : ∀ x ∈ it :: its, x.rel ≠ rel := by
        intro x hx
        have h1 := hge it (List.mem_cons_self ..)
        have h2 : it.rel.toNat ≠ rel.toNat := fun e => hrel (BitVec.eq_of_toNat_eq e)
        rcases List.mem_cons.1 hx with rfl | hx
        · exact hrel
        · have := lessItems_iff.1 (hs'.1 x hx)
          intro e
          subst e
          rcases this with h | ⟨h, _⟩
          · omega
          · exact hrel h
      refine ⟨?_, fun x hx e => absurd e (hgt x hx)⟩
      symm
      rw [List.filter_eq_nil_iff]
      intro x hx
      simp [hgt x hx]
    · next hrel =>
      have hrel : it.rel = rel := Decidable.byContradiction hrel
      split at h
      · next hmx =>
        cases h
        have hgt : ∀ x ∈ it :: its, (mx.map (fun m => lessItems m x)).getD false = true := by
          intro x hx
          rcases List.mem_cons.1 hx with rfl | hx
          · exact hmx
          · cases mx with
            | none => simp at hmx
            | some m =>
              simp only [Option.map_some, Option.getD_some] at hmx ⊢
              exact lessItems_trans hmx (hs'.1 x hx)
        refine ⟨?_, fun x hx _ e => by rw [hgt x hx] at e; cases e⟩
        symm
        rw [List.filter_eq_nil_iff]
        intro x hx
        simp [hgt x hx]
      · next hmx =>
        have hmx : (mx.map (fun m => lessItems m it)).getD false = false := by simpa using hmx
        rw [Res.bind_eq_ok] at h
        obtain ⟨keep, hk, h⟩ := h
        rw [Res.bind_eq_ok] at h
        obtain ⟨rest, hr, h⟩ := h
        cases h
        obtain ⟨e1, e2⟩ := ih hs'.2 (fun x hx => hge x (List.mem_cons_of_mem _ hx)) hr
        constructor
        · rw [List.filter_cons]
          simp only [hrel, beq_self_eq_true, hmx, Bool.not_false, Bool.true_and, hk,
            Res.ok.injEq, decide_eq_true_eq]
          rw [← e1]
        · intro x hx hx1 hx2
          rcases List.mem_cons.1 hx with rfl | hx
          · exact ⟨keep, hk⟩
          · exact e2 x hx hx1 hx2

theorem scanItems_ok {rel : BitVec 64} {mx : Option Item} {test : Row → Res Bool}
    {l : List Item} (h : ∀ it ∈ l, it.rel = rel →
      (mx.map (fun m => lessItems m it)).getD false = false → ∃ b, test it.row = .ok b) :
    ∃ items, scanItems rel mx test l = .ok items := by
  induction l with
  | nil => exact ⟨[], rfl⟩
  | cons it its ih =>
    unfold scanItems
    split
    · exact ⟨_, rfl⟩
    · next hrel =>
      have hrel : it.rel = rel := Decidable.byContradiction hrel
      split
      · exact ⟨_, rfl⟩
      · next hmx =>
        obtain ⟨b, hb⟩ := h it (List.mem_cons_self ..) hrel (by simpa using hmx)
        obtain ⟨items, hi⟩ := ih (fun x hx => h x (List.mem_cons_of_mem _ hx))
        rw [hb, hi]
        exact ⟨_, rfl⟩

theorem scanItems_no_err {rel : BitVec 64} {mx : Option Item} {test : Row → Res Bool}
    (ht : ∀ r e, test r ≠ .err e) (l : List Item) (e : Err) :
    scanItems rel mx test l ≠ .err e := by
  induction l with
  | nil => simp [scanItems]
  | cons it its ih =>
    unfold scanItems
    split
    · simp
    · split
      · simp
      · cases hb : test it.row with
        | ok b =>
          simp only [Res.bind_ok]
          cases hr : scanItems rel mx test its with
          | ok r => simp
          | err e' =>
            simp only [Res.bind_err]
            intro h; cases h; exact ih hr
          | panic => simp
        | err e' => exact absurd hb (ht _ _)
        | panic => simp

/-- What the three bounds mean on the items of a table. -/
theorem collectItems_spec {t : Tree} {tbl : Table} {minRow maxRow : Option Row}
    {pred : Option Predicate} {items : List Item} (hok : TableOk tbl t)
    (h : collectItems t tbl minRow maxRow pred = .ok items) :
    items = t.filter (fun it => it.rel == toRelationId tbl.tid 0#32 &&
      (atLeast (keyCols tbl.tt.key) minRow it.row && atMost (keyCols tbl.tt.key) maxRow it.row &&
        satisfies pred it.row)) := by
  have hs := ascending_iff.1 hok.sorted
  unfold collectItems at h
  simp only at h
  rw [Res.bind_eq_ok] at h
  obtain ⟨mx, hmx, h⟩ := h
  rw [Res.bind_eq_ok] at h
  obtain ⟨test, htest, h⟩ := h
  rw [Res.bind_eq_ok] at h
  obtain ⟨mn, hmn, h⟩ := h
  rw [Tree.from_eq_filter hs] at h
  have hmnrel : mn.rel = toRelationId tbl.tid primaryIndexId := by
    cases minRow with
    | none => simp only [rowToItem] at hmn; cases hmn; rfl
    | some m => obtain ⟨_, rfl⟩ := rowToItem_some.1 hmn; rfl
  obtain ⟨e1, e2⟩ := scanItems_filter (hs.filter _) (by
    intro x hx
    have := (List.mem_filter.1 hx).2
    simp only [Bool.not_eq_true'] at this
    have h3 : ¬ (x.rel.toNat < mn.rel.toNat) := fun h4 => by
      rw [lessItems_iff.2 (.inl h4)] at this; cases this
    rw [hmnrel] at h3; omega) h
  rw [e1, List.filter_filter]
  apply List.filter_congr
  intro it hit
  have hprim : toRelationId tbl.tid primaryIndexId = toRelationId tbl.tid 0#32 := rfl
  rw [hprim]
  by_cases hrel : it.rel = toRelationId tbl.tid 0#32
  · have hkey := (makeKey_ok_iff.1 (hok.keyed it hit hrel))
    have hmin : (!lessItems it mn) = atLeast (keyCols tbl.tt.key) minRow it.row := by
      cases minRow with
      | none =>
        simp only [rowToItem] at hmn
        cases hmn
        simp only [atLeast, Bool.not_eq_true']
        rw [Bool.eq_false_iff]
        intro hl
        rcases lessItems_iff.1 hl with hl | ⟨_, hl⟩
        · rw [hrel, hprim] at hl; simp at hl
        · cases hk : it.key with
          | nil => rw [hk] at hl; simp at hl
          | cons a as => rw [hk] at hl; simp [bytesCompare] at hl
      | some m =>
        obtain ⟨_, rfl⟩ := rowToItem_some.1 hmn
        simp only [atLeast]
        rw [← rowKey_compare, ← hkey.2]
        cases hl : lessItems it ⟨toRelationId tbl.tid primaryIndexId, rowKey tbl.tt.key m, m⟩ with
        | true =>
          rcases lessItems_iff.1 hl with hl | ⟨_, hl⟩
          · rw [hrel, hprim] at hl; simp at hl
          · simp only at hl
            rw [bytesCompare_gt_iff.2 hl]; rfl
        | false =>
          have : bytesCompare (rowKey tbl.tt.key m) it.key ≠ .gt := by
            intro hg
            have := lessItems_iff.2 (.inr ⟨hrel, bytesCompare_gt_iff.1 hg⟩ :
              it.rel.toNat < (⟨toRelationId tbl.tid primaryIndexId, rowKey tbl.tt.key m, m⟩ : Item).rel.toNat ∨ _)
            rw [hl] at this; cases this
          simp [this]
    have hmax : (!(mx.map (fun m => lessItems m it)).getD false) =
        atMost (keyCols tbl.tt.key) maxRow it.row := by
      cases maxRow with
      | none =>
        simp only at hmx
        cases hmx
        rfl
      | some m =>
        simp only at hmx
        rw [Res.bind_eq_ok] at hmx
        obtain ⟨mi, hmi, hmx⟩ := hmx
        cases hmx
        obtain ⟨_, rfl⟩ := rowToItem_some.1 hmi
        simp only [atMost, Option.map_some, Option.getD_some]
        rw [← rowKey_compare, ← hkey.2]
        cases hl : lessItems ⟨toRelationId tbl.tid primaryIndexId, rowKey tbl.tt.key m, m⟩ it with
        | true =>
          rcases lessItems_iff.1 hl with hl | ⟨_, hl⟩
          · rw [hrel, hprim] at hl; simp at hl
          · simp only at hl
            rw [bytesCompare_gt_iff.2 hl]; rfl
        | false =>
          have : bytesCompare it.key (rowKey tbl.tt.key m) ≠ .gt := by
            intro hg
            have := lessItems_iff.2 (.inr ⟨hrel.symm, bytesCompare_gt_iff.1 hg⟩ :
              (⟨toRelationId tbl.tid primaryIndexId, rowKey tbl.tt.key m, m⟩ : Item).rel.toNat < it.rel.toNat ∨ _)
            rw [hl] at this; cases this
          simp [this]
    rw [hmin, hmax]
    cases hA : atLeast (keyCols tbl.tt.key) minRow it.row with
    | false => simp
    | true =>
      cases hB : atMost (keyCols tbl.tt.key) maxRow it.row with
      | false => simp
      | true =>
        obtain ⟨b, hb⟩ := e2 it (List.mem_filter.2 ⟨hit, by rw [hmin, hA]⟩) (by rw [hrel]; rfl)
          (by rw [hB] at hmax; simpa using hmax)
        have hbs := rowTest_some htest hb
        simp only [hrel, beq_self_eq_true, Bool.true_and, Bool.and_true]
        rw [hb, hbs]
        simp
  · have : (it.rel == toRelationId tbl.tid 0#32) = false := by simpa using hrel
    rw [this]; simp

theorem collectItems_ok {t : Tree} {tbl : Table} {minRow maxRow : Option Row}
    {pred : Option Predicate}
    (hmin : ∀ m, minRow = some m → HasColumns (keyCols tbl.tt.key) m)
    (hmax : ∀ m, maxRow = some m → HasColumns (keyCols tbl.tt.key) m)
    (hpred : FitsTable tbl.tt pred)
    (hrows : ∀ r ∈ rowsOf t tbl.tid, Testable tbl.tt r pred) :
    ∃ items, collectItems t tbl minRow maxRow pred = .ok items := by
  obtain ⟨test, htest, ht⟩ := rowTest_ok hpred
  have h1 : ∃ mn, rowToItem (toRelationId tbl.tid primaryIndexId) tbl.tt.key minRow = .ok mn := by
    cases minRow with
    | none => exact ⟨_, rfl⟩
    | some m => exact ⟨_, rowToItem_some.2 ⟨hmin m rfl, rfl⟩⟩
  obtain ⟨mn, hmn⟩ := h1
  have key : ∀ mx, ∃ items, scanItems (toRelationId tbl.tid primaryIndexId) mx test (t.from mn) = .ok items := by
    intro mx
    apply scanItems_ok
    intro it hit hrel _
    apply ht
    apply hrows
    unfold rowsOf
    refine List.mem_map.2 ⟨it, List.mem_filter.2 ⟨?_, by rw [hrel]; simp [primaryIndexId]⟩, rfl⟩
    unfold Tree.from at hit
    exact (List.dropWhile_sublist _).subset hit
  unfold collectItems
  simp only [htest, hmn, Res.bind_ok]
  cases maxRow with
  | none => simp only [Res.bind_ok]; exact key none
  | some m =>
    simp only [rowToItem_some.2 ⟨hmax m rfl, rfl⟩, Res.bind_ok]
    exact key _

theorem collectItems_no_err {t : Tree} {tbl : Table} {minRow maxRow : Option Row}
    {pred : Option Predicate} {e : Err} : collectItems t tbl minRow maxRow pred ≠ .err e := by
  intro h
  unfold collectItems at h
  simp only at h
  have h2 : ∀ mx, (do
      let test ← rowTest tbl.tt pred
      let minItem ← rowToItem (toRelationId tbl.tid primaryIndexId) tbl.tt.key minRow
      scanItems (toRelationId tbl.tid primaryIndexId) mx test (t.from minItem)) ≠ .err e := by
    intro mx h
    cases htest : rowTest tbl.tt pred with
    | err e' => exact rowTest_no_err htest
    | panic => rw [htest] at h; simp at h
    | ok test =>
      rw [htest] at h
      simp only [Res.bind_ok] at h
      cases hmn : rowToItem (toRelationId tbl.tid primaryIndexId) tbl.tt.key minRow with
      | err e' => exact rowToItem_no_err hmn
      | panic => rw [hmn] at h; simp at h
      | ok mn =>
        rw [hmn] at h
        simp only [Res.bind_ok] at h
        exact scanItems_no_err (rowTest_test_no_err htest) _ _ h
  cases maxRow with
  | none => simp only [Res.bind_ok] at h; exact h2 _ h
  | some m =>
    simp only at h
    cases hmi : rowToItem (toRelationId tbl.tid primaryIndexId) tbl.tt.key (some m) with
    | err e' => exact rowToItem_no_err hmi
    | panic => rw [hmi] at h; simp at h
    | ok mi => rw [hmi] at h; simp only [Res.bind_ok] at h; exact h2 _ h

/-- A scan of a table depends only on the items of that table. -/
theorem scanItems_congr {rel : BitVec 64} {mx : Option Item} {test : Row → Res Bool}
    {l : List Item} (hs : SortedTree l) (hge : ∀ x ∈ l, rel.toNat ≤ x.rel.toNat) :
    scanItems rel mx test l = scanItems rel mx test (l.filter (fun it => it.rel == rel)) := by
  induction l with
  | nil => rfl
  | cons it its ih =>
    have hs' := List.pairwise_cons.1 hs
    have ih := ih hs'.2 (fun x hx => hge x (List.mem_cons_of_mem _ hx))
    by_cases hrel : it.rel = rel
    · rw [List.filter_cons_of_pos (by simp [hrel])]
      simp only [scanItems]
      rw [ih]
    · rw [List.filter_cons_of_neg (by simp [hrel])]
      have hgt : ∀ x ∈ its, x.rel ≠ rel := by
        intro x hx e
        have h1 := hge it (List.mem_cons_self ..)
        have h2 : it.rel.toNat ≠ rel.toNat := fun e => hrel (BitVec.eq_of_toNat_eq e)
        have := lessItems_iff.1 (hs'.1 x hx)
        subst e
        rcases this with h | ⟨h, _⟩
        · omega
        · exact hrel h
      rw [List.filter_eq_nil_iff.2 (by intro x hx; simp [hgt x hx])]
      simp [scanItems, hrel]

theorem collectItems_congr {t t' : Tree} {tbl : Table} (hs : SortedTree t) (hs' : SortedTree t')
    (h : t.filter (fun it => it.rel == toRelationId tbl.tid 0#32) =
      t'.filter (fun it => it.rel == toRelationId tbl.tid 0#32))
    (minRow maxRow : Option Row) (pred : Option Predicate) :
    collectItems t tbl minRow maxRow pred = collectItems t' tbl minRow maxRow pred := by
  have key : ∀ mn, (∃ m, rowToItem (toRelationId tbl.tid primaryIndexId) tbl.tt.key m = .ok mn) →
      ∀ mx test, scanItems (toRelationId tbl.tid primaryIndexId) mx test (t.from mn) =
        scanItems (toRelationId tbl.tid primaryIndexId) mx test (t'.from mn) := by
    rintro mn ⟨m, hmn⟩ mx test
    have hrel : mn.rel = toRelationId tbl.tid primaryIndexId := by
      cases m with
      | none => simp only [rowToItem] at hmn; cases hmn; rfl
      | some m => obtain ⟨_, rfl⟩ := rowToItem_some.1 hmn; rfl
    have hge : ∀ {t : Tree}, ∀ x ∈ t.filter (fun x => !lessItems x mn),
        (toRelationId tbl.tid primaryIndexId).toNat ≤ x.rel.toNat := by
      intro t x hx
      have := (List.mem_filter.1 hx).2
      simp only [Bool.not_eq_true'] at this
      have h3 : ¬ (x.rel.toNat < mn.rel.toNat) := fun h4 => by
        rw [lessItems_iff.2 (.inl h4)] at this; cases this
      rw [hrel] at h3; omega
    rw [Tree.from_eq_filter hs, Tree.from_eq_filter hs',
      scanItems_congr (hs.filter _) hge, scanItems_congr (hs'.filter _) hge]
    congr 1
    rw [List.filter_filter, List.filter_filter]
    have e : ∀ t : Tree, List.filter (fun a => a.rel == toRelationId tbl.tid primaryIndexId && !lessItems a mn) t =
        (t.filter (fun it => it.rel == toRelationId tbl.tid 0#32)).filter (fun a => !lessItems a mn) := by
      intro t
      rw [List.filter_filter]
      apply List.filter_congr
      intro x _
      rw [Bool.and_comm]
      rfl
    rw [e t, e t', h]
  unfold collectItems
  simp only
  congr 1
  funext mx
  congr 1
  funext test
  cases hmn : rowToItem (toRelationId tbl.tid primaryIndexId) tbl.tt.key minRow with
  | err e => rfl
  | panic => rfl
  | ok mn =>
    simp only [Res.bind_ok]
    exact key mn ⟨_, hmn⟩ mx test

end Maho
