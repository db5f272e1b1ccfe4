import Verif.Model.Storage
import Verif.Lemmas.Bytes
/-
Lemmas on the sorted tree.
-/
namespace Maho

/-- Two items at the same place of the order. -/
def SamePlace (a b : Item) : Prop := a.rel = b.rel ∧ a.key = b.key

/-- Strictly ascending. -/
def SortedTree (t : Tree) : Prop := t.Pairwise (fun a b => lessItems a b = true)

theorem lessItems_iff {a b : Item} : lessItems a b = true ↔
    a.rel.toNat < b.rel.toNat ∨ (a.rel = b.rel ∧ bytesCompare a.key b.key = .lt) := by
  unfold lessItems
  by_cases h : a.rel.ult b.rel = true
  · rw [if_pos h]
    rw [BitVec.ult_iff_lt, BitVec.lt_def] at h
    simp [h]
  · rw [if_neg h]
    rw [BitVec.ult_iff_lt, BitVec.lt_def] at h
    simp [h]

theorem lessItems_irrefl (a : Item) : lessItems a a = false := by
  rw [Bool.eq_false_iff]
  intro h
  rcases lessItems_iff.1 h with h | ⟨_, h⟩
  · omega
  · exact bytesCompare_lt_irrefl _ h

theorem lessItems_trans {a b c : Item} (h1 : lessItems a b = true) (h2 : lessItems b c = true) :
    lessItems a c = true := by
  rw [lessItems_iff] at *
  rcases h1 with h1 | ⟨e1, h1⟩
  · rcases h2 with h2 | ⟨e2, h2⟩
    · left; omega
    · left; rw [← e2]; exact h1
  · rcases h2 with h2 | ⟨e2, h2⟩
    · left; rw [e1]; exact h2
    · right; exact ⟨e1.trans e2, bytesCompare_lt_trans h1 h2⟩

theorem lessItems_cases (a b : Item) : lessItems a b = true ∨ SamePlace a b ∨ lessItems b a = true := by
  simp only [lessItems_iff, SamePlace]
  rcases Nat.lt_trichotomy a.rel.toNat b.rel.toNat with h | h | h
  · simp [h]
  · have e : a.rel = b.rel := BitVec.eq_of_toNat_eq h
    rcases bytesCompare_cases a.key b.key with h1 | h1 | h1
    · simp [e, h1]
    · simp [e, h1]
    · simp [e, h1]
  · simp [h]

theorem SamePlace.symm {a b : Item} (h : SamePlace a b) : SamePlace b a := ⟨h.1.symm, h.2.symm⟩
theorem SamePlace.trans {a b c : Item} (h : SamePlace a b) (h2 : SamePlace b c) : SamePlace a c :=
  ⟨h.1.trans h2.1, h.2.trans h2.2⟩
theorem SamePlace.refl (a : Item) : SamePlace a a := ⟨rfl, rfl⟩

theorem lessItems_congr {a a' b b' : Item} (h : SamePlace a a') (h2 : SamePlace b b') :
    lessItems a b = lessItems a' b' := by
  unfold lessItems
  rw [h.1, h.2, h2.1, h2.2]

theorem not_samePlace_of_less {a b : Item} (h : lessItems a b = true) : ¬ SamePlace a b := by
  intro e
  rw [lessItems_congr e (SamePlace.refl b), lessItems_irrefl] at h
  cases h

theorem lessItems_asymm {a b : Item} (h : lessItems a b = true) : lessItems b a = false := by
  rw [Bool.eq_false_iff]
  intro h2
  have := lessItems_trans h h2
  rw [lessItems_irrefl] at this
  cases this

theorem samePlace_iff {a b : Item} :
    SamePlace a b ↔ lessItems a b = false ∧ lessItems b a = false := by
  constructor
  · intro h
    exact ⟨Bool.eq_false_iff.2 (fun h2 => not_samePlace_of_less h2 h),
      Bool.eq_false_iff.2 (fun h2 => not_samePlace_of_less h2 h.symm)⟩
  · rintro ⟨h1, h2⟩
    rcases lessItems_cases a b with h | h | h
    · rw [h] at h1; cases h1
    · exact h
    · rw [h] at h2; cases h2

/-- In a sorted tree at most one item is at a place. -/
theorem SortedTree.unique {t : Tree} (h : SortedTree t) {a b : Item} (ha : a ∈ t) (hb : b ∈ t)
    (hs : SamePlace a b) : a = b := by
  induction t with
  | nil => cases ha
  | cons x xs ih =>
    have h' := List.pairwise_cons.1 h
    rcases List.mem_cons.1 ha with ea | ha'
    · rcases List.mem_cons.1 hb with eb | hb'
      · rw [ea, eb]
      · subst ea; exact absurd hs (not_samePlace_of_less (h'.1 b hb'))
    · rcases List.mem_cons.1 hb with eb | hb'
      · subst eb; exact absurd hs.symm (not_samePlace_of_less (h'.1 a ha'))
      · exact ih h'.2 ha' hb'

/-- Sorted trees with the same items are equal. -/
theorem SortedTree.ext {s t : Tree} (hs : SortedTree s) (ht : SortedTree t)
    (h : ∀ x, x ∈ s ↔ x ∈ t) : s = t := by
  induction s generalizing t with
  | nil =>
    cases t with
    | nil => rfl
    | cons y ys => exact absurd ((h y).2 (List.mem_cons_self ..)) (by simp)
  | cons x xs ih =>
    cases t with
    | nil => exact absurd ((h x).1 (List.mem_cons_self ..)) (by simp)
    | cons y ys =>
      have hs' := List.pairwise_cons.1 hs
      have ht' := List.pairwise_cons.1 ht
      have hxy : x = y := by
        rcases List.mem_cons.1 ((h x).1 (List.mem_cons_self ..)) with e | hx
        · exact e
        · rcases List.mem_cons.1 ((h y).2 (List.mem_cons_self ..)) with e | hy
          · exact e.symm
          · have h1 := ht'.1 x hx
            have h2 := hs'.1 y hy
            rw [lessItems_asymm h1] at h2; cases h2
      subst hxy
      congr 1
      apply ih hs'.2 ht'.2
      intro z
      constructor
      · intro hz
        rcases List.mem_cons.1 ((h z).1 (List.mem_cons_of_mem _ hz)) with rfl | h1
        · have := hs'.1 z hz
          rw [lessItems_irrefl] at this; cases this
        · exact h1
      · intro hz
        rcases List.mem_cons.1 ((h z).2 (List.mem_cons_of_mem _ hz)) with rfl | h1
        · have := ht'.1 z hz
          rw [lessItems_irrefl] at this; cases this
        · exact h1

theorem Tree.get_some {t : Tree} {it x : Item} (h : t.get it = some x) : x ∈ t ∧ SamePlace x it := by
  unfold Tree.get at h
  have h1 := List.find?_some h
  have h2 := List.mem_of_find?_eq_some h
  simp only [Bool.and_eq_true, Bool.not_eq_true'] at h1
  exact ⟨h2, samePlace_iff.2 h1⟩

theorem Tree.get_eq {t : Tree} (hs : SortedTree t) {it x : Item} :
    t.get it = some x ↔ x ∈ t ∧ SamePlace x it := by
  constructor
  · exact Tree.get_some
  · rintro ⟨hx, hp⟩
    cases hg : t.get it with
    | none =>
      have := List.find?_eq_none.1 hg x hx
      simp only [Bool.and_eq_true, Bool.not_eq_true'] at this
      exact absurd (samePlace_iff.1 hp) this
    | some y =>
      obtain ⟨hy, hyp⟩ := Tree.get_some hg
      rw [hs.unique hx hy (hp.trans hyp.symm)]

theorem Tree.get_none {t : Tree} {it : Item} :
    t.get it = none ↔ ∀ x ∈ t, ¬ SamePlace x it := by
  unfold Tree.get
  rw [List.find?_eq_none]
  constructor
  · intro h x hx hp
    have := h x hx
    simp only [Bool.and_eq_true, Bool.not_eq_true'] at this
    exact this (samePlace_iff.1 hp)
  · intro h x hx
    simp only [Bool.and_eq_true, Bool.not_eq_true']
    intro hp
    exact h x hx (samePlace_iff.2 hp)

theorem Tree.has_iff {t : Tree} {it : Item} : t.has it = true ↔ ∃ x ∈ t, SamePlace x it := by
  unfold Tree.has
  cases h : t.get it with
  | none =>
    have := Tree.get_none.1 h
    simp only [Option.isSome_none, Bool.false_eq_true, false_iff]
    rintro ⟨x, hx, hp⟩
    exact this x hx hp
  | some x =>
    simp only [Option.isSome_some, true_iff]
    exact ⟨x, Tree.get_some h⟩

theorem Tree.mem_put_sub {t : Tree} {it x : Item} (h : x ∈ t.put it) : x = it ∨ x ∈ t := by
  induction t with
  | nil => simp only [Tree.put, List.mem_singleton] at h; exact .inl h
  | cons y ys ih =>
    unfold Tree.put at h
    split at h
    · rcases List.mem_cons.1 h with rfl | h
      · right; simp
      · rcases ih h with h | h
        · exact .inl h
        · right; exact List.mem_cons_of_mem _ h
    · split at h
      · rcases List.mem_cons.1 h with h | h
        · exact .inl h
        · exact .inr h
      · rcases List.mem_cons.1 h with h | h
        · exact .inl h
        · right; exact List.mem_cons_of_mem _ h

theorem Tree.mem_put {t : Tree} (hs : SortedTree t) {it x : Item} :
    x ∈ t.put it ↔ x = it ∨ (x ∈ t ∧ ¬ SamePlace x it) := by
  induction t with
  | nil => simp [Tree.put]
  | cons y ys ih =>
    have hs' := List.pairwise_cons.1 hs
    unfold Tree.put
    split
    · next hlt =>
      rw [List.mem_cons, ih hs'.2, List.mem_cons]
      constructor
      · rintro (rfl | h | ⟨h1, h2⟩)
        · exact .inr ⟨.inl rfl, not_samePlace_of_less hlt⟩
        · exact .inl h
        · exact .inr ⟨.inr h1, h2⟩
      · rintro (h | ⟨h | h, h2⟩)
        · exact .inr (.inl h)
        · exact .inl h
        · exact .inr (.inr ⟨h, h2⟩)
    · split
      · next hge hlt =>
        rw [List.mem_cons]
        constructor
        · rintro (h | h)
          · exact .inl h
          · refine .inr ⟨h, ?_⟩
            rcases List.mem_cons.1 h with rfl | h
            · exact fun e => not_samePlace_of_less hlt e.symm
            · exact fun e => not_samePlace_of_less (lessItems_trans hlt (hs'.1 x h)) e.symm
        · rintro (h | ⟨h, _⟩)
          · exact .inl h
          · exact .inr h
      · next hge hle =>
        have hp : SamePlace y it := samePlace_iff.2 ⟨by simpa using hge, by simpa using hle⟩
        rw [List.mem_cons, List.mem_cons]
        constructor
        · rintro (h | h)
          · exact .inl h
          · exact .inr ⟨.inr h, fun e => not_samePlace_of_less (hs'.1 x h) (hp.trans e.symm)⟩
        · rintro (h | ⟨rfl | h, h2⟩)
          · exact .inl h
          · exact absurd hp h2
          · exact .inr h

theorem Tree.sorted_put {t : Tree} (hs : SortedTree t) (it : Item) : SortedTree (t.put it) := by
  induction t with
  | nil => exact List.pairwise_singleton _ _
  | cons y ys ih =>
    have hs' := List.pairwise_cons.1 hs
    unfold Tree.put
    split
    · next hlt =>
      apply List.pairwise_cons.2
      refine ⟨?_, ih hs'.2⟩
      intro z hz
      rcases Tree.mem_put_sub hz with rfl | hz
      · exact hlt
      · exact hs'.1 z hz
    · split
      · next hge hlt =>
        apply List.pairwise_cons.2
        refine ⟨?_, hs⟩
        intro z hz
        rcases List.mem_cons.1 hz with rfl | hz
        · exact hlt
        · exact lessItems_trans hlt (hs'.1 z hz)
      · next hge hle =>
        have hp : SamePlace y it := samePlace_iff.2 ⟨by simpa using hge, by simpa using hle⟩
        apply List.pairwise_cons.2
        refine ⟨?_, hs'.2⟩
        intro z hz
        rw [← lessItems_congr hp (SamePlace.refl z)]
        exact hs'.1 z hz

theorem Tree.delete_none {t : Tree} (hs : SortedTree t) {it : Item} :
    t.delete it = none ↔ ∀ x ∈ t, ¬ SamePlace x it := by
  induction t with
  | nil => simp [Tree.delete]
  | cons y ys ih =>
    have hs' := List.pairwise_cons.1 hs
    unfold Tree.delete
    split
    · next hlt =>
      rw [Option.map_eq_none_iff, ih hs'.2]
      constructor
      · intro h x hx
        rcases List.mem_cons.1 hx with rfl | hx
        · exact not_samePlace_of_less hlt
        · exact h x hx
      · intro h x hx; exact h x (List.mem_cons_of_mem _ hx)
    · split
      · next hge hlt =>
        simp only [true_iff]
        intro x hx
        rcases List.mem_cons.1 hx with rfl | hx
        · exact fun e => not_samePlace_of_less hlt e.symm
        · exact fun e => not_samePlace_of_less (lessItems_trans hlt (hs'.1 x hx)) e.symm
      · next hge hle =>
        have hp : SamePlace y it := samePlace_iff.2 ⟨by simpa using hge, by simpa using hle⟩
        simp only [reduceCtorEq, false_iff]
        intro h
        exact h y (List.mem_cons_self ..) hp

theorem Tree.delete_some {t t' : Tree} (hs : SortedTree t) {it : Item} (h : t.delete it = some t') :
    SortedTree t' ∧ (∀ x, x ∈ t' ↔ x ∈ t ∧ ¬ SamePlace x it) ∧ ∃ x ∈ t, SamePlace x it := by
  induction t generalizing t' with
  | nil => simp [Tree.delete] at h
  | cons y ys ih =>
    have hs' := List.pairwise_cons.1 hs
    unfold Tree.delete at h
    split at h
    · next hlt =>
      obtain ⟨d, hd, rfl⟩ := Option.map_eq_some_iff.1 h
      obtain ⟨h1, h2, x0, h3, h4⟩ := ih hs'.2 hd
      refine ⟨?_, ?_, x0, List.mem_cons_of_mem _ h3, h4⟩
      · apply List.pairwise_cons.2
        refine ⟨fun z hz => hs'.1 z ((h2 z).1 hz).1, h1⟩
      · intro x
        rw [List.mem_cons, List.mem_cons, h2]
        constructor
        · rintro (rfl | ⟨h1, h2⟩)
          · exact ⟨.inl rfl, not_samePlace_of_less hlt⟩
          · exact ⟨.inr h1, h2⟩
        · rintro ⟨h | h, h2⟩
          · exact .inl h
          · exact .inr ⟨h, h2⟩
    · split at h
      · cases h
      · next hge hle =>
        cases h
        have hp : SamePlace y it := samePlace_iff.2 ⟨by simpa using hge, by simpa using hle⟩
        refine ⟨hs'.2, ?_, y, List.mem_cons_self .., hp⟩
        intro x
        rw [List.mem_cons]
        constructor
        · intro hx
          exact ⟨.inr hx, fun e => not_samePlace_of_less (hs'.1 x hx) (hp.trans e.symm)⟩
        · rintro ⟨rfl | h, h2⟩
          · exact absurd hp h2
          · exact h

/-- From an item on: exactly the items not less than it. -/
theorem Tree.from_eq_filter {t : Tree} (hs : SortedTree t) (it : Item) :
    t.from it = t.filter (fun x => !lessItems x it) := by
  induction t with
  | nil => rfl
  | cons y ys ih =>
    have hs' := List.pairwise_cons.1 hs
    unfold Tree.from at ih ⊢
    cases hlt : lessItems y it with
    | true =>
      rw [List.dropWhile_cons, if_pos hlt, List.filter_cons_of_neg (by simp [hlt])]
      exact ih hs'.2
    | false =>
      rw [List.dropWhile_cons, if_neg (by simp [hlt]), List.filter_cons_of_pos (by simp [hlt])]
      congr 1
      symm
      rw [List.filter_eq_self]
      intro z hz
      simp only [Bool.not_eq_true']
      rw [Bool.eq_false_iff]
      intro h
      have := lessItems_trans (hs'.1 z hz) h
      rw [hlt] at this; cases this

theorem SortedTree.filter {t : Tree} (h : SortedTree t) (p : Item → Bool) :
    SortedTree (List.filter p t) := List.Pairwise.filter p h

theorem sortedTree_nil : SortedTree [] := List.Pairwise.nil

/-- The relation of a table determines the table. -/
theorem toRelationId_inj {a b : TableId} {i j : IndexId}
    (h : toRelationId a i = toRelationId b j) : a = b ∧ i = j := by
  unfold toRelationId at h
  constructor
  · apply BitVec.eq_of_getElem_eq
    intro k hk
    have := congrArg (fun v => v.getLsbD (k + 32)) h
    simp only [BitVec.truncate_eq_setWidth, BitVec.getLsbD_or, BitVec.getLsbD_shiftLeft,
      BitVec.getLsbD_setWidth] at this
    have e1 : k + 32 < 64 := by omega
    have e2 : ¬ (k + 32 < 32) := by omega
    have e3 : k + 32 - 32 = k := by omega
    simp only [e1, e2, e3, decide_true, decide_false, Bool.not_false, Bool.true_and] at this
    have z1 : i.getLsbD (k + 32) = false := BitVec.getLsbD_of_ge _ _ (by omega)
    have z2 : j.getLsbD (k + 32) = false := BitVec.getLsbD_of_ge _ _ (by omega)
    have e4 : k < 64 := by omega
    simp only [z1, z2, Bool.or_false, e4, decide_true, Bool.true_and] at this
    rw [BitVec.getLsbD_eq_getElem hk, BitVec.getLsbD_eq_getElem hk] at this
    exact this
  · apply BitVec.eq_of_getElem_eq
    intro k hk
    have := congrArg (fun v => v.getLsbD k) h
    simp only [BitVec.truncate_eq_setWidth, BitVec.getLsbD_or, BitVec.getLsbD_shiftLeft,
      BitVec.getLsbD_setWidth] at this
    have e1 : k < 64 := by omega
    simp only [e1, hk, decide_true, Bool.not_true, Bool.true_and, Bool.false_and, Bool.and_false,
      Bool.false_or] at this
    rw [BitVec.getLsbD_eq_getElem hk, BitVec.getLsbD_eq_getElem hk] at this
    exact this

end Maho
