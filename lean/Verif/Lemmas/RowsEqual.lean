import Verif.Spec.Rows
import Verif.Lemmas.Value
/-
Lists of rows are compared as lists, or as sets with repetitions.
-/
namespace Maho
open Spec

/-- The result of `CompareRows`. -/
def cmpRows : Row → Row → Ordering
  | [], [] => .eq
  | _ :: _, [] => .gt
  | [], _ :: _ => .lt
  | v :: row1, w :: row2 => (cmp v w).then (cmpRows row1 row2)

theorem compareRows_eq : ∀ row1 row2 : Row, compareRows row1 row2 = .ok (cmpRows row1 row2)
  | [], [] => rfl
  | _ :: _, [] => rfl
  | [], _ :: _ => rfl
  | v :: row1, w :: row2 => by
    rw [compareRows, compareValues_eq, cmpRows, Res.bind_ok, compareRows_eq row1 row2]
    cases cmp v w <;> rfl

theorem cmpRows_swap : ∀ row1 row2 : Row, cmpRows row2 row1 = (cmpRows row1 row2).swap
  | [], [] => rfl
  | _ :: _, [] => rfl
  | [], _ :: _ => rfl
  | v :: row1, w :: row2 => by
    rw [cmpRows, cmpRows, cmp_swap v w, cmpRows_swap row1 row2]
    cases cmp v w <;> rfl

theorem cmpRows_eq : ∀ {row1 row2 : Row},
    cmpRows row1 row2 = .eq ↔ OneByOne (fun v w => cmp v w = .eq) row1 row2
  | [], [] => ⟨fun _ => .nil, fun _ => rfl⟩
  | _ :: _, [] => ⟨(fun h => by cases h), (fun h => by cases h)⟩
  | [], _ :: _ => ⟨(fun h => by cases h), (fun h => by cases h)⟩
  | v :: row1, w :: row2 => by
    rw [cmpRows]
    constructor
    · intro h
      cases hc : cmp v w with
      | eq => rw [hc] at h; exact .cons _ _ _ _ hc (cmpRows_eq.1 h)
      | lt => rw [hc] at h; cases h
      | gt => rw [hc] at h; cases h
    · intro h
      cases h with
      | cons _ _ _ _ h1 h2 => rw [h1, cmpRows_eq.2 h2]; rfl

/-- Values among which Compare is the order of SQL. -/
structure Comparable (S : Option Value → Prop) : Prop where
  notNaN : ∀ v, S v → NotNaN v
  exact : (∀ v, S v → SmallInt v) ∨ (∀ v, S v → ¬ IsFloat v)

variable {S : Option Value → Prop}

theorem Comparable.cmp (h : Comparable S) {v w : Option Value} (hv : S v) (hw : S w) :
    cmp v w = valueOrder v w := by
  refine cmp_eq_valueOrder (h.notNaN v hv) (h.notNaN w hw) ?_
  rcases h.exact with he | he
  · exact .inl ⟨he v hv, he w hw⟩
  · exact .inr ⟨he v hv, he w hw⟩

theorem Comparable.eq_trans (h : Comparable S) {a b c : Option Value} (ha : S a) (hb : S b)
    (hc : S c) (h1 : Maho.cmp a b = .eq) (h2 : Maho.cmp b c = .eq) : Maho.cmp a c = .eq := by
  rw [h.cmp ha hb] at h1
  rw [h.cmp hb hc] at h2
  rw [h.cmp ha hc]
  exact valueOrder_eq_trans h1 h2

theorem Comparable.lt_of_lt_of_eq (h : Comparable S) {a b c : Option Value} (ha : S a) (hb : S b)
    (hc : S c) (h1 : Maho.cmp a b = .lt) (h2 : Maho.cmp b c = .eq) : Maho.cmp a c = .lt := by
  have h2' : Maho.cmp c b = .eq := by rw [cmp_swap b c, h2]; rfl
  cases h3 : Maho.cmp a c with
  | lt => rfl
  | eq => rw [h.eq_trans ha hc hb h3 h2'] at h1; cases h1
  | gt =>
    have : Maho.cmp c a = .lt := by rw [cmp_swap a c, h3]; rfl
    rw [cmp_lt_trans this h1] at h2'; cases h2'

theorem Comparable.lt_of_eq_of_lt (h : Comparable S) {a b c : Option Value} (ha : S a) (hb : S b)
    (hc : S c) (h1 : Maho.cmp a b = .eq) (h2 : Maho.cmp b c = .lt) : Maho.cmp a c = .lt := by
  have h1' : Maho.cmp b a = .eq := by rw [cmp_swap a b, h1]; rfl
  cases h3 : Maho.cmp a c with
  | lt => rfl
  | eq => rw [h.eq_trans hb ha hc h1' h3] at h2; cases h2
  | gt =>
    have : Maho.cmp c a = .lt := by rw [cmp_swap a c, h3]; rfl
    have := cmp_lt_trans h2 this
    rw [h1'] at this; cases this

theorem Comparable.rows_trans (h : Comparable S) : ∀ {a b c : Row}, (∀ v ∈ a, S v) →
    (∀ v ∈ b, S v) → (∀ v ∈ c, S v) → cmpRows a b ≠ .gt → cmpRows b c ≠ .gt → cmpRows a c ≠ .gt
  | [], [], _, _, _, _, _, h2 => h2
  | [], _ :: _, [], _, _, _, _, h2 => absurd rfl h2
  | [], _ :: _, _ :: _, _, _, _, _, _ => by simp [cmpRows]
  | _ :: _, [], _, _, _, _, h1, _ => absurd rfl h1
  | _ :: _, _ :: _, [], _, _, _, _, h2 => absurd rfl h2
  | x :: a, y :: b, z :: c, ha, hb, hc, h1, h2 => by
    have sx := ha x (by simp)
    have sy := hb y (by simp)
    have sz := hc z (by simp)
    have ih := h.rows_trans (a := a) (b := b) (c := c)
      (fun v hv => ha v (List.mem_cons_of_mem _ hv)) (fun v hv => hb v (List.mem_cons_of_mem _ hv))
      (fun v hv => hc v (List.mem_cons_of_mem _ hv))
    rw [cmpRows] at h1 h2 ⊢
    cases hxy : Maho.cmp x y with
    | gt => rw [hxy] at h1; exact absurd rfl h1
    | lt =>
      cases hyz : Maho.cmp y z with
      | gt => rw [hyz] at h2; exact absurd rfl h2
      | lt => rw [cmp_lt_trans hxy hyz]; simp [Ordering.then]
      | eq => rw [h.lt_of_lt_of_eq sx sy sz hxy hyz]; simp [Ordering.then]
    | eq =>
      cases hyz : Maho.cmp y z with
      | gt => rw [hyz] at h2; exact absurd rfl h2
      | lt => rw [h.lt_of_eq_of_lt sx sy sz hxy hyz]; simp [Ordering.then]
      | eq =>
        rw [hxy] at h1
        rw [hyz] at h2
        rw [h.eq_trans sx sy sz hxy hyz]
        exact ih h1 h2

theorem Comparable.same (h : Comparable S) {a b : Row} (ha : ∀ v ∈ a, S v) (hb : ∀ v ∈ b, S v) :
    cmpRows a b = .eq ↔ SameRow a b := by
  rw [cmpRows_eq]
  constructor
  · intro e
    induction e with
    | nil => exact .nil
    | cons v w a b h1 _ ih =>
      refine .cons _ _ _ _ ?_ (ih (fun v hv => ha v (List.mem_cons_of_mem _ hv))
        (fun v hv => hb v (List.mem_cons_of_mem _ hv)))
      rw [← h.cmp (ha v (by simp)) (hb w (by simp)), h1]
  · intro e
    unfold SameRow at e
    induction e with
    | nil => exact .nil
    | cons v w a b h1 _ ih =>
      refine .cons _ _ _ _ ?_ (ih (fun v hv => ha v (List.mem_cons_of_mem _ hv))
        (fun v hv => hb v (List.mem_cons_of_mem _ hv)))
      rw [h.cmp (ha v (by simp)) (hb w (by simp)), h1]

/-! ### Lists that are the same one by one -/

theorem Spec.OneByOne.length {α : Type} {R : α → α → Prop} {l m : List α} (h : OneByOne R l m) :
    l.length = m.length := by
  induction h with
  | nil => rfl
  | cons _ _ _ _ _ _ ih => simp [ih]

/-- A list that is the same as a permuted one is a permutation of one that is the same. -/
theorem Spec.OneByOne.perm {α : Type} {R : α → α → Prop} {l l' : List α} (hp : l'.Perm l) :
    ∀ {m : List α}, OneByOne R l m → ∃ m', m'.Perm m ∧ OneByOne R l' m' := by
  induction hp with
  | nil => intro m h; exact ⟨m, .refl _, h⟩
  | cons x _ ih =>
    intro m h
    cases h with
    | cons _ b _ m hx h =>
      obtain ⟨m', hm, h'⟩ := ih h
      exact ⟨b :: m', hm.cons b, .cons _ _ _ _ hx h'⟩
  | swap x y l =>
    intro m h
    cases h with
    | cons _ b _ m hx h =>
      cases h with
      | cons _ c _ m hy h =>
        exact ⟨c :: b :: m, .swap _ _ _, .cons _ _ _ _ hy (.cons _ _ _ _ hx h)⟩
  | trans _ _ ih1 ih2 =>
    intro m h
    obtain ⟨m1, p1, h1⟩ := ih2 h
    obtain ⟨m2, p2, h2⟩ := ih1 h1
    exact ⟨m2, p2.trans p1, h2⟩

theorem Spec.OneByOne.trans {α : Type} {R : α → α → Prop} {P : α → Prop}
    (ht : ∀ a b c, P a → P b → P c → R a b → R b c → R a c) {l m : List α} (h : OneByOne R l m) :
    ∀ {k : List α}, (∀ a ∈ l, P a) → (∀ a ∈ m, P a) → (∀ a ∈ k, P a) → OneByOne R m k →
      OneByOne R l k := by
  induction h with
  | nil => intro k _ _ _ h; exact h
  | cons a b l m hab _ ih =>
    intro k hl hm hk h
    cases h with
    | cons _ c _ k hbc h =>
      exact .cons _ _ _ _ (ht a b c (hl a (by simp)) (hm b (by simp)) (hk c (by simp)) hab hbc)
        (ih (fun x hx => hl x (List.mem_cons_of_mem _ hx)) (fun x hx => hm x (List.mem_cons_of_mem _ hx))
          (fun x hx => hk x (List.mem_cons_of_mem _ hx)) h)

theorem Spec.OneByOne.refl {α : Type} {R : α → α → Prop} {l : List α} (hr : ∀ a, R a a) :
    OneByOne R l l := by
  induction l with
  | nil => exact .nil
  | cons a l ih => exact .cons _ _ _ _ (hr a) ih

/-- Two rows of which neither is greater. -/
theorem cmpRows_antisymm {a b : Row} (h1 : cmpRows a b ≠ .gt) (h2 : cmpRows b a ≠ .gt) :
    cmpRows a b = .eq := by
  rw [cmpRows_swap a b] at h2
  cases h : cmpRows a b with
  | eq => rfl
  | lt => rw [h] at h2; exact absurd rfl h2
  | gt => exact absurd h h1

theorem cmpRows_self (a : Row) : cmpRows a a = .eq := by
  induction a with
  | nil => rfl
  | cons v a ih => rw [cmpRows, cmp_self, ih]; rfl

theorem cmpRows_symm {a b : Row} (h : cmpRows a b = .eq) : cmpRows b a = .eq := by
  rw [cmpRows_swap a b, h]; rfl

def RowIn (S : Option Value → Prop) (row : Row) : Prop := ∀ v ∈ row, S v

theorem Comparable.rows_eq_trans (h : Comparable S) {a b c : Row} (ha : RowIn S a)
    (hb : RowIn S b) (hc : RowIn S c) (h1 : cmpRows a b = .eq) (h2 : cmpRows b c = .eq) :
    cmpRows a c = .eq :=
  cmpRows_antisymm (h.rows_trans ha hb hc (by rw [h1]; simp) (by rw [h2]; simp))
    (h.rows_trans hc hb ha (by rw [cmpRows_symm h2]; simp) (by rw [cmpRows_symm h1]; simp))

/-- Two sorted lists that are the same in some order are the same one by one. -/
theorem Comparable.sorted_unique (h : Comparable S) : ∀ {l m p : List Row},
    (∀ a ∈ l, RowIn S a) → (∀ a ∈ m, RowIn S a) →
    l.Pairwise (fun a b => cmpRows a b ≠ .gt) → m.Pairwise (fun a b => cmpRows a b ≠ .gt) →
    p.Perm m → OneByOne (fun a b => cmpRows a b = .eq) l p →
    OneByOne (fun a b => cmpRows a b = .eq) l m
  | [], m, p, _, _, _, _, hp, he => by
    cases he
    rw [List.nil_perm.1 hp]
    exact .nil
  | a :: l, m, p, hl, hm, sl, sm, hp, he => by
    cases he with
    | cons _ a' _ p' haa' he =>
      cases m with
      | nil => exact absurd (List.perm_nil.1 hp) (by simp)
      | cons b m =>
        have hpS : ∀ x ∈ a' :: p', RowIn S x := fun x hx => hm x (hp.subset hx)
        have sa := hl a (by simp)
        have sb := hm b (by simp)
        have sa' := hpS a' (by simp)
        -- b is the same as an element of a :: l, so a is not greater than b
        obtain ⟨q, hq, hq'⟩ := OneByOne.perm (R := fun a b => cmpRows a b = .eq) hp.symm
          (show OneByOne _ (a' :: p') (a :: l) from by
            have : ∀ {l m : List Row}, OneByOne (fun a b => cmpRows a b = .eq) l m →
                OneByOne (fun a b => cmpRows a b = .eq) m l := by
              intro l m h
              induction h with
              | nil => exact .nil
              | cons _ _ _ _ h1 _ ih => exact .cons _ _ _ _ (cmpRows_symm h1) ih
            exact this (.cons _ _ _ _ haa' he))
        have hab : cmpRows a b ≠ .gt := by
          cases hq' with
          | cons _ c _ _ hbc _ =>
            have hc : c ∈ a :: l := hq.subset (by simp)
            have hac : cmpRows a c ≠ .gt := by
              rcases List.mem_cons.1 hc with rfl | hc
              · rw [cmpRows_self]; simp
              · exact (List.pairwise_cons.1 sl).1 c hc
            exact h.rows_trans sa (hl c hc) sb hac (by rw [cmpRows_symm hbc]; simp)
        have hba : cmpRows b a ≠ .gt := by
          have hba' : cmpRows b a' ≠ .gt := by
            rcases List.mem_cons.1 (hp.subset (List.mem_cons_self ..) : a' ∈ b :: m) with rfl | hx
            · rw [cmpRows_self]; simp
            · exact (List.pairwise_cons.1 sm).1 a' hx
          exact h.rows_trans sb sa' sa hba' (by rw [cmpRows_symm haa']; simp)
        have heq := cmpRows_antisymm hab hba
        have hmS : ∀ x ∈ m, RowIn S x := fun x hx => hm x (List.mem_cons_of_mem _ hx)
        have hlS : ∀ x ∈ l, RowIn S x := fun x hx => hl x (List.mem_cons_of_mem _ hx)
        have hba' : cmpRows b a' = .eq :=
          h.rows_eq_trans sb sa sa' (cmpRows_symm heq) haa'
        have goal : ∃ p, p.Perm m ∧ OneByOne (fun a b => cmpRows a b = .eq) l p := by
          by_cases e : a' = b
          · subst e
            exact ⟨p', hp.cons_inv, he⟩
          · have hmem : a' ∈ m := by
              rcases List.mem_cons.1 (hp.subset (List.mem_cons_self ..) : a' ∈ b :: m) with e' | hx
              · exact absurd e' e
              · exact hx
            have hp1 : m.Perm (a' :: m.erase a') := List.perm_cons_erase hmem
            have hp2 : p'.Perm (b :: m.erase a') := by
              refine (List.Perm.cons_inv (a := a') ?_)
              exact hp.trans ((hp1.cons b).trans (.swap _ _ _))
            obtain ⟨q, hq, hq'⟩ := OneByOne.perm (R := fun a b => cmpRows a b = .eq) hp2
              (show OneByOne _ (b :: m.erase a') (a' :: m.erase a') from
                .cons _ _ _ _ hba' (.refl cmpRows_self))
            refine ⟨q, hq.trans hp1.symm, ?_⟩
            exact he.trans (P := RowIn S) (fun a b c ha hb hc h1 h2 => h.rows_eq_trans ha hb hc h1 h2) hlS
              (fun x hx => hpS x (List.mem_cons_of_mem _ hx))
              (fun x hx => hmS x ((hq.trans hp1.symm).subset hx)) hq'
        obtain ⟨p2, hp2, he2⟩ := goal
        exact .cons _ _ _ _ heq (h.sorted_unique hlS hmS (List.pairwise_cons.1 sl).2
          (List.pairwise_cons.1 sm).2 hp2 he2)

theorem lessRows_false {a b : Row} : lessRows b a = false ↔ cmpRows a b ≠ .gt := by
  unfold lessRows
  rw [compareRows_eq, cmpRows_swap a b]
  cases cmpRows a b <;> simp

theorem Comparable.sort (h : Comparable S) (s : SortSlice) {rows : List Row}
    (hr : ∀ a ∈ rows, RowIn S a) :
    (s.sort lessRows rows).Pairwise fun a b => cmpRows a b ≠ .gt := by
  have := s.sorted lessRows rows ?_ ?_
  · exact this.imp lessRows_false.1
  · intro a _ b _ hab
    rw [lessRows_false]
    unfold lessRows at hab
    rw [compareRows_eq] at hab
    intro hgt
    rw [hgt] at hab
    cases hab
  · intro a ha b hb c hc h1 h2
    rw [lessRows_false] at h1 h2 ⊢
    exact h.rows_trans (hr a ha) (hr b hb) (hr c hc) h1 h2

theorem sameRows_iff : ∀ {l m : List Row}, l.length = m.length →
    (sameRows l m = true ↔ OneByOne (fun a b => cmpRows a b = .eq) l m)
  | [], [], _ => ⟨fun _ => .nil, fun _ => rfl⟩
  | [], _ :: _, e => by cases e
  | _ :: _, [], e => by cases e
  | a :: l, b :: m, e => by
    rw [sameRows, compareRows_eq, Bool.and_eq_true, sameRows_iff (l := l) (m := m) (by simpa using e)]
    constructor
    · rintro ⟨h1, h2⟩
      exact .cons _ _ _ _ (by simpa using h1) h2
    · intro h
      cases h with
      | cons _ _ _ _ h1 h2 => exact ⟨by simpa using h1, h2⟩

theorem Spec.OneByOne.imp {α : Type} {R Q : α → α → Prop} {l m : List α} (h : OneByOne R l m) :
    (∀ a ∈ l, ∀ b ∈ m, R a b → Q a b) → OneByOne Q l m := by
  induction h with
  | nil => intro _; exact .nil
  | cons a b l m hab _ ih =>
    intro hq
    exact .cons _ _ _ _ (hq a (by simp) b (by simp) hab)
      (ih fun x hx y hy => hq x (List.mem_cons_of_mem _ hx) y (List.mem_cons_of_mem _ hy))

theorem Comparable.sameRows (h : Comparable S) {l m : List Row} (hl : ∀ a ∈ l, RowIn S a)
    (hm : ∀ a ∈ m, RowIn S a) :
    OneByOne (fun a b => cmpRows a b = .eq) l m ↔ SameRows l m :=
  ⟨fun e => e.imp fun a ha b hb => (h.same (hl a ha) (hm b hb)).1,
    fun e => OneByOne.imp e fun a ha b hb => (h.same (hl a ha) (hm b hb)).2⟩

theorem Comparable.unordered (h : Comparable S) (s : SortSlice) {rows1 rows2 : List Row}
    (h1 : ∀ a ∈ rows1, RowIn S a) (h2 : ∀ a ∈ rows2, RowIn S a) :
    (rowsEqual s rows1 rows2 true).1 = true ↔ SameUnordered rows1 rows2 := by
  have p1 := s.perm lessRows rows1
  have p2 := s.perm lessRows rows2
  unfold rowsEqual
  by_cases hlen : rows1.length = rows2.length
  · rw [if_neg (by simp [hlen])]
    simp only [if_true]
    rw [sameRows_iff (by rw [p1.length_eq, p2.length_eq, hlen])]
    constructor
    · intro e
      obtain ⟨m, hm, e⟩ := OneByOne.perm p1.symm e
      have hm2 := hm.trans p2
      exact ⟨m, hm2, (h.sameRows h1 fun a ha => h2 a (hm2.subset ha)).1 e⟩
    · rintro ⟨m, hm, e⟩
      have e := (h.sameRows h1 fun a ha => h2 a (hm.subset ha)).2 e
      obtain ⟨m', hm', e'⟩ := OneByOne.perm p1 e
      exact h.sorted_unique (fun a ha => h1 a (p1.subset ha)) (fun a ha => h2 a (p2.subset ha))
        (h.sort s h1) (h.sort s h2) ((hm'.trans hm).trans p2.symm) e'
  · rw [if_pos hlen]
    constructor
    · intro e; cases e
    · rintro ⟨m, hm, e⟩
      exact absurd (e.length.trans hm.length_eq) hlen

theorem Comparable.ordered (h : Comparable S) (s : SortSlice) {rows1 rows2 : List Row}
    (h1 : ∀ a ∈ rows1, RowIn S a) (h2 : ∀ a ∈ rows2, RowIn S a) :
    (rowsEqual s rows1 rows2 false).1 = true ↔ SameRows rows1 rows2 := by
  unfold rowsEqual
  by_cases hlen : rows1.length = rows2.length
  · rw [if_neg (by simp [hlen])]
    simp only [Bool.false_eq_true, if_false]
    rw [sameRows_iff hlen, h.sameRows h1 h2]
  · rw [if_pos hlen]
    exact ⟨fun e => (by cases e), fun e => absurd e.length hlen⟩

theorem valueOrder_eq_exact {v w : Option Value} (hv : ¬ IsFloat v) (hw : ¬ IsFloat w) :
    valueOrder v w = .eq ↔ v = w := by
  rw [← cmp_eq_valueOrder (by cases v with
    | none => trivial
    | some v => cases v <;> first | trivial | exact absurd trivial hv) (by cases w with
    | none => trivial
    | some w => cases w <;> first | trivial | exact absurd trivial hw) (.inr ⟨hv, hw⟩)]
  constructor
  · intro h
    cases v with
    | none =>
      cases w with
      | none => rfl
      | some w => cases w <;> simp [cmp, sqlRank] at h <;> cases h
    | some v =>
      cases w with
      | none => cases v <;> simp [cmp, sqlRank] at h <;> cases h
      | some w =>
        cases v <;> cases w <;> simp only [cmp, sqlRank] at h <;>
          first
            | (exact absurd trivial hv)
            | (exact absurd trivial hw)
            | (rw [bytesCompare_eq_iff] at h; rw [h])
            | (rw [Int.compare_eq_eq] at h; rw [BitVec.eq_of_toInt_eq h])
            | (rename_i a b; cases a <;> cases b <;> first | rfl | (cases h; done))
            | (cases h; done)
  · rintro rfl
    exact cmp_self v

theorem sameRow_exact {a b : Row} (ha : ∀ v ∈ a, ¬ IsFloat v) (hb : ∀ v ∈ b, ¬ IsFloat v) :
    SameRow a b ↔ a = b := by
  constructor
  · intro h
    unfold SameRow at h
    induction h with
    | nil => rfl
    | cons v w a b h1 _ ih =>
      rw [(valueOrder_eq_exact (ha v (by simp)) (hb w (by simp))).1 h1,
        ih (fun v hv => ha v (List.mem_cons_of_mem _ hv)) (fun v hv => hb v (List.mem_cons_of_mem _ hv))]
  · rintro rfl
    induction a with
    | nil => exact .nil
    | cons v a ih =>
      exact .cons _ _ _ _ ((valueOrder_eq_exact (ha v (by simp)) (ha v (by simp))).2 rfl)
        (ih (fun v hv => ha v (List.mem_cons_of_mem _ hv)) (fun v hv => hb v (List.mem_cons_of_mem _ hv)))

theorem sameRows_exact {l m : List Row} (hl : ∀ a ∈ l, ∀ v ∈ a, ¬ IsFloat v)
    (hm : ∀ a ∈ m, ∀ v ∈ a, ¬ IsFloat v) : SameRows l m ↔ l = m := by
  constructor
  · intro h
    unfold SameRows at h
    induction h with
    | nil => rfl
    | cons a b l m h1 _ ih =>
      rw [(sameRow_exact (hl a (by simp)) (hm b (by simp))).1 h1,
        ih (fun v hv => hl v (List.mem_cons_of_mem _ hv)) (fun v hv => hm v (List.mem_cons_of_mem _ hv))]
  · rintro rfl
    induction l with
    | nil => exact .nil
    | cons a l ih =>
      exact .cons _ _ _ _ ((sameRow_exact (hl a (by simp)) (hl a (by simp))).2 rfl)
        (ih (fun v hv => hl v (List.mem_cons_of_mem _ hv)) (fun v hv => hm v (List.mem_cons_of_mem _ hv)))

theorem sameUnordered_exact {l m : List Row} (hl : ∀ a ∈ l, ∀ v ∈ a, ¬ IsFloat v)
    (hm : ∀ a ∈ m, ∀ v ∈ a, ¬ IsFloat v) : SameUnordered l m ↔ l.Perm m := by
  constructor
  · rintro ⟨k, hk, h⟩
    rw [(sameRows_exact hl fun a ha => hm a (hk.subset ha)).1 h]
    exact hk
  · intro h
    exact ⟨l, h, (sameRows_exact hl hl).2 rfl⟩

end Maho
