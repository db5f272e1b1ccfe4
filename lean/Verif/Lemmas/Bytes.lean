import Verif.Model.Basic
/-
Lemmas about `bytesCompare`.
-/
namespace Maho

theorem byte_ext {a b : Byte} (h : a.toNat = b.toNat) : a = b := BitVec.eq_of_toNat_eq h

@[simp] theorem bytesCompare_nil_nil : bytesCompare [] [] = .eq := rfl
@[simp] theorem bytesCompare_nil_cons (b bs) : bytesCompare [] (b :: bs) = .lt := rfl
@[simp] theorem bytesCompare_cons_nil (b bs) : bytesCompare (b :: bs) [] = .gt := rfl

theorem bytesCompare_cons (a b : Byte) (as bs : Bytes) :
    bytesCompare (a :: as) (b :: bs) = (compare a.toNat b.toNat).then (bytesCompare as bs) := by
  conv => lhs; unfold bytesCompare
  by_cases h1 : a.toNat < b.toNat
  · rw [if_pos h1, Nat.compare_eq_lt.2 h1]; rfl
  · by_cases h2 : b.toNat < a.toNat
    · rw [if_neg h1, if_pos h2, Nat.compare_eq_gt.2 h2]; rfl
    · have : a.toNat = b.toNat := by omega
      rw [if_neg h1, if_neg h2, Nat.compare_eq_eq.2 this]; rfl

theorem bytesCompare_cons_same (a : Byte) (as bs : Bytes) :
    bytesCompare (a :: as) (a :: bs) = bytesCompare as bs := by
  rw [bytesCompare_cons, Nat.compare_eq_eq.2 rfl]; rfl

theorem bytesCompare_cons_lt {a b : Byte} (h : a.toNat < b.toNat) (as bs : Bytes) :
    bytesCompare (a :: as) (b :: bs) = .lt := by
  rw [bytesCompare_cons, Nat.compare_eq_lt.2 h]; rfl

theorem bytesCompare_cons_gt {a b : Byte} (h : b.toNat < a.toNat) (as bs : Bytes) :
    bytesCompare (a :: as) (b :: bs) = .gt := by
  rw [bytesCompare_cons, Nat.compare_eq_gt.2 h]; rfl

theorem bytesCompare_self (a : Bytes) : bytesCompare a a = .eq := by
  induction a with
  | nil => rfl
  | cons x xs ih => rw [bytesCompare_cons_same, ih]

theorem bytesCompare_append (p a b : Bytes) :
    bytesCompare (p ++ a) (p ++ b) = bytesCompare a b := by
  induction p with
  | nil => rfl
  | cons x xs ih => rw [List.cons_append, List.cons_append, bytesCompare_cons_same, ih]

theorem bytesCompare_eq_iff {a b : Bytes} : bytesCompare a b = .eq ↔ a = b := by
  induction a generalizing b with
  | nil => cases b <;> simp
  | cons x xs ih =>
    cases b with
    | nil => simp
    | cons y ys =>
      rw [bytesCompare_cons]
      rcases Nat.lt_trichotomy x.toNat y.toNat with h | h | h
      · rw [Nat.compare_eq_lt.2 h]
        simp only [Ordering.lt_then, reduceCtorEq, List.cons.injEq, false_iff, not_and]
        intro e; subst e; omega
      · have e := byte_ext h
        subst e
        rw [Nat.compare_eq_eq.2 rfl]
        simp [ih]
      · rw [Nat.compare_eq_gt.2 h]
        simp only [Ordering.gt_then, reduceCtorEq, List.cons.injEq, false_iff, not_and]
        intro e; subst e; omega

theorem bytesCompare_swap (a b : Bytes) : (bytesCompare a b).swap = bytesCompare b a := by
  induction a generalizing b with
  | nil => cases b <;> rfl
  | cons x xs ih =>
    cases b with
    | nil => rfl
    | cons y ys =>
      rw [bytesCompare_cons, bytesCompare_cons, Ordering.swap_then, ih, Nat.compare_swap]

theorem bytesCompare_gt_iff {a b : Bytes} : bytesCompare a b = .gt ↔ bytesCompare b a = .lt := by
  rw [← bytesCompare_swap b a]; cases bytesCompare b a <;> simp [Ordering.swap]

theorem bytesCompare_lt_trans {a b c : Bytes} (h1 : bytesCompare a b = .lt)
    (h2 : bytesCompare b c = .lt) : bytesCompare a c = .lt := by
  induction a generalizing b c with
  | nil =>
    cases b with
    | nil => simp at h1
    | cons y ys => cases c with
      | nil => simp at h2
      | cons z zs => rfl
  | cons x xs ih =>
    cases b with
    | nil => simp at h1
    | cons y ys =>
      cases c with
      | nil => simp at h2
      | cons z zs =>
        rw [bytesCompare_cons] at h1 h2 ⊢
        rw [Ordering.then_eq_lt] at h1 h2 ⊢
        simp only [Nat.compare_eq_lt, Nat.compare_eq_eq] at h1 h2 ⊢
        rcases h1 with h1 | ⟨h1, h1'⟩
        · rcases h2 with h2 | ⟨h2, h2'⟩ <;> left <;> omega
        · rcases h2 with h2 | ⟨h2, h2'⟩
          · left; omega
          · right; exact ⟨by omega, ih h1' h2'⟩

theorem bytesCompare_lt_irrefl (a : Bytes) : bytesCompare a a ≠ .lt := by
  rw [bytesCompare_self]; decide

/-- Trichotomy. -/
theorem bytesCompare_cases (a b : Bytes) :
    bytesCompare a b = .lt ∨ a = b ∨ bytesCompare b a = .lt := by
  cases h : bytesCompare a b with
  | lt => left; rfl
  | eq => right; left; exact bytesCompare_eq_iff.1 h
  | gt => right; right; exact bytesCompare_gt_iff.1 h

end Maho
