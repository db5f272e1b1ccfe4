import Verif.Model.Parse
/-
Equality of syntax trees is decidable.
-/
set_option linter.unusedSimpArgs false
namespace Maho

mutual

def Expr.same : Expr → Expr → Bool
  | .lit v, .lit v' => v == v'
  | .ref id ids, .ref id' ids' => id == id' && ids == ids'
  | .call n l, .call n' l' => n == n' && Expr.sameAll l l'
  | .unary op e, .unary op' e' => op == op' && e.same e'
  | .binary op l r, .binary op' l' r' => op == op' && l.same l' && r.same r'
  | .subquery op eo e q, .subquery op' eo' e' q' =>
    op == op' && eo == eo' && Expr.sameOpt e e' && q.same q'
  | _, _ => false

def Expr.sameOpt : Option Expr → Option Expr → Bool
  | none, none => true
  | some e, some e' => e.same e'
  | _, _ => false

def Expr.sameAll : List Expr → List Expr → Bool
  | [], [] => true
  | e :: l, e' :: l' => e.same e' && Expr.sameAll l l'
  | _, _ => false

def Expr.sameRows : List (List Expr) → List (List Expr) → Bool
  | [], [] => true
  | r :: l, r' :: l' => Expr.sameAll r r' && Expr.sameRows l l'
  | _, _ => false

def FromItem.same : FromItem → FromItem → Bool
  | .table tn a, .table tn' a' => tn == tn' && a == a'
  | .index tn i a, .index tn' i' a' => tn == tn' && i == i' && a == a'
  | .stmt q a c, .stmt q' a' c' => q.same q' && a == a' && c == c'
  | .join l r t o c, .join l' r' t' o' c' =>
    l.same l' && r.same r' && t == t' && Expr.sameOpt o o' && c == c'
  | _, _ => false

def FromItem.sameOpt : Option FromItem → Option FromItem → Bool
  | none, none => true
  | some e, some e' => e.same e'
  | _, _ => false

def SelectResult.same : SelectResult → SelectResult → Bool
  | .table t, .table t' => t == t'
  | .expr e a, .expr e' a' => e.same e' && a == a'
  | _, _ => false

def SelectResult.sameAll : List SelectResult → List SelectResult → Bool
  | [], [] => true
  | e :: l, e' :: l' => e.same e' && SelectResult.sameAll l l'
  | _, _ => false

def Query.same : Query → Query → Bool
  | .select r f c g h o, .select r' f' c' g' h' o' =>
    SelectResult.sameAll r r' && FromItem.sameOpt f f' && Expr.sameOpt c c' && Expr.sameAll g g' &&
      Expr.sameOpt h h' && o == o'
  | .values rows, .values rows' => Expr.sameRows rows rows'
  | .show v, .show v' => v == v'
  | _, _ => false

end

mutual

theorem Expr.same_eq : ∀ (a b : Expr), a.same b = true → a = b
  | .lit v, b, h => by cases b <;> simp_all [Expr.same]
  | .ref id ids, b, h => by cases b <;> simp_all [Expr.same]
  | .call n l, b, h => by
    cases b <;> simp_all [Expr.same]
    exact Expr.sameAll_eq l _ h.2
  | .unary op e, b, h => by
    cases b <;> simp_all [Expr.same]
    exact Expr.same_eq e _ h.2
  | .binary op l r, b, h => by
    cases b <;> simp_all [Expr.same]
    exact ⟨Expr.same_eq l _ h.1.2, Expr.same_eq r _ h.2⟩
  | .subquery op eo e q, b, h => by
    cases b <;> simp_all [Expr.same]
    exact ⟨Expr.sameOpt_eq e _ h.1.2, Query.same_eq q _ h.2⟩

theorem Expr.sameOpt_eq : ∀ (a b : Option Expr), Expr.sameOpt a b = true → a = b
  | none, b, h => by cases b <;> simp_all [Expr.sameOpt]
  | some e, b, h => by
    cases b <;> simp_all [Expr.sameOpt]
    exact Expr.same_eq e _ h

theorem Expr.sameAll_eq : ∀ (a b : List Expr), Expr.sameAll a b = true → a = b
  | [], b, h => by cases b <;> simp_all [Expr.sameAll]
  | e :: l, b, h => by
    cases b <;> simp_all [Expr.sameAll]
    exact ⟨Expr.same_eq e _ h.1, Expr.sameAll_eq l _ h.2⟩

theorem Expr.sameRows_eq : ∀ (a b : List (List Expr)), Expr.sameRows a b = true → a = b
  | [], b, h => by cases b <;> simp_all [Expr.sameRows]
  | e :: l, b, h => by
    cases b <;> simp_all [Expr.sameRows]
    exact ⟨Expr.sameAll_eq e _ h.1, Expr.sameRows_eq l _ h.2⟩

theorem FromItem.same_eq : ∀ (a b : FromItem), a.same b = true → a = b
  | .table tn a, b, h => by cases b <;> simp_all [FromItem.same]
  | .index tn i a, b, h => by cases b <;> simp_all [FromItem.same]
  | .stmt q a c, b, h => by
    cases b <;> simp_all [FromItem.same]
    exact Query.same_eq q _ h.1.1
  | .join l r t o c, b, h => by
    cases b <;> simp_all [FromItem.same]
    exact ⟨FromItem.same_eq l _ h.1.1.1.1, FromItem.same_eq r _ h.1.1.1.2, Expr.sameOpt_eq o _ h.1.2⟩

theorem FromItem.sameOpt_eq : ∀ (a b : Option FromItem), FromItem.sameOpt a b = true → a = b
  | none, b, h => by cases b <;> simp_all [FromItem.sameOpt]
  | some e, b, h => by
    cases b <;> simp_all [FromItem.sameOpt]
    exact FromItem.same_eq e _ h

theorem SelectResult.same_eq : ∀ (a b : SelectResult), a.same b = true → a = b
  | .table t, b, h => by cases b <;> simp_all [SelectResult.same]
  | .expr e a, b, h => by
    cases b <;> simp_all [SelectResult.same]
    exact Expr.same_eq e _ h.1

theorem SelectResult.sameAll_eq : ∀ (a b : List SelectResult),
    SelectResult.sameAll a b = true → a = b
  | [], b, h => by cases b <;> simp_all [SelectResult.sameAll]
  | e :: l, b, h => by
    cases b <;> simp_all [SelectResult.sameAll]
    exact ⟨SelectResult.same_eq e _ h.1, SelectResult.sameAll_eq l _ h.2⟩

theorem Query.same_eq : ∀ (a b : Query), a.same b = true → a = b
  | .select r f c g h' o, b, h => by
    cases b <;> simp_all [Query.same]
    exact ⟨SelectResult.sameAll_eq r _ h.1.1.1.1.1, FromItem.sameOpt_eq f _ h.1.1.1.1.2,
      Expr.sameOpt_eq c _ h.1.1.1.2, Expr.sameAll_eq g _ h.1.1.2, Expr.sameOpt_eq h' _ h.1.2⟩
  | .values rows, b, h => by
    cases b <;> simp_all [Query.same]
    exact Expr.sameRows_eq rows _ h
  | .show v, b, h => by cases b <;> simp_all [Query.same]

end

mutual

theorem Expr.same_refl : ∀ (a : Expr), a.same a = true
  | .lit v => by simp [Expr.same]
  | .ref id ids => by simp [Expr.same]
  | .call n l => by simp [Expr.same, Expr.sameAll_refl l]
  | .unary op e => by simp [Expr.same, Expr.same_refl e]
  | .binary op l r => by simp [Expr.same, Expr.same_refl l, Expr.same_refl r]
  | .subquery op eo e q => by simp [Expr.same, Expr.sameOpt_refl e, Query.same_refl q]

theorem Expr.sameOpt_refl : ∀ (a : Option Expr), Expr.sameOpt a a = true
  | none => by simp [Expr.sameOpt, FromItem.sameOpt]
  | some e => by simp [Expr.sameOpt, Expr.same_refl e]

theorem Expr.sameAll_refl : ∀ (a : List Expr), Expr.sameAll a a = true
  | [] => by simp [Expr.sameAll, Expr.sameRows, SelectResult.sameAll]
  | e :: l => by simp [Expr.sameAll, Expr.same_refl e, Expr.sameAll_refl l]

theorem Expr.sameRows_refl : ∀ (a : List (List Expr)), Expr.sameRows a a = true
  | [] => by simp [Expr.sameAll, Expr.sameRows, SelectResult.sameAll]
  | e :: l => by simp [Expr.sameRows, Expr.sameAll_refl e, Expr.sameRows_refl l]

theorem FromItem.same_refl : ∀ (a : FromItem), a.same a = true
  | .table tn a => by simp [FromItem.same]
  | .index tn i a => by simp [FromItem.same]
  | .stmt q a c => by simp [FromItem.same, Query.same_refl q]
  | .join l r t o c => by
    simp [FromItem.same, FromItem.same_refl l, FromItem.same_refl r, Expr.sameOpt_refl o]

theorem FromItem.sameOpt_refl : ∀ (a : Option FromItem), FromItem.sameOpt a a = true
  | none => by simp [Expr.sameOpt, FromItem.sameOpt]
  | some e => by simp [FromItem.sameOpt, FromItem.same_refl e]

theorem SelectResult.same_refl : ∀ (a : SelectResult), a.same a = true
  | .table t => by simp [SelectResult.same]
  | .expr e a => by simp [SelectResult.same, Expr.same_refl e]

theorem SelectResult.sameAll_refl : ∀ (a : List SelectResult), SelectResult.sameAll a a = true
  | [] => by simp [Expr.sameAll, Expr.sameRows, SelectResult.sameAll]
  | e :: l => by simp [SelectResult.sameAll, SelectResult.same_refl e, SelectResult.sameAll_refl l]

theorem Query.same_refl : ∀ (a : Query), a.same a = true
  | .select r f c g h o => by
    simp [Query.same, SelectResult.sameAll_refl r, FromItem.sameOpt_refl f, Expr.sameOpt_refl c,
      Expr.sameAll_refl g, Expr.sameOpt_refl h]
  | .values rows => by simp [Query.same, Expr.sameRows_refl rows]
  | .show v => by simp [Query.same]

end

instance : DecidableEq Expr := fun a b =>
  if h : a.same b = true then isTrue (Expr.same_eq a b h)
  else isFalse fun e => h (e ▸ Expr.same_refl a)

instance : DecidableEq Query := fun a b =>
  if h : a.same b = true then isTrue (Query.same_eq a b h)
  else isFalse fun e => h (e ▸ Query.same_refl a)

deriving instance DecidableEq for Constraint
deriving instance DecidableEq for CreateTable
deriving instance DecidableEq for Stmt
deriving instance DecidableEq for Parsed

end Maho
