import Verif.Model.Parse
import Verif.Spec.Expr
/-
Helper lemmas about `adjustPrecedence`.
-/
namespace Maho
open Maho.Spec

/-- The precedence of the root; more than any precedence for what is not a `BinaryExpr`. -/
def rootPrec : Expr → Nat
  | .binary op _ _ => opPrecedence op
  | _ => 100

theorem rootPrec_binary {op : SqlOp} {l r : Expr} :
    rootPrec (.binary op l r) = opPrecedence op := rfl

theorem opPrecedence_lt (op : SqlOp) : opPrecedence op < 100 := by cases op <;> decide

mutual

/-- No rotation applies anywhere `adjustPrecedence` looks. -/
def Stable : Expr → Prop
  | .unary op e => Stable e ∧ (op ≠ .noOp → opPrecedence op ≤ rootPrec e)
  | .binary op l r =>
    Stable l ∧ Stable r ∧ opPrecedence op ≤ rootPrec l ∧ opPrecedence op < rootPrec r
  | .call _ args => StableList args
  | .lit _ => True
  | .ref _ _ => True
  | .subquery _ _ _ _ => True

def StableList : List Expr → Prop
  | [] => True
  | e :: l => Stable e ∧ StableList l

end

theorem nodes_pos (e : Expr) : 0 < e.nodes := by cases e <;> simp [Expr.nodes]

section steps

variable {n : Nat} {op bop : SqlOp} {e e1 l l1 r r1 a b : Expr}

theorem adj_unary (h : adjustPrecedence n e = some e1)
    (h1 : op ≠ .noOp → opPrecedence op ≤ rootPrec e1) :
    adjustPrecedence (n + 1) (.unary op e) = some (.unary op e1) := by
  simp only [adjustPrecedence, h]
  split
  · rfl
  · rename_i hop
    have := h1 hop
    cases e1 with
    | binary bop l r =>
      simp only [rootPrec] at this
      simp only
      rw [if_neg (by omega)]
    | _ => rfl

theorem adj_unary_rot (h : adjustPrecedence n e = some (.binary bop a b)) (hop : op ≠ .noOp)
    (h1 : opPrecedence bop < opPrecedence op) :
    adjustPrecedence (n + 1) (.unary op e) =
      adjustPrecedence n (.binary bop (.unary op a) b) := by
  simp only [adjustPrecedence, h]
  rw [if_neg hop, if_pos h1]

theorem adj_binary (hl : adjustPrecedence n l = some l1) (hr : adjustPrecedence n r = some r1)
    (h1 : opPrecedence op ≤ rootPrec l1) (h2 : opPrecedence op < rootPrec r1) :
    adjustPrecedence (n + 1) (.binary op l r) = some (.binary op l1 r1) := by
  simp only [adjustPrecedence, hl, hr]
  have key : (match l1 with
      | .binary cop cl cr =>
        if opPrecedence cop < opPrecedence op then
          adjustPrecedence n (.binary cop cl (.binary op cr r1))
        else some (.binary op l1 r1)
      | _ => some (.binary op l1 r1)) = some (.binary op l1 r1) := by
    cases l1 with
    | binary cop cl cr =>
      simp only [rootPrec] at h1
      exact if_neg (by omega)
    | _ => rfl
  cases r1 with
  | binary b bl br =>
    simp only [rootPrec] at h2
    simp only
    rw [if_neg (by omega)]
    exact key
  | _ => exact key

theorem adj_binary_right (hl : adjustPrecedence n l = some l1)
    (hr : adjustPrecedence n r = some (.binary bop a b))
    (h : opPrecedence bop ≤ opPrecedence op) :
    adjustPrecedence (n + 1) (.binary op l r) =
      adjustPrecedence n (.binary bop (.binary op l1 a) b) := by
  simp only [adjustPrecedence, hl, hr]
  rw [if_pos h]

theorem adj_binary_left (hl : adjustPrecedence n l = some (.binary bop a b))
    (hr : adjustPrecedence n r = some r1)
    (h : opPrecedence bop < opPrecedence op) (h2 : opPrecedence op < rootPrec r1) :
    adjustPrecedence (n + 1) (.binary op l r) =
      adjustPrecedence n (.binary bop a (.binary op b r1)) := by
  simp only [adjustPrecedence, hl, hr]
  cases r1 with
  | binary c bl br =>
    simp only [rootPrec] at h2
    simp only
    rw [if_neg (by omega), if_pos h]
  | _ =>
    simp only
    rw [if_pos h]

end steps

theorem mapM_option {α β : Type} (f : α → Option β) :
    ∀ (l : List α) (g : α → β), (∀ a ∈ l, f a = some (g a)) → l.mapM f = some (l.map g)
  | [], _, _ => by simp
  | a :: l, g, h => by
    have h1 := h a (by simp)
    have h2 := mapM_option f l g (fun b hb => h b (by simp [hb]))
    simp [List.mapM_cons, h1, h2]

mutual

/-- A stable expression stays as it is. -/
theorem adj_stable : ∀ (e : Expr) (n : Nat), Stable e → e.nodes ≤ n →
    adjustPrecedence n e = some e
  | .lit v, n, _, h => by
    obtain ⟨m, rfl⟩ : ∃ m, n = m + 1 := ⟨n - 1, by simp [Expr.nodes] at h; omega⟩
    simp [adjustPrecedence]
  | .ref i is, n, _, h => by
    obtain ⟨m, rfl⟩ : ∃ m, n = m + 1 := ⟨n - 1, by simp [Expr.nodes] at h; omega⟩
    simp [adjustPrecedence]
  | .subquery op x o q, n, _, h => by
    obtain ⟨m, rfl⟩ : ∃ m, n = m + 1 := ⟨n - 1, by simp [Expr.nodes] at h; omega⟩
    simp [adjustPrecedence]
  | .unary op e, n, hs, h => by
    simp only [Expr.nodes] at h
    obtain ⟨m, rfl⟩ : ∃ m, n = m + 1 := ⟨n - 1, by omega⟩
    simp only [Stable] at hs
    exact adj_unary (adj_stable e m hs.1 (by omega)) hs.2
  | .binary op l r, n, hs, h => by
    simp only [Expr.nodes] at h
    obtain ⟨m, rfl⟩ : ∃ m, n = m + 1 := ⟨n - 1, by omega⟩
    simp only [Stable] at hs
    exact adj_binary (adj_stable l m hs.1 (by omega)) (adj_stable r m hs.2.1 (by omega)) hs.2.2.1
      hs.2.2.2
  | .call name args, n, hs, h => by
    simp only [Expr.nodes] at h
    obtain ⟨m, rfl⟩ : ∃ m, n = m + 1 := ⟨n - 1, by omega⟩
    simp only [Stable] at hs
    simp only [adjustPrecedence, adj_stableList args m hs (by omega)]

theorem adj_stableList : ∀ (l : List Expr) (n : Nat), StableList l → Expr.nodesList l ≤ n →
    l.mapM (adjustPrecedence n) = some l
  | [], n, _, _ => by simp
  | e :: l, n, hs, h => by
    simp only [StableList] at hs
    simp only [Expr.nodesList] at h
    simp [List.mapM_cons, adj_stable e n hs.1 (by omega), adj_stableList l n hs.2 (by omega)]

end

/-- A prefix operator in front of a stable expression. -/
theorem adj_prefix (op : SqlOp) : ∀ (N : Nat) (e : Expr) (n : Nat), e.nodes ≤ N → Stable e →
    e.nodes + 1 ≤ n →
    ∃ e', adjustPrecedence n (.unary op e) = some e' ∧ Stable e' ∧ e'.nodes = e.nodes + 1 ∧
      rootPrec e ≤ rootPrec e'
  | 0, e, _, h, _, _ => absurd h (by have := nodes_pos e; omega)
  | N + 1, e, n, hN, hs, h => by
    obtain ⟨m, rfl⟩ : ∃ m, n = m + 1 := ⟨n - 1, by omega⟩
    have he := adj_stable e m hs (by omega)
    by_cases h1 : op ≠ .noOp → opPrecedence op ≤ rootPrec e
    · refine ⟨_, adj_unary he h1, ?_, by simp [Expr.nodes], ?_⟩
      · simp only [Stable]
        exact ⟨hs, h1⟩
      · cases e with
        | binary b _ _ => have := opPrecedence_lt b; simp only [rootPrec]; omega
        | _ => simp [rootPrec]
    · have hop : op ≠ .noOp := fun h => h1 (fun h2 => absurd h h2)
      have h2 : rootPrec e < opPrecedence op := by
        rcases Nat.lt_or_ge (rootPrec e) (opPrecedence op) with h | h
        · exact h
        · exact absurd (fun _ => h) h1
      cases e with
      | binary bop l r =>
        simp only [rootPrec] at h2
        simp only [Expr.nodes] at hN h
        simp only [Stable] at hs
        have := nodes_pos l
        have := nodes_pos r
        obtain ⟨k, rfl⟩ : ∃ k, m = k + 1 := ⟨m - 1, by omega⟩
        obtain ⟨l', g1, g2, g3, g4⟩ := adj_prefix op N l k (by omega) hs.1 (by omega)
        have hr := adj_stable r k hs.2.1 (by omega)
        refine ⟨.binary bop l' r, ?_, ?_, ?_, ?_⟩
        · rw [adj_unary_rot he hop h2]
          exact adj_binary g1 hr (by omega) hs.2.2.2
        · simp only [Stable]
          exact ⟨g2, hs.2.1, by omega, hs.2.2.2⟩
        · simp only [Expr.nodes]
          omega
        · simp [rootPrec]
      | _ =>
        have := opPrecedence_lt op
        simp only [rootPrec] at h2
        omega

/-- An operator between two stable expressions. -/
theorem adj_infix : ∀ (N : Nat) (op : SqlOp) (l r : Expr) (n : Nat), l.nodes + r.nodes ≤ N →
    Stable l → Stable r → 2 * (l.nodes + r.nodes + 1) ≤ n →
    ∃ e', adjustPrecedence n (.binary op l r) = some e' ∧ Stable e' ∧
      e'.nodes = l.nodes + r.nodes + 1 ∧
      (opPrecedence op ≤ rootPrec e' ∨ rootPrec l ≤ rootPrec e' ∨ rootPrec r ≤ rootPrec e')
  | 0, _, l, _, _, h, _, _, _ => absurd h (by have := nodes_pos l; omega)
  | N + 1, op, l, r, n, hN, hl, hr, h => by
    obtain ⟨m, rfl⟩ : ∃ m, n = m + 1 := ⟨n - 1, by omega⟩
    have al := adj_stable l m hl (by omega)
    have ar := adj_stable r m hr (by omega)
    have := nodes_pos l
    have := nodes_pos r
    have hlt := opPrecedence_lt op
    by_cases c1 : opPrecedence op < rootPrec r
    · by_cases c2 : opPrecedence op ≤ rootPrec l
      · refine ⟨_, adj_binary al ar c2 c1, ?_, by simp [Expr.nodes], Or.inl (by simp [rootPrec])⟩
        simp only [Stable]
        exact ⟨hl, hr, c2, c1⟩
      · cases l with
        | binary cop cl cr =>
          simp only [rootPrec] at c2
          simp only [Expr.nodes] at *
          simp only [Stable] at hl
          have := nodes_pos cl
          have := nodes_pos cr
          obtain ⟨k, rfl⟩ : ∃ k, m = k + 1 := ⟨m - 1, by omega⟩
          obtain ⟨r', g1, g2, g3, g4⟩ :=
            adj_infix N op cr r k (by omega) hl.2.1 hr (by omega)
          have acl := adj_stable cl k hl.1 (by omega)
          have hr' : opPrecedence cop < rootPrec r' := by omega
          refine ⟨.binary cop cl r', ?_, ?_, ?_, Or.inr (Or.inl (by simp [rootPrec]))⟩
          · rw [adj_binary_left al ar (by omega) c1]
            exact adj_binary acl g1 hl.2.2.1 hr'
          · simp only [Stable]
            exact ⟨hl.1, g2, hl.2.2.1, hr'⟩
          · simp only [Expr.nodes]
            omega
        | _ =>
          simp only [rootPrec] at c2
          omega
    · cases r with
      | binary bop bl br =>
        simp only [rootPrec] at c1
        simp only [Expr.nodes] at *
        simp only [Stable] at hr
        have := nodes_pos bl
        have := nodes_pos br
        obtain ⟨k, rfl⟩ : ∃ k, m = k + 1 := ⟨m - 1, by omega⟩
        obtain ⟨l', g1, g2, g3, g4⟩ := adj_infix N op l bl k (by omega) hl hr.1 (by omega)
        have abr := adj_stable br k hr.2.1 (by omega)
        rw [adj_binary_right al ar (by omega)]
        by_cases c3 : opPrecedence bop ≤ rootPrec l'
        · refine ⟨.binary bop l' br, adj_binary g1 abr c3 hr.2.2.2, ?_, ?_,
            Or.inr (Or.inr (by simp [rootPrec]))⟩
          · simp only [Stable]
            exact ⟨g2, hr.2.1, c3, hr.2.2.2⟩
          · simp only [Expr.nodes]
            omega
        · cases l' with
          | binary cop cl cr =>
            simp only [rootPrec_binary] at c3 g4
            simp only [Expr.nodes] at *
            simp only [Stable] at g2
            have := nodes_pos cl
            have := nodes_pos cr
            obtain ⟨j, rfl⟩ : ∃ j, k = j + 1 := ⟨k - 1, by omega⟩
            obtain ⟨r', f1, f2, f3, f4⟩ :=
              adj_infix N bop cr br j (by omega) g2.2.1 hr.2.1 (by omega)
            have acl := adj_stable cl j g2.1 (by omega)
            have hr' : opPrecedence cop < rootPrec r' := by omega
            rw [adj_binary_left g1 abr (by omega) hr.2.2.2]
            refine ⟨.binary cop cl r', adj_binary acl f1 g2.2.2.1 hr', ?_, ?_, ?_⟩
            · simp only [Stable]
              exact ⟨g2.1, f2, g2.2.2.1, hr'⟩
            · simp only [Expr.nodes]
              omega
            · simp only [rootPrec_binary]
              omega
          | _ =>
            simp only [rootPrec] at c3
            have := opPrecedence_lt bop
            omega
      | _ =>
        simp only [rootPrec] at c1
        omega

/-- The children are adjusted first. -/
theorem adj_unary_congr {n : Nat} {op : SqlOp} {e e1 : Expr} (h : adjustPrecedence n e = some e1)
    (h1 : adjustPrecedence n e1 = some e1) :
    adjustPrecedence (n + 1) (.unary op e) = adjustPrecedence (n + 1) (.unary op e1) := by
  simp only [adjustPrecedence, h, h1]

theorem adj_binary_congr {n : Nat} {op : SqlOp} {l l1 r r1 : Expr}
    (hl : adjustPrecedence n l = some l1) (hr : adjustPrecedence n r = some r1)
    (hl1 : adjustPrecedence n l1 = some l1) (hr1 : adjustPrecedence n r1 = some r1) :
    adjustPrecedence (n + 1) (.binary op l r) = adjustPrecedence (n + 1) (.binary op l1 r1) := by
  simp only [adjustPrecedence, hl, hr, hl1, hr1]

mutual

/-- `adjustPrecedence` returns, with a stable expression. -/
theorem adj_total : ∀ (e : Expr) (n : Nat), 3 * e.nodes ≤ n →
    ∃ e', adjustPrecedence n e = some e' ∧ Stable e' ∧ e'.nodes = e.nodes
  | .lit v, n, h => ⟨_, adj_stable _ _ trivial (by simp [Expr.nodes] at *; omega), trivial, rfl⟩
  | .ref i is, n, h =>
    ⟨_, adj_stable _ _ trivial (by simp [Expr.nodes] at *; omega), trivial, rfl⟩
  | .subquery op x o q, n, h =>
    ⟨_, adj_stable _ _ trivial (by simp [Expr.nodes] at *; omega), trivial, rfl⟩
  | .unary op e, n, h => by
    simp only [Expr.nodes] at h
    obtain ⟨m, rfl⟩ : ∃ m, n = m + 1 := ⟨n - 1, by omega⟩
    obtain ⟨e1, g1, g2, g3⟩ := adj_total e m (by omega)
    rw [adj_unary_congr g1 (adj_stable e1 m g2 (by omega))]
    obtain ⟨e', f1, f2, f3, _⟩ := adj_prefix op _ e1 (m + 1) (Nat.le_refl _) g2 (by omega)
    exact ⟨e', f1, f2, by simp only [Expr.nodes]; omega⟩
  | .binary op l r, n, h => by
    simp only [Expr.nodes] at h
    have := nodes_pos l
    have := nodes_pos r
    obtain ⟨m, rfl⟩ : ∃ m, n = m + 1 := ⟨n - 1, by omega⟩
    obtain ⟨l1, g1, g2, g3⟩ := adj_total l m (by omega)
    obtain ⟨r1, f1, f2, f3⟩ := adj_total r m (by omega)
    rw [adj_binary_congr g1 f1 (adj_stable l1 m g2 (by omega)) (adj_stable r1 m f2 (by omega))]
    obtain ⟨e', k1, k2, k3, _⟩ := adj_infix _ op l1 r1 (m + 1) (Nat.le_refl _) g2 f2 (by omega)
    exact ⟨e', k1, k2, by simp only [Expr.nodes]; omega⟩
  | .call name args, n, h => by
    simp only [Expr.nodes] at h
    obtain ⟨m, rfl⟩ : ∃ m, n = m + 1 := ⟨n - 1, by omega⟩
    obtain ⟨l1, g1, g2, g3⟩ := adj_totalList args m (by omega)
    refine ⟨.call name l1, by simp only [adjustPrecedence, g1], ?_, ?_⟩
    · simpa only [Stable] using g2
    · simp only [Expr.nodes]
      omega

theorem adj_totalList : ∀ (l : List Expr) (n : Nat), 3 * Expr.nodesList l ≤ n →
    ∃ l', l.mapM (adjustPrecedence n) = some l' ∧ StableList l' ∧
      Expr.nodesList l' = Expr.nodesList l
  | [], _, _ => ⟨[], by simp, trivial, rfl⟩
  | e :: l, n, h => by
    simp only [Expr.nodesList] at h
    obtain ⟨e1, g1, g2, g3⟩ := adj_total e n (by omega)
    obtain ⟨l1, f1, f2, f3⟩ := adj_totalList l n (by omega)
    refine ⟨e1 :: l1, by simp [List.mapM_cons, g1, f1], ?_, ?_⟩
    · simp only [StableList]
      exact ⟨g2, f2⟩
    · simp only [Expr.nodesList]
      omega

end

end Maho
