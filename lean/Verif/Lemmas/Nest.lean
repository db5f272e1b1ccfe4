import Verif.Lemmas.Adjust
/-
Helper lemmas for C61: the well nested tree of a list of pieces, and `adjustPrecedence`.
-/
namespace Maho
open Maho.Spec

theorem precedence_tightness (op : SqlOp) : opPrecedence op = tightness op + 1 := by
  cases op <;> decide

/-- Not an operator applied to something. -/
def IsOperand : Expr → Prop
  | .binary _ _ _ => False
  | .unary op _ => op = .noOp
  | _ => True

theorem pieces_operand {x : Expr} (h : IsOperand x) : pieces x = [.operand x] := by
  cases x with
  | binary _ _ _ => exact h.elim
  | unary op e =>
    have : op = .noOp := h
    subst this
    simp [pieces]
  | _ => simp [pieces]

theorem wellNested_operand {x : Expr} (h : IsOperand x) : WellNested x := by
  cases x with
  | binary _ _ _ => exact h.elim
  | unary op e =>
    have : op = .noOp := h
    subst this
    simp [WellNested]
  | _ => simp [WellNested]

theorem openPrefixes_operand {x : Expr} (h : IsOperand x) : openPrefixes x = [] := by
  cases x with
  | binary _ _ _ => exact h.elim
  | unary op e =>
    have : op = .noOp := h
    subst this
    simp [openPrefixes]
  | _ => simp [openPrefixes]

theorem rootAtLeast_operand {x : Expr} (op : SqlOp) (h : IsOperand x) : RootAtLeast op x := by
  cases x with
  | binary _ _ _ => exact h.elim
  | _ => simp [RootAtLeast]

/-- `x op` in front of `u`. -/
def insInfix (op : SqlOp) (x : Expr) : Expr → Expr
  | .binary b l r =>
    if tightness b ≤ tightness op then .binary b (insInfix op x l) r
    else .binary op x (.binary b l r)
  | u => .binary op x u

/-- `p` in front of `u`. -/
def insPrefix (p : SqlOp) : Expr → Expr
  | .binary b l r =>
    if tightness b < tightness p then .binary b (insPrefix p l) r
    else .unary p (.binary b l r)
  | u => .unary p u

/-- The well nested tree of pieces. -/
def build : List Part → Expr
  | .operand x :: .infix op :: its => insInfix op x (build its)
  | .pre p :: its => insPrefix p (build its)
  | .operand x :: _ => x
  | _ => .lit none

/-- Pieces as they can follow each other. -/
inductive Sequence : List Part → Prop
  | one {x : Expr} : IsOperand x → Sequence [.operand x]
  | pre {p : SqlOp} {its : List Part} : IsPrefix p → Sequence its → Sequence (.pre p :: its)
  | infix {x : Expr} {op : SqlOp} {its : List Part} : IsOperand x → IsInfix op → Sequence its →
    Sequence (.operand x :: .infix op :: its)

theorem isPrefix_ne {p : SqlOp} (h : IsPrefix p) : p ≠ .noOp := by
  rcases h with rfl | rfl <;> simp

/-- No operator between operands is as tight as a prefix operator. -/
theorem tightness_ne {p op : SqlOp} (hp : IsPrefix p) (h : IsInfix op) :
    tightness op ≠ tightness p := by
  obtain ⟨h1, h2, h3⟩ := h
  rcases hp with rfl | rfl <;> cases op <;> first | decide | contradiction

section ins

variable {op p : SqlOp} {x : Expr}

theorem pieces_insInfix (hx : IsOperand x) : ∀ u : Expr,
    pieces (insInfix op x u) = .operand x :: .infix op :: pieces u
  | .binary b l r => by
    unfold insInfix
    split
    · simp [pieces, pieces_insInfix hx l]
    · simp [pieces, pieces_operand hx]
  | .unary _ _ => by simp [insInfix, pieces, pieces_operand hx]
  | .lit _ => by simp [insInfix, pieces, pieces_operand hx]
  | .ref _ _ => by simp [insInfix, pieces, pieces_operand hx]
  | .call _ _ => by simp [insInfix, pieces, pieces_operand hx]
  | .subquery _ _ _ _ => by simp [insInfix, pieces, pieces_operand hx]

theorem pieces_unary (hp : IsPrefix p) (e : Expr) :
    pieces (.unary p e) = .pre p :: pieces e := by
  rcases hp with rfl | rfl <;> simp [pieces]

theorem pieces_insPrefix (hp : IsPrefix p) : ∀ u : Expr,
    pieces (insPrefix p u) = .pre p :: pieces u
  | .binary b l r => by
    unfold insPrefix
    split
    · simp [pieces, pieces_insPrefix hp l]
    · exact pieces_unary hp _
  | .unary _ _ => pieces_unary hp _
  | .lit _ => pieces_unary hp _
  | .ref _ _ => pieces_unary hp _
  | .call _ _ => pieces_unary hp _
  | .subquery _ _ _ _ => pieces_unary hp _

theorem openPrefixes_insInfix : ∀ u : Expr,
    openPrefixes (insInfix op x u) = openPrefixes u
  | .binary b l r => by
    unfold insInfix
    split <;> simp [openPrefixes]
  | .unary _ _ => by simp [insInfix, openPrefixes]
  | .lit _ => by simp [insInfix, openPrefixes]
  | .ref _ _ => by simp [insInfix, openPrefixes]
  | .call _ _ => by simp [insInfix, openPrefixes]
  | .subquery _ _ _ _ => by simp [insInfix, openPrefixes]

theorem openPrefixes_unary (hp : IsPrefix p) (e : Expr) :
    openPrefixes (.unary p e) = p :: openPrefixes e := by
  rcases hp with rfl | rfl <;> simp [openPrefixes]

theorem openPrefixes_insPrefix (hp : IsPrefix p) (q : SqlOp) :
    ∀ u : Expr, q ∈ openPrefixes (insPrefix p u) → q = p ∨ q ∈ openPrefixes u
  | .binary b l r, h => by
    unfold insPrefix at h
    split at h
    · simp only [openPrefixes] at h ⊢
      exact Or.inr h
    · rw [openPrefixes_unary hp] at h
      simpa using h
  | .unary _ _, h => by simpa [insPrefix, openPrefixes_unary hp] using h
  | .lit _, h => by simpa [insPrefix, openPrefixes_unary hp] using h
  | .ref _ _, h => by simpa [insPrefix, openPrefixes_unary hp] using h
  | .call _ _, h => by simpa [insPrefix, openPrefixes_unary hp] using h
  | .subquery _ _ _ _, h => by simpa [insPrefix, openPrefixes_unary hp] using h

theorem rootAtLeast_insInfix {c : SqlOp} (h : tightness c ≤ tightness op) :
    ∀ u : Expr, RootAtLeast c u → RootAtLeast c (insInfix op x u)
  | .binary b l r, hu => by
    unfold insInfix
    split
    · exact hu
    · exact h
  | .unary _ _, _ => h
  | .lit _, _ => h
  | .ref _ _, _ => h
  | .call _ _, _ => h
  | .subquery _ _ _ _, _ => h

theorem rootAtLeast_insPrefix {c : SqlOp} : ∀ u : Expr, RootAtLeast c u →
    RootAtLeast c (insPrefix p u)
  | .binary b l r, hu => by
    unfold insPrefix
    split
    · exact hu
    · trivial
  | .unary _ _, _ => trivial
  | .lit _, _ => trivial
  | .ref _ _, _ => trivial
  | .call _ _, _ => trivial
  | .subquery _ _ _ _, _ => trivial

theorem wellNested_leaf {u : Expr} (ho : IsInfix op) (hx : IsOperand x) (hu : WellNested u)
    (hr : RootAbove op u) : WellNested (.binary op x u) := by
  unfold WellNested
  exact ⟨ho, wellNested_operand hx, hu, rootAtLeast_operand op hx, hr,
    by rw [openPrefixes_operand hx]; simp⟩

theorem wellNested_unary (hp : IsPrefix p) {u : Expr} :
    WellNested (.unary p u) ↔ WellNested u ∧ RootAbove p u := by
  rcases hp with rfl | rfl <;> simp [WellNested, IsPrefix]

theorem wellNested_insInfix (ho : IsInfix op) (hx : IsOperand x) :
    ∀ u : Expr, WellNested u → WellNested (insInfix op x u)
  | .binary b l r, hu => by
    unfold insInfix
    split
    · rename_i h
      unfold WellNested at hu ⊢
      obtain ⟨h1, h2, h3, h4, h5, h6⟩ := hu
      refine ⟨h1, wellNested_insInfix ho hx l h2, h3, rootAtLeast_insInfix h l h4, h5, ?_⟩
      rw [openPrefixes_insInfix]
      exact h6
    · rename_i h
      refine wellNested_leaf ho hx hu ?_
      show tightness op < tightness b
      omega
  | .unary _ _, hu => wellNested_leaf ho hx hu trivial
  | .lit _, hu => wellNested_leaf ho hx hu trivial
  | .ref _ _, hu => wellNested_leaf ho hx hu trivial
  | .call _ _, hu => wellNested_leaf ho hx hu trivial
  | .subquery _ _ _ _, hu => wellNested_leaf ho hx hu trivial

theorem wellNested_insPrefix (hp : IsPrefix p) :
    ∀ u : Expr, WellNested u → WellNested (insPrefix p u)
  | .binary b l r, hu => by
    unfold insPrefix
    split
    · rename_i h
      unfold WellNested at hu ⊢
      obtain ⟨h1, h2, h3, h4, h5, h6⟩ := hu
      refine ⟨h1, wellNested_insPrefix hp l h2, h3, rootAtLeast_insPrefix l h4, h5, ?_⟩
      intro q hq
      rcases openPrefixes_insPrefix hp q l hq with rfl | hq
      · exact h
      · exact h6 q hq
    · rename_i h
      rw [wellNested_unary hp]
      refine ⟨hu, ?_⟩
      show tightness p < tightness b
      have hb : IsInfix b := by unfold WellNested at hu; exact hu.1
      have := tightness_ne hp hb
      omega
  | .unary _ _, hu => (wellNested_unary hp).2 ⟨hu, trivial⟩
  | .lit _, hu => (wellNested_unary hp).2 ⟨hu, trivial⟩
  | .ref _ _, hu => (wellNested_unary hp).2 ⟨hu, trivial⟩
  | .call _ _, hu => (wellNested_unary hp).2 ⟨hu, trivial⟩
  | .subquery _ _ _ _, hu => (wellNested_unary hp).2 ⟨hu, trivial⟩

end ins

/-- Every sequence of pieces has a well nested tree. -/
theorem build_spec : ∀ {its : List Part}, Sequence its →
    WellNested (build its) ∧ pieces (build its) = its
  | _, .one hx => by
    simp only [build]
    exact ⟨wellNested_operand hx, pieces_operand hx⟩
  | _, .pre hp h => by
    have := build_spec h
    simp only [build]
    exact ⟨wellNested_insPrefix hp _ this.1, by rw [pieces_insPrefix hp, this.2]⟩
  | _, .infix hx ho h => by
    have := build_spec h
    simp only [build]
    exact ⟨wellNested_insInfix ho hx _ this.1, by rw [pieces_insInfix hx, this.2]⟩

/-- `l op` in front of `u`. -/
def insTree (op : SqlOp) : Expr → Expr → Expr
  | .binary b l1 l2, u => insTree b l1 (insTree op l2 u)
  | .unary .noOp e, u => insInfix op (.unary .noOp e) u
  | .unary p e, u => insPrefix p (insTree op e u)
  | x, u => insInfix op x u

theorem insTree_unary {p op : SqlOp} (hp : IsPrefix p) (e u : Expr) :
    insTree op (.unary p e) u = insPrefix p (insTree op e u) := by
  rcases hp with rfl | rfl <;> simp [insTree]

theorem insTree_operand {op : SqlOp} {x : Expr} (h : IsOperand x) (u : Expr) :
    insTree op x u = insInfix op x u := by
  cases x with
  | binary _ _ _ => exact h.elim
  | unary p e =>
    have : p = .noOp := h
    subst this
    simp [insTree]
  | _ => simp [insTree]

theorem unary_cases {p : SqlOp} {e : Expr} (h : WellNested (.unary p e)) :
    p = .noOp ∨ (IsPrefix p ∧ WellNested e ∧ RootAbove p e) := by
  by_cases hp : p = .noOp
  · exact Or.inl hp
  · refine Or.inr ?_
    cases p <;> first | exact absurd rfl hp | (unfold WellNested at h; exact h)

theorem build_insTree : ∀ (l : Expr) (op : SqlOp) (its : List Part), WellNested l →
    build (pieces l ++ .infix op :: its) = insTree op l (build its)
  | .binary b l1 l2, op, its, h => by
    unfold WellNested at h
    obtain ⟨_, h2, h3, _⟩ := h
    simp only [pieces, List.append_assoc, List.cons_append, insTree]
    rw [build_insTree l1 b _ h2, build_insTree l2 op its h3]
  | .unary p e, op, its, h => by
    rcases unary_cases h with rfl | ⟨hp, he, _⟩
    · simp [pieces, build, insTree]
    · rw [pieces_unary hp, insTree_unary hp]
      simp only [List.cons_append, build]
      rw [build_insTree e op its he]
  | .lit _, _, _, _ => by simp [pieces, build, insTree]
  | .ref _ _, _, _, _ => by simp [pieces, build, insTree]
  | .call _ _, _, _, _ => by simp [pieces, build, insTree]
  | .subquery _ _ _ _, _, _, _ => by simp [pieces, build, insTree]

theorem insInfix_above {op : SqlOp} {x u : Expr} (h : RootAbove op u) :
    insInfix op x u = .binary op x u := by
  cases u with
  | binary b l r =>
    have : tightness op < tightness b := h
    simp only [insInfix]
    rw [if_neg (by omega)]
  | _ => rfl

theorem insPrefix_above {p : SqlOp} {u : Expr} (h : RootAbove p u) :
    insPrefix p u = .unary p u := by
  cases u with
  | binary b l r =>
    have : tightness p < tightness b := h
    simp only [insPrefix]
    rw [if_neg (by omega)]
  | _ => rfl

theorem rootAbove_atLeast {c b : SqlOp} {e : Expr} (h : RootAbove c e)
    (hb : tightness b ≤ tightness c) : RootAtLeast b e := by
  cases e with
  | binary d _ _ =>
    have : tightness c < tightness d := h
    show tightness b ≤ tightness d
    omega
  | _ => trivial

/-- A looser operator stays above. -/
theorem insTree_below : ∀ (l : Expr) (b op : SqlOp) (m r : Expr), WellNested l →
    RootAtLeast b l → (∀ p ∈ openPrefixes l, tightness b < tightness p) →
    tightness op ≤ tightness b →
    insTree b l (.binary op m r) = .binary op (insTree b l m) r
  | .binary c k1 k2, b, op, m, r, h, hb, hp, ho => by
    unfold WellNested at h
    obtain ⟨h1, h2, h3, h4, h5, h6⟩ := h
    have hbc : tightness b ≤ tightness c := hb
    simp only [openPrefixes] at hp
    simp only [insTree]
    rw [insTree_below k2 b op m r h3 (rootAbove_atLeast h5 hbc) hp ho,
      insTree_below k1 c op _ r h2 h4 h6 (by omega)]
  | .unary p e, b, op, m, r, h, hb, hp, ho => by
    rcases unary_cases h with rfl | ⟨hpre, he, hr⟩
    · simp only [insTree, insInfix]
      rw [if_pos ho]
    · rw [insTree_unary hpre, insTree_unary hpre]
      rw [openPrefixes_unary hpre] at hp
      have hbp := hp p (by simp)
      rw [insTree_below e b op m r he (rootAbove_atLeast hr (by omega))
        (fun q hq => hp q (by simp [hq])) ho]
      simp only [insPrefix]
      rw [if_pos (by omega)]
  | .lit _, _, _, _, _, _, _, _, ho => by simp only [insTree, insInfix]; rw [if_pos ho]
  | .ref _ _, _, _, _, _, _, _, _, ho => by simp only [insTree, insInfix]; rw [if_pos ho]
  | .call _ _, _, _, _, _, _, _, _, ho => by simp only [insTree, insInfix]; rw [if_pos ho]
  | .subquery _ _ _ _, _, _, _, _, _, _, _, ho => by
    simp only [insTree, insInfix]; rw [if_pos ho]

theorem insTree_top : ∀ (l : Expr) (op : SqlOp) (r : Expr), WellNested l → RootAtLeast op l →
    (∀ p ∈ openPrefixes l, tightness op < tightness p) → RootAbove op r →
    insTree op l r = .binary op l r
  | .binary b l1 l2, op, r, h, hl, hp, hr => by
    unfold WellNested at h
    obtain ⟨h1, h2, h3, h4, h5, h6⟩ := h
    have hob : tightness op ≤ tightness b := hl
    simp only [openPrefixes] at hp
    simp only [insTree]
    rw [insTree_top l2 op r h3 (rootAbove_atLeast h5 hob) hp hr, insTree_below l1 b op l2 r h2 h4 h6 hob,
      insTree_top l1 b l2 h2 h4 h6 h5]
  | .unary p e, op, r, h, hl, hp, hr => by
    rcases unary_cases h with rfl | ⟨hpre, he, hrp⟩
    · simp only [insTree]
      exact insInfix_above hr
    · rw [openPrefixes_unary hpre] at hp
      have hop := hp p (by simp)
      rw [insTree_unary hpre, insTree_top e op r he (rootAbove_atLeast hrp (by omega))
        (fun q hq => hp q (by simp [hq])) hr]
      simp only [insPrefix]
      rw [if_pos hop, insPrefix_above hrp]
  | .lit _, _, _, _, _, _, hr => by simp only [insTree]; exact insInfix_above hr
  | .ref _ _, _, _, _, _, _, hr => by simp only [insTree]; exact insInfix_above hr
  | .call _ _, _, _, _, _, _, hr => by simp only [insTree]; exact insInfix_above hr
  | .subquery _ _ _ _, _, _, _, _, _, hr => by simp only [insTree]; exact insInfix_above hr

/-- A well nested tree is the tree of its pieces. -/
theorem build_pieces : ∀ e : Expr, WellNested e → build (pieces e) = e
  | .binary op l r, h => by
    have h0 := h
    unfold WellNested at h
    obtain ⟨h1, h2, h3, h4, h5, h6⟩ := h
    simp only [pieces]
    rw [build_insTree l op _ h2, build_pieces r h3, insTree_top l op r h2 h4 h6 h5]
  | .unary p e, h => by
    rcases unary_cases h with rfl | ⟨hp, he, hr⟩
    · simp [pieces, build]
    · rw [pieces_unary hp]
      simp only [build]
      rw [build_pieces e he, insPrefix_above hr]
  | .lit _, _ => by simp [pieces, build]
  | .ref _ _, _ => by simp [pieces, build]
  | .call _ _, _ => by simp [pieces, build]
  | .subquery _ _ _ _, _ => by simp [pieces, build]

/-! ### `adjustPrecedence` -/

/-- `adjustPrecedence` makes `e` of `u`. -/
def Adjusts (u e : Expr) : Prop :=
  (∀ n, 3 * u.nodes ≤ n → adjustPrecedence n u = some e) ∧ Stable e ∧ e.nodes = u.nodes

theorem rootPrec_insPrefix (p : SqlOp) : ∀ u : Expr, rootPrec u ≤ rootPrec (insPrefix p u)
  | .binary b l r => by
    unfold insPrefix
    split
    · exact Nat.le_refl _
    · have := opPrecedence_lt b
      simp only [rootPrec]
      omega
  | .unary _ _ => Nat.le_refl _
  | .lit _ => Nat.le_refl _
  | .ref _ _ => Nat.le_refl _
  | .call _ _ => Nat.le_refl _
  | .subquery _ _ _ _ => Nat.le_refl _

theorem rootPrec_insInfix (op : SqlOp) (x : Expr) {k : Nat} (h : k ≤ opPrecedence op) :
    ∀ u : Expr, k ≤ rootPrec u → k ≤ rootPrec (insInfix op x u)
  | .binary b l r, hu => by
    unfold insInfix
    split
    · exact hu
    · exact h
  | .unary _ _, _ => h
  | .lit _, _ => h
  | .ref _ _, _ => h
  | .call _ _, _ => h
  | .subquery _ _ _ _, _ => h

theorem rootPrec_operand {x : Expr} (h : IsOperand x) : rootPrec x = 100 := by
  cases x with
  | binary _ _ _ => exact h.elim
  | _ => rfl

/-- A prefix operator in front of a stable tree. -/
theorem adj_insPrefix {p : SqlOp} (hp : IsPrefix p) : ∀ (u : Expr) (n : Nat), Stable u →
    u.nodes + 1 ≤ n → adjustPrecedence n (.unary p u) = some (insPrefix p u)
  | .binary b l r, n, hs, h => by
    obtain ⟨m, rfl⟩ : ∃ m, n = m + 1 := ⟨n - 1, by omega⟩
    have he := adj_stable _ m hs (by omega)
    unfold insPrefix
    split
    · rename_i hb
      simp only [Stable] at hs
      simp only [Expr.nodes] at h
      have := nodes_pos l
      have := nodes_pos r
      obtain ⟨k, rfl⟩ : ∃ k, m = k + 1 := ⟨m - 1, by omega⟩
      rw [adj_unary_rot he (isPrefix_ne hp) (by rw [precedence_tightness, precedence_tightness]; omega)]
      have h1 := adj_insPrefix hp l k hs.1 (by omega)
      have h2 := rootPrec_insPrefix p l
      exact adj_binary h1 (adj_stable r k hs.2.1 (by omega)) (by omega) hs.2.2.2
    · rename_i hb
      refine adj_unary he fun _ => ?_
      simp only [rootPrec]
      rw [precedence_tightness, precedence_tightness]
      omega
  | .unary op e, n, hs, h => by
    obtain ⟨m, rfl⟩ : ∃ m, n = m + 1 := ⟨n - 1, by omega⟩
    exact adj_unary (adj_stable _ m hs (by omega)) fun _ => Nat.le_of_lt (opPrecedence_lt p)
  | .lit _, n, hs, h => by
    obtain ⟨m, rfl⟩ : ∃ m, n = m + 1 := ⟨n - 1, by omega⟩
    exact adj_unary (adj_stable _ m hs (by omega)) fun _ => Nat.le_of_lt (opPrecedence_lt p)
  | .ref _ _, n, hs, h => by
    obtain ⟨m, rfl⟩ : ∃ m, n = m + 1 := ⟨n - 1, by omega⟩
    exact adj_unary (adj_stable _ m hs (by omega)) fun _ => Nat.le_of_lt (opPrecedence_lt p)
  | .call _ _, n, hs, h => by
    obtain ⟨m, rfl⟩ : ∃ m, n = m + 1 := ⟨n - 1, by omega⟩
    exact adj_unary (adj_stable _ m hs (by omega)) fun _ => Nat.le_of_lt (opPrecedence_lt p)
  | .subquery _ _ _ _, n, hs, h => by
    obtain ⟨m, rfl⟩ : ∃ m, n = m + 1 := ⟨n - 1, by omega⟩
    exact adj_unary (adj_stable _ m hs (by omega)) fun _ => Nat.le_of_lt (opPrecedence_lt p)

/-- An operand and an operator in front of a stable tree. -/
theorem adj_insInfix {op : SqlOp} {x : Expr} (hx : IsOperand x) (hsx : Stable x) :
    ∀ (u : Expr) (n : Nat), Stable u → x.nodes + u.nodes + 1 ≤ n →
      adjustPrecedence n (.binary op x u) = some (insInfix op x u)
  | .binary b l r, n, hs, h => by
    obtain ⟨m, rfl⟩ : ∃ m, n = m + 1 := ⟨n - 1, by omega⟩
    have hax := adj_stable x m hsx (by omega)
    have hau := adj_stable _ m hs (by omega)
    have hlt := opPrecedence_lt op
    unfold insInfix
    split
    · rename_i hb
      simp only [Stable] at hs
      simp only [Expr.nodes] at h
      have := nodes_pos l
      have := nodes_pos r
      obtain ⟨k, rfl⟩ : ∃ k, m = k + 1 := ⟨m - 1, by omega⟩
      have hb2 : opPrecedence b ≤ opPrecedence op := by
        rw [precedence_tightness, precedence_tightness]
        omega
      rw [adj_binary_right hax hau hb2]
      have h1 := adj_insInfix (op := op) hx hsx l k hs.1 (by omega)
      exact adj_binary h1 (adj_stable r k hs.2.1 (by omega))
        (rootPrec_insInfix op x hb2 l hs.2.2.1) hs.2.2.2
    · rename_i hb
      refine adj_binary hax hau (by rw [rootPrec_operand hx]; omega) ?_
      simp only [rootPrec]
      rw [precedence_tightness, precedence_tightness]
      omega
  | .unary _ _, n, hs, h => by
    obtain ⟨m, rfl⟩ : ∃ m, n = m + 1 := ⟨n - 1, by omega⟩
    have hlt := opPrecedence_lt op
    exact adj_binary (adj_stable x m hsx (by omega)) (adj_stable _ m hs (by omega))
      (by rw [rootPrec_operand hx]; omega) hlt
  | .lit _, n, hs, h => by
    obtain ⟨m, rfl⟩ : ∃ m, n = m + 1 := ⟨n - 1, by omega⟩
    have hlt := opPrecedence_lt op
    exact adj_binary (adj_stable x m hsx (by omega)) (adj_stable _ m hs (by omega))
      (by rw [rootPrec_operand hx]; omega) hlt
  | .ref _ _, n, hs, h => by
    obtain ⟨m, rfl⟩ : ∃ m, n = m + 1 := ⟨n - 1, by omega⟩
    have hlt := opPrecedence_lt op
    exact adj_binary (adj_stable x m hsx (by omega)) (adj_stable _ m hs (by omega))
      (by rw [rootPrec_operand hx]; omega) hlt
  | .call _ _, n, hs, h => by
    obtain ⟨m, rfl⟩ : ∃ m, n = m + 1 := ⟨n - 1, by omega⟩
    have hlt := opPrecedence_lt op
    exact adj_binary (adj_stable x m hsx (by omega)) (adj_stable _ m hs (by omega))
      (by rw [rootPrec_operand hx]; omega) hlt
  | .subquery _ _ _ _, n, hs, h => by
    obtain ⟨m, rfl⟩ : ∃ m, n = m + 1 := ⟨n - 1, by omega⟩
    have hlt := opPrecedence_lt op
    exact adj_binary (adj_stable x m hsx (by omega)) (adj_stable _ m hs (by omega))
      (by rw [rootPrec_operand hx]; omega) hlt

namespace Adjusts

/-- What `adj_total` gives is what is computed. -/
theorem of_eq {u e : Expr} (h : ∀ n, 3 * u.nodes ≤ n → adjustPrecedence n u = some e) :
    Adjusts u e := by
  obtain ⟨e', h1, h2, h3⟩ := adj_total u (3 * u.nodes) (Nat.le_refl _)
  rw [h _ (Nat.le_refl _)] at h1
  cases h1
  exact ⟨h, h2, h3⟩

theorem stable {e : Expr} (h : Stable e) : Adjusts e e :=
  ⟨fun n hn => adj_stable e n h (by omega), h, rfl⟩

theorem prefix_ {p : SqlOp} (hp : IsPrefix p) {u e : Expr} (h : Adjusts u e) :
    Adjusts (.unary p u) (insPrefix p e) := by
  obtain ⟨h1, h2, h3⟩ := h
  refine of_eq fun n hn => ?_
  simp only [Expr.nodes] at hn
  obtain ⟨m, rfl⟩ : ∃ m, n = m + 1 := ⟨n - 1, by omega⟩
  rw [adj_unary_congr (h1 m (by omega)) (adj_stable e m h2 (by omega))]
  exact adj_insPrefix hp e _ h2 (by omega)

theorem infix_ {op : SqlOp} {x y u e : Expr} (hx : Adjusts x y) (hy : IsOperand y)
    (h : Adjusts u e) : Adjusts (.binary op x u) (insInfix op y e) := by
  obtain ⟨h1, h2, h3⟩ := h
  obtain ⟨g1, g2, g3⟩ := hx
  refine of_eq fun n hn => ?_
  simp only [Expr.nodes] at hn
  obtain ⟨m, rfl⟩ : ∃ m, n = m + 1 := ⟨n - 1, by omega⟩
  rw [adj_binary_congr (g1 m (by omega)) (h1 m (by omega)) (adj_stable y m g2 (by omega))
    (adj_stable e m h2 (by omega))]
  exact adj_insInfix hy g2 e _ h2 (by omega)

theorem paren {u e : Expr} (h : Adjusts u e) : Adjusts (.unary .noOp u) (.unary .noOp e) := by
  refine of_eq fun n hn => ?_
  simp only [Expr.nodes] at hn
  obtain ⟨m, rfl⟩ : ∃ m, n = m + 1 := ⟨n - 1, by omega⟩
  exact adj_unary (h.1 m (by omega)) (fun h => absurd rfl h)

theorem call {name : Identifier} {us es : List Expr}
    (h : ∀ n, 3 * Expr.nodesList us ≤ n → us.mapM (adjustPrecedence n) = some es) :
    Adjusts (.call name us) (.call name es) := by
  refine of_eq fun n hn => ?_
  simp only [Expr.nodes] at hn
  obtain ⟨m, rfl⟩ : ∃ m, n = m + 1 := ⟨n - 1, by omega⟩
  simp only [adjustPrecedence, h m (by omega)]

theorem adjust_eq {u e : Expr} (h : Adjusts u e) (ts : List Token) : adjust u ts = .ok e ts := by
  simp only [adjust, h.1 _ (Nat.le_succ _)]

end Adjusts

end Maho
