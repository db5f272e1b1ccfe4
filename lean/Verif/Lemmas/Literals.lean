import Verif.Spec.Literals
/-
The parser does not look into bytes tokens.
-/
namespace Maho.Lit
open Maho Maho.Spec Maho.P

/-- The results of two methods, on tokens with other bytes. -/
def Results {α : Type} (f : Bytes → Bytes) (R : α → α → Prop) : PRes α → PRes α → Prop
  | .ok a' r', .ok a r => R a' a ∧ r' = r.map (tokenWith f)
  | .fail e' r', .fail e r => e' = e ∧ r' = r.map (tokenWith f)
  | .panic, .panic => True
  | .stuck, .stuck => True
  | _, _ => False

/-- Two methods that do the same on tokens with other bytes. -/
def Same {α : Type} (f : Bytes → Bytes) (R : α → α → Prop) (p' p : P α) : Prop :=
  ∀ ts, Results f R (p' (ts.map (tokenWith f))) (p ts)

/-- The graph of a function. -/
def By {α : Type} (g : α → α) (a' a : α) : Prop := a' = g a

section
variable {f : Bytes → Bytes}

theorem same_pure {α : Type} {R : α → α → Prop} {a' a : α} (h : R a' a) :
    Same f R (pure a') (pure a) := fun _ => ⟨h, rfl⟩

theorem same_crash {α : Type} {R : α → α → Prop} : Same f R crash crash := fun _ => trivial

theorem same_stuck {α : Type} {R : α → α → Prop} : Same f R stuck stuck := fun _ => trivial

theorem same_error {α : Type} {R : α → α → Prop} : Same f R error error := fun _ => ⟨rfl, rfl⟩

theorem same_errorAt {α : Type} {R : α → α → Prop} (t : Token) :
    Same f R (errorAt (tokenWith f t)) (errorAt t) := fun _ =>
  ⟨by cases t <;> rfl, rfl⟩

theorem same_errorGot {α : Type} {R : α → α → Prop} (t : Token) :
    Same f R (errorGot (tokenWith f t)) (errorGot t) := by
  have h : tokenWith f t = .error true ↔ t = .error true := by cases t <;> simp [tokenWith]
  unfold errorGot
  by_cases ht : t = .error true
  · rw [if_pos ht, if_pos (h.2 ht)]; exact same_crash
  · rw [if_neg ht, if_neg (mt h.1 ht)]; exact same_errorAt t

theorem same_bind {α β : Type} {R : α → α → Prop} {S : β → β → Prop} {p' p : P α}
    {k' k : α → P β} (h : Same f R p' p) (hk : ∀ a' a, R a' a → Same f S (k' a') (k a)) :
    Same f S (p' >>= k') (p >>= k) := by
  intro ts
  have := h ts
  show Results f S (P.bind p' k' _) (P.bind p k _)
  unfold P.bind
  revert this
  cases p' (ts.map (tokenWith f)) <;> cases p ts <;> intro h <;> try exact h.elim
  · obtain ⟨h, rfl⟩ := h
    exact hk _ _ h _
  · exact h
  · trivial
  · trivial

theorem same_bindEq {α β : Type} {S : β → β → Prop} {p' p : P α}
    {k' k : α → P β} (h : Same f Eq p' p) (hk : ∀ a, Same f S (k' a) (k a)) :
    Same f S (p' >>= k') (p >>= k) := same_bind h fun _ a e => e ▸ hk a

theorem same_bindBy {α β : Type} {S : β → β → Prop} {p' p : P α} {g : α → α}
    {k' k : α → P β} (h : Same f (By g) p' p) (hk : ∀ a, Same f S (k' (g a)) (k a)) :
    Same f S (p' >>= k') (p >>= k) := same_bind h fun _ a e => e ▸ hk a

theorem map_eq_bind {α β : Type} (g : α → β) (p : P α) : g <$> p = p >>= fun a => pure (g a) := rfl

theorem same_ite {α : Type} {R : α → α → Prop} {c : Prop} [Decidable c] {a' b' a b : P α}
    (h1 : c → Same f R a' a) (h2 : ¬ c → Same f R b' b) :
    Same f R (if c then a' else b') (if c then a else b) := by
  by_cases h : c
  · rw [if_pos h, if_pos h]; exact h1 h
  · rw [if_neg h, if_neg h]; exact h2 h

theorem same_iteIff {α : Type} {R : α → α → Prop} {c' c : Prop} [Decidable c'] [Decidable c]
    {a' b' a b : P α} (hc : c' ↔ c) (h1 : c → Same f R a' a) (h2 : ¬ c → Same f R b' b) :
    Same f R (if c' then a' else b') (if c then a else b) := by
  by_cases h : c
  · rw [if_pos h, if_pos (hc.2 h)]; exact h1 h
  · rw [if_neg h, if_neg (mt hc.1 h)]; exact h2 h

/-- What follows an `if` in do-notation. -/
theorem same_joinBy {α β : Type} {S : β → β → Prop} {c : Prop} [Decidable c] {a' b' a b : P α}
    {g : α → α} {k' k : α → P β}
    (h : Same f (By g) (if c then a' else b') (if c then a else b))
    (hk : ∀ a, Same f S (k' (g a)) (k a)) :
    Same f S (if c then a' >>= k' else b' >>= k') (if c then a >>= k else b >>= k) := by
  by_cases hc : c
  · simp only [if_pos hc] at h ⊢; exact same_bindBy h hk
  · simp only [if_neg hc] at h ⊢; exact same_bindBy h hk

theorem same_joinEq {α β : Type} {S : β → β → Prop} {c : Prop} [Decidable c] {a' b' a b : P α}
    {k' k : α → P β}
    (h : Same f Eq (if c then a' else b') (if c then a else b))
    (hk : ∀ a, Same f S (k' a) (k a)) :
    Same f S (if c then a' >>= k' else b' >>= k') (if c then a >>= k else b >>= k) :=
  same_joinBy (g := id) h hk

theorem same_weaken {α : Type} {R S : α → α → Prop} {p' p : P α} (h : Same f R p' p)
    (hRS : ∀ a' a, R a' a → S a' a) : Same f S p' p := by
  intro ts
  have := h ts
  revert this
  cases p' (ts.map (tokenWith f)) <;> cases p ts <;> intro h <;> try exact h.elim
  · exact ⟨hRS _ _ h.1, h.2⟩
  · exact h
  · trivial
  · trivial

theorem same_next : Same f (By (tokenWith f)) next next := by
  intro ts
  match ts with
  | [] => exact ⟨rfl, rfl⟩
  | .error false :: rest => exact ⟨rfl, rfl⟩
  | .error true :: rest => exact ⟨rfl, rfl⟩
  | .eof :: rest | .endOfStatement :: rest | .identifier _ :: rest | .reserved _ :: rest
  | .string _ :: rest | .bytes _ :: rest | .integer _ :: rest | .float _ :: rest
  | .parameter _ :: rest | .barBar :: rest | .lessLess :: rest | .lessEqual :: rest
  | .lessGreater :: rest | .greaterGreater :: rest | .greaterEqual :: rest
  | .equalEqual :: rest | .bangEqual :: rest | .rune _ :: rest => exact ⟨rfl, rfl⟩

theorem same_unscan (t : Token) : Same f Eq (unscan (tokenWith f t)) (unscan t) := by
  intro ts
  have h : tokenWith f t = .eof ↔ t = .eof := by cases t <;> simp [tokenWith]
  refine ⟨rfl, ?_⟩
  by_cases ht : t = .eof
  · rw [if_pos ht, if_pos (h.2 ht)]
  · rw [if_neg ht, if_neg (mt h.1 ht)]; rfl

theorem same_loopFuel {σ : Type} {R : σ → σ → Prop} {step' step : σ → P (σ × Bool)}
    (h : ∀ s' s, R s' s → Same f (fun x' x => R x'.1 x.1 ∧ x'.2 = x.2) (step' s') (step s)) :
    ∀ n s' s, R s' s → Same f R (loopFuel step' n s') (loopFuel step n s)
  | 0, _, _, _ => same_stuck
  | n + 1, s', s, hs => by
    unfold loopFuel
    refine same_bind (h s' s hs) ?_
    rintro ⟨a', b'⟩ ⟨a, b⟩ ⟨h1, h2⟩
    cases h2
    exact same_ite (fun _ => same_loopFuel h n _ _ h1) (fun _ => same_pure h1)

theorem same_loop {σ : Type} {R : σ → σ → Prop} {step' step : σ → P (σ × Bool)} {s' s : σ}
    (hs : R s' s)
    (h : ∀ s' s, R s' s → Same f (fun x' x => R x'.1 x.1 ∧ x'.2 = x.2) (step' s') (step s)) :
    Same f R (loop step' s') (loop step s) := by
  intro ts
  unfold loop
  rw [List.length_map]
  exact same_loopFuel h _ _ _ hs ts

/-- A token that is not a bytes token. -/
def NoBytes (t : Token) : Prop := ∀ g, tokenWith g t = t

theorem tokenWith_eq {t mt : Token} (h : NoBytes mt) : tokenWith f t = mt ↔ t = mt := by
  constructor
  · intro e
    cases t with
    | bytes b =>
      have := h fun _ => b
      rw [← e] at this
      have h2 := h fun _ => b ++ [0]
      rw [← e] at h2
      simp only [tokenWith, Token.bytes.injEq] at this h2
      exact absurd (congrArg List.length (this.trans h2.symm)) (by simp)
    | _ => exact e
  · rintro rfl; exact h f

theorem same_expectReserved (ids : List Identifier) :
    Same f Eq (expectReserved ids) (expectReserved ids) := by
  refine same_bindBy same_next fun t => ?_
  cases t with
  | reserved id => exact same_ite (fun _ => same_pure rfl) (fun _ => same_errorGot (.reserved id))
  | bytes b => exact same_errorGot (.bytes b)
  | _ => exact same_errorGot _

theorem same_optionalReservedId (ids : List Identifier) :
    Same f Eq (optionalReservedId ids) (optionalReservedId ids) := by
  refine same_bindBy same_next fun t => ?_
  cases t with
  | reserved id =>
    exact same_ite (fun _ => same_pure rfl)
      (fun _ => same_bindEq (same_unscan (.reserved id)) fun _ => same_pure rfl)
  | bytes b => exact same_bindEq (same_unscan (.bytes b)) fun _ => same_pure rfl
  | _ => exact same_bindEq (same_unscan _) fun _ => same_pure rfl

theorem same_optionalReserved (ids : List Identifier) :
    Same f Eq (optionalReserved ids) (optionalReserved ids) :=
  same_bindEq (same_optionalReservedId ids) fun _ => same_pure rfl

theorem same_expectIdentifier : Same f Eq expectIdentifier expectIdentifier := by
  refine same_bindBy same_next fun t => ?_
  cases t with
  | identifier id => exact same_pure rfl
  | bytes b => exact same_errorGot (.bytes b)
  | _ => exact same_errorGot _

theorem same_token {α : Type} {R : α → α → Prop} {t mt : Token} {a' b' a b : P α} (hm : NoBytes mt)
    (h1 : t = mt → Same f R a' a) (h2 : t ≠ mt → Same f R b' b) :
    Same f R (if tokenWith f t = mt then a' else b') (if t = mt then a else b) := by
  by_cases h : t = mt
  · rw [if_pos h, if_pos ((tokenWith_eq hm).2 h)]; exact h1 h
  · rw [if_neg h, if_neg fun e => h ((tokenWith_eq hm).1 e)]; exact h2 h

theorem same_maybeIdentifier (id : Identifier) :
    Same f Eq (maybeIdentifier id) (maybeIdentifier id) := by
  refine same_bindBy same_next fun t => ?_
  exact same_token (fun _ => rfl) (fun _ => same_pure rfl)
    (fun _ => same_bindEq (same_unscan t) fun _ => same_pure rfl)

theorem same_expectTokens (tokens : List Token) (h : ∀ t ∈ tokens, NoBytes t) :
    Same f Eq (expectTokens tokens) (expectTokens tokens) := by
  refine same_bindBy same_next fun t => ?_
  by_cases ht : t ∈ tokens
  · rw [h t ht f, if_pos ht]; exact same_pure rfl
  · have : tokenWith f t ∉ tokens := fun hm =>
      ht (((tokenWith_eq (h _ hm)).1 rfl : t = tokenWith f t) ▸ hm)
    rw [if_neg ht, if_neg this]; exact same_errorGot t

theorem same_maybeToken (mt : Token) (h : NoBytes mt) :
    Same f Eq (maybeToken mt) (maybeToken mt) := by
  refine same_bindBy same_next fun t => ?_
  exact same_token h (fun _ => same_pure rfl)
    (fun _ => same_bindEq (same_unscan t) fun _ => same_pure rfl)

theorem same_expectInteger (min max : Int) :
    Same f Eq (expectInteger min max) (expectInteger min max) := by
  refine same_bindBy same_next fun t => ?_
  cases t with
  | integer i => exact same_ite (fun _ => same_errorGot (.integer i)) (fun _ => same_pure rfl)
  | bytes b => exact same_errorGot (.bytes b)
  | _ => exact same_errorGot _

theorem same_expectEndOfStatement : Same f Eq expectEndOfStatement expectEndOfStatement := by
  refine same_bindBy same_next fun t => ?_
  have h : (tokenWith f t = .eof ∨ tokenWith f t = .endOfStatement) ↔
      (t = .eof ∨ t = .endOfStatement) := by cases t <;> simp [tokenWith]
  by_cases ht : t = .eof ∨ t = .endOfStatement
  · rw [if_pos ht, if_pos (h.2 ht)]; exact same_pure rfl
  · rw [if_neg ht, if_neg (mt h.1 ht)]; exact same_errorGot t

theorem noBytes_tokens {l : List Token} (h : ∀ t ∈ l, tokenWith (fun _ => []) t = t ∧
    tokenWith (fun _ => [0]) t = t) : ∀ t ∈ l, NoBytes t := by
  intro t ht g
  have := h t ht
  cases t with
  | bytes b =>
    simp only [tokenWith, Token.bytes.injEq] at this
    exact absurd (this.1.trans this.2.symm) (by simp)
  | _ => rfl

theorem same_closed {σ : Type} {R : σ → σ → Prop} {step' step : σ → P σ} {s' s : σ} (hs : R s' s)
    (h : ∀ s' s, R s' s → Same f R (step' s') (step s)) :
    Same f R (closed step' s') (closed step s) := by
  refine same_loop hs fun s' s hs => ?_
  refine same_bind (h s' s hs) fun a' a ha => ?_
  exact same_bindEq (same_expectTokens _ (noBytes_tokens (by decide))) fun t => same_pure ⟨ha, rfl⟩

theorem same_separated {σ : Type} {R : σ → σ → Prop} {step' step : σ → P σ} {s' s : σ}
    (hs : R s' s) (h : ∀ s' s, R s' s → Same f R (step' s') (step s)) :
    Same f R (separated step' s') (separated step s) := by
  refine same_loop hs fun s' s hs => ?_
  refine same_bind (h s' s hs) fun a' a ha => ?_
  exact same_bindEq (same_maybeToken _ (fun _ => rfl)) fun t => same_pure ⟨ha, rfl⟩

theorem same_closedList {α : Type} {g : α → α} {p' p : P α} (h : Same f (By g) p' p) :
    Same f (By (List.map g)) (closedList p') (closedList p) := by
  refine same_closed rfl fun s' s hs => ?_
  cases hs
  exact same_bindBy h fun a => same_pure (by simp [By])

theorem same_separatedList {α : Type} {g : α → α} {p' p : P α} (h : Same f (By g) p' p) :
    Same f (By (List.map g)) (separatedList p') (separatedList p) := by
  refine same_separated rfl fun s' s hs => ?_
  cases hs
  exact same_bindBy h fun a => same_pure (by simp [By])

theorem same_eq_id {α : Type} {p' p : P α} (h : Same f Eq p' p) : Same f (By id) p' p := h

theorem same_closedListEq {α : Type} {p' p : P α} (h : Same f Eq p' p) :
    Same f Eq (closedList p') (closedList p) :=
  same_weaken (same_closedList (same_eq_id h)) fun _ _ e => by simpa [By] using e

theorem same_separatedListEq {α : Type} {p' p : P α} (h : Same f Eq p' p) :
    Same f Eq (separatedList p') (separatedList p) :=
  same_weaken (same_separatedList (same_eq_id h)) fun _ _ e => by simpa [By] using e

theorem same_distinctColumns : Same f Eq distinctColumns distinctColumns := by
  refine same_closed rfl fun s' s hs => ?_
  cases hs
  exact same_bindEq same_expectIdentifier fun nam =>
    same_ite (fun _ => same_error) (fun _ => same_pure rfl)

theorem same_clause {α : Type} {g : α → α} {p' p : P α} (id : Identifier)
    (h : Same f (By g) p' p) : Same f (By (Option.map g)) (clause id p') (clause id p) :=
  same_bindEq (same_optionalReserved _) fun _ =>
    same_ite (fun _ => same_bindBy h fun _ => same_pure rfl) (fun _ => same_pure rfl)

theorem same_clauseEq {α : Type} {p' p : P α} (id : Identifier) (h : Same f Eq p' p) :
    Same f Eq (clause id p') (clause id p) :=
  same_weaken (same_clause id (same_eq_id h)) fun _ _ e => by simpa [By] using e

end
end Maho.Lit
