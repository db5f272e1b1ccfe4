import Verif.Model.Parse
import Verif.Lemmas.Adjust
/-
Helper lemmas for C64: the methods of the parser return, with the tokens that are left.
-/
namespace Maho
open P

/-- No token with a nil error, and no token.EOF, which the list does not contain. -/
def Clean (B : List Token) : Prop := Token.error true ∉ B ∧ Token.eof ∉ B

/-- A result or a failure, with a part of `B` left, not longer than `k`, and shorter if the result
satisfies `C`. A panic only if there is a token with a nil error. -/
def Outcome (B : List Token) (k : Nat) {α : Type} (C : α → Prop) : PRes α → Prop
  | .ok a rest => rest <:+ B ∧ rest.length ≤ k ∧ (C a → rest.length < k)
  | .fail _ rest => rest <:+ B
  | .panic => Token.error true ∈ B
  | .stuck => False

/-- From less than `n` tokens `m` returns or fails, with a part of the tokens left; when the
result satisfies `C`, a token has been taken. -/
def Runs (B : List Token) (n : Nat) {α : Type} (m : P α) (C : α → Prop) : Prop :=
  ∀ ts, ts <:+ B → ts.length < n → Outcome B ts.length C (m ts)

/-- Nothing is said about tokens that are taken. -/
abbrev NoC {α : Type} : α → Prop := fun _ => False

/-- A token is taken. -/
abbrev AllC {α : Type} : α → Prop := fun _ => True

theorem suffix_tail {B ts : List Token} {t : Token} (h : t :: ts <:+ B) : ts <:+ B :=
  (List.suffix_cons t ts).trans h

theorem Clean.ne {B ts : List Token} {t : Token} (hB : Clean B) (h : t :: ts <:+ B) :
    t ≠ .error true ∧ t ≠ .eof := by
  have : t ∈ B := h.subset (by simp)
  constructor <;> (rintro rfl; first | exact hB.1 this | exact hB.2 this)

theorem noEof_ne {B ts : List Token} {t : Token} (hB : Token.eof ∉ B) (h : t :: ts <:+ B) :
    (t = .error true → Token.error true ∈ B) ∧ t ≠ .eof := by
  have : t ∈ B := h.subset (by simp)
  exact ⟨fun e => e ▸ this, fun e => hB (e ▸ this)⟩

theorem Outcome.mono {B : List Token} {k j : Nat} {α : Type} {C D : α → Prop} {r : PRes α}
    (h : Outcome B k C r) (hk : k ≤ j) (hCD : ∀ a, D a → C a ∨ k < j) : Outcome B j D r := by
  cases r with
  | ok a rest =>
    obtain ⟨h1, h2, h3⟩ := h
    refine ⟨h1, by omega, fun hd => ?_⟩
    rcases hCD a hd with hc | hc
    · have := h3 hc
      omega
    · omega
  | fail _ _ => exact h
  | panic => exact h
  | stuck => exact h

namespace Runs

variable {B : List Token} {n : Nat} {α β σ : Type}

theorem mono {m : P α} {C D : α → Prop} (h : Runs B n m C) (hCD : ∀ a, D a → C a) :
    Runs B n m D :=
  fun ts h1 h2 => (h ts h1 h2).mono (Nat.le_refl _) (fun a hd => Or.inl (hCD a hd))

theorem weaken {m : P α} {C : α → Prop} (h : Runs B n m C) : Runs B n m NoC :=
  h.mono (fun _ h => h.elim)

theorem fewer {m : P α} {C : α → Prop} {k : Nat} (h : Runs B n m C) (hk : k ≤ n) :
    Runs B k m C := fun ts h1 h2 => h ts h1 (by omega)

theorem pure {a : α} {C : α → Prop} (h : ¬ C a) : Runs B n (Pure.pure a : P α) C :=
  fun _ h1 _ => ⟨h1, Nat.le_refl _, fun hc => absurd hc h⟩

theorem error {C : α → Prop} : Runs B n (P.error : P α) C := fun _ h1 _ => h1

theorem errorAt {t : Token} {C : α → Prop} : Runs B n (P.errorAt t : P α) C := fun _ h1 _ => h1

theorem errorGot {t : Token} {C : α → Prop} (h : t = .error true → Token.error true ∈ B) :
    Runs B n (P.errorGot t : P α) C := by
  unfold P.errorGot
  split
  · exact fun _ _ _ => h ‹_›
  · exact errorAt

theorem bind {m : P α} {f : α → P β} {C : α → Prop} {D : β → Prop} (hm : Runs B n m C)
    (h1 : ∀ a, C a → Runs B (n - 1) (f a) NoC) (h2 : ∀ a, ¬ C a → Runs B n (f a) D) :
    Runs B n (m >>= f) D := by
  intro ts hs hl
  have := hm ts hs hl
  show Outcome B ts.length D (P.bind m f ts)
  unfold P.bind
  cases he : m ts with
  | panic => rw [he] at this; exact this
  | stuck => rw [he] at this; exact this
  | fail e rest => rw [he] at this; exact this
  | ok a rest =>
    rw [he] at this
    obtain ⟨g1, g2, g3⟩ := this
    by_cases hc : C a
    · have := g3 hc
      exact (h1 a hc rest g1 (by omega)).mono g2 (fun _ _ => Or.inr this)
    · exact (h2 a hc rest g1 (by omega)).mono g2 (fun _ hd => Or.inl hd)

/-- After `m` has taken a token. -/
theorem bindAll {m : P α} {f : α → P β} {D : β → Prop} (hm : Runs B n m AllC)
    (h1 : ∀ a, Runs B (n - 1) (f a) NoC) : Runs B n (m >>= f) D :=
  bind hm (fun a _ => h1 a) (fun _ h => absurd trivial h)

/-- Whatever `m` has taken. -/
theorem bindNo {m : P α} {f : α → P β} {D : β → Prop} (hm : Runs B n m NoC)
    (h1 : ∀ a, Runs B n (f a) D) : Runs B n (m >>= f) D :=
  bind hm (fun _ h => h.elim) (fun a _ => h1 a)

theorem bindBool {m : P Bool} {f : Bool → P β} {D : β → Prop} (hm : Runs B n m (· = true))
    (h1 : Runs B (n - 1) (f true) NoC) (h2 : Runs B n (f false) D) : Runs B n (m >>= f) D :=
  bind hm (fun a ha => by subst ha; exact h1)
    (fun a ha => by rw [Bool.not_eq_true] at ha; subst ha; exact h2)

theorem bindOption {m : P (Option α)} {f : Option α → P β} {D : β → Prop}
    (hm : Runs B n m (fun o => o.isSome = true))
    (h1 : ∀ a, Runs B (n - 1) (f (some a)) NoC) (h2 : Runs B n (f none) D) :
    Runs B n (m >>= f) D :=
  bind hm (fun a ha => by cases a with | none => simp at ha | some a => exact h1 a)
    (fun a ha => by cases a with | none => exact h2 | some a => simp at ha)

theorem map {m : P α} {f : α → β} {C : α → Prop} {D : β → Prop} (hm : Runs B n m C)
    (h : ∀ a, D (f a) → C a) : Runs B n (f <$> m) D := by
  show Runs B n (m >>= fun a => Pure.pure (f a)) D
  exact bind hm (fun a _ => pure (fun h => h)) (fun a ha => pure (fun hd => ha (h a hd)))

theorem ite {c : Prop} [Decidable c] {x y : P α} {C : α → Prop} (hx : Runs B n x C)
    (hy : Runs B n y C) : Runs B n (if c then x else y) C := by
  split <;> assumption

theorem loopFuel {step : σ → P (σ × Bool)} {D : Prop}
    (h : ∀ s, Runs B n (step s) (fun r => r.2 = true ∨ D)) :
    ∀ (k : Nat) (s : σ) (ts : List Token), ts <:+ B → ts.length < n → ts.length < k →
      Outcome B ts.length (fun _ => D) (P.loopFuel step k s ts)
  | 0, _, _, _, _, h3 => absurd h3 (by omega)
  | k + 1, s, ts, h1, h2, h3 => by
    have hs := h s ts h1 h2
    show Outcome B ts.length (fun _ => D) (P.bind (step s) _ ts)
    unfold P.bind
    cases he : step s ts with
    | panic => rw [he] at hs; exact hs
    | stuck => rw [he] at hs; exact hs
    | fail e rest => rw [he] at hs; exact hs
    | ok r rest =>
      obtain ⟨s2, again⟩ := r
      rw [he] at hs
      obtain ⟨g1, g2, g3⟩ := hs
      cases again with
      | false => exact ⟨g1, g2, fun d => g3 (Or.inr d)⟩
      | true =>
        have := g3 (Or.inl rfl)
        exact (loopFuel h k s2 rest g1 (by omega) (by omega)).mono g2 (fun _ _ => Or.inr this)

theorem loop {step : σ → P (σ × Bool)} {D : Prop} {s : σ}
    (h : ∀ s, Runs B n (step s) (fun r => r.2 = true ∨ D)) :
    Runs B n (P.loop step s) (fun _ => D) :=
  fun ts h1 h2 => loopFuel h (ts.length + 1) s ts h1 h2 (by omega)

/-- A token is taken, or put back. -/
theorem peek (hB : Token.eof ∉ B) {f : Token → P α} {C : α → Prop} (h1 : Runs B n (f .eof) C)
    (h2 : ∀ t, (t = .error true → Token.error true ∈ B) → t ≠ .eof →
      Runs B (n - 1) (f t) NoC ∨ ∃ g : P α, (f t = do P.unscan t; g) ∧ Runs B n g C) :
    Runs B n (P.next >>= f) C := by
  intro ts hs hl
  show Outcome B ts.length C (P.bind P.next f ts)
  unfold P.bind
  cases ts with
  | nil => exact h1 [] hs hl
  | cons t ts =>
    obtain ⟨ht1, ht2⟩ := noEof_ne hB hs
    by_cases hf : t = .error false
    · subst hf
      exact suffix_tail hs
    · have : P.next (t :: ts) = .ok t ts := by
        cases t with
        | error b =>
          cases b with
          | true => rfl
          | false => exact absurd rfl hf
        | _ => rfl
      rw [this]
      have hl2 : ts.length + 1 < n := by simpa using hl
      rcases h2 t ht1 ht2 with h | ⟨g, hg, h⟩
      · exact (h ts (suffix_tail hs) (by omega)).mono (by simp) (fun _ _ => Or.inr (by simp))
      · have h3 := h (t :: ts) hs hl
        show Outcome B (t :: ts).length C (f t ts)
        rw [hg]
        show Outcome B (t :: ts).length C (P.bind (P.unscan t) (fun _ => g) ts)
        simpa [P.bind, P.unscan, ht2] using h3

theorem unscan_eof {g : P α} {C : α → Prop} (h : Runs B n g C) :
    Runs B n (do P.unscan .eof; g) C := h

/-! The first methods. -/

variable (hB : Token.eof ∉ B)
include hB

theorem expectReserved {ids : List Identifier} : Runs B n (P.expectReserved ids) AllC := by
  apply peek hB
  · exact errorGot (by simp)
  · intro t ht _
    left
    split
    · split
      · exact pure (fun h => h)
      · exact errorGot ht
    · exact errorGot ht

theorem optionalReservedId {ids : List Identifier} :
    Runs B n (P.optionalReservedId ids) (fun o => o.isSome = true) := by
  apply peek hB
  · exact unscan_eof (pure (by simp))
  · intro t ht _
    split
    · split
      · exact Or.inl (pure (fun h => h))
      · exact Or.inr ⟨_, rfl, pure (by simp)⟩
    · exact Or.inr ⟨_, rfl, pure (by simp)⟩

theorem optionalReserved {ids : List Identifier} :
    Runs B n (P.optionalReserved ids) (· = true) :=
  bindOption (optionalReservedId hB) (fun _ => pure (fun h => h)) (pure (by simp))

theorem expectIdentifier : Runs B n P.expectIdentifier AllC := by
  apply peek hB
  · exact errorGot (by simp)
  · intro t ht _
    left
    split
    · exact pure (fun h => h)
    · exact errorGot ht

theorem maybeIdentifier {id : Identifier} : Runs B n (P.maybeIdentifier id) (· = true) := by
  apply peek hB
  · exact unscan_eof (pure (by simp))
  · intro t ht _
    split
    · exact Or.inl (pure (fun h => h))
    · exact Or.inr ⟨_, rfl, pure (by simp)⟩

theorem expectTokens {tokens : List Token} (h : Token.eof ∉ tokens) :
    Runs B n (P.expectTokens tokens) AllC := by
  apply peek hB
  · rw [if_neg h]
    exact errorGot (by simp)
  · intro t ht _
    left
    split
    · exact pure (fun h => h)
    · exact errorGot ht

theorem maybeToken {mt : Token} (h : mt ≠ .eof) : Runs B n (P.maybeToken mt) (· = true) := by
  apply peek hB
  · rw [if_neg h.symm]
    exact unscan_eof (pure (by simp))
  · intro t ht _
    split
    · exact Or.inl (pure (fun h => h))
    · exact Or.inr ⟨_, rfl, pure (by simp)⟩

theorem expectInteger {min max : Int} : Runs B n (P.expectInteger min max) AllC := by
  apply peek hB
  · exact errorGot (by simp)
  · intro t ht _
    left
    split
    · split
      · exact errorGot ht
      · exact pure (fun h => h)
    · exact errorGot ht

theorem expectEndOfStatement : Runs B n P.expectEndOfStatement NoC := by
  apply peek hB
  · exact pure (fun h => h)
  · intro t ht _
    left
    split
    · exact pure (fun h => h)
    · exact errorGot ht

theorem closed {step : σ → P σ} {s : σ} (h : ∀ s, Runs B n (step s) NoC) :
    Runs B n (P.closed step s) AllC := by
  refine (loop (D := True) fun s => ?_).mono (fun _ _ => trivial)
  refine bindNo (h s) fun s => ?_
  exact bindAll (expectTokens hB (by simp)) fun _ => pure (fun h => h)

theorem separated {step : σ → P σ} {s : σ} (h : ∀ s, Runs B n (step s) AllC) :
    Runs B n (P.separated step s) AllC := by
  refine (loop (D := True) fun s => ?_).mono (fun _ _ => trivial)
  refine bindAll (h s) fun s => ?_
  exact bindNo (maybeToken hB (by simp)).weaken fun _ => pure (fun h => h)

theorem closedList {item : P α} (h : Runs B n item NoC) : Runs B n (P.closedList item) AllC :=
  closed hB fun _ => bindNo h fun _ => pure (fun h => h)

theorem separatedList {item : P α} (h : Runs B n item AllC) :
    Runs B n (P.separatedList item) AllC :=
  separated hB fun _ => bindAll h fun _ => pure (fun h => h)

theorem distinctColumns : Runs B n P.distinctColumns AllC :=
  closed hB fun _ => bindNo (expectIdentifier hB).weaken fun _ => ite error (pure (fun h => h))

theorem clause {id : Identifier} {m : P α} (h : Runs B (n - 1) m NoC) :
    Runs B n (P.clause id m) (fun o => o.isSome = true) :=
  bindBool (optionalReserved hB) (bindNo h fun _ => pure (fun h => h)) (pure (by simp))

theorem optionalBinaryOp : Runs B n Maho.optionalBinaryOp (fun o => o.isSome = true) := by
  apply peek hB
  · have : binaryOps.lookup .eof = none := by decide
    simp only [this]
    exact unscan_eof (pure (by simp))
  · intro t ht _
    split
    · exact Or.inl (pure (fun h => h))
    · split
      · exact Or.inl (pure (fun h => h))
      · split
        · exact Or.inl (pure (fun h => h))
        · exact Or.inr ⟨_, rfl, pure (by simp)⟩

theorem parseSchemaName : Runs B n Maho.parseSchemaName AllC :=
  bindAll (expectIdentifier hB) fun _ => bindBool (maybeToken hB (by simp))
    (bindNo (expectIdentifier hB).weaken fun _ => pure (fun h => h)) (pure (fun h => h))

theorem parseTableName : Runs B n Maho.parseTableName AllC :=
  bindAll (expectIdentifier hB) fun _ => bindBool (maybeToken hB (by simp))
    (bindNo (expectIdentifier hB).weaken fun _ => bindBool (maybeToken hB (by simp))
      (bindNo (expectIdentifier hB).weaken fun _ => pure (fun h => h)) (pure (fun h => h)))
    (pure (fun h => h))

theorem parseAlias {required : Bool} : Runs B n (Maho.parseAlias required) NoC := by
  refine bindBool (optionalReserved hB) (expectIdentifier hB).weaken ?_
  apply peek hB
  · exact ite errorAt (unscan_eof (pure (fun h => h)))
  · intro t ht _
    split
    · exact Or.inl (pure (fun h => h))
    · split
      · exact Or.inl errorAt
      · exact Or.inr ⟨_, rfl, pure (fun h => h)⟩

theorem parseTableAlias : Runs B n Maho.parseTableAlias AllC :=
  bindAll (parseTableName hB) fun _ => bindBool (maybeToken hB (by simp))
    (bindNo (expectIdentifier hB).weaken fun _ => bindNo (parseAlias hB) fun _ =>
      pure (fun h => h))
    (bindNo (parseAlias hB) fun _ => pure (fun h => h))

theorem parseColumnAliases : Runs B n Maho.parseColumnAliases NoC :=
  bindBool (maybeToken hB (by simp)) (closedList hB (expectIdentifier hB).weaken).weaken
    (pure (fun h => h))

theorem parseOrderBy : Runs B n Maho.parseOrderBy AllC :=
  bindAll (expectIdentifier hB) fun _ => bindBool (optionalReserved hB) (pure (fun h => h))
    (bindNo (optionalReserved hB).weaken fun _ => pure (fun h => h))

theorem showFromTable {env : ParseEnv} {id : Identifier} :
    Runs B n (Maho.showFromTable env id) NoC :=
  bindNo (expectReserved hB).weaken fun _ => bindNo (parseTableName hB).weaken fun _ =>
    pure (fun h => h)

theorem showVariable {env : ParseEnv} {id : Identifier} :
    Runs B n (Maho.showVariable env id) NoC := by
  unfold Maho.showVariable
  refine ite (showFromTable hB) (ite (pure (fun h => h)) (ite (showFromTable hB)
    (ite (pure (fun h => h)) (ite ?_ (ite ?_ (pure (fun h => h)))))))
  · exact bindNo (clause hB (expectIdentifier hB).weaken).weaken fun _ => pure (fun h => h)
  · refine bindNo (clause hB (parseSchemaName hB).weaken).weaken fun o => ?_
    cases o <;> exact pure (fun h => h)

theorem parseShow {env : ParseEnv} : Runs B n (Maho.parseShow env) NoC := by
  apply peek hB
  · exact errorAt
  · intro t ht _
    left
    split
    · exact showVariable hB
    · exact showVariable hB
    · exact errorAt

theorem parseFromStmt {q : Query} : Runs B n (Maho.parseFromStmt q) AllC :=
  bindAll (expectTokens hB (by simp)) fun _ => bindNo (parseAlias hB) fun _ =>
    bindNo (parseColumnAliases hB) fun _ => pure (fun h => h)

theorem parseJoinType : Runs B n Maho.parseJoinType (fun o => o.isSome = true) := by
  refine bindOption (optionalReservedId hB) (fun id => ?_) (pure (by simp))
  refine ite (pure (fun h => h)) (ite ?_ (ite ?_ ?_))
  · exact bindNo (expectReserved hB).weaken fun _ => pure (fun h => h)
  · exact bindNo (expectReserved hB).weaken fun _ => pure (fun h => h)
  · exact bindNo (optionalReserved hB).weaken fun _ => bindNo (expectReserved hB).weaken fun _ =>
      pure (fun h => h)

/-! The methods that call each other. -/

omit hB in
theorem adjust {e : Expr} : Runs B n (Maho.adjust e) NoC := by
  intro ts h1 h2
  obtain ⟨e', he, _⟩ := adj_total e (3 * e.nodes + 1) (by omega)
  unfold Maho.adjust
  rw [he]
  exact ⟨h1, Nat.le_refl _, fun h => h.elim⟩

omit hB in
theorem raw {f : Token → P α} {C : α → Prop} (h1 : Runs B n (f .eof) C) (hB : Token.eof ∉ B)
    (h2 : ∀ t ts, (t = .error true → Token.error true ∈ B) → t ≠ .eof → t :: ts <:+ B → ts.length + 1 < n →
      Outcome B (ts.length + 1) C (f t ts)) :
    Runs B n (P.next >>= f) C := by
  intro ts hs hl
  show Outcome B ts.length C (P.bind P.next f ts)
  unfold P.bind
  cases ts with
  | nil => exact h1 [] hs hl
  | cons t ts =>
    obtain ⟨ht1, ht2⟩ := noEof_ne hB hs
    by_cases hf : t = .error false
    · subst hf
      exact suffix_tail hs
    · have : P.next (t :: ts) = .ok t ts := by
        cases t with
        | error b =>
          cases b with
          | true => rfl
          | false => exact absurd rfl hf
        | _ => rfl
      rw [this]
      exact h2 t ts ht1 ht2 hs (by simpa using hl)

omit hB in
theorem at_ {m : P α} {C : α → Prop} (h : Runs B (n - 1) m NoC) {ts : List Token} {t : Token}
    (hs : t :: ts <:+ B) (hl : ts.length + 1 < n) : Outcome B (ts.length + 1) C (m ts) :=
  (h ts (suffix_tail hs) (by omega)).mono (by omega) (fun _ _ => Or.inr (by omega))

end Runs

theorem next_cons {B ts : List Token} {t : Token} (hB : Token.eof ∉ B) (hs : t :: ts <:+ B) :
    P.next (t :: ts) = if t = .error false then .fail false ts else .ok t ts := by
  obtain ⟨ht1, ht2⟩ := noEof_ne hB hs
  cases t with
  | error b => cases b <;> simp_all [P.next]
  | _ => rfl

/-- What `maybeToken` does. -/
theorem maybeToken_cases {B ts : List Token} {mt : Token} (hB : Token.eof ∉ B) (hs : ts <:+ B)
    (hm : mt ≠ .eof) :
    (∃ rest, P.maybeToken mt ts = .fail false rest ∧ rest <:+ B) ∨
      (∃ rest, P.maybeToken mt ts = .ok true rest ∧ ts = mt :: rest) ∨
        P.maybeToken mt ts = .ok false ts := by
  cases ts with
  | nil =>
    right; right
    simp [P.maybeToken, P.bind, P.next, Ne.symm hm, P.unscan, Bind.bind, Pure.pure]
  | cons t ts =>
    have ht := (noEof_ne hB hs).2
    show (∃ rest, P.bind P.next _ _ = .fail false rest ∧ _) ∨ (∃ rest, P.bind P.next _ _ =
      .ok true rest ∧ _) ∨ P.bind P.next _ _ = _
    unfold P.bind
    rw [next_cons hB hs]
    by_cases h1 : t = .error false
    · rw [if_pos h1]
      exact Or.inl ⟨ts, rfl, suffix_tail hs⟩
    · rw [if_neg h1]
      by_cases h2 : t = mt
      · simp only [if_pos h2]
        exact Or.inr (Or.inl ⟨ts, rfl, by rw [h2]⟩)
      · simp only [if_neg h2]
        right; right
        simp [P.bind, P.unscan, Bind.bind, Pure.pure, ht]

/-- What `optionalReservedId` does. -/
theorem optionalReservedId_cases {B ts : List Token} {ids : List Identifier} (hB : Token.eof ∉ B)
    (hs : ts <:+ B) :
    (∃ rest, P.optionalReservedId ids ts = .fail false rest ∧ rest <:+ B) ∨
      (∃ id rest, P.optionalReservedId ids ts = .ok (some id) rest ∧ id ∈ ids ∧
        ts = .reserved id :: rest) ∨
        (P.optionalReservedId ids ts = .ok none ts ∧ ∀ id ∈ ids, ts.head? ≠ some (.reserved id)) := by
  cases ts with
  | nil =>
    right; right
    refine ⟨?_, by simp⟩
    simp [P.optionalReservedId, P.bind, P.next, P.unscan, Bind.bind, Pure.pure]
  | cons t ts =>
    have ht := (noEof_ne hB hs).2
    show (∃ rest, P.bind P.next _ _ = .fail false rest ∧ _) ∨ (∃ id rest, P.bind P.next _ _ =
      .ok (some id) rest ∧ _ ∧ _) ∨ (P.bind P.next _ _ = _ ∧ _)
    unfold P.bind
    rw [next_cons hB hs]
    by_cases h1 : t = .error false
    · rw [if_pos h1]
      exact Or.inl ⟨ts, rfl, suffix_tail hs⟩
    · rw [if_neg h1]
      right
      cases t with
      | reserved id =>
        by_cases h2 : id ∈ ids
        · left
          exact ⟨id, ts, by simp [h2, Pure.pure], h2, rfl⟩
        · right
          refine ⟨by simp [h2, P.bind, P.unscan, Bind.bind, Pure.pure], ?_⟩
          simp only [List.head?_cons, ne_eq, Option.some.injEq, Token.reserved.injEq]
          rintro id' hid rfl
          exact h2 hid
      | _ =>
        right
        simp_all [P.bind, P.unscan, Bind.bind, Pure.pure]

/-- What is known of the methods that call each other. -/
structure GoodParsers (B : List Token) (n : Nat) (p : Parsers) : Prop where
  subExpr : Runs B n p.subExpr AllC
  query : Runs B n p.query (fun o => o.isSome = true)
  fromItem : Runs B n p.fromItem AllC

namespace GoodParsers
open Runs

variable {B : List Token} {n : Nat} {p : Parsers} (hB : Token.eof ∉ B)
include hB

omit hB in
theorem fewer {k : Nat} (g : GoodParsers B n p) (h : k ≤ n) : GoodParsers B k p :=
  ⟨g.subExpr.fewer h, g.query.fewer h, g.fromItem.fewer h⟩

omit hB in
theorem expr (g : GoodParsers B n p) : Runs B n p.expr AllC :=
  bindAll g.subExpr fun _ => Runs.adjust

theorem subquery (g : GoodParsers B (n - 1) p) : Runs B n p.subquery AllC := by
  refine bindAll (expectTokens hB (by simp)) fun _ => bindNo g.query.weaken fun o => ?_
  cases o with
  | none => exact error
  | some q => exact bindNo (expectTokens hB (by simp)).weaken fun _ => pure (fun h => h)

theorem call (g : GoodParsers B (n - 1) p) {id : Identifier} : Runs B n (p.call id) NoC := by
  refine bindBool (maybeToken hB (by simp)) ?_ ?_
  · refine bindBool (maybeToken hB (by simp)) (pure (fun h => h)) ?_
    refine ite (pure (fun h => h)) (ite
      (bindNo (maybeToken (mt := Tok.star) hB (by simp)).weaken fun b => ?_)
      (bindNo (pure (fun h => h)) fun b => ?_))
    all_goals
      refine ite ?_ ?_
      · exact bindNo (expectTokens hB (by simp)).weaken fun _ => pure (fun h => h)
      · exact bindNo (closedList hB g.subExpr.weaken).weaken fun _ => pure (fun h => h)
  · refine bindNo ((loop (D := False) fun ids => ?_).mono (fun _ h => h.elim)) fun _ =>
      pure (fun h => h)
    refine bindBool (maybeToken hB (by simp)) ?_ (pure (by simp))
    exact bindNo (expectIdentifier hB).weaken fun _ => pure (fun h => h)

theorem operand (g : GoodParsers B (n - 1) p) : Runs B n p.operand AllC := by
  unfold Parsers.operand
  refine peek hB ?_ ?_
  · simp only
    rw [if_neg (by simp), if_neg (by simp)]
    exact errorGot (by simp)
  · intro t ht _
    left
    split
    · refine ite (pure (fun h => h)) (ite (pure (fun h => h)) (ite (pure (fun h => h)) (ite ?_
        (ite ?_ error))))
      · exact bindNo g.subExpr.weaken fun _ => pure (fun h => h)
      · exact bindNo (subquery hB (g.fewer (by omega))).weaken fun _ => pure (fun h => h)
    · exact pure (fun h => h)
    · exact pure (fun h => h)
    · exact pure (fun h => h)
    · exact pure (fun h => h)
    · exact call hB (g.fewer (by omega))
    · refine ite ?_ (ite ?_ (errorGot ht))
      · exact bindNo g.subExpr.weaken fun _ => pure (fun h => h)
      · refine bindNo g.query.weaken fun o => ?_
        cases o with
        | some q => exact bindNo (expectTokens hB (by simp)).weaken fun _ => pure (fun h => h)
        | none =>
          exact bindNo g.subExpr.weaken fun _ => bindNo (expectTokens hB (by simp)).weaken
            fun _ => pure (fun h => h)

theorem operator {env : ParseEnv} (g : GoodParsers B (n - 1) p) {e : Expr} :
    Runs B n (p.operator env e) NoC := by
  refine bindOption (Runs.optionalBinaryOp hB) (fun o => ?_) ?_
  · obtain ⟨op, bool⟩ := o
    refine bindOption (optionalReservedId hB) (fun id => ?_) ?_
    · refine ite ?_ error
      exact bindNo (subquery hB (g.fewer (by omega))).weaken fun _ => pure (fun h => h)
    · exact bindNo g.subExpr.weaken fun _ => pure (fun h => h)
  · intro ts hs hl
    show Outcome B _ _ (P.bind (P.optionalReservedId _) _ ts)
    rcases optionalReservedId_cases (ids := [Kw.IN, Kw.NOT, Kw.IS]) hB hs with
      ⟨rest, h, h2⟩ | ⟨id, rest, h, h2, rfl⟩ | ⟨h, h2⟩
    · simp only [P.bind, h]
      exact h2
    · simp only [P.bind, h]
      have hr := suffix_tail hs
      have hl2 : rest.length < n - 1 := by simp at hl; omega
      by_cases h3 : id = Kw.IN
      · subst h3
        have h4 : Runs B (n - 1) (do
            let q ← p.subquery
            Pure.pure (Expr.subquery .any .equal (some e) q)) NoC :=
          bindNo (subquery hB (g.fewer (by omega))).weaken fun _ => pure (fun h => h)
        exact (h4 rest hr hl2).mono (by simp) (fun _ _ => Or.inr (by simp))
      · by_cases h4 : id = Kw.NOT
        · subst h4
          show Outcome B _ _ (P.bind (P.bind (P.optionalReservedId _) _) _ rest)
          rcases optionalReservedId_cases (ids := [Kw.IN]) hB hr with
            ⟨rest2, f, f2⟩ | ⟨id, rest2, f, f2, rfl⟩ | ⟨f, f2⟩
          · simp only [P.bind, f]
            exact f2
          · simp only [P.bind, f]
            have h4 : Runs B (n - 1) (do
                let q ← p.subquery
                Pure.pure (Expr.subquery .all .notEqual (some e) q)) NoC :=
              bindNo (subquery hB (g.fewer (by omega))).weaken fun _ => pure (fun h => h)
            refine (h4 rest2 (suffix_tail hr) ?_).mono ?_ (fun _ _ => Or.inr ?_)
            all_goals
              simp at hl2 ⊢
              try omega
          · simp only [P.bind, f]
            exact ⟨hs, Nat.le_refl _, fun h => h.elim⟩
        · have h5 : Runs B (n - 1) (do
              let not ← P.optionalReserved [Kw.NOT]
              let _ ← P.expectReserved [Kw.NULL]
              let e := Expr.call (env.id (ascii "is_null") false) [e]
              (Pure.pure (if not then .unary .not e else e) : P Expr)) NoC :=
            bindNo (optionalReserved hB).weaken fun _ => bindNo (expectReserved hB).weaken fun _ =>
              pure (fun h => h)
          have h6 := h5 rest hr hl2
          simp only [if_neg h3, if_neg h4]
          exact h6.mono (by simp) (fun _ _ => Or.inr (by simp))
    · simp only [P.bind, h]
      exact ⟨hs, Nat.le_refl _, fun h => h.elim⟩

theorem stepSubExpr {env : ParseEnv} (g : GoodParsers B n p) : Runs B (n + 1) (p.stepSubExpr env) AllC :=
  bindAll (operand hB g) fun _ => operator hB (g.fewer (by omega))

theorem values (g : GoodParsers B n p) : Runs B n p.values AllC := by
  refine bindAll (separated hB fun rows => ?_) fun _ => pure (fun h => h)
  refine bindAll (expectTokens hB (by simp)) fun _ =>
    bindNo (closedList hB (g.expr.weaken.fewer (by omega))).weaken fun row => ?_
  cases rows with
  | nil => exact pure (fun h => h)
  | cons row0 _ => exact ite error (pure (fun h => h))

theorem fromList (g : GoodParsers B n p) : Runs B n p.fromList AllC := by
  refine bindAll g.fromItem fun fi => ?_
  refine (loop (D := False) fun ids => ?_).mono (fun _ h => h.elim)
  refine bindBool (maybeToken hB (by simp)) ?_ (pure (by simp))
  exact bindNo (g.fromItem.weaken.fewer (by omega)) fun _ => pure (fun h => h)

theorem result (g : GoodParsers B n p) : Runs B n p.result AllC := by
  have ha : Runs B n (do
      let e ← p.expr
      let alias ← Maho.parseAlias false
      (Pure.pure (.expr e alias) : P SelectResult)) AllC :=
    bindAll g.expr fun _ => bindNo (Runs.parseAlias hB) fun _ => pure (fun h => h)
  refine raw ?_ hB fun t ts ht1 ht2 hs hl => ?_
  · exact unscan_eof ha
  · have hself := ha (t :: ts) hs (by simpa using hl)
    have hun : Outcome B (ts.length + 1) AllC (P.bind (P.unscan t) (fun _ => do
        let e ← p.expr
        let alias ← Maho.parseAlias false
        (Pure.pure (.expr e alias) : P SelectResult)) ts) := by
      simp only [P.bind, P.unscan, if_neg ht2]
      exact hself
    split
    · rename_i tbl
      show Outcome B _ _ (P.bind (P.maybeToken _) _ ts)
      rcases maybeToken_cases (mt := Tok.dot) hB (suffix_tail hs) (by simp) with
        ⟨rest, h, h2⟩ | ⟨rest, h, rfl⟩ | h
      · simp only [P.bind, h]
        exact h2
      · simp only [P.bind, h]
        show Outcome B _ _ (P.bind (P.maybeToken _) _ rest)
        have hs2 := suffix_tail (suffix_tail hs)
        rcases maybeToken_cases (mt := Tok.star) hB hs2 (by simp) with
          ⟨rest2, f, f2⟩ | ⟨rest2, f, rfl⟩ | f
        · simp only [P.bind, f]
          exact f2
        · simp only [P.bind, f]
          exact ⟨suffix_tail hs2, by simp; omega, fun _ => by simp; omega⟩
        · simp only [P.bind, f]
          exact hself
      · simp only [P.bind, h]
        exact hself
    · exact hun

theorem select (g : GoodParsers B n p) : Runs B n p.select NoC := by
  refine bindNo (maybeToken hB (by simp)).weaken fun star => ?_
  have g1 := g.fewer (Nat.sub_le n 1)
  refine ite (bindNo (pure (fun h => h)) fun _ => ?_)
    (bindNo (separatedList hB (result hB g)).weaken fun _ => ?_)
  all_goals
    refine bindNo (clause hB (fromList hB g1).weaken).weaken fun _ => ?_
    refine bindNo (clause hB g1.expr.weaken).weaken fun _ => ?_
    refine bindNo (clause hB ?_).weaken fun _ => ?_
    · exact bindNo (expectReserved hB).weaken fun _ => (separatedList hB g1.expr).weaken
    refine bindNo (clause hB g1.expr.weaken).weaken fun _ => ?_
    refine bindNo (clause hB ?_).weaken fun _ => pure (fun h => h)
    exact bindNo (expectReserved hB).weaken fun _ => (separatedList hB (Runs.parseOrderBy hB)).weaken

theorem stepQuery {env : ParseEnv} (g : GoodParsers B n p) :
    Runs B (n + 1) (p.stepQuery env) (fun o => o.isSome = true) := by
  refine bindBool (optionalReserved hB) ?_ (bindBool (optionalReserved hB) ?_
    (bindBool (optionalReserved hB) ?_ (bindBool (optionalReserved hB) ?_ (pure (by simp)))))
  · exact bindNo (select hB g) fun _ => pure (fun h => h)
  · exact bindNo (values hB g).weaken fun _ => pure (fun h => h)
  · exact bindNo (Runs.parseShow hB) fun _ => pure (fun h => h)
  · exact bindNo (Runs.parseTableName hB).weaken fun _ => pure (fun h => h)

theorem joinCondition (g : GoodParsers B n p) : Runs B n p.joinCondition NoC := by
  refine bindNo (clause hB (g.expr.weaken.fewer (by omega))).weaken fun o => ?_
  cases o with
  | some e => exact pure (fun h => h)
  | none =>
    refine bindNo (clause hB ?_).weaken fun _ => pure (fun h => h)
    exact bindNo (expectTokens hB (by simp)).weaken fun _ => (distinctColumns hB).weaken

theorem stepFromItem (g : GoodParsers B n p) : Runs B (n + 1) p.stepFromItem AllC := by
  have hrest : ∀ fi : FromItem, Runs B n (do
      let jt ← Maho.parseJoinType
      match jt with
      | none => Pure.pure fi
      | some jt => do
        let r ← p.fromItem
        let (on, cols) ← p.joinCondition
        if jt = .crossJoin then
          if on.isSome ∨ cols ≠ [] then P.error else Pure.pure (.join fi r jt on cols)
        else
          if (on.isSome ∧ cols ≠ []) ∨ (on.isNone ∧ cols = []) then P.error
          else (Pure.pure (.join fi r jt on cols) : P FromItem)) NoC := by
    intro fi
    refine bindNo (Runs.parseJoinType hB).weaken fun jt => ?_
    cases jt with
    | none => exact pure (fun h => h)
    | some jt =>
      refine bindNo g.fromItem.weaken fun r => bindNo (joinCondition hB g) fun o => ?_
      obtain ⟨on, cols⟩ := o
      exact ite (ite error (pure (fun h => h))) (ite error (pure (fun h => h)))
  refine bindBool (maybeToken hB (by simp)) ?_ ?_
  · refine bindNo ?_ hrest
    refine bindNo g.query.weaken fun o => ?_
    cases o with
    | some q => exact (Runs.parseFromStmt hB).weaken
    | none =>
      exact bindNo (fromList hB g).weaken fun _ => bindNo (expectTokens hB (by simp)).weaken
        fun _ => pure (fun h => h)
  · exact bindAll (m := Maho.parseTableAlias) (Runs.parseTableAlias hB) hrest

theorem parsers {env : ParseEnv} : ∀ n, GoodParsers B n (Maho.parsers env n)
  | 0 => ⟨fun _ _ h => absurd h (by omega), fun _ _ h => absurd h (by omega),
      fun _ _ h => absurd h (by omega)⟩
  | n + 1 =>
    ⟨stepSubExpr hB (parsers n), stepQuery hB (parsers n), stepFromItem hB (parsers n)⟩

end GoodParsers

end Maho
