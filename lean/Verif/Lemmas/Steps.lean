import Verif.Model.Parse
import Verif.Spec.Grammar
/-
Helper lemmas for C61 to C63: what the first methods of the parser do with given tokens.
-/
namespace Maho
open P Maho.Spec

/-- The next token, if there is one, satisfies `f`. -/
def Ends (f : Token → Bool) (rest : List Token) : Prop := ∀ t, rest.head? = some t → f t = true

theorem Ends.nil {f : Token → Bool} : Ends f [] := fun _ h => by simp at h

theorem Ends.cons {f : Token → Bool} {t : Token} {l : List Token} (h : f t = true) :
    Ends f (t :: l) := fun u hu => by
  simp only [List.head?_cons, Option.some.injEq] at hu
  exact hu ▸ h

theorem Ends.mono {f g : Token → Bool} {rest : List Token} (h : Ends f rest)
    (hfg : ∀ t, f t = true → g t = true) : Ends g rest := fun t ht => hfg t (h t ht)

/-- Neither an error nor token.EOF. -/
def IsFair (f : Token → Bool) : Prop := f (.error false) = false ∧ f .eof = false

section

variable {α β : Type} {f : Token → Bool} {ts rest : List Token}

theorem bind_ok {m : P α} {k : α → P β} {a : α} (h : m ts = .ok a rest) :
    (m >>= k) ts = k a rest := by
  show P.bind m k ts = _
  simp only [P.bind, h]

theorem pure_ok {a : α} : (pure a : P α) ts = .ok a ts := rfl

theorem next_hit {t : Token} (h : t ≠ .error false) : next (t :: ts) = .ok t ts := by
  cases t with
  | error b => cases b <;> simp_all [next]
  | _ => rfl

theorem unscan_cons {t : Token} (h : t ≠ .eof) : unscan t ts = .ok () (t :: ts) := by
  simp [unscan, h]

/-- A look at the next token when it is put back. -/
theorem peek_miss (h : Ends f rest) (hf : IsFair f) {k : Token → P α} {r : PRes α}
    (h0 : rest = [] → k .eof [] = r)
    (h1 : ∀ t l, rest = t :: l → f t = true → t ≠ .eof → k t l = r) :
    (next >>= k) rest = r := by
  cases rest with
  | nil => exact h0 rfl
  | cons t l =>
    have ht := h t rfl
    rw [bind_ok (next_hit (by rintro rfl; rw [hf.1] at ht; cases ht))]
    exact h1 t l rfl ht (by rintro rfl; rw [hf.2] at ht; cases ht)

theorem maybeToken_hit {t : Token} (h : t ≠ .error false) : maybeToken t (t :: ts) = .ok true ts := by
  unfold maybeToken
  rw [bind_ok (next_hit h), if_pos rfl]
  rfl

theorem maybeToken_miss {t : Token} (h : Ends f rest) (hf : IsFair f) (ht : f t = false)
    (he : t ≠ .eof) : maybeToken t rest = .ok false rest := by
  unfold maybeToken
  refine peek_miss h hf (fun e => ?_) (fun u l e hu hne => ?_)
  · rw [if_neg he.symm, e]
    rfl
  · rw [if_neg (by rintro rfl; rw [ht] at hu; cases hu), bind_ok (unscan_cons hne), e]
    rfl

theorem maybeIdentifier_miss {id : Identifier} (h : Ends f rest) (hf : IsFair f)
    (ht : f (.identifier id) = false) : maybeIdentifier id rest = .ok false rest := by
  unfold maybeIdentifier
  refine peek_miss h hf (fun e => ?_) (fun u l e hu hne => ?_)
  · rw [if_neg (by simp), e]
    rfl
  · rw [if_neg (by rintro rfl; rw [ht] at hu; cases hu), bind_ok (unscan_cons hne), e]
    rfl

theorem maybeIdentifier_hit {id : Identifier} :
    maybeIdentifier id (.identifier id :: ts) = .ok true ts := by
  unfold maybeIdentifier
  rw [bind_ok (next_hit (by simp)), if_pos rfl]
  rfl

theorem expectTokens_hit {t : Token} {tokens : List Token} (h : t ≠ .error false)
    (ht : t ∈ tokens) : expectTokens tokens (t :: ts) = .ok t ts := by
  unfold expectTokens
  rw [bind_ok (next_hit h), if_pos ht]
  rfl

theorem expectIdentifier_hit {id : Identifier} :
    expectIdentifier (.identifier id :: ts) = .ok id ts := rfl

theorem expectReserved_hit {id : Identifier} {ids : List Identifier} (h : id ∈ ids) :
    expectReserved ids (.reserved id :: ts) = .ok id ts := by
  unfold expectReserved
  rw [bind_ok (next_hit (by simp))]
  simp only [if_pos h]
  rfl

theorem optionalReservedId_hit {id : Identifier} {ids : List Identifier} (h : id ∈ ids) :
    optionalReservedId ids (.reserved id :: ts) = .ok (some id) ts := by
  unfold optionalReservedId
  rw [bind_ok (next_hit (by simp))]
  simp only [if_pos h]
  rfl

theorem optionalReservedId_miss {ids : List Identifier} (h : Ends f rest) (hf : IsFair f)
    (hi : ∀ id ∈ ids, f (.reserved id) = false) : optionalReservedId ids rest = .ok none rest := by
  unfold optionalReservedId
  refine peek_miss h hf (fun e => ?_) (fun u l e hu hne => ?_)
  · rw [e]
    rfl
  · cases u with
    | reserved id =>
      simp only
      rw [if_neg (fun hm => by rw [hi id hm] at hu; cases hu), bind_ok (unscan_cons hne), e]
      rfl
    | _ =>
      simp only
      rw [bind_ok (unscan_cons hne), e]
      rfl

theorem optionalReserved_hit {id : Identifier} {ids : List Identifier} (h : id ∈ ids) :
    optionalReserved ids (.reserved id :: ts) = .ok true ts := by
  unfold optionalReserved
  rw [bind_ok (optionalReservedId_hit h)]
  rfl

theorem optionalReserved_miss {ids : List Identifier} (h : Ends f rest) (hf : IsFair f)
    (hi : ∀ id ∈ ids, f (.reserved id) = false) : optionalReserved ids rest = .ok false rest := by
  unfold optionalReserved
  rw [bind_ok (optionalReservedId_miss h hf hi)]
  rfl

theorem clause_hit {id : Identifier} {m : P α} {a : α} (h : m ts = .ok a rest) :
    clause id m (.reserved id :: ts) = .ok (some a) rest := by
  unfold clause
  rw [bind_ok (optionalReserved_hit (by simp)), if_pos rfl, bind_ok h]
  rfl

theorem clause_miss {id : Identifier} {m : P α} (h : Ends f rest) (hf : IsFair f)
    (hi : f (.reserved id) = false) : clause id m rest = .ok none rest := by
  unfold clause
  rw [bind_ok (optionalReserved_miss h hf (by simpa using hi))]
  rfl

theorem optionalBinaryOp_hit {t : Token} {op : SqlOp} (h : (t, op) ∈ infixTokens) :
    ∃ b, optionalBinaryOp (t :: ts) = .ok (some (op, b)) ts ∧ (IsBoolean op → b = true) := by
  simp only [infixTokens, List.mem_cons, List.not_mem_nil, or_false, Prod.mk.injEq] at h
  rcases h with h | h | h | h | h | h | h | h | h | h | h | h | h | h | h | h | h | h | h | h <;>
    obtain ⟨rfl, rfl⟩ := h <;> exact ⟨_, rfl, by unfold IsBoolean; decide⟩

theorem optionalBinaryOp_miss (h : Ends f rest) (hf : IsFair f)
    (ho : ∀ p ∈ infixTokens, f p.1 = false) : optionalBinaryOp rest = .ok none rest := by
  unfold optionalBinaryOp
  refine peek_miss h hf (fun e => ?_) (fun u l e hu hne => ?_)
  · rw [e]
    rfl
  · have hl : binaryOps.lookup u = none := by
      rw [List.lookup_eq_none_iff]
      intro p hp
      have hi : ∀ q ∈ binaryOps, q.1 ∈ infixTokens.map (·.1) := by decide
      obtain ⟨q, hq, he⟩ := List.mem_map.1 (hi p hp)
      have := ho q hq
      simp only [bne_iff_ne, ne_eq]
      rintro rfl
      rw [he, hu] at this
      cases this
    simp only [hl]
    have ha : u ≠ .reserved Kw.AND := by
      rintro rfl
      have := ho (.reserved Kw.AND, .and) (by decide)
      simp only [hu] at this
      cases this
    have hor : u ≠ .reserved Kw.OR := by
      rintro rfl
      have := ho (.reserved Kw.OR, .or) (by decide)
      simp only [hu] at this
      cases this
    rw [if_neg ha, if_neg hor, bind_ok (unscan_cons hne), e]
    rfl

end

/-! ### Lists -/

/-- Two lists with elements that are related. -/
inductive Pairwise2 {α β : Type} (S : α → β → Prop) : List α → List β → Prop
  | nil : Pairwise2 S [] []
  | cons {a : α} {b : β} {l : List α} {m : List β} : S a b → Pairwise2 S l m →
    Pairwise2 S (a :: l) (b :: m)

theorem Pairwise2.eq {α : Type} : ∀ {l m : List α}, Pairwise2 (fun a b => a = b) l m → l = m
  | _, _, .nil => rfl
  | _, _, .cons h t => by rw [h, t.eq]

section

variable {α β : Type} {R : β → List Token → Prop} {S : α → β → Prop} {item : P α} {n : Nat}
  {f g : Token → Bool} {rest : List Token}

theorem closedList_loop (hc : f Tok.comma = true) (hr : f Tok.rparen = true)
    (h : ∀ b ts, R b ts → ts.length < n → ∀ rest, Ends f rest →
      ∃ a, item (ts ++ rest) = .ok a rest ∧ S a b) :
    ∀ {l : List β} {ts : List Token}, Separated R l ts → ts.length < n →
      ∀ (k : Nat) (acc : List α), ts.length < k → ∃ as, Pairwise2 S as l ∧
        loopFuel (fun s => do
          let s ← (do let a ← item; pure (s ++ [a]))
          let t ← expectTokens [Tok.comma, Tok.rparen]
          pure (s, t == Tok.comma)) k acc (ts ++ Tok.rparen :: rest) = .ok (acc ++ as) rest
  | _, _, .one (a := b) (ts := ts) hb, hn, k, acc, hk => by
    obtain ⟨j, rfl⟩ : ∃ j, k = j + 1 := ⟨k - 1, by omega⟩
    obtain ⟨a, h1, h2⟩ := h b ts hb hn (Tok.rparen :: rest) (.cons hr)
    refine ⟨[a], .cons h2 .nil, ?_⟩
    unfold loopFuel
    have hs : (do
        let s ← (do let a ← item; pure (acc ++ [a]))
        let t ← expectTokens [Tok.comma, Tok.rparen]
        pure (s, t == Tok.comma) : P (List α × Bool)) (ts ++ Tok.rparen :: rest) =
        .ok (acc ++ [a], false) rest := by
      rw [bind_ok (a := acc ++ [a]) (rest := Tok.rparen :: rest) (by rw [bind_ok h1]; rfl),
        bind_ok (expectTokens_hit (by simp) (by simp))]
      rfl
    rw [bind_ok hs]
    rfl
  | _, _, .cons (a := b) (l := l) (ts := ts) (us := us) hb hl, hn, k, acc, hk => by
    obtain ⟨j, rfl⟩ : ∃ j, k = j + 1 := ⟨k - 1, by omega⟩
    simp only [List.length_append, List.length_cons] at hn hk
    obtain ⟨a, h1, h2⟩ := h b ts hb (by omega) (Tok.comma :: (us ++ Tok.rparen :: rest)) (.cons hc)
    obtain ⟨as, h3, h4⟩ := closedList_loop hc hr h hl (by omega) j (acc ++ [a]) (by omega)
    refine ⟨a :: as, .cons h2 h3, ?_⟩
    unfold loopFuel
    have hs : (do
        let s ← (do let a ← item; pure (acc ++ [a]))
        let t ← expectTokens [Tok.comma, Tok.rparen]
        pure (s, t == Tok.comma) : P (List α × Bool))
          (ts ++ Tok.comma :: us ++ Tok.rparen :: rest) =
        .ok (acc ++ [a], true) (us ++ Tok.rparen :: rest) := by
      rw [List.append_assoc, List.cons_append,
        bind_ok (a := acc ++ [a]) (rest := Tok.comma :: (us ++ Tok.rparen :: rest))
          (by rw [bind_ok h1]; rfl), bind_ok (expectTokens_hit (by simp) (by simp))]
      rfl
    rw [bind_ok hs]
    simp only [if_true]
    rw [h4]
    simp

/-- A list that ends with a closing parenthesis. -/
theorem closedList_run (hc : f Tok.comma = true) (hr : f Tok.rparen = true)
    (h : ∀ b ts, R b ts → ts.length < n → ∀ rest, Ends f rest →
      ∃ a, item (ts ++ rest) = .ok a rest ∧ S a b)
    {l : List β} {ts : List Token} (hl : Separated R l ts) (hn : ts.length < n) :
    ∃ as, Pairwise2 S as l ∧ closedList item (ts ++ Tok.rparen :: rest) = .ok as rest := by
  obtain ⟨as, h1, h2⟩ := closedList_loop (rest := rest) hc hr h hl hn
    ((ts ++ Tok.rparen :: rest).length + 1) [] (by simp; omega)
  exact ⟨as, h1, by rw [List.nil_append] at h2; exact h2⟩

theorem separatedList_loop (hc : f Tok.comma = true) (hg : ∀ t, g t = true → f t = true)
    (hf : IsFair g) (hgc : g Tok.comma = false) (hr : Ends g rest)
    (h : ∀ b ts, R b ts → ts.length < n → ∀ rest, Ends f rest →
      ∃ a, item (ts ++ rest) = .ok a rest ∧ S a b) :
    ∀ {l : List β} {ts : List Token}, Separated R l ts → ts.length < n →
      ∀ (k : Nat) (acc : List α), ts.length < k → ∃ as, Pairwise2 S as l ∧
        loopFuel (fun s => do
          let s ← (do let a ← item; pure (s ++ [a]))
          let again ← maybeToken Tok.comma
          pure (s, again)) k acc (ts ++ rest) = .ok (acc ++ as) rest
  | _, _, .one (a := b) (ts := ts) hb, hn, k, acc, hk => by
    obtain ⟨j, rfl⟩ : ∃ j, k = j + 1 := ⟨k - 1, by omega⟩
    obtain ⟨a, h1, h2⟩ := h b ts hb hn rest (hr.mono hg)
    refine ⟨[a], .cons h2 .nil, ?_⟩
    unfold loopFuel
    have hs : (do
        let s ← (do let a ← item; pure (acc ++ [a]))
        let again ← maybeToken Tok.comma
        pure (s, again) : P (List α × Bool)) (ts ++ rest) = .ok (acc ++ [a], false) rest := by
      rw [bind_ok (a := acc ++ [a]) (rest := rest) (by rw [bind_ok h1]; rfl),
        bind_ok (maybeToken_miss hr hf hgc (by simp))]
      rfl
    rw [bind_ok hs]
    rfl
  | _, _, .cons (a := b) (l := l) (ts := ts) (us := us) hb hl, hn, k, acc, hk => by
    obtain ⟨j, rfl⟩ : ∃ j, k = j + 1 := ⟨k - 1, by omega⟩
    simp only [List.length_append, List.length_cons] at hn hk
    obtain ⟨a, h1, h2⟩ := h b ts hb (by omega) (Tok.comma :: (us ++ rest)) (.cons hc)
    obtain ⟨as, h3, h4⟩ :=
      separatedList_loop hc hg hf hgc hr h hl (by omega) j (acc ++ [a]) (by omega)
    refine ⟨a :: as, .cons h2 h3, ?_⟩
    unfold loopFuel
    have hs : (do
        let s ← (do let a ← item; pure (acc ++ [a]))
        let again ← maybeToken Tok.comma
        pure (s, again) : P (List α × Bool)) (ts ++ Tok.comma :: us ++ rest) =
        .ok (acc ++ [a], true) (us ++ rest) := by
      rw [List.append_assoc, List.cons_append,
        bind_ok (a := acc ++ [a]) (rest := Tok.comma :: (us ++ rest))
          (by rw [bind_ok h1]; rfl), bind_ok (maybeToken_hit (by simp))]
      rfl
    rw [bind_ok hs]
    simp only [if_true]
    rw [h4]
    simp

/-- A list with commas. -/
theorem separatedList_run (hc : f Tok.comma = true) (hg : ∀ t, g t = true → f t = true)
    (hf : IsFair g) (hgc : g Tok.comma = false) (hr : Ends g rest)
    (h : ∀ b ts, R b ts → ts.length < n → ∀ rest, Ends f rest →
      ∃ a, item (ts ++ rest) = .ok a rest ∧ S a b)
    {l : List β} {ts : List Token} (hl : Separated R l ts) (hn : ts.length < n) :
    ∃ as, Pairwise2 S as l ∧ separatedList item (ts ++ rest) = .ok as rest := by
  obtain ⟨as, h1, h2⟩ := separatedList_loop hc hg hf hgc hr h hl hn
    ((ts ++ rest).length + 1) [] (by simp; omega)
  exact ⟨as, h1, by rw [List.nil_append] at h2; exact h2⟩

/-- The names of different columns in parentheses. -/
theorem distinctColumns_loop : ∀ {l : List Identifier} {ts : List Token}, Separated Name l ts →
    ∀ (k : Nat) (acc : List Identifier), ts.length < k → (acc ++ l).Nodup →
      loopFuel (fun s => do
        let s ← (do let nam ← expectIdentifier; if nam ∈ s then P.error else pure (s ++ [nam]))
        let t ← expectTokens [Tok.comma, Tok.rparen]
        pure (s, t == Tok.comma)) k acc (ts ++ Tok.rparen :: rest) = .ok (acc ++ l) rest
  | _, _, .one (.mk id), k, acc, hk, hd => by
    obtain ⟨j, rfl⟩ : ∃ j, k = j + 1 := ⟨k - 1, by omega⟩
    have hm : id ∉ acc := by
      rw [List.nodup_append] at hd
      exact fun h => hd.2.2 id h id (by simp) rfl
    unfold loopFuel
    have hs : (do
        let s ← (do let nam ← expectIdentifier; if nam ∈ acc then P.error else pure (acc ++ [nam]))
        let t ← expectTokens [Tok.comma, Tok.rparen]
        pure (s, t == Tok.comma) : P (List Identifier × Bool))
          ([.identifier id] ++ Tok.rparen :: rest) = .ok (acc ++ [id], false) rest := by
      rw [bind_ok (a := acc ++ [id]) (rest := Tok.rparen :: rest)
        (by rw [List.cons_append, bind_ok expectIdentifier_hit, if_neg hm]; rfl),
        bind_ok (expectTokens_hit (by simp) (by simp))]
      rfl
    rw [bind_ok hs]
    rfl
  | _, _, .cons (l := l) (us := us) (.mk id) hl, k, acc, hk, hd => by
    obtain ⟨j, rfl⟩ : ∃ j, k = j + 1 := ⟨k - 1, by omega⟩
    simp only [List.length_append, List.length_cons] at hk
    have hm : id ∉ acc := by
      rw [List.nodup_append] at hd
      exact fun h => hd.2.2 id h id (by simp) rfl
    have ih := distinctColumns_loop hl j (acc ++ [id]) (by omega) (by simpa using hd)
    unfold loopFuel
    have hs : (do
        let s ← (do let nam ← expectIdentifier; if nam ∈ acc then P.error else pure (acc ++ [nam]))
        let t ← expectTokens [Tok.comma, Tok.rparen]
        pure (s, t == Tok.comma) : P (List Identifier × Bool))
          ([.identifier id] ++ Tok.comma :: us ++ Tok.rparen :: rest) =
        .ok (acc ++ [id], true) (us ++ Tok.rparen :: rest) := by
      rw [bind_ok (a := acc ++ [id]) (rest := Tok.comma :: (us ++ Tok.rparen :: rest))
        (by rw [List.cons_append, List.cons_append, bind_ok expectIdentifier_hit, if_neg hm]; rfl),
        bind_ok (expectTokens_hit (by simp) (by simp))]
      rfl
    rw [bind_ok hs]
    simp only [if_true]
    rw [ih]
    simp

theorem distinctColumns_run {l : List Identifier} {ts : List Token} (h : Separated Name l ts)
    (hd : l.Nodup) : distinctColumns (ts ++ Tok.rparen :: rest) = .ok l rest := by
  have := distinctColumns_loop (rest := rest) h ((ts ++ Tok.rparen :: rest).length + 1) []
    (by simp; omega) (by simpa using hd)
  exact this

end

end Maho
