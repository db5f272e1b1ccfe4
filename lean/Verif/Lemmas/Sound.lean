import Verif.Lemmas.Adjust
import Verif.Spec.Statement
/-
Helper lemmas for C76: what the methods of the parser accept is written as the grammar says.
-/
namespace Maho
open P Maho.Spec

/-- The tokens of a text: no token.EOF before its end, and no name with the number 0. -/
def Readable (ts : List Token) : Prop := Token.eof ∉ ts ∧ Token.identifier 0 ∉ ts

theorem Readable.of_suffix {ts us : List Token} (h : Readable ts) (hs : us <:+ ts) : Readable us :=
  ⟨fun hm => h.1 (hs.subset hm), fun hm => h.2 (hs.subset hm)⟩

/-- What `m` accepts: the result and the tokens that it takes. -/
def Sound {α : Type} (m : P α) (R : α → List Token → Prop) : Prop :=
  ∀ ts a rest, Readable ts → m ts = .ok a rest → ∃ us, ts = us ++ rest ∧ R a us

/-- What `m` accepts after the tokens `pre`, some of which it can put back. -/
def SoundAt {α : Type} (pre : List Token) (m : P α) (R : α → List Token → Prop) : Prop :=
  ∀ ts a rest, Readable (pre ++ ts) → m ts = .ok a rest → ∃ us, pre ++ ts = us ++ rest ∧ R a us

namespace Sound

variable {α β σ : Type}

theorem mono {m : P α} {R S : α → List Token → Prop} (h : Sound m R)
    (hrs : ∀ a us, R a us → S a us) : Sound m S := fun ts a rest hR hm => by
  obtain ⟨us, h1, h2⟩ := h ts a rest hR hm
  exact ⟨us, h1, hrs a us h2⟩

theorem pure {a : α} {R : α → List Token → Prop} (h : R a []) : Sound (Pure.pure a : P α) R := by
  intro ts b rest _ hm
  cases hm
  exact ⟨[], rfl, h⟩

theorem bind {m : P α} {f : α → P β} {R : α → List Token → Prop} {T : β → List Token → Prop}
    (hm : Sound m R) (hf : ∀ a vs, R a vs → Sound (f a) (fun b ws => T b (vs ++ ws))) :
    Sound (m >>= f) T := by
  intro ts b rest hR h
  change P.bind m f ts = _ at h
  unfold P.bind at h
  split at h
  · rename_i a r ha
    obtain ⟨vs, rfl, h2⟩ := hm ts a r hR ha
    obtain ⟨ws, rfl, h4⟩ := hf a vs h2 r b rest (hR.of_suffix (List.suffix_append _ _)) h
    exact ⟨vs ++ ws, by simp, h4⟩
  · cases h
  · cases h
  · cases h

/-- `bind` when some of the tokens can be put back. -/
theorem bindAt {m : P α} {f : α → P β} {R : α → List Token → Prop} {T : β → List Token → Prop}
    (hm : Sound m R) (hf : ∀ a vs, R a vs → SoundAt vs (f a) T) : Sound (m >>= f) T := by
  intro ts b rest hR h
  change P.bind m f ts = _ at h
  unfold P.bind at h
  split at h
  · rename_i a r ha
    obtain ⟨vs, rfl, h2⟩ := hm ts a r hR ha
    exact hf a vs h2 r b rest hR h
  · cases h
  · cases h
  · cases h

theorem atPre {m : P α} {R : α → List Token → Prop} {pre : List Token}
    (h : Sound m (fun a us => R a (pre ++ us))) : SoundAt pre m R := by
  intro ts a rest hR hm
  obtain ⟨us, rfl, h⟩ := h ts a rest (hR.of_suffix (List.suffix_append _ _)) hm
  exact ⟨pre ++ us, by simp, h⟩

theorem bindAt2 {m : P α} {f : α → P β} {R : α → List Token → Prop} {T : β → List Token → Prop}
    {pre : List Token} (hm : Sound m R) (hf : ∀ a vs, R a vs → SoundAt (pre ++ vs) (f a) T) :
    SoundAt pre (m >>= f) T := by
  intro ts b rest hR h
  change P.bind m f ts = _ at h
  unfold P.bind at h
  split at h
  · rename_i a r ha
    obtain ⟨vs, rfl, h2⟩ := hm ts a r (hR.of_suffix (List.suffix_append _ _)) ha
    rw [← List.append_assoc] at hR ⊢
    exact hf a vs h2 r b rest hR h
  · cases h
  · cases h
  · cases h

theorem iteAt {c : Prop} [Decidable c] {x y : P α} {R : α → List Token → Prop} {pre : List Token}
    (hx : c → SoundAt pre x R) (hy : ¬ c → SoundAt pre y R) :
    SoundAt pre (if c then x else y) R := by
  split
  · exact hx ‹_›
  · exact hy ‹_›

/-- Put the last token back. -/
theorem unscanAt {t : Token} {m : P α} {R : α → List Token → Prop} {pre : List Token}
    (ht : t ≠ .eof) (h : SoundAt pre m R) :
    SoundAt (pre ++ [t]) (do P.unscan t; m : P α) R := by
  intro ts a rest hR hm
  change P.bind (P.unscan t) (fun _ => m) ts = _ at hm
  simp only [P.bind, P.unscan, if_neg ht] at hm
  have := h (t :: ts) a rest (by simpa using hR) hm
  simpa using this

theorem map {m : P α} {f : α → β} {R : α → List Token → Prop} {T : β → List Token → Prop}
    (hm : Sound m R) (hf : ∀ a us, R a us → T (f a) us) : Sound (f <$> m) T := by
  show Sound (m >>= fun a => Pure.pure (f a)) T
  refine bind hm fun a vs h => pure ?_
  simpa using hf a vs h

theorem error {R : α → List Token → Prop} : Sound (P.error : P α) R := fun _ _ _ _ h => nomatch h

theorem crash {R : α → List Token → Prop} : Sound (P.crash : P α) R := fun _ _ _ _ h => nomatch h

theorem stuck {R : α → List Token → Prop} : Sound (P.stuck : P α) R := fun _ _ _ _ h => nomatch h

theorem errorAt {t : Token} {R : α → List Token → Prop} : Sound (P.errorAt t : P α) R :=
  fun _ _ _ _ h => nomatch h

theorem errorGot {t : Token} {R : α → List Token → Prop} : Sound (P.errorGot t : P α) R := by
  unfold P.errorGot
  split
  · exact crash
  · exact errorAt

theorem ite {c : Prop} [Decidable c] {x y : P α} {R : α → List Token → Prop} (hx : c → Sound x R)
    (hy : ¬ c → Sound y R) : Sound (if c then x else y) R := by
  split
  · exact hx ‹_›
  · exact hy ‹_›

/-- Two ways that go on in the same manner. -/
theorem join {c : Prop} [Decidable c] {x y : P α} {f : α → P β} {R : α → List Token → Prop}
    {T : β → List Token → Prop} (h : Sound (if c then x else y) R)
    (hf : ∀ a us, R a us → Sound (f a) (fun b vs => T b (us ++ vs))) :
    Sound (if c then x >>= f else y >>= f) T := by
  split
  · rename_i hc
    rw [if_pos hc] at h
    exact bind h hf
  · rename_i hc
    rw [if_neg hc] at h
    exact bind h hf

/-- The next token, or token.EOF at the end. -/
theorem next : Sound P.next (fun t us => (t = .eof ∧ us = []) ∨ (t ≠ .eof ∧ us = [t])) := by
  intro ts a rest hR h
  cases ts with
  | nil => cases h; exact ⟨[], rfl, Or.inl ⟨rfl, rfl⟩⟩
  | cons t l =>
    have ht : t ≠ .eof := fun e => hR.1 (by simp [e])
    unfold P.next at h
    split at h
    · rename_i e; cases e
    · cases h
    · rename_i e
      cases e
      cases h
      exact ⟨[_], rfl, Or.inr ⟨ht, rfl⟩⟩

/-- A token that is taken or put back. -/
theorem peek {k : Token → P α} {R : α → List Token → Prop}
    (h0 : ∀ a, k .eof [] = .ok a [] → R a [])
    (h1 : ∀ t l a rest, t ≠ .eof → Readable l → k t l = .ok a rest →
      ∃ us, t :: l = us ++ rest ∧ R a us)
    (h2 : ∀ a rest, k .eof [] = .ok a rest → rest = []) :
    Sound (P.next >>= k) R := by
  intro ts a rest hR h
  change P.bind P.next k ts = _ at h
  unfold P.bind at h
  cases ts with
  | nil =>
    have h' : k .eof [] = .ok a rest := h
    have := h2 a rest h'
    subst this
    exact ⟨[], rfl, h0 a h'⟩
  | cons t l =>
    have ht : t ≠ .eof := fun e => hR.1 (by simp [e])
    split at h
    · rename_i t' r e
      unfold P.next at e
      split at e
      · rename_i e'; cases e'
      · cases e
      · rename_i e'
        cases e'
        cases e
        exact h1 t l a rest ht (hR.of_suffix (List.suffix_cons _ _)) h
    · cases h
    · cases h
    · cases h

theorem unscan_pure {t : Token} {l rest : List Token} {a b : α} (ht : t ≠ .eof)
    (h : (do P.unscan t; Pure.pure a : P α) l = .ok b rest) : b = a ∧ rest = t :: l := by
  change P.bind (P.unscan t) (fun _ => Pure.pure a) l = _ at h
  simp only [P.bind, P.unscan, if_neg ht] at h
  cases h
  exact ⟨rfl, rfl⟩

theorem unscan_eof {a b : α} {l rest : List Token}
    (h : (do P.unscan .eof; Pure.pure a : P α) l = .ok b rest) : b = a ∧ rest = l := by
  change P.bind (P.unscan .eof) (fun _ => Pure.pure a) l = _ at h
  simp only [P.bind, P.unscan, if_pos] at h
  cases h
  exact ⟨rfl, rfl⟩

theorem pure_eq {a b : α} {l rest : List Token} (h : (Pure.pure a : P α) l = .ok b rest) :
    b = a ∧ rest = l := by
  cases h
  exact ⟨rfl, rfl⟩

theorem expectReserved (ids : List Identifier) :
    Sound (P.expectReserved ids) (fun id us => id ∈ ids ∧ us = [.reserved id]) := by
  unfold P.expectReserved
  refine bind next fun t vs h => ?_
  split
  · refine ite (fun hm => pure ?_) fun _ => errorGot
    rcases h with ⟨h, _⟩ | ⟨_, rfl⟩
    · cases h
    · exact ⟨hm, rfl⟩
  · exact errorGot

theorem expectWord (w : Identifier) :
    Sound (P.expectReserved [w]) (fun _ us => us = [.reserved w]) :=
  (expectReserved [w]).mono fun id us h => by
    obtain ⟨h1, rfl⟩ := h
    simp only [List.mem_singleton] at h1
    rw [h1]

theorem optionalReservedId (ids : List Identifier) : Sound (P.optionalReservedId ids) (fun o us =>
    (o = none ∧ us = []) ∨ ∃ id ∈ ids, o = some id ∧ us = [.reserved id]) := by
  unfold P.optionalReservedId
  refine peek (fun a h => ?_) (fun t l a rest ht _ h => ?_) (fun a rest h => ?_)
  · exact Or.inl ⟨(unscan_eof h).1, rfl⟩
  · split at h
    · rename_i id
      split at h
      · obtain ⟨rfl, rfl⟩ := pure_eq h
        exact ⟨_, rfl, Or.inr ⟨id, ‹_›, rfl, rfl⟩⟩
      · obtain ⟨rfl, rfl⟩ := unscan_pure ht h
        exact ⟨[], rfl, Or.inl ⟨rfl, rfl⟩⟩
    · obtain ⟨rfl, rfl⟩ := unscan_pure ht h
      exact ⟨[], rfl, Or.inl ⟨rfl, rfl⟩⟩
  · exact (unscan_eof h).2

theorem optionalReserved (w : Identifier) : Sound (P.optionalReserved [w])
    (fun b us => us = if b then [.reserved w] else []) := by
  unfold P.optionalReserved
  refine bind (optionalReservedId [w]) fun o vs h => pure ?_
  rcases h with ⟨rfl, rfl⟩ | ⟨id, hid, rfl, rfl⟩
  · rfl
  · simp only [List.mem_singleton] at hid
    rw [hid]
    rfl

theorem expectIdentifier : Sound P.expectIdentifier Name := by
  unfold P.expectIdentifier
  refine bind next fun t vs h => ?_
  split
  · refine pure ?_
    rcases h with ⟨h, _⟩ | ⟨_, rfl⟩
    · cases h
    · exact .mk _
  · exact errorGot

theorem maybeIdentifier (id : Identifier) : Sound (P.maybeIdentifier id)
    (fun b us => us = if b then [.identifier id] else []) := by
  unfold P.maybeIdentifier
  refine peek (fun a h => ?_) (fun t l a rest ht _ h => ?_) (fun a rest h => ?_)
  · rw [if_neg (by simp)] at h
    rw [(unscan_eof h).1]
    rfl
  · split at h
    · rename_i e
      obtain ⟨rfl, rfl⟩ := pure_eq h
      exact ⟨[t], rfl, by rw [e]; rfl⟩
    · obtain ⟨rfl, rfl⟩ := unscan_pure ht h
      exact ⟨[], rfl, rfl⟩
  · rw [if_neg (by simp)] at h
    exact (unscan_eof h).2

theorem expectTokens {tokens : List Token} (he : Token.eof ∉ tokens) :
    Sound (P.expectTokens tokens) (fun t us => t ∈ tokens ∧ us = [t]) := by
  unfold P.expectTokens
  refine bind next fun t vs h => ite (fun hm => pure ?_) fun _ => errorGot
  rcases h with ⟨rfl, _⟩ | ⟨_, rfl⟩
  · exact absurd hm he
  · exact ⟨hm, rfl⟩

theorem expectToken {t : Token} (he : Token.eof ≠ t) :
    Sound (P.expectTokens [t]) (fun _ us => us = [t]) :=
  (expectTokens (by simpa using he)).mono fun u us h => by
    obtain ⟨h1, rfl⟩ := h
    simp only [List.mem_singleton] at h1
    rw [h1]

theorem maybeToken {mt : Token} (he : Token.eof ≠ mt) : Sound (P.maybeToken mt)
    (fun b us => us = if b then [mt] else []) := by
  unfold P.maybeToken
  refine peek (fun a h => ?_) (fun t l a rest ht _ h => ?_) (fun a rest h => ?_)
  · rw [if_neg he] at h
    rw [(unscan_eof h).1]
    rfl
  · split at h
    · rename_i e
      obtain ⟨rfl, rfl⟩ := pure_eq h
      exact ⟨[t], rfl, by rw [e]; rfl⟩
    · obtain ⟨rfl, rfl⟩ := unscan_pure ht h
      exact ⟨[], rfl, rfl⟩
  · rw [if_neg he] at h
    exact (unscan_eof h).2

theorem expectInteger (min max : Int) : Sound (P.expectInteger min max)
    (fun i us => us = [.integer i] ∧ min ≤ i.toInt ∧ i.toInt ≤ max) := by
  unfold P.expectInteger
  refine bind next fun t vs h => ?_
  split
  · refine ite (fun _ => errorGot) fun hn => pure ?_
    rcases h with ⟨h, _⟩ | ⟨_, rfl⟩
    · cases h
    · exact ⟨rfl, by omega, by omega⟩
  · exact errorGot

theorem clause {m : P α} {R : α → List Token → Prop} (w : Identifier) (h : Sound m R) :
    Sound (P.clause w m) (Optional w R) := by
  unfold P.clause
  refine bind (optionalReserved w) fun b vs hb => ite (fun hc => ?_) fun hc => ?_
  · subst hc hb
    refine bind h fun a us ha => pure ?_
    simpa using Optional.some ha
  · have : b = false := by simpa using hc
    subst this hb
    exact pure .none

/-! Loops. -/

theorem loopFuel {step : σ → P (σ × Bool)} {R F : σ → List Token → σ → Prop}
    (h : ∀ s, Sound (step s) (fun r us => if r.2 then R s us r.1 else F s us r.1)) :
    ∀ (n : Nat) (s : σ), Sound (P.loopFuel step n s)
      (fun s' us => ∃ m vs ws, Repeated R s vs m ∧ F m ws s' ∧ us = vs ++ ws)
  | 0, _ => stuck
  | n + 1, s => by
    unfold P.loopFuel
    refine bind (h s) fun r vs hr => ?_
    obtain ⟨s', again⟩ := r
    refine ite (fun hc => ?_) fun hc => pure ?_
    · have : again = true := hc
      subst this
      refine (loopFuel h n s').mono fun s'' us h => ?_
      obtain ⟨m, v, w, h1, h2, rfl⟩ := h
      exact ⟨m, vs ++ v, w, .cons hr h1, h2, by simp⟩
    · have : again = false := by simpa using hc
      subst this
      exact ⟨s, [], vs, .nil s, hr, by simp⟩

theorem loop {step : σ → P (σ × Bool)} {R F : σ → List Token → σ → Prop} {s : σ}
    (h : ∀ s, Sound (step s) (fun r us => if r.2 then R s us r.1 else F s us r.1)) :
    Sound (P.loop step s)
      (fun s' us => ∃ m vs ws, Repeated R s vs m ∧ F m ws s' ∧ us = vs ++ ws) :=
  fun ts => loopFuel h (ts.length + 1) s ts

/-- A loop that stops without a token. -/
theorem loopNil {step : σ → P (σ × Bool)} {R : σ → List Token → σ → Prop} {s : σ}
    (h : ∀ s, Sound (step s) (fun r us => if r.2 then R s us r.1 else us = [] ∧ r.1 = s)) :
    Sound (P.loop step s) (fun s' us => Repeated R s us s') :=
  (loop (F := fun s us s' => us = [] ∧ s' = s) h).mono fun s' us h => by
    obtain ⟨m, vs, ws, h1, ⟨rfl, rfl⟩, rfl⟩ := h
    simpa using h1

theorem changes {R : σ → List Token → σ → Prop} {s m : σ} {vs : List Token}
    (h : Repeated (fun s us s' => ∃ vs, us = vs ++ [Tok.comma] ∧ R s vs s') s vs m) :
    ∀ {s' : σ} {ws : List Token}, R m ws s' → Changes R s (vs ++ ws) s' := by
  induction h with
  | nil s => exact fun h => .one h
  | cons h _ ih =>
    intro s' ws hw
    obtain ⟨vs, rfl, h⟩ := h
    simpa using Changes.cons h (ih hw)

theorem closed {step : σ → P σ} {R : σ → List Token → σ → Prop}
    (h : ∀ s, Sound (step s) (fun s' us => R s us s')) (s : σ) :
    Sound (P.closed step s) (fun s' us => ∃ vs, us = vs ++ [Tok.rparen] ∧ Changes R s vs s') := by
  unfold P.closed
  refine (loop (R := fun s us s' => ∃ vs, us = vs ++ [Tok.comma] ∧ R s vs s')
    (F := fun s us s' => ∃ vs, us = vs ++ [Tok.rparen] ∧ R s vs s') fun s => ?_).mono
    fun s' us h => ?_
  · refine bind (h s) fun s' vs hs => bind (expectTokens (by simp)) fun t ws ht => pure ?_
    obtain ⟨ht, rfl⟩ := ht
    simp only [List.mem_cons, List.not_mem_nil, or_false] at ht
    rcases ht with rfl | rfl
    · exact ⟨vs, by simp, hs⟩
    · exact ⟨vs, by simp, hs⟩
  · obtain ⟨m, vs, ws, h1, ⟨us, rfl, h2⟩, rfl⟩ := h
    exact ⟨vs ++ us, by simp, changes h1 h2⟩

theorem separated {step : σ → P σ} {R : σ → List Token → σ → Prop}
    (h : ∀ s, Sound (step s) (fun s' us => R s us s')) (s : σ) :
    Sound (P.separated step s) (fun s' us => Changes R s us s') := by
  unfold P.separated
  refine (loop (R := fun s us s' => ∃ vs, us = vs ++ [Tok.comma] ∧ R s vs s')
    (F := R) fun s => ?_).mono fun s' us h => ?_
  · refine bind (h s) fun s' vs hs => bind (maybeToken (by simp)) fun t ws ht => pure ?_
    subst ht
    cases t
    · simpa using hs
    · exact ⟨vs, by simp, hs⟩
  · obtain ⟨m, vs, ws, h1, h2, rfl⟩ := h
    exact changes h1 h2

theorem separatedOf {R : α → List Token → Prop} {l m : List α} {ts : List Token}
    (h : Changes (fun l us l' => ∃ a, R a us ∧ l' = l ++ [a]) l ts m) :
    ∃ k, m = l ++ k ∧ Separated R k ts := by
  induction h with
  | one h =>
    obtain ⟨a, h1, rfl⟩ := h
    exact ⟨[a], rfl, .one h1⟩
  | cons h _ ih =>
    obtain ⟨a, h1, rfl⟩ := h
    obtain ⟨k, rfl, h2⟩ := ih
    exact ⟨a :: k, by simp, .cons h1 h2⟩

theorem item {m : P α} {R : α → List Token → Prop} (h : Sound m R) (l : List α) :
    Sound (do let a ← m; Pure.pure (l ++ [a]) : P (List α))
      (fun l' us => ∃ a, R a us ∧ l' = l ++ [a]) :=
  bind h fun a vs ha => pure ⟨a, by simpa using ha, rfl⟩

theorem closedList {m : P α} {R : α → List Token → Prop} (h : Sound m R) :
    Sound (P.closedList m) (fun l us => ∃ vs, us = vs ++ [Tok.rparen] ∧ Separated R l vs) :=
  (closed (fun l => item h l) []).mono fun l us h => by
    obtain ⟨vs, rfl, h⟩ := h
    obtain ⟨k, rfl, h⟩ := separatedOf h
    exact ⟨vs, rfl, h⟩

theorem separatedList {m : P α} {R : α → List Token → Prop} (h : Sound m R) :
    Sound (P.separatedList m) (Separated R) :=
  (separated (fun l => item h l) []).mono fun l us h => by
    obtain ⟨k, rfl, h⟩ := separatedOf h
    exact h

theorem distinctOf {l m : List Identifier} {ts : List Token}
    (h : Changes (fun l us l' => ∃ a, Name a us ∧ a ∉ l ∧ l' = l ++ [a]) l ts m) (hl : l.Nodup) :
    ∃ k, m = l ++ k ∧ Separated Name k ts ∧ m.Nodup := by
  induction h with
  | one h =>
    obtain ⟨a, h1, h2, rfl⟩ := h
    exact ⟨[a], rfl, .one h1, by
      rw [List.nodup_append]
      exact ⟨hl, by simp, fun x hx y hy e => h2 (by simp only [List.mem_singleton] at hy; rw [← hy, ← e]; exact hx)⟩⟩
  | cons h _ ih =>
    obtain ⟨a, h1, h2, rfl⟩ := h
    obtain ⟨k, rfl, h3, h4⟩ := ih (by
      rw [List.nodup_append]
      exact ⟨hl, by simp, fun x hx y hy e => h2 (by simp only [List.mem_singleton] at hy; rw [← hy, ← e]; exact hx)⟩)
    exact ⟨a :: k, by simp, .cons h1 h3, h4⟩

theorem distinctColumns : Sound P.distinctColumns
    (fun l us => l.Nodup ∧ ∃ vs, us = vs ++ [Tok.rparen] ∧ Separated Name l vs) := by
  unfold P.distinctColumns
  refine (closed (R := fun l us l' => ∃ a, Name a us ∧ a ∉ l ∧ l' = l ++ [a]) (fun l => ?_) []).mono
    fun l us h => ?_
  · refine bind expectIdentifier fun a vs ha => ite (fun _ => error) fun hn => pure ?_
    exact ⟨a, by simpa using ha, hn, rfl⟩
  · obtain ⟨vs, rfl, h⟩ := h
    obtain ⟨k, rfl, h1, h2⟩ := distinctOf h (by simp)
    exact ⟨h2, vs, rfl, h1⟩

end Sound
end Maho
