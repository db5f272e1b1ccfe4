import Verif.Model.Evaluate
import Verif.Spec.Session
/-
What sessions should ask of an engine, whatever engine it is.
-/
namespace Maho.Spec
open Maho

/-- A request and what was answered; `none`: the call has not returned. -/
structure Asked (τ : Type) where
  request : Request τ
  answer : Option (Res request.Answer)

/-- The engine with a list of what it was asked so far. -/
def logged {σ τ : Type} (e : AnyEngine σ τ) : AnyEngine (σ × List (Asked τ)) τ :=
  fun r s => ((e r s.1).1, (e r s.1).2, s.2 ++ [⟨r, (e r s.1).1⟩])

/-- The call came back, with or without an error. -/
def Returned {α : Type} : Option (Res α) → Prop
  | some (.ok _) | some (.err _) => True
  | _ => False

/-- The requests that end a transaction. -/
def EndsTx : TxRequest → Prop
  | .commit | .rollback => True
  | _ => False

/-- The protocol: from the transaction that is open, if any, to the one that is open after the
request. Databases are created and dropped and transactions are begun when none is open; a
transaction is used while it is open, and commit and rollback end it. -/
inductive Step {τ : Type} : Option τ → Asked τ → Option τ → Prop where
  | createDatabase (dn : Identifier) (opts : List (Identifier × Bytes)) (a) :
    Step none ⟨.createDatabase dn opts, a⟩ none
  | dropDatabase (dn : Identifier) (ifExists : Bool) (a) :
    Step none ⟨.dropDatabase dn ifExists, a⟩ none
  | begin (t : τ) : Step none ⟨.begin, some (.ok t)⟩ (some t)
  | notBegun (a : Option (Res τ)) (h : ∀ t, a ≠ some (.ok t)) : Step none ⟨.begin, a⟩ none
  | use (t : τ) (r : TxRequest) (a) (h : ¬ EndsTx r) : Step (some t) ⟨.tx t r, a⟩ (some t)
  | ended (t : τ) (r : TxRequest) (a) (h : EndsTx r) (ha : Returned a) :
    Step (some t) ⟨.tx t r, a⟩ none
  | notEnded (t : τ) (r : TxRequest) (a) (h : EndsTx r) (ha : ¬ Returned a) :
    Step (some t) ⟨.tx t r, a⟩ (some t)

/-- A list of requests keeps to the protocol. -/
inductive Keeps {τ : Type} : Option τ → List (Asked τ) → Option τ → Prop where
  | nil (o : Option τ) : Keeps o [] o
  | cons {o o' o'' : Option τ} {a : Asked τ} {l : List (Asked τ)} (h : Step o a o')
      (hl : Keeps o' l o'') : Keeps o (a :: l) o''

/-- The transaction was begun. -/
def Asked.begins {τ : Type} : Asked τ → Bool
  | ⟨.begin, some (.ok _)⟩ => true
  | _ => false

/-- The transaction was ended, with or without an error. -/
def Asked.ends {τ : Type} : Asked τ → Bool
  | ⟨.tx _ .commit, some (.ok _)⟩ | ⟨.tx _ .commit, some (.err _)⟩ => true
  | ⟨.tx _ .rollback, some (.ok _)⟩ | ⟨.tx _ .rollback, some (.err _)⟩ => true
  | _ => false

/-- An engine of which a request that fails changes nothing, and looking at a table neither. -/
structure AtomicEngine {σ τ : Type} (e : AnyEngine σ τ) : Prop where
  fails : ∀ r s x, (e r s).1 = some (.err x) → (e r s).2 = s
  opens : ∀ t tn s, (e (.tx t (.openTable tn)) s).2 = s

/-- Replies are the same, with values that correspond. -/
def SameReply {α β : Type} (T : α → β → Prop) : Option (Res α) → Option (Res β) → Prop
  | none, none => True
  | some .panic, some .panic => True
  | some (.err x), some (.err y) => x = y
  | some (.ok a), some (.ok b) => T a b
  | _, _ => False

/-- Two engines that answer alike: in states that correspond they give the same replies and reach
states that correspond. -/
structure Alike {σ₁ τ₁ σ₂ τ₂ : Type} (R : σ₁ → σ₂ → Prop) (T : τ₁ → τ₂ → Prop)
    (e₁ : AnyEngine σ₁ τ₁) (e₂ : AnyEngine σ₂ τ₂) : Prop where
  createDatabase : ∀ dn opts s₁ s₂, R s₁ s₂ →
    (e₁ (.createDatabase dn opts) s₁).1 = (e₂ (.createDatabase dn opts) s₂).1 ∧
      R (e₁ (.createDatabase dn opts) s₁).2 (e₂ (.createDatabase dn opts) s₂).2
  dropDatabase : ∀ dn b s₁ s₂, R s₁ s₂ →
    (e₁ (.dropDatabase dn b) s₁).1 = (e₂ (.dropDatabase dn b) s₂).1 ∧
      R (e₁ (.dropDatabase dn b) s₁).2 (e₂ (.dropDatabase dn b) s₂).2
  begin : ∀ s₁ s₂, R s₁ s₂ →
    SameReply T (e₁ .begin s₁).1 (e₂ .begin s₂).1 ∧ R (e₁ .begin s₁).2 (e₂ .begin s₂).2
  tx : ∀ t₁ t₂ r s₁ s₂, T t₁ t₂ → R s₁ s₂ →
    (show Option (Res r.Answer) from (e₁ (.tx t₁ r) s₁).1) = (e₂ (.tx t₂ r) s₂).1 ∧
      R (e₁ (.tx t₁ r) s₁).2 (e₂ (.tx t₂ r) s₂).2

/-- Two sessions with the same defaults and transactions that correspond. -/
def SameSession {τ₁ τ₂ : Type} (T : τ₁ → τ₂ → Prop) (a : AnySession τ₁) (b : AnySession τ₂) : Prop :=
  a.defaultDatabase = b.defaultDatabase ∧ a.defaultSchema = b.defaultSchema ∧
    match a.tx, b.tx with
    | none, none => True
    | some t₁, some t₂ => T t₁ t₂
    | _, _ => False

end Maho.Spec
