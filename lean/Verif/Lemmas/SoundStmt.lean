import Verif.Lemmas.SoundExpr
/-
Helper lemmas for C76: what the parser accepts as a statement is written as the grammar says.
-/
namespace Maho
open P Maho.Spec

namespace Sound

variable {α β : Type}

theorem seqNone {o : Option α} {w : Identifier} {R : α → List Token → Prop} {us : List Token}
    (h : Optional w R o us) : (o = none ∧ us = []) ∨
      ∃ a vs, o = some a ∧ us = .reserved w :: vs ∧ R a vs := by
  cases h with
  | none => exact Or.inl ⟨rfl, rfl⟩
  | some h => exact Or.inr ⟨_, _, rfl, rfl, h⟩

theorem ifExists : Sound parseIfExists IfExists := by
  unfold parseIfExists
  refine bind (clause Kw.IF (expectWord Kw.EXISTS)) fun o vs h => pure ?_
  rcases seqNone h with ⟨rfl, rfl⟩ | ⟨a, us, rfl, rfl, rfl⟩
  · exact .no
  · exact .yes

theorem ifNotExists : Sound parseIfNotExists IfNotExists := by
  unfold parseIfNotExists
  have h : Sound (do let _ ← P.expectReserved [Kw.NOT]; P.expectReserved [Kw.EXISTS])
      (fun _ us => us = [.reserved Kw.NOT, .reserved Kw.EXISTS]) :=
    bind (expectWord Kw.NOT) fun _ vs h => by
      subst h
      exact (expectWord Kw.EXISTS).mono fun _ us h => by subst h; rfl
  refine bind (clause Kw.IF h) fun o vs h => pure ?_
  rcases seqNone h with ⟨rfl, rfl⟩ | ⟨a, us, rfl, rfl, rfl⟩
  · exact .no
  · exact .yes

/-- No token that is taken is the name 0. -/
theorem noZero {m : P α} {R : α → List Token → Prop} (h : Sound m R) :
    Sound m (fun a us => R a us ∧ Token.identifier 0 ∉ us) := by
  intro ts a rest hR hm
  obtain ⟨us, rfl, h⟩ := h ts a rest hR hm
  exact ⟨us, rfl, h, fun hz => hR.2 (List.mem_append_left _ hz)⟩

theorem constraintName : Sound parseConstraintName NameForm := by
  unfold parseConstraintName
  refine bind (clause Kw.CONSTRAINT expectIdentifier) fun o vs h => pure ?_
  rcases seqNone h with ⟨rfl, rfl⟩ | ⟨a, us, rfl, rfl, hn⟩
  · exact .none
  · cases hn
    exact .some a

/-! Keys. -/

theorem keyOf {u : Bool} {k m : IndexKey} {ts : List Token}
    (h : Changes (fun k us k' => ∃ a, OrderText a us ∧ a.1 ∉ k.columns ∧
      k' = ⟨k.unique, k.columns ++ [a.1], k.reverse ++ [a.2]⟩) k ts m) (hu : k.unique = u)
    (hk : k.columns.Nodup) :
    ∃ l, m = ⟨u, k.columns ++ l.map (·.1), k.reverse ++ l.map (·.2)⟩ ∧ Separated OrderText l ts ∧
      m.columns.Nodup := by
  have snoc : ∀ {l : List Identifier} {a : Identifier}, l.Nodup → a ∉ l → (l ++ [a]).Nodup := by
    intro l a hl ha
    rw [List.nodup_append]
    refine ⟨hl, by simp, fun x hx y hy e => ha ?_⟩
    simp only [List.mem_singleton] at hy
    rw [← hy, ← e]
    exact hx
  induction h with
  | one h =>
    obtain ⟨a, h1, h2, rfl⟩ := h
    subst hu
    exact ⟨[a], rfl, .one h1, snoc hk h2⟩
  | cons h _ ih =>
    obtain ⟨a, h1, h2, rfl⟩ := h
    obtain ⟨l, rfl, h3, h4⟩ := ih hu (snoc hk h2)
    exact ⟨a :: l, by simp, .cons h1 h3, h4⟩

theorem key (u : Bool) : Sound (parseKey u) (KeyForm u) := by
  unfold parseKey
  refine bind (expectToken (by simp)) fun _ vs h => ?_
  subst h
  refine (closed (R := fun (k : IndexKey) us k' => ∃ a : Identifier × Bool, OrderText a us ∧
    a.1 ∉ k.columns ∧ k' = ⟨k.unique, k.columns ++ [a.1], k.reverse ++ [a.2]⟩) (fun k => ?_)
    _).mono fun k us h => ?_
  · refine bind expectIdentifier fun id vs h => ite (fun _ => error) fun hn =>
      bind (optionalReserved Kw.ASC) fun b ws hb => ?_
    cases h
    dsimp only
    have hd : Sound (if b then Pure.pure false else P.optionalReserved [Kw.DESC])
        (fun d us => OrderText (id, d) (.identifier id :: (ws ++ us))) := by
      refine ite (fun hc => pure ?_) fun hc => ?_
      · subst hc hb
        exact .asc id
      · have : b = false := by simpa using hc
        subst this hb
        refine (optionalReserved Kw.DESC).mono fun d us h => ?_
        subst h
        cases d
        · exact .plain id
        · exact .desc id
    refine join hd fun d us h => pure ?_
    exact ⟨(id, d), by simpa using h, hn, rfl⟩
  · obtain ⟨vs, rfl, h⟩ := h
    obtain ⟨l, rfl, h1, h2⟩ := keyOf h rfl (by simp)
    simpa [inParens] using KeyForm.mk (unique := u) h1 (by simpa using h2)

theorem refAction : Sound parseRefAction ActionForm := by
  unfold parseRefAction
  refine bind (expectReserved _) fun id vs h => ?_
  obtain ⟨hm, rfl⟩ := h
  refine ite (fun hc => ?_) fun h1 => ite (fun hc => ?_) fun h2 => ite (fun hc => ?_) fun h3 => ?_
  · subst hc
    refine bind (expectWord Kw.ACTION) fun _ ws h => pure ?_
    subst h
    exact .noAction
  · subst hc
    exact pure .restrict
  · subst hc
    exact pure .cascade
  · have : id = Kw.SET := by simpa [h1, h2, h3] using hm
    subst this
    refine bind (expectReserved _) fun id ws h => pure ?_
    obtain ⟨hm, rfl⟩ := h
    by_cases hc : id = Kw.NULL
    · subst hc
      exact .setNull
    · have : id = Kw.DEFAULT := by simpa [hc] using hm
      subst this
      rw [if_neg hc]
      exact .setDefault

theorem onActions : Sound parseOnActions (fun p us => ActionsForm (p.1.getD .noAction) (p.2.getD .noAction) us) := by
  unfold parseOnActions
  refine (loopNil (R := OnForm) fun s => ?_).mono fun p us h => .mk h
  refine bind (optionalReserved Kw.ON) fun b vs hb => ite (fun hc => ?_) fun hc => ?_
  · subst hc hb
    refine bind (expectReserved _) fun id ws h => ?_
    obtain ⟨hm, rfl⟩ := h
    obtain ⟨d, u⟩ := s
    refine ite (fun hc => ite (fun _ => error) fun hd => bind refAction fun a us h => pure ?_)
      fun hc => ite (fun _ => error) fun hd => bind refAction fun a us h => pure ?_
    · subst hc
      cases d with
      | none => simpa using OnForm.delete h
      | some d => exact absurd rfl hd
    · have : id = Kw.UPDATE := by simpa [hc] using hm
      subst this
      cases u with
      | none => simpa using OnForm.update h
      | some d => exact absurd rfl hd
  · have : b = false := by simpa using hc
    subst this hb
    exact pure ⟨rfl, rfl⟩

theorem inClosed {l : List Identifier} {us : List Token}
    (h : ∃ vs, us = vs ++ [Tok.rparen] ∧ Separated Name l vs) :
    OptColumns l (Tok.lparen :: us) := by
  obtain ⟨vs, rfl, h⟩ := h
  exact .some h

theorem foreignKey (n : Identifier) : Sound (parseForeignKey n) (ForeignKeyForm n) := by
  unfold parseForeignKey
  refine bind (expectToken (by simp)) fun _ vs h => ?_
  subst h
  refine bind (closedList expectIdentifier) fun cols cs hcs => bind (expectWord Kw.REFERENCES)
    fun _ ws hw => bind tableName fun tn ts ht => bind (maybeToken (by simp)) fun b bs hb => ?_
  obtain ⟨cs, rfl, hcs⟩ := hcs
  subst hw
  dsimp only
  have hr : Sound (if b then P.closedList P.expectIdentifier else Pure.pure [])
      (fun l us => OptColumns l (bs ++ us)) := by
    refine ite (fun hc => ?_) fun hc => pure ?_
    · subst hc hb
      exact (closedList expectIdentifier).mono fun l us h => inClosed h
    · have : b = false := by simpa using hc
      subst this hb
      exact .none
  refine join hr fun l us hl => bind onActions fun p as ha => pure ?_
  have := ForeignKeyForm.mk (name := n) hcs ht hl ha
  simpa [inParens] using this

/-! Constraints. -/

theorem equal_go {c : List Identifier} : ∀ {r : List Bool},
    IndexKey.equal.go c r c r ≠ .ok false := by
  induction c with
  | nil => intro r; simp [IndexKey.equal.go]
  | cons a c ih =>
    intro r
    cases r with
    | nil => simp [IndexKey.equal.go]
    | cons d r => simpa [IndexKey.equal.go] using ih

theorem newKey {key : IndexKey} : ∀ {l : List Constraint}, anyEqualKey key l = .ok false →
    ∀ c ∈ l, ¬ (c.key.columns = key.columns ∧ c.key.reverse = key.reverse)
  | c :: l, h, d, hd, e => by
    unfold anyEqualKey at h
    split at h
    · cases h
    · rename_i h1
      rcases List.mem_cons.1 hd with rfl | hd
      · unfold IndexKey.equal at h1
        rw [e.1, e.2, if_neg (by simp)] at h1
        exact equal_go h1
      · exact newKey h d hd e
    · cases h
    · cases h

theorem addKey {s : CreateTable} {ct : ConstraintType} {n : Identifier} {key : IndexKey} :
    Sound (addKeyConstraint s ct n key) (fun s' us => us = [] ∧ NewKey s ct n key ∧
      s' = withConstraint s ⟨ct, n, -1, key, none⟩) := by
  unfold addKeyConstraint
  refine ite (fun _ => error) fun hn => ?_
  split
  · rename_i h
    refine pure ⟨rfl, fun c hc => ⟨fun e => hn ?_, fun e => hn ?_, newKey h c hc⟩, rfl⟩
    · rw [List.any_eq_true]
      exact ⟨c, hc, by simp [e]⟩
    · rw [List.any_eq_true]
      exact ⟨c, hc, by simp [e.1, e.2]⟩
  · exact error
  · exact crash

theorem addColumn {s : CreateTable} {ct : ConstraintType} {n : Identifier} {k : Nat} (h0 : n ≠ 0)
    (hk : k = s.columns.length - 1) :
    Sound (addColumnConstraint s ct n k) (fun s' us => us = [] ∧ NamedOnColumn s ct n s') := by
  subst hk
  unfold addColumnConstraint
  refine ite (fun _ => error) fun hn => pure ⟨rfl, .named h0 fun c hc => ⟨fun e => hn ?_, fun e => hn ?_⟩⟩
  · rw [List.any_eq_true]
    exact ⟨c, hc, by simp [e]⟩
  · rw [List.any_eq_true]
    exact ⟨c, hc, by simp [e.1, e.2]⟩

theorem namedColumn {s : CreateTable} {ct : ConstraintType} {n : Identifier} :
    Sound (if n ≠ 0 then addColumnConstraint s ct n (s.columns.length - 1) else Pure.pure s)
      (fun s' us => us = [] ∧ NamedOnColumn s ct n s') := by
  refine ite (fun h => addColumn h rfl) fun h => pure ⟨rfl, ?_⟩
  have : n = 0 := by simpa using h
  subst this
  exact .unnamed

/-! Types. -/

theorem lookup_mem {α β : Type} [BEq α] [LawfulBEq α] {a : α} {b : β} :
    ∀ {l : List (α × β)}, l.lookup a = some b → (a, b) ∈ l
  | (x, y) :: l, h => by
    rw [List.lookup_cons] at h
    split at h
    · rename_i e
      rw [beq_iff_eq] at e
      cases h
      subst e
      exact List.mem_cons_self
    · exact List.mem_cons_of_mem _ (lookup_mem h)

theorem typeNames_of {w : Identifier} {ct : ColumnType} (h : columnTypes.lookup w = some ct) :
    (w, ct) ∈ typeNames :=
  (by decide +kernel : ∀ p ∈ columnTypes, p ∈ typeNames) _ (lookup_mem h)

theorem columnType : Sound parseColumnType TypeForm := by
  unfold parseColumnType
  refine bind expectIdentifier fun w vs h => ?_
  cases h
  split
  · exact error
  · rename_i ct hl
    have hm := typeNames_of hl
    dsimp only
    have hd : Sound (if w = Kw.DOUBLE then P.maybeIdentifier Kw.PRECISION else Pure.pure false)
        (fun _ us => us = [] ∨ w = Kw.DOUBLE ∧ us = [.identifier Kw.PRECISION]) := by
      refine ite (fun hc => (maybeIdentifier _).mono fun b us h => ?_) fun hc => pure (Or.inl rfl)
      subst h
      cases b
      · exact Or.inl rfl
      · exact Or.inr ⟨hc, rfl⟩
    refine join hd fun _ us hu => ite (fun ht => ?_) fun ht => pure ?_
    · have hu : us = [] := by
        rcases hu with rfl | ⟨rfl, rfl⟩
        · rfl
        · have : columnTypes.lookup Kw.DOUBLE = some ⟨.float64, 8, false, false⟩ := by decide +kernel
          rw [this] at hl
          cases hl
          simp at ht
      subst hu
      refine bind (maybeToken (by simp)) fun b bs hb => ite (fun hc => ?_) fun hc => pure ?_
      · subst hc hb
        refine bind (expectInteger _ _) fun i is hi => bind (expectToken (by simp)) fun _ rs hr =>
          pure ?_
        obtain ⟨rfl, h1, h2⟩ := hi
        subst hr
        exact .sized hm ht h1 (by unfold maxColumnSize at h2; omega)
      · have : b = false := by simpa using hc
        subst this hb
        exact .name hm
    · rcases hu with rfl | ⟨rfl, rfl⟩
      · exact .name hm
      · have : columnTypes.lookup Kw.DOUBLE = some ⟨.float64, 8, false, false⟩ := by decide +kernel
        rw [this] at hl
        cases hl
        exact .double

theorem columns : Sound parseColumns DistinctColumns := by
  unfold parseColumns
  refine bind (maybeToken (by simp)) fun b bs hb => ite (fun hc => ?_) fun hc => pure ?_
  · subst hc hb
    exact distinctColumns.mono fun l us h => .mk (inClosed h.2) h.1
  · have : b = false := by simpa using hc
    subst this hb
    exact .mk .none (by simp)

end Sound

namespace ParsersSound

open Sound

variable {env : ParseEnv} {p : Parsers} (hp : ParsersSound env p)
include hp

theorem exprOrDefault : Sound p.exprOrDefault (OrDefault (ExprForm env)) := by
  unfold Parsers.exprOrDefault
  refine bind (optionalReserved Kw.DEFAULT) fun b vs hb => ite (fun hc => pure ?_) fun hc => ?_
  · subst hc hb
    exact .default
  · have : b = false := by simpa using hc
    subst this hb
    exact bind hp.expr fun e us he => pure (by simpa using OrDefault.expr he)

theorem delete : Sound p.delete (fun s us => StmtForm env (ExprForm env) (QueryForm env) s
    (.reserved Kw.DELETE :: .reserved Kw.FROM :: us)) := by
  unfold Parsers.delete
  refine bind tableName fun tn ts ht => bind (clause Kw.WHERE hp.expr) fun c ws hw => pure ?_
  simpa using StmtForm.delete ht hw

theorem insert : Sound p.insert (fun s us => StmtForm env (ExprForm env) (QueryForm env) s
    (.reserved Kw.INSERT :: .reserved Kw.INTO :: us)) := by
  unfold Parsers.insert
  have hrow : Sound (do let _ ← P.expectTokens [Tok.lparen]; P.closedList p.exprOrDefault)
      (InsertForm (ExprForm env)) := by
    refine bind (expectToken (by simp)) fun _ vs h => (closedList hp.exprOrDefault).mono fun l us hl => ?_
    subst h
    obtain ⟨vs, rfl, hl⟩ := hl
    exact .mk hl
  refine bind tableName fun tn ts ht => bind Sound.columns fun cols cs hcs =>
    bind (expectWord Kw.VALUES) fun _ ws hw => bind (separatedList hrow) fun rows rs hr => pure ?_
  subst hw
  simpa using StmtForm.insert ht hcs hr

theorem update : Sound p.update (fun s us => StmtForm env (ExprForm env) (QueryForm env) s
    (.reserved Kw.UPDATE :: us)) := by
  unfold Parsers.update
  have hrow : Sound (do
      let column ← P.expectIdentifier
      let _ ← P.expectTokens [Tok.equal]
      let e ← p.exprOrDefault
      Pure.pure (column, e)) (UpdateForm (ExprForm env)) := by
    refine bind expectIdentifier fun c vs h => bind (expectToken (by simp)) fun _ ws hw =>
      bind hp.exprOrDefault fun e us he => pure ?_
    cases h
    subst hw
    simpa using UpdateForm.mk c he
  refine bind tableName fun tn ts ht => bind (expectWord Kw.SET) fun _ ws hw =>
    bind (separatedList hrow) fun l us hl => bind (clause Kw.WHERE hp.expr) fun c ws hc => pure ?_
  subst hw
  simpa using StmtForm.update ht hl hc

theorem settingValue : Sound (p.settingValue env) (SettingForm env (ExprForm env)) := by
  unfold Parsers.settingValue
  refine bind hp.expr fun e us he => ?_
  split
  · exact pure (.string (by simpa using he))
  · rename_i v hv
    exact pure (.other (fun s e => hv s (by rw [e])) (by simpa using he))
  · exact crash
  · exact error

theorem set : Sound (p.set env) (fun s us => StmtForm env (ExprForm env) (QueryForm env) s
    (.reserved Kw.SET :: us)) := by
  unfold Parsers.set
  refine bind (optionalReservedId _) fun o vs ho => ?_
  have hk : ∀ (var : Identifier) (t : Token),
      (t = .identifier var ∨ var ∈ [Kw.DATABASE, Kw.SCHEMA] ∧ t = .reserved var) →
      Sound (do
        let equal ← P.maybeToken Tok.equal
        let _ ← if equal then Pure.pure 0 else P.expectReserved [Kw.TO]
        let value ← p.settingValue env
        Pure.pure (Stmt.set var value)) (fun s us => StmtForm env (ExprForm env) (QueryForm env) s
          (.reserved Kw.SET :: t :: us)) := by
    intro var t ht
    refine bind (maybeToken (by simp)) fun b bs hb => ?_
    dsimp only
    have hw : Sound (if b then Pure.pure 0 else P.expectReserved [Kw.TO])
        (fun _ us => ∃ t', (t' = Tok.equal ∨ t' = .reserved Kw.TO) ∧ bs ++ us = [t']) := by
      refine ite (fun hc => pure ?_) fun hc => ?_
      · subst hc hb
        exact ⟨Tok.equal, Or.inl rfl, rfl⟩
      · have : b = false := by simpa using hc
        subst this hb
        exact (expectWord Kw.TO).mono fun _ us h => ⟨_, Or.inr rfl, h⟩
    refine join hw fun _ us hu => bind hp.settingValue fun v ws hv => pure ?_
    obtain ⟨t', h1, h2⟩ := hu
    have := StmtForm.set (Q := QueryForm env) ht h1 hv
    rw [← List.append_assoc, h2]
    simpa using this
  dsimp only at hk ⊢
  rcases ho with ⟨rfl, rfl⟩ | ⟨id, hid, rfl, rfl⟩
  · refine bind expectIdentifier fun var us hv => ?_
    cases hv
    exact hk var _ (Or.inl rfl)
  · exact bind (pure (R := fun v us => v = id ∧ us = []) ⟨rfl, rfl⟩) fun v us hv => by
      obtain ⟨rfl, rfl⟩ := hv
      exact hk v _ (Or.inr ⟨hid, rfl⟩)

theorem use : Sound (p.use env) (fun s us => StmtForm env (ExprForm env) (QueryForm env) s
    (.reserved Kw.USE :: us)) := by
  unfold Parsers.use
  exact bind hp.settingValue fun v ws hv => pure (by simpa using StmtForm.use hv)

theorem explain : Sound p.explain (fun s us => StmtForm env (ExprForm env) (QueryForm env) s
    (.reserved Kw.EXPLAIN :: us)) := by
  unfold Parsers.explain
  refine bind (optionalReserved Kw.VERBOSE) fun b vs hb => bind (expectWord Kw.SELECT) fun _ ws hw =>
    bind hp.select fun q us hq => pure ?_
  subst hw
  simpa using StmtForm.explain hb hq

/-! CREATE TABLE. -/

theorem columnConstraint (col : Identifier) (st : ColumnState) :
    Sound (p.columnConstraint env col st) (fun r us =>
      if r.2 then ColumnConstraintForm env (ExprForm env) col (st.s, st.ct, st.dflt) us
        (r.1.s, r.1.ct, r.1.dflt)
      else us = [] ∧ r.1 = st) := by
  obtain ⟨s, ct, dflt⟩ := st
  unfold Parsers.columnConstraint
  refine bind (noZero constraintName) fun n ns hn => bind (optionalReservedId _) fun o vs ho => ?_
  rcases ho with ⟨rfl, rfl⟩ | ⟨id, hid, rfl, rfl⟩
  · refine ite (fun _ => error) fun h0 => pure ?_
    have : n = 0 := by simpa using h0
    subst this
    obtain ⟨hn, hz⟩ := hn
    cases hn with
    | none => exact ⟨rfl, rfl⟩
    | some => simp at hz
  replace hn := hn.1
  dsimp only
  refine ite (fun hc => ite (fun _ => error) fun hd => ?_) fun h1 => ite (fun hc => ?_) fun h2 =>
    ite (fun hc => ?_) fun h3 => ite (fun hc => ?_) fun h4 => ite (fun hc => ?_) fun h5 => ?_
  · subst hc
    cases dflt with
    | some d => exact absurd rfl hd
    | none =>
    refine join namedColumn fun s' us hs => bind hp.expr fun e ws he => pure ?_
    obtain ⟨rfl, hs⟩ := hs
    simpa using ColumnConstraintForm.default (col := col) hn hs he
  · subst hc
    refine bind (expectWord Kw.NULL) fun _ ws hw => ite (fun _ => error) fun hnn =>
      join namedColumn fun s' us hs => pure ?_
    obtain ⟨rfl, hs⟩ := hs
    subst hw
    simpa using ColumnConstraintForm.notNull (col := col) hn (by simpa using hnn) hs
  · subst hc
    refine bind (expectWord Kw.KEY) fun _ ws hw => bind addKey fun s' us hs => pure ?_
    subst hw
    obtain ⟨rfl, h1, rfl⟩ := hs
    have e : (if n = 0 then env.id (env.string col ++ ascii "_primary") false else n)
        = madeName env n [col] "primary" := by
      have : ascii "_primary" = ascii "_" ++ ascii "primary" := by decide +kernel
      unfold madeName
      simp [this]
    rw [e] at h1 ⊢
    simpa using ColumnConstraintForm.primary (env := env) (E := ExprForm env) hn h1
  · subst hc
    refine bind addKey fun s' us hs => pure ?_
    obtain ⟨rfl, h1, rfl⟩ := hs
    have e : (if n = 0 then env.id (env.string col ++ ascii "_unique") false else n)
        = madeName env n [col] "unique" := by
      have : ascii "_unique" = ascii "_" ++ ascii "unique" := by decide +kernel
      unfold madeName
      simp [this]
    rw [e] at h1 ⊢
    simpa using ColumnConstraintForm.unique (env := env) (E := ExprForm env) hn h1
  · subst hc
    refine bind (expectToken (by simp)) fun _ ws hw => bind hp.expr fun e es he =>
      bind (expectToken (by simp)) fun _ rs hr => pure ?_
    subst hw hr
    simpa [inParens, withConstraint, IndexKey.zero] using
      ColumnConstraintForm.check (col := col) (env := env) (s := s) (ct := ct) (d := dflt) hn he
  · have : id = Kw.REFERENCES := by simpa [h1, h2, h3, h4, h5] using hid
    subst this
    refine bind tableName fun tn ts ht => bind (maybeToken (by simp)) fun b bs hb => ?_
    have hr : Sound (if b then (do
          let col ← P.expectIdentifier
          let _ ← P.expectTokens [Tok.rparen]
          Pure.pure [col]) else Pure.pure [])
        (fun l us => ∃ rc : Option Identifier, l = rc.toList ∧ bs ++ us =
          (match rc with | none => [] | some c => inParens [.identifier c])) := by
      refine ite (fun hc => ?_) fun hc => pure ?_
      · subst hc hb
        refine bind expectIdentifier fun c cs hcs => bind (expectToken (by simp)) fun _ rs hr => pure ?_
        cases hcs
        subst hr
        exact ⟨some c, rfl, rfl⟩
      · have : b = false := by simpa using hc
        subst this hb
        exact ⟨none, rfl, rfl⟩
    refine join hr fun l us hl => bind onActions fun q as ha => pure ?_
    obtain ⟨rc, rfl, hl⟩ := hl
    have := ColumnConstraintForm.references (col := col) (env := env) (E := ExprForm env) (s := s)
      (ct := ct) (dflt := dflt) (refCol := rc) hn ht hl ha
    simpa using this

theorem column (s : CreateTable) : Sound (p.column env s) (fun s' us =>
    TableElement env (ExprForm env) s us s') := by
  unfold Parsers.column
  refine bind expectIdentifier fun col vs hv => ite (fun _ => error) fun hc =>
    bind columnType fun ct ts ht => bind (loop (R := fun (s : ColumnState) us s' =>
      ColumnConstraintForm env (ExprForm env) col (s.s, s.ct, s.dflt) us (s'.s, s'.ct, s'.dflt))
      (F := fun s us s' => us = [] ∧ s' = s) fun st => hp.columnConstraint col st) fun st us hu => pure ?_
  cases hv
  obtain ⟨m, vs, ws, h1, ⟨rfl, rfl⟩, rfl⟩ := hu
  have key : ∀ {a b : ColumnState} {us : List Token}, Repeated (fun (s : ColumnState) us s' =>
      ColumnConstraintForm env (ExprForm env) col (s.s, s.ct, s.dflt) us (s'.s, s'.ct, s'.dflt)) a us b →
      Repeated (ColumnConstraintForm env (ExprForm env) col) (a.s, a.ct, a.dflt) us
        (b.s, b.ct, b.dflt) := by
    intro a b us h
    induction h with
    | nil s => exact .nil _
    | cons h _ ih => exact .cons h ih
  simpa using TableElement.column hc ht (key h1)

theorem createDetail (s : CreateTable) : Sound (p.createDetail env s) (fun s' us =>
    TableElement env (ExprForm env) s us s') := by
  unfold Parsers.createDetail
  refine bind (noZero constraintName) fun n ns hn => bind (optionalReservedId _) fun o vs ho => ?_
  have made : ∀ cols suffix, makeKeyConstraintName env n cols suffix = madeName env n cols suffix := by
    intro cols suffix
    unfold makeKeyConstraintName madeName
    by_cases h : n = 0 <;> simp [h]
  rcases ho with ⟨rfl, rfl⟩ | ⟨id, hid, rfl, rfl⟩
  · refine ite (fun _ => error) fun h0 => ?_
    have : n = 0 := by simpa using h0
    subst this
    obtain ⟨hn, hz⟩ := hn
    cases hn with
    | none => exact hp.column s
    | some => simp at hz
  replace hn := hn.1
  refine ite (fun hc => ?_) fun h1 => ite (fun hc => ?_) fun h2 => ite (fun hc => ?_) fun h3 => ?_
  · subst hc
    refine bind (expectWord Kw.KEY) fun _ ws hw => bind (Sound.key true) fun k ks hk =>
      addKey.mono fun s' us hs => ?_
    subst hw
    obtain ⟨rfl, h1, rfl⟩ := hs
    rw [made] at h1 ⊢
    simpa using TableElement.primary (E := ExprForm env) hn hk h1
  · subst hc
    refine bind (Sound.key true) fun k ks hk => addKey.mono fun s' us hs => ?_
    obtain ⟨rfl, h1, rfl⟩ := hs
    rw [made] at h1 ⊢
    simpa using TableElement.unique (E := ExprForm env) hn hk h1
  · subst hc
    refine bind (expectToken (by simp)) fun _ ws hw => bind hp.expr fun e es he =>
      bind (expectToken (by simp)) fun _ rs hr => pure ?_
    subst hw hr
    simpa [inParens, withConstraint, IndexKey.zero] using
      TableElement.check (env := env) (s := s) hn he
  · have : id = Kw.FOREIGN := by simpa [h1, h2, h3] using hid
    subst this
    refine bind (expectWord Kw.KEY) fun _ ws hw => bind (foreignKey n) fun k ks hk => pure ?_
    subst hw
    simpa using TableElement.foreignKey (env := env) (E := ExprForm env) (s := s) hn hk

theorem createTable : Sound (p.createTable env) (fun s us =>
    StmtForm env (ExprForm env) (QueryForm env) (.createTable s)
      (.reserved Kw.CREATE :: .reserved Kw.TABLE :: us)) := by
  unfold Parsers.createTable
  refine bind ifNotExists fun b es hb => bind tableName fun tn ts ht =>
    bind (expectToken (by simp)) fun _ ws hw => (closed hp.createDetail _).mono fun s us h => ?_
  subst hw
  obtain ⟨vs, rfl, h⟩ := h
  simpa [inParens] using StmtForm.createTable (Q := QueryForm env) hb ht h

end ParsersSound

namespace Sound

variable {env : ParseEnv} {E : Expr → List Token → Prop} {Q : Query → List Token → Prop}

theorem alterAction : Sound parseAlterAction AlterForm := by
  unfold parseAlterAction
  refine bind (expectReserved _) fun id vs h => ?_
  obtain ⟨hm, rfl⟩ := h
  refine ite (fun hc => ?_) fun h1 => ite (fun hc => ?_) fun h2 => ?_
  · subst hc
    refine bind constraintName fun n ns hn => bind (expectWord Kw.FOREIGN) fun _ fs hf =>
      bind (expectWord Kw.KEY) fun _ ks hk => bind (foreignKey n) fun fk ts ht => pure ?_
    subst hf hk
    simpa using AlterForm.add hn ht
  · subst hc
    refine bind (expectWord Kw.CONSTRAINT) fun _ cs hcs => bind ifExists fun b es hb =>
      bind expectIdentifier fun n ns hn => pure ?_
    subst hcs
    cases hn
    simpa using AlterForm.drop n hb
  · have : id = Kw.ALTER := by simpa [h1, h2] using hm
    subst this
    refine bind (optionalReserved Kw.COLUMN) fun b cs hb => bind expectIdentifier fun col ns hn =>
      bind (expectWord Kw.DROP) fun _ ds hd => bind (expectReserved _) fun id vs h => ?_
    have hcs : cs = [] ∨ cs = [.reserved Kw.COLUMN] := by
      subst hb
      cases b
      · exact Or.inl rfl
      · exact Or.inr rfl
    cases hn
    subst hd
    obtain ⟨hm, rfl⟩ := h
    refine ite (fun hc => pure ?_) fun hc => ?_
    · subst hc
      simpa using AlterForm.dropDefault col hcs
    · have : id = Kw.NOT := by simpa [hc] using hm
      subst this
      refine bind (expectWord Kw.NULL) fun _ ws hw => pure ?_
      subst hw
      simpa using AlterForm.dropNotNull col hcs

theorem alterTable : Sound parseAlterTable (fun s us => StmtForm env E Q s
    (.reserved Kw.ALTER :: .reserved Kw.TABLE :: us)) := by
  unfold parseAlterTable
  refine bind tableName fun tn ts ht => bind (separatedList alterAction) fun l us hl => pure ?_
  simpa using StmtForm.alterTable ht hl

theorem createIndex (u : Bool) : Sound (parseCreateIndex u) (fun s us => ∀ vs,
    vs = (if u then [.reserved Kw.UNIQUE] else []) → StmtForm env E Q s
      (.reserved Kw.CREATE :: (vs ++ .reserved Kw.INDEX :: us))) := by
  unfold parseCreateIndex
  refine bind ifNotExists fun b es hb => bind expectIdentifier fun i is hi =>
    bind (expectWord Kw.ON) fun _ ws hw => bind tableName fun tn ts ht =>
    bind (clause Kw.USING expectIdentifier) fun o os ho => ite (fun _ => error) fun hn =>
    bind (key u) fun k ks hk => pure fun vs hv => ?_
  cases hi
  subst hw
  have hu : os = [] ∨ os = [.reserved Kw.USING, .identifier Kw.BTREE] := by
    rcases seqNone ho with ⟨rfl, rfl⟩ | ⟨a, us, rfl, rfl, ha⟩
    · exact Or.inl rfl
    · cases ha
      have : a = Kw.BTREE := by simpa using hn
      rw [this]
      exact Or.inr rfl
  simpa using StmtForm.createIndex (index := i) hv hb ht hu hk

theorem dropTable : Sound parseDropTable (fun s us => StmtForm env E Q s
    (.reserved Kw.DROP :: .reserved Kw.TABLE :: us)) := by
  unfold parseDropTable
  refine bind ifExists fun b es hb => bind (separatedList tableName) fun l ts hl =>
    bind (optionalReserved Kw.CASCADE) fun c cs hcs => ?_
  dsimp only
  have hr : Sound (if c then Pure.pure false else P.optionalReserved [Kw.RESTRICT])
      (fun _ us => if c then cs ++ us = [.reserved Kw.CASCADE] else
        cs ++ us = [] ∨ cs ++ us = [.reserved Kw.RESTRICT]) := by
    refine ite (fun hc => pure ?_) fun hc => ?_
    · subst hc hcs
      rfl
    · have : c = false := by simpa using hc
      subst this hcs
      refine (optionalReserved Kw.RESTRICT).mono fun b us h => ?_
      subst h
      cases b
      · exact Or.inl rfl
      · exact Or.inr rfl
  refine join hr fun _ us hu => pure ?_
  simpa using StmtForm.dropTable hb hl hu

theorem dropIndex : Sound parseDropIndex (fun s us => StmtForm env E Q s
    (.reserved Kw.DROP :: .reserved Kw.INDEX :: us)) := by
  unfold parseDropIndex
  refine bind ifExists fun b es hb => bind expectIdentifier fun i is hi =>
    bind (expectWord Kw.ON) fun _ ws hw => bind tableName fun tn ts ht => pure ?_
  cases hi
  subst hw
  simpa using StmtForm.dropIndex hb ht

theorem dropDatabase : Sound parseDropDatabase (fun s us => StmtForm env E Q s
    (.reserved Kw.DROP :: .reserved Kw.DATABASE :: us)) := by
  unfold parseDropDatabase
  refine bind ifExists fun b es hb => bind expectIdentifier fun i is hi => pure ?_
  cases hi
  simpa using StmtForm.dropDatabase i hb

theorem dropSchema : Sound parseDropSchema (fun s us => StmtForm env E Q s
    (.reserved Kw.DROP :: .reserved Kw.SCHEMA :: us)) := by
  unfold parseDropSchema
  refine bind ifExists fun b es hb => bind schemaName fun i is hi => pure ?_
  simpa using StmtForm.dropSchema hb hi

theorem drop : Sound parseDrop (fun s us => StmtForm env E Q s (.reserved Kw.DROP :: us)) := by
  unfold parseDrop
  refine bind (expectReserved _) fun id vs h => ?_
  obtain ⟨hm, rfl⟩ := h
  refine ite (fun hc => ?_) fun h1 => ite (fun hc => ?_) fun h2 => ite (fun hc => ?_) fun h3 => ?_
  · subst hc
    exact dropDatabase
  · subst hc
    exact dropIndex
  · subst hc
    exact dropSchema
  · have : id = Kw.TABLE := by simpa [h1, h2, h3] using hm
    subst this
    exact dropTable

theorem copy : Sound parseCopy (fun s us => StmtForm env E Q s (.reserved Kw.COPY :: us)) := by
  unfold parseCopy
  have hd : Sound (do
      let t ← P.next
      match t with
      | .string [b] => Pure.pure b.toNat
      | _ => P.errorAt t) DelimiterForm := by
    refine bind next fun t vs h => ?_
    split
    · rcases h with ⟨h, _⟩ | ⟨_, rfl⟩
      · cases h
      · exact pure (.mk _)
    · exact errorAt
  refine bind tableName fun tn ts ht => bind columns fun cols cs hcs => bind (expectWord Kw.FROM)
    fun _ ws hw => bind expectIdentifier fun i is hi => ite (fun _ => error) fun hn =>
    bind (clause Kw.DELIMITER hd) fun d ds hds => pure ?_
  cases hi
  subst hw
  have : i = Kw.STDIN := by simpa using hn
  subst this
  simpa using StmtForm.copy ht hcs hds

theorem options : Sound (parseOptions env) (OptionsForm env) := by
  unfold parseOptions
  refine bind (loopNil (R := fun l us l' => ∃ o, OptionForm env o us ∧
    l' = l.filter (fun p => p.1 ≠ o.1) ++ [o]) fun l => ?_) fun l vs hl => ite (fun _ => error) fun hn => pure ?_
  · refine bindAt next fun t vs ht => ?_
    split
    · rename_i o
      obtain ⟨_, rfl⟩ : _ ∧ vs = [Token.identifier o] := by
        rcases ht with ⟨h, _⟩ | h
        · cases h
        · exact h
      refine atPre (bind (maybeToken (by simp)) fun b bs hb => bind next fun t vs ht => ?_)
      have hbs : bs = [] ∨ bs = [Tok.equal] := by
        subst hb
        cases b
        · exact Or.inl rfl
        · exact Or.inr rfl
      have hv : t ≠ .eof → vs = [t] := by
        intro hne
        rcases ht with ⟨h, _⟩ | h
        · exact absurd h hne
        · exact h.2
      split
      · obtain rfl := hv (by simp)
        exact pure ⟨(o, _), by simpa using OptionForm.mk hbs (Or.inl ⟨_, rfl, rfl⟩), rfl⟩
      · obtain rfl := hv (by simp)
        exact pure ⟨(o, _), by simpa using OptionForm.mk hbs (Or.inr (Or.inl rfl)), rfl⟩
      · obtain rfl := hv (by simp)
        exact pure ⟨(o, _), by simpa using OptionForm.mk hbs (Or.inr (Or.inr (Or.inl rfl))), rfl⟩
      · obtain rfl := hv (by simp)
        exact pure ⟨(o, _), by
          simpa using OptionForm.mk hbs (Or.inr (Or.inr (Or.inr (Or.inl ⟨_, rfl, rfl⟩)))), rfl⟩
      · obtain rfl := hv (by simp)
        exact pure ⟨(o, _), by
          simpa using OptionForm.mk hbs (Or.inr (Or.inr (Or.inr (Or.inr ⟨_, rfl, rfl⟩)))), rfl⟩
      · exact errorAt
    · rcases ht with ⟨rfl, rfl⟩ | ⟨hne, rfl⟩
      · intro ts a rest _ h
        obtain ⟨rfl, rfl⟩ := unscan_eof h
        exact ⟨[], rfl, rfl, rfl⟩
      · exact unscanAt (pre := []) hne (atPre (pure ⟨rfl, rfl⟩))
  · have key : ∀ {l l' : List (Identifier × Bytes)} {us : List Token}, Repeated (fun l us l' =>
        ∃ o, OptionForm env o us ∧ l' = l.filter (fun p => p.1 ≠ o.1) ++ [o]) l us l' →
        ∀ ts, OptionsForm env l ts → OptionsForm env l' (ts ++ us) := by
      intro l l' us h
      induction h with
      | nil s => intro ts h; simpa using h
      | cons h _ ih =>
        intro ts ho
        obtain ⟨o, h1, rfl⟩ := h
        simpa using ih _ (.more ho h1)
    cases hl with
    | nil => exact absurd rfl hn
    | cons h hr =>
      obtain ⟨o, h1, rfl⟩ := h
      simpa using key hr _ (.one h1)

theorem createDatabase : Sound (parseCreateDatabase env) (fun s us => StmtForm env E Q s
    (.reserved Kw.CREATE :: .reserved Kw.DATABASE :: us)) := by
  unfold parseCreateDatabase
  refine bind expectIdentifier fun i is hi => bind (clause Kw.WITH options) fun o os ho => pure ?_
  cases hi
  simpa using StmtForm.createDatabase ho

end Sound

namespace ParsersSound

open Sound

variable {env : ParseEnv} {p : Parsers} (hp : ParsersSound env p)
include hp

theorem create : Sound (p.create env) (fun s us => StmtForm env (ExprForm env) (QueryForm env) s
    (.reserved Kw.CREATE :: us)) := by
  unfold Parsers.create
  refine bind (expectReserved _) fun id vs h => ?_
  obtain ⟨hm, rfl⟩ := h
  refine ite (fun hc => ?_) fun h1 => ite (fun hc => ?_) fun h2 => ite (fun hc => ?_) fun h3 =>
    ite (fun hc => ?_) fun h4 => ?_
  · subst hc
    exact Sound.createDatabase
  · subst hc
    exact (Sound.createIndex false).mono fun s us h => h [] rfl
  · subst hc
    exact bind schemaName fun sn us h => pure (by simpa using StmtForm.createSchema h)
  · subst hc
    exact bind hp.createTable fun s us h => pure (by simpa using h)
  · have : id = Kw.UNIQUE := by simpa [h1, h2, h3, h4] using hm
    subst this
    refine bind (expectWord Kw.INDEX) fun _ ws hw => (Sound.createIndex (env := env) (E := ExprForm env) (Q := QueryForm env) true).mono fun s us h => ?_
    subst hw
    exact h _ rfl

theorem afterKeyword (id : Identifier) (hid : id ∈ stmtKeywords) : Sound (p.afterKeyword env id) (fun o us =>
    match o with
    | some s => StmtForm env (ExprForm env) (QueryForm env) s (.reserved id :: us)
    | none => us = [] ∧ id ∈ [Kw.DETACH, Kw.EXECUTE, Kw.PREPARE]) := by
  unfold Parsers.afterKeyword
  refine ite (fun hc => ?_) fun h1 => ite (fun hc => ?_) fun h2 => ite (fun hc => ?_) fun h3 =>
    ite (fun hc => ?_) fun h4 => ite (fun hc => ?_) fun h5 => ite (fun hc => ?_) fun h6 =>
    ite (fun hc => ?_) fun h7 => ite (fun hc => ?_) fun h8 => ite (fun hc => ?_) fun h9 =>
    ite (fun hc => ?_) fun h10 => ite (fun hc => ?_) fun h11 => ite (fun hc => ?_) fun h12 =>
    ite (fun hc => ?_) fun h13 => ite (fun hc => ?_) fun h14 => ite (fun hc => ?_) fun h15 =>
    ite (fun hc => ?_) fun h16 => ite (fun hc => ?_) fun h17 => ?_
  all_goals try subst hc
  · refine bind (expectWord Kw.TABLE) fun _ ws hw => map (alterTable (env := env) (E := ExprForm env) (Q := QueryForm env)) fun s us h => ?_
    subst hw
    exact h
  · exact pure .begin
  · exact pure .commit
  · exact map (copy (env := env) (E := ExprForm env) (Q := QueryForm env)) fun s us h => h
  · exact map hp.create fun s us h => h
  · refine bind (expectWord Kw.FROM) fun _ ws hw => map hp.delete fun s us h => ?_
    subst hw
    exact h
  · exact map (drop (env := env) (E := ExprForm env) (Q := QueryForm env)) fun s us h => h
  · exact map hp.explain fun s us h => h
  · refine bind (expectWord Kw.INTO) fun _ ws hw => map hp.insert fun s us h => ?_
    subst hw
    exact h
  · exact pure .rollback
  · exact map hp.select fun s us h => .query (by simp) h
  · exact map hp.set fun s us h => h
  · exact map (Sound.parseShow env) fun s us h => .query (by simp) (.showAny h)
  · refine bind (expectWord Kw.TRANSACTION) fun _ ws hw => pure ?_
    subst hw
    exact .start
  · exact map hp.update fun s us h => h
  · exact map hp.use fun s us h => h
  · exact map hp.values fun s us h => .query (by simp) h
  · refine pure ⟨rfl, ?_⟩
    simpa [stmtKeywords, h1, h2, h3, h4, h5, h6, h7, h8, h9, h10, h11, h12, h13, h14, h15, h16, h17]
      using hid

/-- A statement, or an empty one, or one of the three that stand for nothing. -/
theorem stmt : Sound (p.stmt env) (fun o us =>
    match o with
    | some s => StmtForm env (ExprForm env) (QueryForm env) s us
    | none => us = [.endOfStatement] ∨ ∃ w ∈ [Kw.DETACH, Kw.EXECUTE, Kw.PREPARE], us = [.reserved w]) := by
  unfold Parsers.stmt
  refine bind (maybeToken (by simp)) fun b bs hb => ite (fun hc => ?_) fun hc => ?_
  · subst hc hb
    exact pure (Or.inl rfl)
  · have : b = false := by simpa using hc
    subst this hb
    refine bind (expectReserved _) fun id vs h => (hp.afterKeyword id h.1).mono fun o us ho => ?_
    obtain ⟨_, rfl⟩ := h
    cases o with
    | some s => exact ho
    | none =>
      obtain ⟨rfl, hm⟩ := ho
      exact Or.inr ⟨id, hm, rfl⟩

/-- A statement and its end. -/
theorem stmtEnd {ts rest : List Token} {o : Option Stmt} (hR : Readable ts)
    (h : p.stmtEnd env ts = .ok o rest) : ∃ us, (match o with
      | some s => StmtForm env (ExprForm env) (QueryForm env) s us
      | none => us = [.endOfStatement] ∨
        ∃ w ∈ [Kw.DETACH, Kw.EXECUTE, Kw.PREPARE], us = [.reserved w]) ∧
      (ts = us ++ .endOfStatement :: rest ∨ ts = us ∧ rest = []) := by
  change P.bind (p.stmt env) (fun s => P.bind P.expectEndOfStatement (fun _ => Pure.pure s)) ts
    = _ at h
  unfold P.bind at h
  split at h
  · rename_i o' r ho
    obtain ⟨us, rfl, hs⟩ := hp.stmt ts o' r hR ho
    dsimp only at h
    split at h
    · rename_i u r' hu
      obtain ⟨rfl, rfl⟩ := pure_eq h
      refine ⟨us, hs, ?_⟩
      change P.bind P.next _ r = _ at hu
      unfold P.bind at hu
      split at hu
      · rename_i t r'' ht
        dsimp only at hu
        split at hu
        · rename_i hc
          obtain ⟨_, rfl⟩ := pure_eq hu
          cases r with
          | nil =>
            cases ht
            exact Or.inr ⟨by simp, rfl⟩
          | cons x l =>
            unfold P.next at ht
            split at ht
            · rename_i e; cases e
            · cases ht
            · rename_i e
              cases e
              cases ht
              rcases hc with rfl | rfl
              · exact absurd (by simp) hR.1
              · exact Or.inl rfl
        · unfold P.errorGot at hu
          split at hu <;> cases hu
      · cases hu
      · cases hu
      · cases hu
    · cases h
    · cases h
    · cases h
  · cases h
  · cases h
  · cases h

end ParsersSound
end Maho
