import Verif.Lemmas.Constraints
import Verif.Props.Statement
import Verif.Props.Console
/-
C88: the names of the constraints of a table.
-/
namespace Maho
open Spec Cons

/-- C88 (partial): in the definition of a table that `Parse` accepts, each primary key, unique key,
default and NOT NULL has a name that no constraint before it has, no key is there twice, and there is
one primary key. Missing: the names of checks and of foreign keys, see `C88_not_unique`. -/
theorem C88_unique_partial (env : ParseEnv) (failed f : Bool) (ts rest : List Token) (s : CreateTable)
    (hR : Token.eof ∉ ts ∧ Token.identifier 0 ∉ ts)
    (h : parse env failed ts = (.stmt (some (.createTable s)), f, rest)) :
    s.constraints.Pairwise NewAfter := by
  obtain ⟨-, skipped, us, hf, -⟩ := C76_sound env failed f ts rest _ hR h
  exact stmt_new hf

/-- What the constraints of a definition are, for the examples. -/
def constraints88 : Parsed → Option (List (ConstraintType × Bytes) × List Bytes)
  | .stmt (some (.createTable s)) =>
    some (s.constraints.map (fun c => (c.type, scriptParse.string c.name)),
      s.foreignKeys.map (fun fk => scriptParse.string fk.name))
  | _ => none

/-- The tokens of a text. -/
def tokens88 (s : String) : List Token := tokenize scriptParse.toScanEnv (runes s)

/-- The hypotheses of `C88_unique_partial` are met. -/
example : let ts := tokens88 "CREATE TABLE t (a INT PRIMARY KEY, b INT CONSTRAINT n NOT NULL, UNIQUE (a, b))"
    Token.eof ∉ ts ∧ Token.identifier 0 ∉ ts ∧
    constraints88 (parse scriptParse false ts).1 =
      some ([(.primary, ascii "a_primary"), (.notNull, ascii "n"), (.unique, ascii "a_b_unique")], []) := by
  decide +kernel

/-- C88 (partial): keys without names are not refused because of the names that they get, if the
lists of their columns are different and the names of the columns have only small letters and digits.
The definition is some columns and then some keys, of which one can be the primary key; it is
accepted, and the constraints are these keys. Missing: keys that differ only in ASC and DESC, and
names with `_`, see `C88_refused`; names with capitals, and names that are too long to be told apart. -/
theorem C88_accepted_partial (env : ParseEnv) (hid : TellsApart env) (tn : TableName)
    (tt : List Token) (htn : TableText tn tt)
    (cols : List (Identifier × ColumnType)) (cts : List (List Token))
    (hcols : All2 ColumnElement cols cts) (hne : cols ≠ []) (hnodup : (cols.map (·.1)).Nodup)
    (keys : List (Bool × IndexKey)) (kts : List (List Token)) (hkeys : All2 KeyElement keys kts)
    (hsmall : ∀ k ∈ keys, ∀ c ∈ k.2.columns, SmallName (env.string c))
    (hlen : ∀ k ∈ keys, (keyText env k.2.columns k.1).length ≤ 128)
    (hdiff : keys.Pairwise fun j k =>
      j.2.columns.map env.string ≠ k.2.columns.map env.string ∧ ¬ (j.1 = true ∧ k.1 = true)) :
    parse env false (.reserved Kw.CREATE :: .reserved Kw.TABLE :: (tt ++ inParens (withCommas (cts ++ kts)))) =
      (.stmt (some (.createTable ⟨tn, cols.map (·.1), cols.map (·.2), cols.map fun _ => none, false,
        keys.map (keyMade env), []⟩)), false, []) := by
  have hnew := keys_new hid hsmall hlen hdiff
  have c1 := columns_changes (env := env) (E := Written env.words) hcols hne
    ⟨tn, [], [], [], false, [], []⟩ (by simpa using hnodup)
  have c2 : Changes (TableElement env (Written env.words)) ⟨tn, [], [], [], false, [], []⟩
      (withCommas (cts ++ kts)) (withKeys env (withColumns ⟨tn, [], [], [], false, [], []⟩ cols) keys) := by
    cases hkeys with
    | nil => simpa [withKeys] using c1
    | @cons k kt ks kts h1 h2 =>
      have hcne : cts ≠ [] := by
        cases hcols with
        | nil => exact absurd rfl hne
        | cons => simp
      rw [withCommas_append hcne (by simp)]
      exact changes_snoc c1 (keys_changes (.cons h1 h2) (by simp) _ (by simpa [withColumns] using hnew))
  have hf : StmtForm env (Written env.words) (QueryText env.words) (.createTable _) _ :=
    .createTable IfNotExists.no htn c2
  have := (C76_complete_partial env false [] _ (some _) hf rfl).1
  simpa [withKeys, withColumns] using this

/-- The name in capitals, as `scriptParse` looks it up. -/
def capitals88 (s : Bytes) : Bytes := s.map fun c => if 97 ≤ c.toNat ∧ c.toNat ≤ 122 then c - 32 else c

theorem script_name (s : Bytes) (h : s.length ≤ 128) :
    scriptParse.string (scriptParse.id s false) = s ∨
      (∃ p ∈ keywords, capitals88 s = p.1) ∧
        scriptParse.string (scriptParse.id s false) = capitals88 s := by
  have hk : ∀ p ∈ keywords, sampleName p.2 = p.1 := by decide +kernel
  show sampleName _ = s ∨ _ ∧ sampleName _ = _
  simp only [scriptParse, Bool.false_eq_true, if_false]
  cases hl : keywords.lookup (capitals88 s) with
  | none =>
    left
    simp only [capitals88] at hl
    rw [hl]
    exact sampleEngine.name_ident s h
  | some id =>
    right
    have hm := lookup_mem hl
    simp only [capitals88] at hl
    rw [hl]
    exact ⟨⟨_, hm, rfl⟩, hk _ hm⟩

/-- There is an environment that tells names apart. -/
theorem scriptParse_tells : TellsApart scriptParse := by
  intro a b ha hb hc he
  have hcap : ∀ p ∈ keywords, ∃ c ∈ p.1, 65 ≤ c.toNat ∧ c.toNat ≤ 90 := by decide +kernel
  have plain : ∀ s : Bytes, (∀ c ∈ s, (97 ≤ c.toNat ∧ c.toNat ≤ 122) ∨ (48 ≤ c.toNat ∧ c.toNat ≤ 57) ∨
      c = 95#8) → ¬ ∃ p ∈ keywords, s = p.1 := by
    rintro s hs ⟨p, hp, rfl⟩
    obtain ⟨c, hc, h1, h2⟩ := hcap p hp
    rcases hs c hc with h | h | h
    · omega
    · omega
    · rw [h] at h2; revert h2; decide
  have ca := fun c hx => hc c (List.mem_append_left b hx)
  have cb := fun c hx => hc c (List.mem_append_right a hx)
  rcases script_name a ha with h1 | ⟨h1, h2⟩ <;> rcases script_name b hb with g1 | ⟨g1, g2⟩
  · rw [← h1, ← g1, he]
  · rw [he, g2] at h1
    rw [h1] at g1
    exact absurd g1 (plain a ca)
  · rw [← he, h2] at g1
    rw [g1] at h1
    exact absurd h1 (plain b cb)
  · rw [he, g2] at h2
    clear he ha hb hc g1 g2 h1 hcap plain
    induction a generalizing b with
    | nil => cases b with
      | nil => rfl
      | cons => simp [capitals88] at h2
    | cons x xs ih =>
      cases b with
      | nil => simp [capitals88] at h2
      | cons y ys =>
        simp only [capitals88, List.map_cons, List.cons.injEq] at h2
        have ex : x = y := by
          have hx := ca x (by simp)
          have hy := cb y (by simp)
          have e := congrArg BitVec.toNat h2.1
          apply BitVec.eq_of_toNat_eq
          have u : (95#8 : Byte).toNat = 95 := rfl
          have sub : ∀ z : Byte, 97 ≤ z.toNat → z.toNat ≤ 122 → (z - 32).toNat = z.toNat - 32 := by
            intro z h1 h2
            rw [BitVec.toNat_sub, show (32 : Byte).toNat = 32 from rfl]
            omega
          have cases3 : ∀ z : Byte, ((97 ≤ z.toNat ∧ z.toNat ≤ 122) ∨ (48 ≤ z.toNat ∧ z.toNat ≤ 57) ∨
              z = 95#8) → ((97 ≤ z.toNat ∧ z.toNat ≤ 122) ∨ (48 ≤ z.toNat ∧ z.toNat ≤ 57) ∨
              z.toNat = 95) := by
            rintro z (h | h | h)
            · exact .inl h
            · exact .inr (.inl h)
            · exact .inr (.inr (by rw [h]; rfl))
          have hx := cases3 x hx
          have hy := cases3 y hy
          by_cases px : 97 ≤ x.toNat ∧ x.toNat ≤ 122 <;> by_cases py : 97 ≤ y.toNat ∧ y.toNat ≤ 122
          · rw [if_pos px, if_pos py, sub x px.1 px.2, sub y py.1 py.2] at e
            omega
          · rw [if_pos px, if_neg py, sub x px.1 px.2] at e
            omega
          · rw [if_neg px, if_pos py, sub y py.1 py.2] at e
            omega
          · rw [if_neg px, if_neg py] at e
            exact e.symm
        rw [ex, ih ys (fun c hx => ca c (by simp [hx])) (fun c hx => cb c (by simp [hx])) h2.2]

/-- The identifier of a name. -/
def id88 (s : String) : Identifier := scriptParse.id (ascii s) false

/-- The hypotheses of `C88_accepted_partial` are met by
`t (a INT, b INT, PRIMARY KEY (a), UNIQUE (a, b DESC))`. -/
example : TellsApart scriptParse ∧ TableText ⟨0, 0, id88 "t"⟩ [.identifier (id88 "t")] ∧
    All2 ColumnElement [(id88 "a", ⟨.int64, 4, false, false⟩), (id88 "b", ⟨.int64, 4, false, false⟩)]
      [[.identifier (id88 "a"), .identifier Kw.INT], [.identifier (id88 "b"), .identifier Kw.INT]] ∧
    [id88 "a", id88 "b"].Nodup ∧
    let keys := [(true, (⟨true, [id88 "a"], [false]⟩ : IndexKey)),
      (false, ⟨true, [id88 "a", id88 "b"], [false, true]⟩)]
    All2 KeyElement keys [[.reserved Kw.PRIMARY, .reserved Kw.KEY, Tok.lparen, .identifier (id88 "a"), Tok.rparen],
        [.reserved Kw.UNIQUE, Tok.lparen, .identifier (id88 "a"), Tok.comma, .identifier (id88 "b"),
          .reserved Kw.DESC, Tok.rparen]] ∧
      (∀ k ∈ keys, ∀ c ∈ k.2.columns, SmallName (scriptParse.string c)) ∧
      (∀ k ∈ keys, (keyText scriptParse k.2.columns k.1).length ≤ 128) ∧
      keys.Pairwise fun j k => j.2.columns.map scriptParse.string ≠ k.2.columns.map scriptParse.string ∧
        ¬ (j.1 = true ∧ k.1 = true) := by
  have hint : (Kw.INT, (⟨.int64, 4, false, false⟩ : ColumnType)) ∈ typeNames := by decide +kernel
  refine ⟨scriptParse_tells, .one _, .cons ⟨_, rfl, .name hint⟩ (.cons ⟨_, rfl, .name hint⟩ .nil),
    by decide +kernel, .cons ⟨_, rfl, .mk (l := [(id88 "a", false)]) (.one (ts := [.identifier (id88 "a")]) ?_) (by simp)⟩ (.cons ⟨_, rfl,
      .mk (l := [(id88 "a", false), (id88 "b", true)]) (.cons (ts := [.identifier (id88 "a")])
        (us := [.identifier (id88 "b"), .reserved Kw.DESC]) ?_ (.one ?_))
        (by decide +kernel)⟩ .nil), ?_, by decide +kernel, by decide +kernel⟩
  · exact .plain _
  · exact .plain _
  · exact .desc _
  · unfold SmallName; decide +kernel

/-- C88 fails: a check can have the name of another constraint, and so can a foreign key. -/
theorem C88_not_unique :
    constraints88 (parse scriptParse false (tokens88
      "CREATE TABLE t (a INT CONSTRAINT c CHECK (a), CONSTRAINT c CHECK (a))")).1 =
      some ([(.check, ascii "c"), (.check, ascii "c")], []) ∧
    constraints88 (parse scriptParse false (tokens88
      "CREATE TABLE t (a INT CONSTRAINT c UNIQUE, CONSTRAINT c CHECK (a), CONSTRAINT c FOREIGN KEY (a) REFERENCES u)")).1 =
      some ([(.unique, ascii "c"), (.check, ascii "c")], [ascii "c"]) := by
  decide +kernel

/-- C88 fails: keys that are different are refused because the names that are made for them are the
same. Each of the keys alone is accepted, and so are both with a name for one of them. -/
theorem C88_refused :
    (∀ s ∈ ["CREATE TABLE t (a INT, UNIQUE (a), UNIQUE (a DESC))",
        "CREATE TABLE t (a INT, b INT, a_b INT, UNIQUE (a, b), UNIQUE (a_b))"],
      (parse scriptParse false (tokens88 s)).1.isError = true) ∧
    ∀ s ∈ ["CREATE TABLE t (a INT, UNIQUE (a), CONSTRAINT c UNIQUE (a DESC))",
        "CREATE TABLE t (a INT, b INT, a_b INT, UNIQUE (a, b), CONSTRAINT c UNIQUE (a_b))"],
      (parse scriptParse false (tokens88 s)).1.isStmt = true := by
  decide +kernel

end Maho
