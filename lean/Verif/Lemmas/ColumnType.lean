import Verif.Lemmas.Lex
import Verif.Lemmas.Value
import Verif.Lemmas.ParseStmt
import Verif.Model.Print
/-
Helper lemmas for C66.
-/
namespace Maho
open P Maho.Spec

theorem text_source : ∀ {b : Bytes}, (∀ c ∈ b, c.toNat < 128) → text (source b) = b
  | [], _ => rfl
  | c :: b, h => by
    have h0 := h c (by simp)
    show text (c.toNat :: source b) = c :: b
    rw [text_cons, runeText_ascii h0, text_source fun c hc => h c (by simp [hc])]
    simp

theorem source_append (a b : Bytes) : source (a ++ b) = source a ++ source b := List.map_append

theorem numeral_source {b : Bytes} {n : Nat} (h : IsDecimal b n) : Numeral (source b) n := by
  rw [← isDecimal_text, text_source fun c hc => by have := h.2.1 c hc; omega]
  exact h

/-- A keyword. -/
theorem Lexes.keyword {env : ScanEnv} (hk : KnowsKeywords env) {s : String} {id : Identifier}
    (h : (s, id) ∈ keywordTable) (hs : (ascii s).all (fun c => 65 ≤ c.toNat ∧ c.toNat ≤ 90) = true)
    (hne : ascii s ≠ []) :
    Lexes env (fun c => env.identRune c = false ∧ c ≠ 39) (source (ascii s))
      (if id < 0 then .reserved id else .identifier id) := by
  have hs' : ∀ c ∈ ascii s, 65 ≤ c.toNat ∧ c.toNat ≤ 90 := by simpa using hs
  have hl : ∀ r ∈ source (ascii s), 65 ≤ r ∧ r ≤ 90 := by
    intro r hr
    obtain ⟨c, hc, rfl⟩ := List.mem_map.1 hr
    exact hs' c hc
  have hlet : ∀ r ∈ source (ascii s), env.letter r = true := by
    intro r hr
    have := hl r hr
    rw [env.letter_ascii r (by omega)]
    simp
    omega
  have hp : PlainName env (source (ascii s)) := by
    cases e : source (ascii s) with
    | nil => exact absurd (List.map_eq_nil_iff.1 e) hne
    | cons r m =>
      refine ⟨r, m, rfl, Or.inl (hlet r (by simp [e])), fun c hc => Or.inl (hlet c (by simp [e, hc]))⟩
  have := Lexes.name env hp (fun r hr => by have := hl r hr; omega)
  rw [text_source fun c hc => by have := hs' c hc; omega] at this
  have e := hk _ h
  simp only at e
  have e2 : env.identToken (ascii s) = (if id < 0 then .reserved id else .identifier id) := by
    unfold ScanEnv.identToken isReserved
    rw [e]
    by_cases hid : id < 0 <;> simp [hid]
  rw [← e2]
  exact this

/-- What a type can be. -/
theorem parseColumnType_post : Post parseColumnType (fun ct => ct.notNull = false ∧
    ((∃ n, n ≤ maxColumnSize ∧ ct.size = BitVec.ofNat 32 n ∧ (ct.type = .string ∨ ct.type = .bytes))
      ∨ ct ∈ columnTypes.map (·.2))) := by
  unfold parseColumnType
  refine .bindAny fun typ => ?_
  split
  · exact .error
  · rename_i ct hct
    have hmem : ∀ (l : List (Identifier × ColumnType)), l.lookup typ = some ct → ct ∈ l.map (·.2) := by
      intro l
      induction l with
      | nil => simp
      | cons a l ih =>
        obtain ⟨k, v⟩ := a
        intro h
        rw [List.lookup_cons] at h
        split at h
        · cases h; simp
        · simp [ih h]
    have hm := hmem _ hct
    have hn : ct.notNull = false := by
      have : ∀ c ∈ columnTypes.map (·.2), c.notNull = false := by decide
      exact this _ hm
    have hend : Post (if ct.type = .string ∨ ct.type = .bytes then do
        let paren ← maybeToken Tok.lparen
        if paren then do
          let i ← expectInteger 0 maxColumnSize
          let _ ← expectTokens [Tok.rparen]
          pure { ct with size := BitVec.setWidth 32 i }
        else pure ct
      else pure ct : P ColumnType) (fun ct => ct.notNull = false ∧
    ((∃ n, n ≤ maxColumnSize ∧ ct.size = BitVec.ofNat 32 n ∧ (ct.type = .string ∨ ct.type = .bytes))
      ∨ ct ∈ columnTypes.map (·.2))) := by
      refine .ite (fun ht => ?_) (fun _ => .pure ⟨hn, Or.inr hm⟩)
      refine .bindAny fun b => .ite (fun _ => ?_) (fun _ => .pure ⟨hn, Or.inr hm⟩)
      refine .bind (I := fun i : BitVec 64 => 0 ≤ i.toInt ∧ i.toInt ≤ maxColumnSize) ?_
        fun i hi => .bindAny fun _ => .pure ⟨hn, Or.inl ⟨i.toNat, ?_, ?_, ht⟩⟩
      · unfold expectInteger
        refine .bindAny fun t => ?_
        split
        · refine .ite (fun _ => errorGot_post) fun h => .pure ?_
          omega
        · exact errorGot_post
      · have h2 := BitVec.toInt_eq_toNat_cond i
        have := i.isLt
        split at h2 <;> omega
      · rfl
    exact .ite (fun _ => .bindAny fun _ => hend) fun _ => .bindAny fun _ => hend

theorem next_ok {t : Token} {rest : List Token} (h : t ≠ .error false) :
    next (t :: rest) = .ok t rest := by
  cases t with
  | error b => cases b <;> first | rfl | exact absurd rfl h
  | _ => rfl

theorem maybeToken_other {mt : Token} {rest : List Token}
    (h : ∀ t, rest.head? = some t → t ≠ mt ∧ t ≠ .error false ∧ t ≠ .eof) (hm : mt ≠ .eof) :
    maybeToken mt rest = .ok false rest := by
  cases rest with
  | nil => simp [maybeToken, Bind.bind, P.bind, next, unscan, Pure.pure, Ne.symm hm]
  | cons t rest =>
    obtain ⟨h1, h2, h3⟩ := h t rfl
    have hn : next (t :: rest) = .ok t rest := next_ok h2
    simp [maybeToken, Bind.bind, P.bind, hn, unscan, Pure.pure, h1, h3]

theorem maybeIdentifier_other {id : Identifier} {rest : List Token}
    (h : ∀ t, rest.head? = some t → t ≠ .identifier id ∧ t ≠ .error false ∧ t ≠ .eof) :
    maybeIdentifier id rest = .ok false rest := by
  have := maybeToken_other (mt := .identifier id) h (by simp)
  exact this

theorem parseColumnType_plain {id : Identifier} {ct : ColumnType} {rest : List Token}
    (h : columnTypes.lookup id = some ct)
    (hr : ∀ t, rest.head? = some t →
      t ≠ .rune 40 ∧ t ≠ .identifier 34 ∧ t ≠ .error false ∧ t ≠ .eof) :
    parseColumnType (.identifier id :: rest) = .ok ct rest := by
  have h1 : maybeToken Tok.lparen rest = .ok false rest :=
    maybeToken_other (fun t ht => ⟨(hr t ht).1, (hr t ht).2.2⟩) (by simp)
  have h2 : maybeIdentifier Kw.PRECISION rest = .ok false rest :=
    maybeIdentifier_other fun t ht => (hr t ht).2
  have h3 : expectIdentifier (.identifier id :: rest) = .ok id rest := rfl
  unfold parseColumnType
  show P.bind _ _ _ = _
  rw [P.bind, h3]
  simp only [h]
  by_cases hd : id = Kw.DOUBLE <;> by_cases ht : ct.type = .string ∨ ct.type = .bytes <;>
    simp [hd, ht, Bind.bind, P.bind, h1, h2, Pure.pure]

theorem toInt_ofInt {n : Nat} (h : n < 2 ^ 63) : (BitVec.ofInt 64 n).toInt = n := by
  rw [BitVec.toInt_ofInt]
  exact Int.bmod_eq_of_le (by omega) (by omega)

theorem parseColumnType_sized {id : Identifier} {ct : ColumnType} {n : Nat} {i : BitVec 64}
    {rest : List Token} (h : columnTypes.lookup id = some ct) (hd : id ≠ Kw.DOUBLE)
    (ht : ct.type = .string ∨ ct.type = .bytes) (hn : n ≤ maxColumnSize) (hi : i.toInt = n) :
    parseColumnType (.identifier id :: .rune 40 :: .integer i :: .rune 41 :: rest) =
      .ok { ct with size := BitVec.ofNat 32 n } rest := by
  have hm : maxColumnSize = 4294967294 := rfl
  have hw : BitVec.setWidth 32 i = BitVec.ofNat 32 n := by
    apply BitVec.eq_of_toNat_eq
    have : i.toNat = n := by
      have := BitVec.toInt_eq_toNat_cond i
      have := i.isLt
      split at * <;> omega
    rw [BitVec.toNat_setWidth, this, BitVec.toNat_ofNat]
  have h3 : ∀ l, expectIdentifier (.identifier id :: l) = .ok id l := fun _ => rfl
  have h1 : ∀ l, maybeToken Tok.lparen (.rune 40 :: l) = .ok true l := fun _ => rfl
  have h4 : ∀ l, expectInteger 0 maxColumnSize (.integer i :: l) =
      .ok i l := by
    intro l
    show (if i.toInt < 0 ∨ i.toInt > maxColumnSize then _
      else _ : P (BitVec 64)) l = _
    rw [if_neg (by omega)]
    rfl
  have h5 : ∀ l, expectTokens [Tok.rparen] (.rune 41 :: l) = .ok (.rune 41) l := fun _ => rfl
  unfold parseColumnType
  show P.bind _ _ _ = _
  rw [P.bind, h3]
  simp only [h]
  simp [hd, ht, Bind.bind, P.bind, h1, h4, h5, Pure.pure, hw]

/-- The tokens of a type without a size. -/
theorem tokenize_plain {env : ScanEnv} (hk : KnowsKeywords env) {s : String} {id : Identifier}
    (h : (s, id) ∈ keywordTable) (hs : (ascii s).all (fun c => 65 ≤ c.toNat ∧ c.toNat ≤ 90) = true)
    (hne : ascii s ≠ []) (hid : 0 ≤ id) :
    tokenize env (source (ascii s)) = [.identifier id] := by
  have := Lexes.keyword hk h hs hne [] (by simp)
  rw [List.append_nil, tokenize_nil, if_neg (by omega)] at this
  exact this

/-- The tokens of a type with a size. -/
theorem tokenize_sized {env : ScanEnv} (hk : KnowsKeywords env) {s : String} {id : Identifier}
    (h : (s, id) ∈ keywordTable) (hs : (ascii s).all (fun c => 65 ≤ c.toNat ∧ c.toNat ≤ 90) = true)
    (hne : ascii s ≠ []) (hid : 0 ≤ id) {n : Nat} (hn : n < 2 ^ 63) :
    tokenize env (source (ascii s ++ ascii "(" ++ natDigits n ++ ascii ")")) =
      [.identifier id, .rune 40, .integer (BitVec.ofInt 64 n), .rune 41] := by
  have h1 := Lexes.keyword hk h hs hne (40 :: (source (natDigits n) ++ [41])) (by
    intro c hc
    simp at hc
    subst hc
    exact ⟨by simp [ScanEnv.identRune, letter_false env, digit_false env], by decide⟩)
  have h2 := Lexes.mark env (r := 40) (by simp) (source (natDigits n) ++ [41]) (fun _ _ => trivial)
  have h3 := Lexes.numeral env (s := []) (Or.inl ⟨rfl, rfl⟩) (numeral_source (natDigits_decimal n)) hn
    [41] (by
      intro c hc
      simp at hc
      subst hc
      exact ⟨digit_false env (by decide), by decide⟩)
  have h4 := Lexes.mark env (r := 41) (by simp) [] (fun _ _ => trivial)
  have e : source (ascii s ++ ascii "(" ++ natDigits n ++ ascii ")") =
      source (ascii s) ++ 40 :: (source (natDigits n) ++ [41]) := by
    simp only [source_append, List.append_assoc]
    rfl
  rw [e, h1, if_neg (by omega)]
  simp only [List.nil_append, List.append_nil, List.cons_append] at h2 h3 h4
  rw [h2, h3, h4, tokenize_nil]
  simp

theorem columnType_round_trip (env : ScanEnv) (hk : KnowsKeywords env) (ts rest : List Token)
    (ct : ColumnType) (h : parseColumnType ts = .ok ct rest)
    (h0 : ct.type = .string ∨ ct.type = .bytes → ct.size ≠ 0)
    (h4 : ct.type = .float64 → ct.size ≠ 4) :
    ∃ b, ct.print = .ok b ∧ ∀ next : List Token,
      (∀ t, next.head? = some t → t ≠ .rune 40 ∧ t ≠ .identifier 34 ∧ t ≠ .error false ∧ t ≠ .eof) →
        parseColumnType (tokenize env (source b) ++ next) = .ok ct next := by
  obtain ⟨hnn, hp⟩ := parseColumnType_post ts ct rest h
  obtain ⟨type, size, fixed, notNull⟩ := ct
  simp only at hnn h0 h4
  subst hnn
  have plain : ∀ (s : String) (id : Identifier), (s, id) ∈ keywordTable →
      (ascii s).all (fun c => 65 ≤ c.toNat ∧ c.toNat ≤ 90) = true → ascii s ≠ [] → 0 ≤ id →
      columnTypes.lookup id = some ⟨type, size, fixed, false⟩ →
      (ColumnType.mk type size fixed false).print = .ok (ascii s) →
      ∃ b, (ColumnType.mk type size fixed false).print = .ok b ∧ ∀ next : List Token,
        (∀ t, next.head? = some t →
          t ≠ .rune 40 ∧ t ≠ .identifier 34 ∧ t ≠ .error false ∧ t ≠ .eof) →
        parseColumnType (tokenize env (source b) ++ next) = .ok ⟨type, size, fixed, false⟩ next := by
    intro s id h1 h2 h3 h4 h5 h6
    refine ⟨_, h6, fun next hnext => ?_⟩
    rw [tokenize_plain hk h1 h2 h3 h4]
    exact parseColumnType_plain h5 hnext
  have hsize : size.toNat < 2 ^ 32 := size.isLt
  have sized : ∀ (s : String) (id : Identifier) (sz : BitVec 32), (s, id) ∈ keywordTable →
      (ascii s).all (fun c => 65 ≤ c.toNat ∧ c.toNat ≤ 90) = true → ascii s ≠ [] → 0 ≤ id →
      id ≠ Kw.DOUBLE → (type = .string ∨ type = .bytes) → size.toNat ≤ maxColumnSize →
      columnTypes.lookup id = some ⟨type, sz, fixed, false⟩ →
      (ColumnType.mk type size fixed false).print =
        .ok (ascii s ++ ascii "(" ++ natDigits size.toNat ++ ascii ")") →
      ∃ b, (ColumnType.mk type size fixed false).print = .ok b ∧ ∀ next : List Token,
        (∀ t, next.head? = some t →
          t ≠ .rune 40 ∧ t ≠ .identifier 34 ∧ t ≠ .error false ∧ t ≠ .eof) →
        parseColumnType (tokenize env (source b) ++ next) = .ok ⟨type, size, fixed, false⟩ next := by
    intro s id sz h1 h2 h3 h4 hd ht hm h5 h6
    refine ⟨_, h6, fun next hnext => ?_⟩
    rw [tokenize_sized hk h1 h2 h3 h4 (by omega)]
    have := parseColumnType_sized (rest := next) h5 hd ht hm (toInt_ofInt (by omega))
    simp only [BitVec.ofNat_toNat, BitVec.setWidth_eq] at this
    exact this
  have hmax : ∀ n, n ≤ maxColumnSize → (BitVec.ofNat 32 n).toNat ≤ maxColumnSize := by
    intro n hn
    exact Nat.le_trans (Nat.mod_le _ _) hn
  have hle : type = .string ∨ type = .bytes → size.toNat ≤ maxColumnSize := by
    intro ht
    rcases hp with ⟨n, h1, h2, _⟩ | hp
    · simp only at h2
      rw [h2]
      exact hmax n h1
    · have : ∀ c ∈ columnTypes.map (·.2), c.size.toNat ≤ maxColumnSize := by decide
      exact this _ hp
  cases type with
  | string =>
    have hz : ¬ size = 0#32 := h0 (Or.inl rfl)
    have hm := hle (Or.inl rfl)
    cases fixed with
    | true =>
      exact sized "CHAR" 9 1 (by decide) (by decide) (by decide) (by decide) (by decide) (Or.inl rfl) hm
        rfl (by simp [ColumnType.print, hz])
    | false =>
      by_cases e : size.toNat = maxColumnSize
      · have e2 : size = BitVec.ofNat 32 maxColumnSize := BitVec.eq_of_toNat_eq (by rw [e]; rfl)
        exact plain "TEXT" 43 (by decide) (by decide) (by decide) (by decide) (by rw [e2]; rfl)
          (by simp [ColumnType.print, hz, e])
      · exact sized "VARCHAR" 46 1 (by decide) (by decide) (by decide) (by decide) (by decide)
          (Or.inl rfl) hm rfl (by simp [ColumnType.print, hz, e])
  | bytes =>
    have hz : ¬ size = 0#32 := h0 (Or.inr rfl)
    have hm := hle (Or.inr rfl)
    cases fixed with
    | true =>
      exact sized "BINARY" 2 1 (by decide) (by decide) (by decide) (by decide) (by decide) (Or.inr rfl) hm
        rfl (by simp [ColumnType.print, hz])
    | false =>
      by_cases e : size.toNat = maxColumnSize
      · have e2 : size = BitVec.ofNat 32 maxColumnSize := BitVec.eq_of_toNat_eq (by rw [e]; rfl)
        exact plain "BYTES" 8 (by decide) (by decide) (by decide) (by decide) (by rw [e2]; rfl)
          (by simp [ColumnType.print, hz, e])
      · exact sized "VARBINARY" 45 1 (by decide) (by decide) (by decide) (by decide) (by decide)
          (Or.inr rfl) hm rfl (by simp [ColumnType.print, hz, e])
  | bool =>
    rcases hp with ⟨n, _, _, hp⟩ | hp
    · simp at hp
    · have : ∀ c ∈ columnTypes.map (·.2), c.type = .bool → c = ⟨.bool, 1, false, false⟩ := by decide
      cases this _ hp rfl
      exact plain "BOOL" 4 (by decide) (by decide) (by decide) (by decide) rfl rfl
  | float64 =>
    rcases hp with ⟨n, _, _, hp⟩ | hp
    · simp at hp
    · have : ∀ c ∈ columnTypes.map (·.2), c.type = .float64 → c.size ≠ 4 →
          c = ⟨.float64, 8, false, false⟩ := by decide
      cases this _ hp rfl (h4 rfl)
      exact plain "DOUBLE" 18 (by decide) (by decide) (by decide) (by decide) rfl rfl
  | int64 =>
    rcases hp with ⟨n, _, _, hp⟩ | hp
    · simp at hp
    · have : ∀ c ∈ columnTypes.map (·.2), c.type = .int64 → c = ⟨.int64, 2, false, false⟩ ∨
          c = ⟨.int64, 4, false, false⟩ ∨ c = ⟨.int64, 8, false, false⟩ := by decide
      rcases this _ hp rfl with h | h | h <;> cases h
      · exact plain "SMALLINT" 39 (by decide) (by decide) (by decide) (by decide) rfl rfl
      · exact plain "INT" 23 (by decide) (by decide) (by decide) (by decide) rfl rfl
      · exact plain "BIGINT" 1 (by decide) (by decide) (by decide) (by decide) rfl rfl
  | unknown =>
    rcases hp with ⟨n, _, _, hp⟩ | hp
    · simp at hp
    · have : ∀ c ∈ columnTypes.map (·.2), c.type ≠ .unknown := by decide
      exact absurd rfl (this _ hp)
  | invalid n =>
    rcases hp with ⟨n, _, _, hp⟩ | hp
    · simp at hp
    · have : ∀ c ∈ columnTypes.map (·.2), c.type ∈
          [.bool, .string, .bytes, .float64, .int64] := by decide
      have := this _ hp
      simp at this

end Maho
