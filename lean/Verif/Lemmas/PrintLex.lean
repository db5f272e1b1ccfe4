import Verif.Lemmas.ColumnType
import Verif.Spec.Print
import Verif.Model.Print
/-
Helper lemmas for C62 and C63: the tokens of what is printed.
-/
namespace Maho
open P Maho.Spec

/-- What can follow a token that is printed. -/
def Closes (rest : List Nat) : Prop :=
  rest = [] ∨ (∃ c m, rest = c :: m ∧ c ∈ [40, 41, 44, 59, 64]) ∨
    ∃ c m, rest = 32 :: c :: m ∧ isSpace c = false

/-- The text consists of the tokens, before anything that can follow. -/
def Lex (env : ScanEnv) (b : Bytes) (ts : List Token) : Prop :=
  ∃ l, Encodes l b ∧ (∃ c m, l = c :: m ∧ isSpace c = false) ∧
    Token.error true ∉ ts ∧
    ∀ rest, Closes rest → tokenize env (l ++ rest) = ts ++ tokenize env rest

theorem closes_nil : Closes [] := Or.inl rfl

theorem closes_mark {c : Nat} {m : List Nat} (h : c ∈ [40, 41, 44, 59, 64]) : Closes (c :: m) :=
  Or.inr (Or.inl ⟨c, m, rfl, h⟩)

theorem closes_space {c : Nat} {m : List Nat} (h : isSpace c = false) : Closes (32 :: c :: m) :=
  Or.inr (Or.inr ⟨c, m, rfl, h⟩)

theorem Closes.head {rest : List Nat} (h : Closes rest) :
    ∀ c, rest.head? = some c → c ∈ [32, 40, 41, 44, 59, 64] := by
  intro c hc
  rcases h with rfl | ⟨d, m, rfl, hd⟩ | ⟨d, m, rfl, _⟩
  · cases hc
  · cases hc
    simp at hd ⊢
    omega
  · cases hc
    simp

theorem Closes.notIdent (env : ScanEnv) {rest : List Nat} (h : Closes rest) :
    ∀ c, rest.head? = some c → env.identRune c = false ∧ c ≠ 39 := by
  intro c hc
  have := h.head c hc
  have hl : c < 65 := by simp at this; omega
  have hd : c < 48 ∨ (57 < c ∧ c < 128) := by simp at this; omega
  have h3 : c ≠ 95 ∧ c ≠ 36 ∧ c ≠ 39 := by simp at this; omega
  refine ⟨?_, h3.2.2⟩
  simp [ScanEnv.identRune, letter_false env hl, digit_false env hd, h3.1, h3.2.1]

theorem Closes.notNumber (env : ScanEnv) {rest : List Nat} (h : Closes rest) :
    ∀ c, rest.head? = some c → env.digit c = false ∧ c ≠ 46 := by
  intro c hc
  have := h.head c hc
  have hd : c < 48 ∨ (57 < c ∧ c < 128) := by simp at this; omega
  exact ⟨digit_false env hd, by simp at this; omega⟩

theorem Closes.notContinues {rest : List Nat} (h : Closes rest) : ¬ Continues rest := by
  have h39 : isSpace 39 = false := by decide
  rintro (⟨m, e⟩ | ⟨ws, m, e, hs, hn⟩)
  · have := h.head 39 (by rw [e]; rfl)
    simp at this
  · rcases h with rfl | ⟨d, n, rfl, hd⟩ | ⟨d, n, rfl, hd⟩
    · simp at e
    · cases ws with
      | nil => simp at hn
      | cons w ws =>
        simp at e
        have := hs w (by simp)
        rw [← e.1] at this
        simp [isSpace] at this hd
        omega
    · match ws, e, hs, hn with
      | [], _, _, hn => simp at hn
      | [w], e, _, hn =>
        simp at e hn
        omega
      | w :: v :: ws, e, hs, _ =>
        simp at e
        have := hs v (by simp)
        rw [← e.2.1, hd] at this
        cases this

theorem scalar_ascii {r : Nat} (h : r < 128) : IsScalar r := Or.inl (by omega)

theorem Spec.Encodes.append {l m : List Nat} {a b : Bytes} (h1 : Encodes l a) (h2 : Encodes m b) :
    Encodes (l ++ m) (a ++ b) := by
  refine ⟨fun r hr => ?_, by rw [text_append, h1.2, h2.2]⟩
  rcases List.mem_append.1 hr with h | h
  · exact h1.1 r h
  · exact h2.1 r h

theorem encodes_ascii {l : List Nat} {b : Bytes} (h : ∀ r ∈ l, r < 128) (e : text l = b) :
    Encodes l b := ⟨fun r hr => scalar_ascii (h r hr), e⟩

theorem encodes_source {b : Bytes} (h : ∀ c ∈ b, c.toNat < 128) : Encodes (source b) b := by
  refine encodes_ascii (fun r hr => ?_) (text_source h)
  obtain ⟨c, hc, rfl⟩ := List.mem_map.1 hr
  exact h c hc

theorem Lex.cast {env : ScanEnv} {b b' : Bytes} {ts ts' : List Token} (h : Lex env b ts)
    (hb : b' = b) (ht : ts' = ts) : Lex env b' ts' := by
  subst hb ht
  exact h

/-- One token. -/
theorem Lex.of_lexes {env : ScanEnv} {ok : Nat → Prop} {l : List Nat} {b : Bytes} {t : Token}
    (he : Encodes l b) (hl : ∃ c m, l = c :: m ∧ isSpace c = false) (h : Lexes env ok l t)
    (hok : ∀ rest, Closes rest → ∀ c, rest.head? = some c → ok c)
    (ht : t ≠ .error true := by first | simp; done | (split <;> simp)) : Lex env b [t] :=
  ⟨l, he, hl, by simpa using ht.symm, fun rest hr => h rest (hok rest hr)⟩

/-- A space between. -/
theorem Lex.space {env : ScanEnv} {a b : Bytes} {ts us : List Token} (h1 : Lex env a ts)
    (h2 : Lex env b us) : Lex env (a ++ (ascii " " ++ b)) (ts ++ us) := by
  obtain ⟨l, e1, ⟨c, m, rfl, hc⟩, n1, t1⟩ := h1
  obtain ⟨k, e2, ⟨d, n, rfl, hd⟩, n2, t2⟩ := h2
  refine ⟨c :: m ++ ([32] ++ d :: n), e1.append (.append (encodes_ascii (by simp) rfl) e2),
    ⟨c, _, rfl, hc⟩, by simp [n1, n2], fun rest hr => ?_⟩
  have := t1 (32 :: d :: n ++ rest) (closes_space hd)
  rw [List.append_assoc, show [32] ++ d :: n ++ rest = 32 :: d :: n ++ rest from rfl, this,
    List.cons_append, tokenize_space env (by decide), t2 rest hr, List.append_assoc]

/-- A comma between. -/
theorem Lex.comma {env : ScanEnv} {a b : Bytes} {ts us : List Token} (h1 : Lex env a ts)
    (h2 : Lex env b us) : Lex env (a ++ (ascii ", " ++ b)) (ts ++ Tok.comma :: us) := by
  obtain ⟨l, e1, ⟨c, m, rfl, hc⟩, n1, t1⟩ := h1
  obtain ⟨k, e2, ⟨d, n, rfl, hd⟩, n2, t2⟩ := h2
  refine ⟨c :: m ++ ([44, 32] ++ d :: n), e1.append (.append (encodes_ascii (by simp) rfl) e2),
    ⟨c, _, rfl, hc⟩, by simp [n1, n2], fun rest hr => ?_⟩
  have := t1 (44 :: (32 :: d :: n ++ rest)) (closes_mark (by simp))
  have h44 := Lexes.mark env (r := 44) (by simp) (32 :: d :: n ++ rest) (by simp)
  rw [List.append_assoc, show [44, 32] ++ d :: n ++ rest = 44 :: (32 :: d :: n ++ rest) from rfl,
    this, show 44 :: (32 :: d :: n ++ rest) = [44] ++ (32 :: d :: n ++ rest) from rfl, h44,
    List.cons_append, tokenize_space env (by decide), t2 rest hr, List.append_assoc]
  rfl

/-- In parentheses. -/
theorem Lex.parens {env : ScanEnv} {a : Bytes} {ts : List Token} (h : Lex env a ts) :
    Lex env (ascii "(" ++ (a ++ ascii ")")) (inParens ts) := by
  obtain ⟨l, e, ⟨c, m, rfl, hc⟩, n1, t⟩ := h
  refine ⟨[40] ++ (c :: m ++ [41]), .append (encodes_ascii (by simp) rfl)
    (.append e (encodes_ascii (by simp) rfl)), ⟨40, _, rfl, by decide⟩, by simp [inParens, *], fun rest hr => ?_⟩
  have h1 := Lexes.mark env (r := 40) (by simp) (c :: m ++ [41] ++ rest) (by simp)
  have h2 := Lexes.mark env (r := 41) (by simp) rest (by simp)
  have := t (41 :: rest) (closes_mark (by simp))
  rw [List.append_assoc, h1, List.append_assoc, show [41] ++ rest = 41 :: rest from rfl, this,
    show 41 :: rest = [41] ++ rest from rfl, h2]
  simp [inParens]

/-- Nothing in parentheses. -/
theorem Lex.unit (env : ScanEnv) : Lex env (ascii "()") (inParens []) := by
  refine ⟨[40] ++ [41], encodes_ascii (by simp) rfl, ⟨40, _, rfl, by decide⟩, by simp [inParens, *], fun rest hr => ?_⟩
  have h1 := Lexes.mark env (r := 40) (by simp) ([41] ++ rest) (by simp)
  have h2 := Lexes.mark env (r := 41) (by simp) rest (by simp)
  rw [List.append_assoc, h1, h2]
  rfl

/-- Without a space between: before a parenthesis. -/
theorem Lex.glue {env : ScanEnv} {a b : Bytes} {ts us : List Token} (h1 : Lex env a ts)
    (h2 : Lex env (ascii "(" ++ b) us) : Lex env (a ++ (ascii "(" ++ b)) (ts ++ us) := by
  obtain ⟨l, e1, ⟨c, m, rfl, hc⟩, n1, t1⟩ := h1
  obtain ⟨k, e2, ⟨d, n, rfl, hd⟩, n2, t2⟩ := h2
  have hd : d = 40 := text_head (b := 40#8) (t := b) e2.2 (by decide)
  subst hd
  refine ⟨c :: m ++ 40 :: n, e1.append e2, ⟨c, _, rfl, hc⟩, by simp [n1, n2], fun rest hr => ?_⟩
  have := t1 (40 :: n ++ rest) (closes_mark (by simp))
  rw [List.append_assoc, this, t2 rest hr, List.append_assoc]

theorem identToken_id (env : ScanEnv) {b : Bytes} {id : Identifier} (h : env.id b false = id) :
    env.identToken b = if id < 0 then .reserved id else .identifier id := by
  unfold ScanEnv.identToken isReserved
  rw [h]
  by_cases hid : id < 0 <;> simp [hid]

theorem plainName_head {env : ScanEnv} {l : List Nat} (h : PlainName env l)
    (hs : ∀ r ∈ l, r < 128) : ∃ c m, l = c :: m ∧ isSpace c = false := by
  obtain ⟨r, m, rfl, h1, _⟩ := h
  have h0 := hs r (by simp)
  refine ⟨r, m, rfl, ?_⟩
  have : (65 ≤ r ∧ r ≤ 90) ∨ (97 ≤ r ∧ r ≤ 122) ∨ r = 95 := by
    rcases h1 with h1 | h1
    · rw [env.letter_ascii r h0] at h1
      simp at h1
      omega
    · omega
  simp [isSpace]
  omega

/-- The text of an identifier. -/
theorem Lex.legible {env : ParseEnv} {id : Identifier} (h : Legible env id) :
    Lex env.toScanEnv (env.string id) [if id < 0 then .reserved id else .identifier id] := by
  obtain ⟨he, l, hp, ha, ht⟩ := h
  have := Lexes.wideName env.toScanEnv hp ha
  rw [ht.2, identToken_id _ he] at this
  obtain ⟨r, m, rfl, _⟩ := hp
  exact .of_lexes ht ⟨r, m, rfl, ha r rfl⟩ this fun rest hr => hr.notIdent _

theorem Lex.name {env : ParseEnv} {id : Identifier} (h : Plain env id) :
    Lex env.toScanEnv (env.string id) [.identifier id] := by
  have := Lex.legible h.2
  rwa [if_neg (by have := h.1; omega)] at this

/-- A keyword. -/
theorem Lex.keyword {env : ScanEnv} (hw : KnowsWords env) (s : String) {id : Identifier}
    (h : (s, id) ∈ keywordTable) (hid : id < 0)
    (hs : (ascii s).all (fun c => 65 ≤ c.toNat ∧ c.toNat ≤ 90) = true) (hne : ascii s ≠ []) :
    Lex env (ascii s) [.reserved id] := by
  have := Lexes.keyword hw.keywords h hs hne
  rw [if_pos hid] at this
  have hs' : ∀ c ∈ ascii s, 65 ≤ c.toNat ∧ c.toNat ≤ 90 := by simpa using hs
  refine .of_lexes (encodes_source fun c hc => by have := hs' c hc; omega) ?_ this
    fun rest hr => hr.notIdent _
  cases e : ascii s with
  | nil => exact absurd e hne
  | cons c m =>
    refine ⟨c.toNat, source m, rfl, ?_⟩
    have := hs' c (by simp [e])
    simp [isSpace]
    omega

/-- A keyword is spelled in capital letters. -/
def IsWord (s : String) (id : Identifier) : Prop :=
  (s, id) ∈ keywordTable ∧ id < 0 ∧
    (ascii s).all (fun c => 65 ≤ c.toNat ∧ c.toNat ≤ 90) = true ∧ ascii s ≠ []

instance (s : String) (id : Identifier) : Decidable (IsWord s id) := by
  unfold IsWord
  infer_instance

theorem Lex.word {env : ScanEnv} (hw : KnowsWords env) (s : String) (id : Identifier)
    (h : IsWord s id := by decide) : Lex env (ascii s) [.reserved id] :=
  Lex.keyword hw s h.1 h.2.1 h.2.2.1 h.2.2.2

theorem plainName_letters {env : ScanEnv} {b : Bytes}
    (hs : b.all (fun c => 97 ≤ c.toNat ∧ c.toNat ≤ 122) = true) (hne : b ≠ []) :
    PlainName env (source b) := by
  have hs' : ∀ c ∈ b, 97 ≤ c.toNat ∧ c.toNat ≤ 122 := by simpa using hs
  have hlet : ∀ r ∈ source b, env.letter r = true := by
    intro r hr
    obtain ⟨c, hc, rfl⟩ := List.mem_map.1 hr
    have := hs' c hc
    rw [env.letter_ascii _ (by omega)]
    simp
    omega
  cases e : source b with
  | nil => exact absurd (List.map_eq_nil_iff.1 e) hne
  | cons r m =>
    exact ⟨r, m, rfl, Or.inl (hlet r (by simp [e])), fun c hc => Or.inl (hlet c (by simp [e, hc]))⟩

/-- A word in small letters. -/
theorem Lex.small {env : ScanEnv} {b : Bytes} {id : Identifier} (h : env.id b false = id)
    (hs : b.all (fun c => 97 ≤ c.toNat ∧ c.toNat ≤ 122) = true) (hne : b ≠ []) :
    Lex env b [if id < 0 then .reserved id else .identifier id] := by
  have hs' : ∀ c ∈ b, 97 ≤ c.toNat ∧ c.toNat ≤ 122 := by simpa using hs
  have ha : ∀ c ∈ b, c.toNat < 128 := fun c hc => by have := hs' c hc; omega
  have ha2 : ∀ r ∈ source b, r < 128 := by
    intro r hr
    obtain ⟨c, hc, rfl⟩ := List.mem_map.1 hr
    exact ha c hc
  have hp := plainName_letters (env := env) hs hne
  have := Lexes.name env hp ha2
  rw [text_source ha, identToken_id _ h] at this
  exact .of_lexes (encodes_source ha) (plainName_head hp ha2) this fun rest hr => hr.notIdent _

theorem Lex.bool {env : ScanEnv} (hw : KnowsWords env) (b : Bool) :
    Lex env (ascii (if b then "true" else "false")) [.reserved (if b then Kw.TRUE else Kw.FALSE)] := by
  cases b
  · exact Lex.small hw.false (by decide) (by decide)
  · exact Lex.small hw.true (by decide) (by decide)

/-- The tokens of a number start like those of its first digit. -/
theorem scan_digit (env : ScanEnv) {s : List Nat} {minus : Bool} (hs : Sign s minus) {r : Nat}
    (hr0 : 48 ≤ r ∧ r ≤ 57) (w : List Nat) :
    scan env false (s ++ r :: w) = scanNumber env false minus false (runeBytes r) w := by
  have hdig : env.digit r = true := by rw [env.digit_ascii r (by omega)]; simp; omega
  have hlet : env.letter r = false := by
    rw [env.letter_ascii r (by omega)]; simp; omega
  rcases hs with ⟨rfl, rfl⟩ | ⟨rfl, rfl⟩ | ⟨rfl, rfl⟩
  · have hst : Starts r w := starts_of _ (by
      unfold isSpace; simp; omega) (by omega) (by omega)
    have h1 : r ≠ ';'.toNat := by show r ≠ 59; omega
    have h2 : ¬ (r = 'e'.toNat ∨ r = 'E'.toNat) := by show ¬ (r = 101 ∨ r = 69); omega
    have h3 : r ≠ 'b'.toNat := by show r ≠ 98; omega
    have h4 : ¬ (r = 'x'.toNat ∨ r = 'X'.toNat) := by show ¬ (r = 120 ∨ r = 88); omega
    have h5 : r ≠ 95 := by omega
    simp only [scan, List.nil_append, skip_start hst]
    rw [if_neg h1, if_neg h2, if_neg h3, if_neg h4, if_neg (by simp [hlet]; exact h5),
      if_pos hdig]
  · have hst : Starts 43 (r :: w) :=
      starts_of _ (by decide) (by decide) (by decide)
    have l : env.letter 43 = false := by rw [env.letter_ascii 43 (by decide)]; rfl
    have d : env.digit 43 = false := by rw [env.digit_ascii 43 (by decide)]; rfl
    rw [show [43] ++ r :: w = 43 :: r :: w from rfl]
    unfold scan
    rw [skip_start hst]
    simp [l, d, hdig]
  · have hst : Starts 45 (r :: w) :=
      ⟨by decide, fun _ => ⟨by simp, by simp; omega⟩, by simp⟩
    have l : env.letter 45 = false := by rw [env.letter_ascii 45 (by decide)]; rfl
    have d : env.digit 45 = false := by rw [env.digit_ascii 45 (by decide)]; rfl
    rw [show [45] ++ r :: w = 45 :: r :: w from rfl]
    unfold scan
    rw [skip_start hst]
    simp [l, d, hdig]

theorem sign_head {s : List Nat} {minus : Bool} (hs : Sign s minus) {r : Nat} {w : List Nat}
    (hr0 : 48 ≤ r ∧ r ≤ 57) : ∃ c m, s ++ r :: w = c :: m ∧ isSpace c = false := by
  rcases hs with ⟨rfl, rfl⟩ | ⟨rfl, rfl⟩ | ⟨rfl, rfl⟩
  · exact ⟨r, w, rfl, by simp [isSpace]; omega⟩
  · exact ⟨43, r :: w, rfl, by decide⟩
  · exact ⟨45, r :: w, rfl, by decide⟩

/-- An integer. -/
theorem Lex.integer (env : ScanEnv) {i : BitVec 64} (h : i.toInt ≠ -2 ^ 63) :
    Lex env (formatInt i.toInt) [.integer i] := by
  have hlt := BitVec.toInt_lt (x := i)
  have hle := BitVec.le_toInt (x := i)
  have hd := natDigits_decimal i.toInt.natAbs
  have hn := numeral_source hd
  have hdig : ∀ c ∈ natDigits i.toInt.natAbs, c.toNat < 128 := fun c hc => by
    have := hd.2.1 c hc
    omega
  have hhead : ∃ r w, source (natDigits i.toInt.natAbs) = r :: w ∧ 48 ≤ r ∧ r ≤ 57 := by
    cases e : source (natDigits i.toInt.natAbs) with
    | nil => exact absurd e hn.1
    | cons r w => exact ⟨r, w, rfl, hn.2.1 r (by simp [e])⟩
  obtain ⟨r, w, e, hr0⟩ := hhead
  have run : ∀ s minus, Sign s minus → (if minus = true then -(i.toInt.natAbs : Int) else i.toInt.natAbs) = i.toInt →
      Encodes s (if minus = true then [45#8] else []) →
      Lex env ((if minus = true then [45#8] else []) ++ natDigits i.toInt.natAbs) [.integer i] := by
    intro s minus hs hi hes
    have := Lexes.numeral env hs hn (by omega)
    rw [hi, BitVec.ofInt_toInt] at this
    refine .of_lexes (hes.append (encodes_source hdig)) ?_ this fun rest hr => hr.notNumber _
    rw [e]
    exact sign_head hs hr0
  by_cases hneg : i.toInt < 0
  · have := run [45] true (Or.inr (Or.inr ⟨rfl, rfl⟩)) (by simp; omega) (encodes_ascii (by simp) rfl)
    refine this.cast ?_ rfl
    unfold formatInt
    rw [if_pos hneg]
    rfl
  · have := run [] false (Or.inl ⟨rfl, rfl⟩) (by simp; omega) (encodes_ascii (by simp) rfl)
    refine this.cast ?_ rfl
    unfold formatInt
    rw [if_neg hneg]
    rfl

/-- A floating point number. -/
theorem Lex.float (env : ScanEnv) {f : F64} {l : List Nat} (ha : ∀ r ∈ l, r < 128)
    (h : Spells env (.float f) l) : Lex env (text l) [.float f] := by
  obtain ⟨s, minus, ds, es, g, rfl, hs, hne, hd, hp, rfl⟩ := h
  cases ds with
  | nil => exact absurd rfl hne
  | cons r ds =>
    have h0 := ha r (by simp)
    have hr0 : 48 ≤ r ∧ r ≤ 57 := by
      have := hd r (by simp)
      rw [env.digit_ascii r h0] at this
      simpa using this
    refine ⟨_, encodes_ascii ha rfl, ?_, by simp [*], fun rest hr => ?_⟩
    · rw [List.append_assoc]
      exact sign_head hs hr0
    · have hds : ∀ c ∈ ds, env.digit c = true := fun c hc => hd c (by simp [hc])
      have hes : ∀ c ∈ es, env.digit c = true := fun c hc => hd c (by simp [hc])
      have et : rest.takeWhile env.digit = [] := by
        cases rest with
        | nil => rfl
        | cons c rest => simp [(hr.notNumber env c rfl).1]
      have ed : rest.dropWhile env.digit = rest := by
        cases rest with
        | nil => rfl
        | cons c rest => simp [(hr.notNumber env c rfl).1]
      have key : scan env false (s ++ r :: (ds ++ (46 :: (es ++ rest)))) =
          ⟨.float (if minus = true then F64.neg g else g), text (r :: ds ++ 46 :: es), rest⟩ := by
        rw [scan_digit env hs hr0, scanNumber_eq, List.dropWhile_append_of_pos hds,
          List.takeWhile_append_of_pos hds,
          List.dropWhile_cons_of_neg (by rw [digit_dot]; simp),
          List.takeWhile_cons_of_neg (by rw [digit_dot]; simp)]
        simp only
        rw [scanFraction_eq, List.dropWhile_append_of_pos hes, List.takeWhile_append_of_pos hes, et, ed]
        have e : runeBytes r ++ text (ds ++ []) ++ runeText 46 ++ text (es ++ []) =
            text (r :: ds ++ 46 :: es) := by
          rw [runeBytes_eq]
          simp [text_cons, text_append]
        rw [e]
        simp only [ScanEnv.numberToken, if_true, hp]
      have hl : s ++ r :: ds ++ 46 :: es ++ rest = s ++ r :: (ds ++ (46 :: (es ++ rest))) := by simp
      rw [hl, tokenize_scan env (by rw [key]; simp), key]
      rfl

/-- A string. -/
theorem Lex.string (env : ScanEnv) {l : List Nat} {s : Bytes} (h : Encodes l s) (hq : 39 ∉ l) :
    Lex env (ascii "'" ++ (s ++ ascii "'")) [.string s] := by
  refine ⟨[39] ++ (l ++ [39]), .append (encodes_ascii (by simp) rfl)
    (.append h (encodes_ascii (by simp) rfl)), ⟨39, _, rfl, by decide⟩, by simp [*], fun rest hr => ?_⟩
  have hc : ∀ l : List Nat, 39 ∉ l → Constant false (l ++ [39]) (text l) := by
    intro l
    induction l with
    | nil => exact fun _ => .done
    | cons r l ih =>
      intro hl
      have := Constant.piece [r] (l ++ [39]) _ _ (.plain (esc := false) r (by
        rintro rfl; simp at hl) (by simp)) (ih fun h => hl (by simp [h]))
      exact this
  have := tokenize_string env (hc l hq) hr.notContinues
  rw [h.2] at this
  exact this

/-- A qualified name. -/
theorem Lex.dot {env : ParseEnv} {id : Identifier} {b : Bytes} {us : List Token}
    (h : Plain env id) (h2 : Lex env.toScanEnv b us) :
    Lex env.toScanEnv (env.string id ++ (ascii "." ++ b)) (.identifier id :: Tok.dot :: us) := by
  obtain ⟨h0, he, l, hp, ha, ht⟩ := h
  obtain ⟨k, e2, ⟨d, n, rfl, hd⟩, n2, t2⟩ := h2
  have hn := Lexes.wideName env.toScanEnv hp ha
  rw [ht.2, identToken_id _ he, if_neg (by omega)] at hn
  obtain ⟨c, m, e, hc⟩ : ∃ c m, l = c :: m ∧ isSpace c = false := by
    obtain ⟨r, m, rfl, _⟩ := hp
    exact ⟨r, m, rfl, ha r rfl⟩
  refine ⟨l ++ ([46] ++ d :: n), ht.append (.append (encodes_ascii (by simp) rfl) e2),
    ⟨c, _, by rw [e]; rfl, hc⟩, by simp [*], fun rest hr => ?_⟩
  have h1 := hn ([46] ++ (d :: n ++ rest)) (by
    intro c hc
    cases hc
    refine ⟨?_, by decide⟩
    simp [ScanEnv.identRune, letter_false env.toScanEnv (r := 46) (by decide),
      digit_false env.toScanEnv (r := 46) (by decide)])
  have h2 := Lexes.mark env.toScanEnv (r := 46) (by simp) (d :: n ++ rest) (by simp)
  rw [List.append_assoc, List.append_assoc, h1, h2, t2 rest hr]
  rfl

/-- A reference. -/
theorem Lex.ref {env : ParseEnv} : ∀ {ids : List Identifier} {id : Identifier}, Plain env id →
    (∀ i ∈ ids, Plain env i) →
    Lex env.toScanEnv (env.string id ++ ids.flatMap (fun i => ascii "." ++ env.string i))
      (.identifier id :: ids.flatMap fun i => [Tok.dot, .identifier i])
  | [], id, h, _ => (Lex.name h).cast (by simp) (by simp)
  | i :: ids, id, h, hs => by
    have := Lex.dot h (Lex.ref (ids := ids) (hs i (by simp)) fun j hj => hs j (by simp [hj]))
    exact this.cast (by simp) (by simp)

/-- The star. -/
theorem Lex.star (env : ScanEnv) : Lex env (ascii "*") [Tok.star] := by
  refine ⟨[42], encodes_ascii (by simp) rfl, ⟨42, _, rfl, by decide⟩, by simp [*], fun rest hr => ?_⟩
  have key : scan env false (42 :: rest) =
      ⟨.rune 42, (scan env false (42 :: rest)).buf, rest⟩ := by
    have l := letter_false env (r := 42) (by decide)
    have d := digit_false env (r := 42) (by decide)
    have o : isOpRune 42 = true := by decide
    unfold scan
    rw [skip_start (starts_of _ (by decide) (by decide) (by decide))]
    cases rest with
    | nil => simp [l, d, o, scanOperator, reread]
    | cons c rest =>
      have := hr.head c rfl
      have hc : c ≠ 45 ∧ c ≠ 43 := by simp at this; omega
      have o2 : isOpRune c = false := by
        simp at this
        rcases this with rfl | rfl | rfl | rfl | rfl | rfl <;> decide
      simp [l, d, o, scanOperator, hc, o2]
  rw [show [42] ++ rest = 42 :: rest from rfl, tokenize_scan env (by rw [key]; simp), key]
  rfl

/-- A name after `@`. -/
theorem Lex.at {env : ScanEnv} {a b : Bytes} {ts us : List Token} (h1 : Lex env a ts)
    (h2 : Lex env b us) : Lex env (a ++ (ascii "@" ++ b)) (ts ++ Tok.atSign :: us) := by
  obtain ⟨l, e1, ⟨c, m, rfl, hc⟩, n1, t1⟩ := h1
  obtain ⟨k, e2, ⟨d, n, rfl, hd⟩, n2, t2⟩ := h2
  refine ⟨c :: m ++ ([64] ++ d :: n), e1.append (.append (encodes_ascii (by simp) rfl) e2),
    ⟨c, _, rfl, hc⟩, by simp [n1, n2], fun rest hr => ?_⟩
  have := t1 (64 :: (d :: n ++ rest)) (closes_mark (by simp))
  have key : scan env false (64 :: (d :: n ++ rest)) = ⟨.rune 64, [], d :: n ++ rest⟩ := by
    have l := letter_false env (r := 64) (by decide)
    have d := digit_false env (r := 64) (by decide)
    have o : isOpRune 64 = false := by decide
    unfold scan
    rw [skip_start (starts_of _ (by decide) (by decide) (by decide))]
    simp [l, d, o]
  rw [List.append_assoc, show [64] ++ d :: n ++ rest = 64 :: (d :: n ++ rest) from rfl,
    this, tokenize_scan env (by rw [key]; simp), key]
  simp only
  rw [t2 rest hr, List.append_assoc]
  rfl

/-- The token that is printed for an operator. -/
def opToken : SqlOp → Token
  | .add => .rune 43
  | .and => .reserved Kw.AND
  | .binaryAnd => .rune 38
  | .binaryOr => .rune 124
  | .concat => .barBar
  | .divide => .rune 47
  | .equal => .equalEqual
  | .greaterEqual => .greaterEqual
  | .greaterThan => .rune 62
  | .lessEqual => .lessEqual
  | .lessThan => .rune 60
  | .lShift => .lessLess
  | .modulo => .rune 37
  | .multiply => .rune 42
  | .negate => .rune 45
  | .noOp => .eof
  | .notEqual => .bangEqual
  | .not => .reserved Kw.NOT
  | .or => .reserved Kw.OR
  | .rShift => .greaterGreater
  | .subtract => .rune 45

/-- An operator before something else. -/
theorem Lex.op {env : ScanEnv} (hw : KnowsWords env) {op : SqlOp} (hop : op ≠ .noOp) {b : Bytes}
    {us : List Token} (h : Lex env b us) :
    Lex env (op.name ++ (ascii " " ++ b)) (opToken op :: us) := by
  have word : ∀ (s : String) (id : Identifier), op.name = ascii s → opToken op = .reserved id →
      (s, id) ∈ keywordTable → id < 0 →
      (ascii s).all (fun c => 65 ≤ c.toNat ∧ c.toNat ≤ 90) = true → ascii s ≠ [] →
      Lex env (op.name ++ (ascii " " ++ b)) (opToken op :: us) := by
    intro s id e1 e2 h1 h2 h3 h4
    rw [e1, e2]
    exact (Lex.keyword hw s h1 h2 h3 h4).space h
  obtain ⟨k, e, ⟨d, n, rfl, hd⟩, n1, t⟩ := h
  have one : ∀ r : Nat, op.name = [BitVec.ofNat 8 r] → opToken op = .rune r →
      r ∈ [45, 43, 42, 47, 37, 61, 60, 62, 38, 124] →
      Lex env (op.name ++ (ascii " " ++ b)) (opToken op :: us) := by
    intro r e1 e2 hr
    have hr2 : r < 128 ∧ isSpace r = false := by
      simp at hr
      rcases hr with rfl | rfl | rfl | rfl | rfl | rfl | rfl | rfl | rfl | rfl <;> decide
    rw [e1, e2]
    refine ⟨[r] ++ ([32] ++ d :: n), .append (encodes_ascii (by simpa using hr2.1) (by
      show runeText r ++ [] = _
      rw [runeText_ascii hr2.1, List.append_nil]))
      (.append (encodes_ascii (by simp) rfl) e), ⟨r, _, rfl, hr2.2⟩, by simp [*], fun rest hrest => ?_⟩
    have := Lexes.op1 env hr (d :: n ++ rest)
    rw [List.append_assoc, List.append_assoc]
    show tokenize env (r :: 32 :: (d :: n ++ rest)) = _
    rw [this, t rest hrest]
    rfl
  have two : ∀ x y : Nat, op.name = [BitVec.ofNat 8 x, BitVec.ofNat 8 y] →
      ([x, y], opToken op) ∈ operators → x < 128 ∧ isSpace x = false ∧ y < 128 →
      opToken op ≠ .eof → Lex env (op.name ++ (ascii " " ++ b)) (opToken op :: us) := by
    intro x y e1 hm hx ht
    rw [e1]
    refine ⟨[x, y] ++ ([32] ++ d :: n), .append (encodes_ascii (by simp; omega) (by
      show runeText x ++ (runeText y ++ []) = _
      rw [runeText_ascii hx.1, runeText_ascii hx.2.2, List.append_nil]; rfl))
      (.append (encodes_ascii (by simp) rfl) e), ⟨x, _, rfl, hx.2.1⟩, by
      simp only [List.mem_cons, n1, or_false]
      cases op <;> simp [opToken], fun rest hrest => ?_⟩
    have := Lexes.op2 env hm ht (32 :: (d :: n ++ rest)) (by simp)
    rw [List.append_assoc, List.append_assoc]
    show tokenize env ([x, y] ++ (32 :: (d :: n ++ rest))) = _
    rw [this, tokenize_space env (by decide), t rest hrest]
    rfl
  cases op with
  | noOp => exact absurd rfl hop
  | and => exact word "AND" _ rfl rfl (by decide) (by decide) (by decide) (by decide)
  | or => exact word "OR" _ rfl rfl (by decide) (by decide) (by decide) (by decide)
  | not => exact word "NOT" _ rfl rfl (by decide) (by decide) (by decide) (by decide)
  | add => exact one 43 rfl rfl (by decide)
  | binaryAnd => exact one 38 rfl rfl (by decide)
  | binaryOr => exact one 124 rfl rfl (by decide)
  | divide => exact one 47 rfl rfl (by decide)
  | greaterThan => exact one 62 rfl rfl (by decide)
  | lessThan => exact one 60 rfl rfl (by decide)
  | modulo => exact one 37 rfl rfl (by decide)
  | multiply => exact one 42 rfl rfl (by decide)
  | negate => exact one 45 rfl rfl (by decide)
  | subtract => exact one 45 rfl rfl (by decide)
  | concat => exact two 124 124 rfl (by decide) (by decide) (by decide)
  | equal => exact two 61 61 rfl (by decide) (by decide) (by decide)
  | greaterEqual => exact two 62 61 rfl (by decide) (by decide) (by decide)
  | lessEqual => exact two 60 61 rfl (by decide) (by decide) (by decide)
  | lShift => exact two 60 60 rfl (by decide) (by decide) (by decide)
  | notEqual => exact two 33 61 rfl (by decide) (by decide) (by decide)
  | rShift => exact two 62 62 rfl (by decide) (by decide) (by decide)

theorem opToken_infix {op : SqlOp} (h : IsInfix op) : (opToken op, op) ∈ infixTokens := by
  obtain ⟨h1, h2, h3⟩ := h
  cases op <;> first | exact absurd rfl h1 | exact absurd rfl h2 | exact absurd rfl h3 | decide

theorem opToken_prefix {op : SqlOp} (h : IsPrefix op) : (opToken op, op) ∈ prefixTokens := by
  rcases h with rfl | rfl <;> decide

/-! ### The runes of a text -/

theorem utf8Encode_prefix {r s : Nat} {a b : Bytes} (hr : r < 0x110000) (hs : s < 0x110000)
    (h : utf8Encode r ++ a = utf8Encode s ++ b) : r = s ∧ a = b := by
  unfold utf8Encode at h
  have key : ∀ {x y : Nat} {p q : Bytes}, BitVec.ofNat 8 x :: p = BitVec.ofNat 8 y :: q →
      x % 256 = y % 256 ∧ p = q := by
    intro x y p q h
    obtain ⟨h1, h2⟩ := List.cons.inj h
    have := congrArg BitVec.toNat h1
    simpa using ⟨this, h2⟩
  split at h <;> split at h
  all_goals (try split at h)
  all_goals (try split at h)
  all_goals (try split at h)
  all_goals (try split at h)
  all_goals simp only [List.cons_append, List.nil_append] at h
  all_goals (obtain ⟨h1, h⟩ := key h)
  all_goals (first
    | (exact ⟨by omega, h⟩)
    | (exfalso; omega)
    | (obtain ⟨h2, h⟩ := key h; first
        | (exact ⟨by omega, h⟩)
        | (obtain ⟨h3, h⟩ := key h; first
            | (exact ⟨by omega, h⟩)
            | (obtain ⟨h4, h⟩ := key h; exact ⟨by omega, h⟩))))

theorem encodes_unique : ∀ {l m : List Nat} {b : Bytes}, Encodes l b → Encodes m b → l = m
  | [], [], _, _, _ => rfl
  | [], r :: m, b, h1, h2 => by
    have := h1.2.trans h2.2.symm
    rw [text_cons] at this
    by_cases hr : r < 128
    · rw [runeText_ascii hr] at this
      cases this
    · obtain ⟨c, t, e, _⟩ := runeText_high (r := r) (by omega)
      rw [e] at this
      cases this
  | r :: m, [], b, h1, h2 => by
    have := h2.2.trans h1.2.symm
    rw [text_cons] at this
    by_cases hr : r < 128
    · rw [runeText_ascii hr] at this
      cases this
    · obtain ⟨c, t, e, _⟩ := runeText_high (r := r) (by omega)
      rw [e] at this
      cases this
  | r :: l, s :: m, b, h1, h2 => by
    have h := h1.2.trans h2.2.symm
    have hr : IsScalar r := h1.1 r (by simp)
    have hs : IsScalar s := h2.1 s (by simp)
    unfold IsScalar at hr hs
    rw [text_cons, text_cons, runeText, runeText, if_pos hr, if_pos hs] at h
    obtain ⟨rfl, h3⟩ := utf8Encode_prefix (by omega) (by omega) h
    rw [encodes_unique ⟨fun x hx => h1.1 x (by simp [hx]), rfl⟩
      ⟨fun x hx => h2.1 x (by simp [hx]), h3.symm⟩]

end Maho
