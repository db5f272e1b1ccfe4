import Verif.Lemmas.Lex
import Verif.Spec.Layout
/-
Every spelling of a token is read as the token.
-/
namespace Maho
open Maho.Spec

/-- The token is read at the start of the text, and `rest` is left, perhaps without the white space
at its start. -/
def ReadAt (env : ScanEnv) (t : Token) (l rest : List Nat) : Prop :=
  (∃ r m, l = r :: m ∧ Starts r m) ∧ (scan env false l).token = t ∧
    ((scan env false l).rest = rest ∨ (scan env false l).rest = rest.dropWhile isSpace)

theorem space_small {c : Nat} (h : 32 < c) (h2 : c < 128) : isSpace c = false := by
  unfold isSpace; simp; omega

theorem dropWhile_none {p : Nat → Bool} {l : List Nat} (h : ∀ c, l.head? = some c → p c = false) :
    l.dropWhile p = l := by
  cases l with
  | nil => rfl
  | cons c l => simp [h c rfl]

theorem takeWhile_none {p : Nat → Bool} {l : List Nat} (h : ∀ c, l.head? = some c → p c = false) :
    l.takeWhile p = [] := by
  cases l with
  | nil => rfl
  | cons c l => simp [h c rfl]

theorem readAt_mark (env : ScanEnv) {r : Nat} (h : r ∈ [46, 44, 40, 41, 64]) (rest : List Nat) :
    ReadAt env (.rune r) (r :: rest) rest := by
  have hr := h
  simp only [List.mem_cons, List.not_mem_nil, or_false] at hr
  have hst : Starts r rest := starts_of _ (by rcases hr with rfl | rfl | rfl | rfl | rfl <;> decide)
    (by omega) (by omega)
  have l := letter_false env (r := r) (by omega)
  have d := digit_false env (r := r) (by omega)
  have o : isOpRune r = false := by rcases hr with rfl | rfl | rfl | rfl | rfl <;> decide
  refine ⟨⟨r, rest, rfl, hst⟩, ?_⟩
  unfold scan
  rw [skip_start hst]
  rcases hr with rfl | rfl | rfl | rfl | rfl <;> simp [l, d, o]

theorem readAt_semicolon (env : ScanEnv) (rest : List Nat) :
    ReadAt env .endOfStatement (59 :: rest) rest := by
  have hst : Starts 59 rest := starts_of _ (by decide) (by decide) (by decide)
  refine ⟨⟨59, rest, rfl, hst⟩, ?_⟩
  unfold scan
  rw [skip_start hst]
  simp

theorem readAt_plus (env : ScanEnv) {rest : List Nat}
    (h : ∀ c, rest.head? = some c → env.digit c = false) :
    ReadAt env (.rune 43) (43 :: rest) rest := by
  have hst : Starts 43 rest := starts_of _ (by decide) (by decide) (by decide)
  have l := letter_false env (r := 43) (by omega)
  have d := digit_false env (r := 43) (by omega)
  refine ⟨⟨43, rest, rfl, hst⟩, ?_⟩
  unfold scan
  rw [skip_start hst]
  cases rest with
  | nil => simp [l, d, reread]
  | cons c m => simp [l, d, h c rfl]

theorem readAt_minus (env : ScanEnv) {c : Nat} {m : List Nat} (h : env.digit c = false)
    (hc : c ≠ 45) : ReadAt env (.rune 45) (45 :: c :: m) (c :: m) := by
  have hst : Starts 45 (c :: m) := ⟨by decide, fun _ => ⟨by simp, by simpa using hc⟩, by simp⟩
  have l := letter_false env (r := 45) (by omega)
  have d := digit_false env (r := 45) (by omega)
  refine ⟨⟨45, c :: m, rfl, hst⟩, ?_⟩
  unfold scan
  rw [skip_start hst]
  simp [l, d, h]

theorem readAt_operator (env : ScanEnv) {r : Nat} (hr : r ∈ [42, 47, 37, 61, 60, 62, 38, 124, 33])
    {rest : List Nat} (h47 : r = 47 → rest ≠ [])
    (h : ∀ c, rest.head? = some c → c ∉ [42, 47, 37, 61, 60, 62, 38, 124, 33]) :
    ReadAt env (.rune r) (r :: rest) rest := by
  have facts : ∀ r ∈ [42, 47, 37, 61, 60, 62, 38, 124, 33], isSpace r = false ∧ r < 128 ∧
      ((decide (65 ≤ r) && decide (r ≤ 90) || decide (97 ≤ r) && decide (r ≤ 122)) = false) ∧
      (decide (48 ≤ r) && decide (r ≤ 57)) = false ∧ isOpRune r = true := by decide
  obtain ⟨f1, f2, f3, f4, o⟩ := facts r hr
  have hst : Starts r rest := by
    refine ⟨f1, ?_, ?_⟩
    · rintro rfl; simp at hr
    · rintro rfl
      refine ⟨h47 rfl, fun e => ?_⟩
      have := h _ e
      simp at this
  have l : env.letter r = false := by rw [env.letter_ascii r f2]; exact f3
  have d : env.digit r = false := by rw [env.digit_ascii r f2]; exact f4
  have key : scanOperator false r rest = ⟨.rune r, (scanOperator false r rest).buf, rest⟩ := by
    cases rest with
    | nil => simp [scanOperator, reread]
    | cons c m =>
      have hc := h c rfl
      by_cases h1 : c = 45 ∨ c = 43
      · simp [scanOperator, h1]
      · have oc : isOpRune c = false := by
          simp only [List.mem_cons, List.not_mem_nil, or_false, not_or] at hc h1
          simp [isOpRune]
          omega
        simp [scanOperator, h1, oc]
  refine ⟨⟨r, rest, rfl, hst⟩, ?_⟩
  have e : scan env false (r :: rest) = scanOperator false r rest := by
    unfold scan
    rw [skip_start hst]
    simp only [List.mem_cons, List.not_mem_nil, or_false] at hr
    rcases hr with rfl | rfl | rfl | rfl | rfl | rfl | rfl | rfl | rfl <;> simp [l, d, o]
  rw [e, key]
  exact ⟨rfl, .inl rfl⟩

theorem readAt_pair (env : ScanEnv) {a b : Nat} {t : Token} (h : ([a, b], t) ∈ operators)
    (rest : List Nat) : ReadAt env t (a :: b :: rest) rest := by
  have l2 : ∀ c ∈ [61, 60, 62, 33], env.letter c = false :=
    fun c hc => letter_false env (by simp at hc; omega)
  have d2 : ∀ c ∈ [61, 60, 62, 33, 124], env.digit c = false :=
    fun c hc => digit_false env (by simp at hc; omega)
  have l3 : env.letter 124 = false := by rw [env.letter_ascii 124 (by decide)]; rfl
  have o : ∀ c ∈ [61, 60, 62, 33, 124], isOpRune c = true := by decide
  have hst : Starts a (b :: rest) := by
    have : ∀ p ∈ operators, ∀ a b, p.1 = [a, b] → isSpace a = false ∧ a ≠ 45 ∧ a ≠ 47 := by
      intro p hp a b e
      simp [operators] at hp
      rcases hp with rfl | rfl | rfl | rfl | rfl | rfl | rfl | rfl <;> cases e <;> decide
    obtain ⟨h1, h2, h3⟩ := this _ h a b rfl
    exact starts_of _ h1 h2 h3
  refine ⟨⟨_, _, rfl, hst⟩, ?_⟩
  simp [operators] at h
  unfold scan
  rw [skip_start hst]
  rcases h with h | h | h | h | h | h | h | h <;> obtain ⟨⟨rfl, rfl⟩, rfl⟩ := h <;>
    simp [l2, l3, d2, o, scanOperator, operators, List.lookup]

theorem readAt_name (env : ScanEnv) (hc : ClassesApart env) {l : List Nat} (h : PlainName env l)
    {rest : List Nat} (hr : ∀ c, rest.head? = some c →
      env.letter c = false ∧ env.digit c = false ∧ c ∉ runes "_$'") :
    ReadAt env (env.identToken (text l)) (l ++ rest) rest := by
  have hs : ∀ r, l.head? = some r → isSpace r = false := by
    obtain ⟨r, m, rfl, h1, _⟩ := h
    rintro _ ⟨⟩
    rcases h1 with h1 | rfl
    · exact ((hc r).1 h1).2
    · decide
  have e := scan_wideName env h hs (rest := rest) (by
    intro c hcr
    obtain ⟨h1, h2, h3⟩ := hr c hcr
    have h3 : ¬ (c = 95 ∨ c = 36 ∨ c = 39) := by
      rw [show runes "_$'" = [95, 36, 39] by decide] at h3
      simpa using h3
    refine ⟨?_, by omega⟩
    have e1 : '_'.toNat = 95 := rfl
    have e2 : '$'.toNat = 36 := rfl
    simp only [ScanEnv.identRune, h1, h2, e1, e2, Bool.or_false, Bool.false_or, Bool.or_eq_false_iff,
      beq_eq_false_iff_ne]
    omega)
  refine ⟨?_, by rw [e], .inl (by rw [e])⟩
  obtain ⟨r, m, rfl, h1, _⟩ := h
  have hn : r ≠ 45 ∧ r ≠ 47 := by
    rcases h1 with h1 | rfl
    · constructor <;> rintro rfl <;> simp [letter_false env] at h1
    · decide
  exact ⟨r, m ++ rest, rfl, starts_of _ (hs r rfl) hn.1 hn.2⟩

theorem readAt_quotedName (env : ScanEnv) {a b : Nat} {body : List Nat} (h : (a, b) ∈ nameQuotes)
    (hb : b ∉ body) (rest : List Nat) :
    ReadAt env (.identifier (env.id (text body) true)) (a :: body ++ [b] ++ rest) rest := by
  have key : ∀ (body : List Nat) (buf : Bytes), b ∉ body →
      scanQuotedIdentifier env b buf (body ++ b :: rest) =
        ⟨.identifier (env.id (buf ++ text body) true), buf ++ text body, rest⟩ := by
    intro body
    induction body with
    | nil => intro buf _; simp [scanQuotedIdentifier, text]
    | cons c body ih =>
      intro buf hb
      have h1 : c ≠ b := fun e => hb (by simp [e])
      have h2 : b ∉ body := fun e => hb (by simp [e])
      rw [List.cons_append, scanQuotedIdentifier, if_neg h1, ih _ h2]
      simp [text_cons, runeBytes_eq]
  have k := key body [] hb
  have ha : (a = 34 ∧ b = 34) ∨ (a = 96 ∧ b = 96) ∨ (a = 91 ∧ b = 93) := by
    simpa [nameQuotes] using h
  have hst : Starts a (body ++ b :: rest) := starts_of _
    (by rcases ha with h | h | h <;> obtain ⟨rfl, rfl⟩ := h <;> decide) (by omega) (by omega)
  have l : env.letter a = false := by
    rw [env.letter_ascii a (by omega)]; simp; omega
  have d : env.digit a = false := digit_false env (by omega)
  rw [show a :: body ++ [b] ++ rest = a :: (body ++ b :: rest) by simp]
  refine ⟨⟨_, _, rfl, hst⟩, ?_⟩
  have e : scan env false (a :: (body ++ b :: rest)) =
      scanQuotedIdentifier env b [] (body ++ b :: rest) := by
    unfold scan
    rw [skip_start hst]
    rcases ha with h | h | h <;> obtain ⟨rfl, rfl⟩ := h <;> simp [l, d]
  rw [e, k]
  exact ⟨by simp, .inl rfl⟩

theorem readAt_float (env : ScanEnv) (hc : ClassesApart env) {s ds es : List Nat} {minus : Bool}
    (hs : Sign s minus) (hne : ds ≠ []) (hd : ∀ r ∈ ds ++ es, env.digit r = true) {g : F64}
    (hg : env.parseFloat (text (ds ++ 46 :: es)) = some g) {rest : List Nat}
    (hr : ∀ c, rest.head? = some c → env.digit c = false) :
    ReadAt env (.float (if minus = true then F64.neg g else g)) (s ++ ds ++ 46 :: es ++ rest) rest := by
  cases ds with
  | nil => exact absurd rfl hne
  | cons r ds =>
    have hdr : env.digit r = true := hd r (by simp)
    have hds : ∀ c ∈ ds, env.digit c = true := fun c h => hd c (by simp [h])
    have hes : ∀ c ∈ es, env.digit c = true := fun c h => hd c (by simp [h])
    have hw : ∀ neg, scanNumber env false neg false (runeBytes r) (ds ++ 46 :: (es ++ rest)) =
        ⟨env.numberToken neg true (text (r :: ds ++ 46 :: es)), text (r :: ds ++ 46 :: es), rest⟩ := by
      intro neg
      rw [scanNumber_eq, List.dropWhile_append_of_pos hds, List.takeWhile_append_of_pos hds]
      simp only [List.dropWhile_cons, List.takeWhile_cons, digit_dot, Bool.false_eq_true, if_false]
      rw [scanFraction_eq, List.dropWhile_append_of_pos hes, List.takeWhile_append_of_pos hes,
        dropWhile_none hr, takeWhile_none hr]
      simp [text_cons, text_append, runeBytes_eq]
    have hsp : isSpace r = false := (hc r).2 hdr
    have hlet : env.letter r = false := by
      cases h : env.letter r with
      | false => rfl
      | true => rw [((hc r).1 h).1] at hdr; cases hdr
    have hn : ∀ c, env.digit c = false → r ≠ c := by
      rintro c h rfl
      rw [h] at hdr
      cases hdr
    have low := fun c (h : c < 48 ∨ (57 < c ∧ c < 128)) => hn c (digit_false env h)
    have tok : ∀ neg, env.numberToken neg true (text (r :: ds ++ 46 :: es)) =
        .float (if neg = true then F64.neg g else g) := by
      intro neg
      simp only [ScanEnv.numberToken, if_true, hg]
    rcases hs with ⟨rfl, rfl⟩ | ⟨rfl, rfl⟩ | ⟨rfl, rfl⟩
    · have hst : Starts r (ds ++ 46 :: (es ++ rest)) :=
        starts_of _ hsp (low 45 (by omega)) (low 47 (by omega))
      rw [show [] ++ r :: ds ++ 46 :: es ++ rest = r :: (ds ++ 46 :: (es ++ rest)) by simp]
      refine ⟨⟨_, _, rfl, hst⟩, ?_⟩
      have e : scan env false (r :: (ds ++ 46 :: (es ++ rest))) =
          scanNumber env false false false (runeBytes r) (ds ++ 46 :: (es ++ rest)) := by
        have h1 : r ≠ ';'.toNat := low 59 (by omega)
        have h2 : ¬ (r = 'e'.toNat ∨ r = 'E'.toNat) := not_or.2 ⟨low 101 (by omega), low 69 (by omega)⟩
        have h3 : r ≠ 'b'.toNat := low 98 (by omega)
        have h4 : ¬ (r = 'x'.toNat ∨ r = 'X'.toNat) := not_or.2 ⟨low 120 (by omega), low 88 (by omega)⟩
        have h5 : r ≠ 95 := low 95 (by omega)
        simp only [scan, skip_start hst]
        rw [if_neg h1, if_neg h2, if_neg h3, if_neg h4, if_neg (by simp [hlet]; exact h5),
          if_pos hdr]
      rw [e, hw, tok]
      exact ⟨rfl, .inl rfl⟩
    · have hst : Starts 43 (r :: (ds ++ 46 :: (es ++ rest))) :=
        starts_of _ (by decide) (by decide) (by decide)
      rw [show [43] ++ r :: ds ++ 46 :: es ++ rest = 43 :: r :: (ds ++ 46 :: (es ++ rest)) by simp]
      refine ⟨⟨_, _, rfl, hst⟩, ?_⟩
      have l := letter_false env (r := 43) (by omega)
      have d := digit_false env (r := 43) (by omega)
      have e : scan env false (43 :: r :: (ds ++ 46 :: (es ++ rest))) =
          scanNumber env false false false (runeBytes r) (ds ++ 46 :: (es ++ rest)) := by
        unfold scan
        rw [skip_start hst]
        simp [l, d, hdr]
      rw [e, hw, tok]
      exact ⟨rfl, .inl rfl⟩
    · have hst : Starts 45 (r :: (ds ++ 46 :: (es ++ rest))) :=
        ⟨by decide, fun _ => ⟨by simp, by simpa using low 45 (by omega)⟩, by simp⟩
      rw [show [45] ++ r :: ds ++ 46 :: es ++ rest = 45 :: r :: (ds ++ 46 :: (es ++ rest)) by simp]
      refine ⟨⟨_, _, rfl, hst⟩, ?_⟩
      have l := letter_false env (r := 45) (by omega)
      have d := digit_false env (r := 45) (by omega)
      have e : scan env false (45 :: r :: (ds ++ 46 :: (es ++ rest))) =
          scanNumber env false true false (runeBytes r) (ds ++ 46 :: (es ++ rest)) := by
        unfold scan
        rw [skip_start hst]
        simp [l, d, hdr]
      rw [e, hw, tok]
      exact ⟨rfl, .inl rfl⟩

theorem readAt_integer (env : ScanEnv) {s ds : List Nat} {minus : Bool} {n : Nat} {i : BitVec 64}
    (hs : Sign s minus) (h : Numeral ds n) (hn : n < 2 ^ 63)
    (hi : i.toInt = if minus = true then -(n : Int) else n) {rest : List Nat}
    (hr : ∀ c, rest.head? = some c → env.digit c = false ∧ c ≠ 46) :
    ReadAt env (.integer i) (s ++ ds ++ rest) rest := by
  have e := scan_number env hs h hr
  rw [numberToken_text env minus h, if_pos hn] at e
  have ei : BitVec.ofInt 64 (if minus = true then -(n : Int) else n) = i := by
    rw [← hi, BitVec.ofInt_toInt]
  rw [ei, ← List.append_assoc] at e
  refine ⟨?_, by rw [e], .inl (by rw [e])⟩
  obtain ⟨hne, hdd, _⟩ := h
  cases ds with
  | nil => exact absurd rfl hne
  | cons r ds =>
    have hr0 := hdd r (by simp)
    rcases hs with ⟨rfl, rfl⟩ | ⟨rfl, rfl⟩ | ⟨rfl, rfl⟩
    · exact ⟨r, ds ++ rest, by simp, starts_of _ (space_small (by omega) (by omega)) (by omega)
        (by omega)⟩
    · exact ⟨43, r :: (ds ++ rest), by simp, starts_of _ (by decide) (by decide) (by decide)⟩
    · exact ⟨45, r :: (ds ++ rest), by simp, by decide, fun _ => ⟨by simp, by simp; omega⟩, by simp⟩

theorem readAt_parameter (env : ScanEnv) {ds : List Nat} {n : Nat} {i : BitVec 64}
    (h : Numeral ds n) (h0 : 0 < n) (hn : n < 2 ^ 63) (hi : i.toInt = n) {rest : List Nat}
    (hr : ∀ c, rest.head? = some c → env.digit c = false) :
    ReadAt env (.parameter i) (36 :: ds ++ rest) rest := by
  obtain ⟨hne, hdd, _⟩ := id h
  cases ds with
  | nil => exact absurd rfl hne
  | cons r ds =>
    have hdig : ∀ c ∈ r :: ds, env.digit c = true := by
      intro c hc
      have := hdd c hc
      rw [env.digit_ascii c (by omega)]; simp; omega
    have hds : ∀ c ∈ ds, env.digit c = true := fun c hc => hdig c (by simp [hc])
    have hst : Starts 36 (r :: (ds ++ rest)) := starts_of _ (by decide) (by decide) (by decide)
    have l := letter_false env (r := 36) (by omega)
    have d := digit_false env (r := 36) (by omega)
    have o : isOpRune 36 = false := by decide
    have hp : parseInt64 (text (r :: ds)) = some i :=
      (parseInt64_text (hdig r (by simp))).2 ⟨n, h, hn, hi⟩
    have hi0 : i ≠ 0 := by
      rintro rfl
      simp at hi
      omega
    rw [show 36 :: r :: ds ++ rest = 36 :: r :: (ds ++ rest) from rfl]
    refine ⟨⟨_, _, rfl, hst⟩, ?_⟩
    have e : scan env false (36 :: r :: (ds ++ rest)) =
        scanParameter env false (runeBytes r) (ds ++ rest) := by
      unfold scan
      rw [skip_start hst]
      simp [l, d, o, hdig r (by simp)]
    rw [e, scanParameter_eq, List.dropWhile_append_of_pos hds, List.takeWhile_append_of_pos hds,
      dropWhile_none hr, takeWhile_none hr, List.append_nil, runeBytes_eq, ← text_cons]
    refine ⟨?_, .inl rfl⟩
    simp only [parameterToken, hp, if_neg hi0]

/-- Every spelling of a token, with a text after it that does not change it, is read as the token. -/
theorem readAt_spelled (env : ScanEnv) (hc : ClassesApart env) {t : Token} {w rest : List Nat}
    (ht : Proper t) (h : Spells env t w) (hd : Delimited env t rest) :
    ReadAt env t (w ++ rest) rest := by
  cases t with
  | eof => exact absurd rfl ht.1
  | error b => exact absurd rfl (ht.2 b)
  | endOfStatement => rw [show w = [59] from h]; exact readAt_semicolon env rest
  | identifier id =>
    rcases h with ⟨h1, h2, h3⟩ | ⟨a, b, body, h1, rfl, h2, rfl⟩
    · have := readAt_name env hc h1 hd
      have e : env.identToken (text w) = .identifier id := by
        rw [ScanEnv.identToken, ← h2, if_neg]
        simp [isReserved]; omega
      rwa [e] at this
    · exact readAt_quotedName env h1 h2 rest
  | reserved id =>
    obtain ⟨h1, h2, h3⟩ := h
    have := readAt_name env hc h1 hd
    have e : env.identToken (text w) = .reserved id := by
      rw [ScanEnv.identToken, ← h2, if_pos]
      simp [isReserved]; omega
    rwa [e] at this
  | string s =>
    rcases h with ⟨body, rfl, h⟩ | ⟨c, body, hl, rfl, h⟩
    · have e := scan_string env h (rest := rest) hd
      exact ⟨⟨39, body ++ rest, rfl, starts_of _ (by decide) (by decide) (by decide)⟩,
        by rw [List.cons_append, e], .inr (by rw [List.cons_append, e])⟩
    · have e := scan_escapeString env hl h (rest := rest) hd
      exact ⟨⟨c, 39 :: (body ++ rest), rfl, starts_of _ (by rcases hl with rfl | rfl <;> decide)
        (by omega) (by omega)⟩, by rw [List.cons_append, List.cons_append, e],
        .inr (by rw [List.cons_append, List.cons_append, e])⟩
  | bytes b =>
    rcases h with ⟨body, rfl, h⟩ | ⟨c, body, hl, rfl, h⟩
    · have e := scan_escapeBytes env h (rest := rest) hd
      exact ⟨⟨98, 39 :: (body ++ rest), rfl, starts_of _ (by decide) (by decide) (by decide)⟩,
        by rw [List.cons_append, List.cons_append, e],
        .inr (by rw [List.cons_append, List.cons_append, e])⟩
    · have e := scan_hex env hl h rest
      rw [show c :: 39 :: body ++ [39] ++ rest = c :: 39 :: (body ++ 39 :: rest) by simp]
      exact ⟨⟨c, _, rfl, starts_of _ (by rcases hl with rfl | rfl <;> decide)
        (by omega) (by omega)⟩, by rw [e], .inl (by rw [e])⟩
  | integer i =>
    obtain ⟨s, minus, ds, n, rfl, h1, h2, h3, h4⟩ := h
    exact readAt_integer env h1 h2 h3 h4 hd
  | float f =>
    obtain ⟨s, minus, ds, es, g, rfl, h1, h2, h3, h4, rfl⟩ := h
    exact readAt_float env hc h1 h2 h3 h4 hd
  | parameter i =>
    obtain ⟨ds, n, rfl, h1, h2, h3, h4⟩ := h
    exact readAt_parameter env h1 h2 h3 h4 hd
  | rune r =>
    obtain ⟨rfl, hr⟩ := h
    obtain ⟨h1, h2⟩ := hd
    rw [show runes "+-*/%=<>&|!.,()@" =
      [43, 45, 42, 47, 37, 61, 60, 62, 38, 124, 33, 46, 44, 40, 41, 64] by decide] at hr
    rw [show runes "-/" = [45, 47] by decide] at h1
    rw [show runes "+-" = [43, 45] by decide, show runes "-" = [45] by decide,
      show runes "*/%=<>&|!" = [42, 47, 37, 61, 60, 62, 38, 124, 33] by decide] at h2
    have cases3 : r = 43 ∨ r = 45 ∨ r ∈ [42, 47, 37, 61, 60, 62, 38, 124, 33] ∨
        r ∈ [46, 44, 40, 41, 64] := by
      simp only [List.mem_cons, List.not_mem_nil, or_false] at hr ⊢
      omega
    rcases cases3 with rfl | rfl | h | h
    · exact readAt_plus env fun c hc => (h2 c hc).1 (by simp)
    · cases rest with
      | nil => exact absurd rfl (h1 (by simp))
      | cons c m =>
        obtain ⟨h3, h4, _⟩ := h2 c rfl
        exact readAt_minus env (h3 (by simp)) (by simpa using h4 (by simp))
    · exact readAt_operator env h (fun e => h1 (by simp [e])) fun c hc => (h2 c hc).2.2 h
    · exact readAt_mark env h rest
  | barBar => rw [show w = [124, 124] from h]; exact readAt_pair env (by decide) rest
  | lessLess => rw [show w = [60, 60] from h]; exact readAt_pair env (by decide) rest
  | lessEqual => rw [show w = [60, 61] from h]; exact readAt_pair env (by decide) rest
  | lessGreater => rw [show w = [60, 62] from h]; exact readAt_pair env (by decide) rest
  | greaterGreater => rw [show w = [62, 62] from h]; exact readAt_pair env (by decide) rest
  | greaterEqual => rw [show w = [62, 61] from h]; exact readAt_pair env (by decide) rest
  | equalEqual => rw [show w = [61, 61] from h]; exact readAt_pair env (by decide) rest
  | bangEqual => rw [show w = [33, 61] from h]; exact readAt_pair env (by decide) rest

theorem scan_spelled (env : ScanEnv) (hc : ClassesApart env) {t : Token} {blank w rest : List Nat}
    (hb : Skipped blank) (ht : Proper t) (h : Spells env t w) (hd : Delimited env t rest) :
    (scan env false (blank ++ w ++ rest)).token = t ∧
      ((scan env false (blank ++ w ++ rest)).rest = rest ∨
        (scan env false (blank ++ w ++ rest)).rest = rest.dropWhile isSpace) := by
  obtain ⟨⟨r, m, e, hst⟩, h2⟩ := readAt_spelled env hc ht h hd
  rw [List.append_assoc, e, scan_blank env false hb hst, ← e]
  exact h2

theorem tokenize_spelled (env : ScanEnv) (hc : ClassesApart env) {t : Token}
    {blank w rest : List Nat} (hb : Skipped blank) (ht : Proper t) (h : Spells env t w)
    (hd : Delimited env t rest) :
    tokenize env (blank ++ w ++ rest) = t :: tokenize env rest := by
  obtain ⟨h1, h2⟩ := scan_spelled env hc hb ht h hd
  rw [tokenize_scan env (by rw [h1]; exact ht.1), h1]
  rcases h2 with h2 | h2
  · rw [h2]
  · rw [h2, tokenize_dropSpace]

theorem skipped_append {a b : List Nat} (ha : Skipped a) (hb : Skipped b) : Skipped (a ++ b) := by
  induction ha with
  | nil => exact hb
  | space r l hr _ ih => exact .space r _ hr ih
  | line body l hl _ ih =>
    rw [List.append_assoc]
    exact .line body _ hl ih
  | block body l hl _ ih =>
    rw [List.append_assoc]
    exact .block body _ hl ih

theorem skip_skipped {b : List Nat} (h : Skipped b) : skip .space b = none := by
  induction h with
  | nil => rfl
  | space c l hc _ ih =>
    rw [← ih]
    cases l <;> simp [skip, hc]
  | line body l hl _ ih =>
    rw [show runes "--" ++ body ++ [10] ++ l = 45 :: 45 :: (body ++ 10 :: l) by
      rw [show runes "--" = [45, 45] by decide]; simp]
    rw [← ih, ← skip_line_complete body l hl]
    simp [skip, isSpace]
  | block body l hl _ ih =>
    rw [show runes "/*" ++ body ++ runes "*/" ++ l = 47 :: 42 :: (body ++ [42, 47] ++ l) by
      rw [show runes "/*" = [47, 42] by decide, show runes "*/" = [42, 47] by decide]; simp]
    rw [show runes "*/" = [42, 47] by decide, show runes "*" = [42] by decide] at hl
    rw [← ih, ← skip_block_complete body l 0 (by
      rw [occurs_cons]
      rintro (⟨h, _⟩ | h)
      · cases h
      · exact hl h)]
    simp [skip, isSpace]

theorem tokenize_skipped (env : ScanEnv) {b : List Nat} (h : Skipped b) : tokenize env b = [] := by
  simp [tokenize, tokenizeFuel, scan, skip_skipped h]

theorem tokenize_laidOut (env : ScanEnv) (hc : ClassesApart env) {ts : List Token} {l : List Nat}
    (h : LaidOut env ts l) : tokenize env l = ts := by
  induction h with
  | nil b hb => exact tokenize_skipped env hb
  | cons t ts blank w rest hb ht hs hd _ ih => rw [tokenize_spelled env hc hb ht hs hd, ih]

theorem LaidOut.blank {env : ScanEnv} {ts : List Token} {b l : List Nat} (hb : Skipped b)
    (h : LaidOut env ts l) : LaidOut env ts (b ++ l) := by
  cases h with
  | nil c hc => exact .nil _ (skipped_append hb hc)
  | cons t ts c w rest hc ht hs hd hl =>
    rw [show b ++ (c ++ w ++ rest) = (b ++ c) ++ w ++ rest by simp]
    exact .cons t ts _ w rest (skipped_append hb hc) ht hs hd hl

theorem consists_space {ws : List (List Nat)} {l gap : List Nat} (h : Consists ws l)
    (hg : ∀ r ∈ gap, isSpace r = true) : Consists ws (gap ++ l) := by
  have hs : Skipped gap := by
    induction gap with
    | nil => exact .nil
    | cons r gap ih => exact .space r _ (hg r (by simp)) (ih fun c hc => hg c (by simp [hc]))
  cases h with
  | nil b d hb hd =>
    rw [← List.append_assoc]
    exact .nil _ _ (skipped_append hs hb) hd
  | cons w ws b rest hb hr =>
    rw [show gap ++ (b ++ w ++ rest) = (gap ++ b) ++ w ++ rest by simp]
    exact .cons w ws _ rest (skipped_append hs hb) hr

/-- The pieces of a text that spell its tokens. -/
theorem pieces (env : ScanEnv) : ∀ (n : Nat) (l : List Nat), l.length ≤ n →
    ∃ ws, Consists ws l ∧ SpelledBy env (tokenize env l) ws := by
  intro n
  induction n with
  | zero =>
    intro l hl
    have : l = [] := List.length_eq_zero_iff.1 (by omega)
    subst this
    exact ⟨[], .nil [] [] .nil (.inl rfl), by rw [tokenize_nil]; exact .nil⟩
  | succ n ih =>
    intro l hl
    obtain ⟨blank, w, gap, e, hb, hg, h | h⟩ := scan_spec env l
    · obtain ⟨h1, h2, rfl, h3⟩ := h
      refine ⟨[], ?_, ?_⟩
      · rw [e, h3, List.append_nil, List.append_nil]
        exact .nil _ _ hb h2
      · have : tokenize env l = [] := by simp [tokenize, tokenizeFuel, h1]
        rw [this]
        exact .nil
    · obtain ⟨h1, h2, h3⟩ := h
      have hlen := congrArg List.length e
      have hw := List.length_pos_iff.2 h2
      simp only [List.length_append] at hlen
      obtain ⟨ws, i1, i2⟩ := ih (scan env false l).rest (by omega)
      refine ⟨w :: ws, ?_, ?_⟩
      · have := Consists.cons w ws blank _ hb (consists_space i1 hg)
        rwa [← List.append_assoc, ← e] at this
      · rw [tokenize_scan env h1]
        exact .cons _ _ _ _ h3 i2

theorem space_facts {r : Nat} (h : isSpace r = true) : r ≠ 39 ∧ r ≠ 95 ∧ r ≠ 36 ∧ r ≠ 46 ∧ r ≠ 45 ∧
    r ∉ [42, 47, 37, 61, 60, 62, 38, 124, 33] := by
  refine ⟨?_, ?_, ?_, ?_, ?_, fun hm => ?_⟩
  any_goals (rintro rfl; exact absurd h (by decide))
  have : ∀ r ∈ [42, 47, 37, 61, 60, 62, 38, 124, 33], isSpace r = false := by decide
  rw [this r hm] at h
  cases h

theorem separator_notContinues {s m : List Nat} (h : Separator s)
    (hm : ∀ c, m.head? = some c → isSpace c = false) : ¬ Continues (s ++ m) := by
  have h39 : isSpace 39 = false := by decide
  obtain ⟨⟨r, s', rfl, hr, hs⟩, hn⟩ := h
  rintro (⟨x, e⟩ | ⟨ws, x, e, hw, hb⟩)
  · exact (space_facts hr).1 (List.cons.inj e).1
  · rcases List.append_eq_append_iff.1 e with ⟨a, e1, e2⟩ | ⟨a, e1, e2⟩
    · -- the separator is a part of the white space
      cases a with
      | nil =>
        rw [List.append_nil] at e1
        exact hn (.inr ⟨ws, [], by rw [e1], hw, hb⟩)
      | cons c a =>
        have := hm c (by rw [e2]; rfl)
        rw [hw c (by rw [e1]; simp)] at this
        cases this
    · cases a with
      | nil =>
        rw [List.append_nil] at e1
        exact hn (.inr ⟨ws, [], by rw [e1], hw, hb⟩)
      | cons c a =>
        have hc : c = 39 := (List.cons.inj e2).1.symm
        subst hc
        exact hn (.inr ⟨ws, a ++ [39], by rw [e1]; simp, hw, hb⟩)

theorem separator_skipped {s : List Nat} (h : Separator s) : Skipped s := by
  obtain ⟨⟨r, m, rfl, hr, hs⟩, _⟩ := h
  exact .space r m hr hs

theorem separator_delimited {env : ScanEnv} (hc : ClassesApart env) {s m : List Nat}
    (h : Separator s) (hm : ∀ c, m.head? = some c → isSpace c = false) (t : Token) :
    Delimited env t (s ++ m) := by
  have hn := separator_notContinues h hm
  obtain ⟨⟨r, s', rfl, hr, hs⟩, _⟩ := h
  obtain ⟨f1, f2, f3, f4, f5, f6⟩ := space_facts hr
  have hl : env.letter r = false := by
    cases e : env.letter r with
    | false => rfl
    | true => rw [((hc r).1 e).2] at hr; cases hr
  have hd : env.digit r = false := by
    cases e : env.digit r with
    | false => rfl
    | true => rw [(hc r).2 e] at hr; cases hr
  have e1 : runes "_$'" = [95, 36, 39] := by decide
  have e2 : runes "-" = [45] := by decide
  have e3 : runes "*/%=<>&|!" = [42, 47, 37, 61, 60, 62, 38, 124, 33] := by decide
  cases t with
  | identifier _ | reserved _ =>
    rintro _ ⟨⟩
    exact ⟨hl, hd, by rw [e1]; simp [f1, f2, f3]⟩
  | string _ | bytes _ => exact hn
  | integer _ => rintro _ ⟨⟩; exact ⟨hd, f4⟩
  | float _ | parameter _ => rintro _ ⟨⟩; exact hd
  | rune c =>
    refine ⟨fun _ => by simp, ?_⟩
    rintro _ ⟨⟩
    exact ⟨fun _ => hd, fun _ => by rw [e2]; simpa using f5, fun _ => by rw [e3]; exact f6⟩
  | _ => trivial

theorem spread_cons (w s : List Nat) (ws seps : List (List Nat)) :
    spread (w :: ws) (s :: seps) = w ++ (s ++ spread ws seps) := by
  simp [spread]

theorem laidOut_spread (env : ScanEnv) (hc : ClassesApart env) {ts : List Token}
    {ws : List (List Nat)} (h : SpelledBy env ts ws) (ht : ∀ t ∈ ts, Proper t) :
    ∀ seps : List (List Nat), seps.length = ws.length → (∀ s ∈ seps, Separator s) →
      LaidOut env ts (spread ws seps) ∧
        ∀ c, (spread ws seps).head? = some c → isSpace c = false := by
  induction h with
  | nil =>
    intro seps hl _
    have : spread [] seps = [] := by simp [spread]
    rw [this]
    exact ⟨.nil [] .nil, by simp⟩
  | cons t w ts ws hs _ ih =>
    intro seps hl hp
    cases seps with
    | nil => simp at hl
    | cons s seps =>
      obtain ⟨i1, i2⟩ := ih (fun t ht' => ht t (by simp [ht'])) seps (by simpa using hl)
        fun s hs => hp s (by simp [hs])
      have hd := separator_delimited hc (hp s (by simp)) i2 t
      have hpr := ht t (by simp)
      rw [spread_cons]
      refine ⟨?_, ?_⟩
      · have := LaidOut.cons t ts [] w _ .nil hpr hs hd
          (LaidOut.blank (separator_skipped (hp s (by simp))) i1)
        simpa using this
      · obtain ⟨⟨r, m, e, hst⟩, _⟩ := readAt_spelled env hc hpr hs hd
        rw [e]
        rintro _ ⟨⟩
        exact hst.1

end Maho
