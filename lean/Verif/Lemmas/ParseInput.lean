import Verif.Lemmas.ParseStmt
import Verif.Lemmas.Lex
/-
Helper lemmas for C64: the tokens of an input, and the calls of `Parse`.
-/
namespace Maho
open Maho.Spec

/-- One call of `Parse`, on any tokens: a panic only for a token with a nil error, or for `NULL` as the
value of a variable. -/
theorem parse_any {env : ParseEnv} {failed : Bool} {ts : List Token} (hB : Token.eof ∉ ts) :
    ((parse env failed ts).1 = .panic ∧
      (Token.error true ∈ ts ∨ NullSetting (if failed then afterSemicolon ts else ts))) ∨
    (((∃ s, (parse env failed ts).1 = .stmt s) ∨ (parse env failed ts).1 = .error) ∧
      (parse env failed ts).2.2 <:+ ts ∧ (parse env failed ts).2.2.length < ts.length) ∨
    ((parse env failed ts).1 = .eof ∧ (parse env failed ts).2.2 <:+ ts) := by
  have recover : ∀ l, l <:+ ts → (l = [] → l.length < ts.length) →
      ((parseRecover env l).1 = .panic ∧ (Token.error true ∈ ts ∨ NullSetting l)) ∨
      (((∃ s, (parseRecover env l).1 = .stmt s) ∨ (parseRecover env l).1 = .error) ∧
      (parseRecover env l).2.2 <:+ ts ∧ (parseRecover env l).2.2.length < ts.length) := by
    intro l hl hlt
    cases l with
    | nil =>
      rw [parseRecover_nil]
      exact .inr ⟨Or.inr rfl, hl, hlt rfl⟩
    | cons t l =>
      rcases parseRecover_cases (env := env) (fun h => hB (hl.subset h)) with ⟨h1, h2⟩ | ⟨h1, h2⟩
      · exact .inl ⟨h1, h2.imp_left fun h => hl.subset h⟩
      refine .inr ⟨h1, (h2.trans (List.suffix_cons t l)).trans hl, ?_⟩
      have := h2.length_le
      have := hl.length_le
      simp at this
      omega
  cases ts with
  | nil => exact Or.inr (Or.inr ⟨rfl, List.suffix_refl _⟩)
  | cons t ts =>
    have hne := noEof_ne hB (List.suffix_refl _)
    have key : parse env failed (t :: ts) = (if failed then
          match skipStatement (t :: ts) with
          | (some true, rest) => (.error, true, rest)
          | (some false, rest) => (.eof, true, rest)
          | (none, rest) => parseRecover env rest
        else parseRecover env (t :: ts)) ∨
        (t = .error false ∧ parse env failed (t :: ts) = (.error, failed, ts)) := by
      cases t with
      | eof => exact absurd rfl hne.2
      | error b =>
        cases b with
        | true => exact Or.inl rfl
        | false => exact Or.inr ⟨rfl, rfl⟩
      | _ => exact Or.inl rfl
    rcases key with key | ⟨_, key⟩
    · rw [key]
      cases failed with
      | false =>
        rcases recover (t :: ts) (List.suffix_refl _) (by simp) with h | h
        · exact .inl h
        · exact .inr (.inl h)
      | true =>
        simp only [if_true]
        rcases skipStatement_spec (t :: ts) hB with ⟨b, rest, h1, h2, h3⟩ | ⟨h1, h2, h3⟩
        · rw [h1]
          cases b with
          | true => exact .inr (Or.inl ⟨Or.inr rfl, h2, h3 rfl⟩)
          | false => exact .inr (Or.inr ⟨rfl, h2⟩)
        · rw [h1]
          rcases recover _ h2 (fun _ => h3) with h | h
          · exact .inl h
          · exact .inr (.inl h)
    · rw [key]
      exact .inr (Or.inl ⟨Or.inr rfl, List.suffix_cons _ _, by simp⟩)

/-- One call of `Parse`. -/
theorem parse_ok {env : ParseEnv} {failed : Bool} {ts : List Token} (hB : Clean ts)
    (hn : ¬ NullSetting (if failed then afterSemicolon ts else ts)) :
    (((∃ s, (parse env failed ts).1 = .stmt s) ∨ (parse env failed ts).1 = .error) ∧
      (parse env failed ts).2.2 <:+ ts ∧ (parse env failed ts).2.2.length < ts.length) ∨
    ((parse env failed ts).1 = .eof ∧ (parse env failed ts).2.2 <:+ ts) := by
  rcases parse_any (env := env) (failed := failed) hB.2 with ⟨-, h | h⟩ | h
  · exact absurd h hB.1
  · exact absurd h hn
  · exact h

/-! ### The tokens of an input -/

theorem tokenizeFuel_mem (env : ScanEnv) : ∀ (n : Nat) (l : List Nat) (t : Token),
    t ∈ tokenizeFuel env n l → t ≠ .eof ∧ ∃ m, m <:+ l ∧ (scan env false m).token = t
  | 0, _, _, h => by simp [tokenizeFuel] at h
  | n + 1, l, t, h => by
    unfold tokenizeFuel at h
    by_cases he : (scan env false l).token = .eof
    · simp [he] at h
    · simp only [he, if_false, List.mem_cons] at h
      rcases h with rfl | h
      · exact ⟨he, l, List.suffix_refl _, rfl⟩
      · obtain ⟨h1, m, h2, h3⟩ := tokenizeFuel_mem env n _ t h
        refine ⟨h1, m, h2.trans ?_, h3⟩
        obtain ⟨blank, lexeme, gap, e, _, _, _⟩ := scan_spec env l
        exact ⟨_, e.symm⟩

theorem tokenize_mem {env : ScanEnv} {l : List Nat} {t : Token} (h : t ∈ tokenize env l) :
    t ≠ .eof ∧ ∃ m, m <:+ l ∧ (scan env false m).token = t := tokenizeFuel_mem env _ l t h

theorem occurs_suffix {a l m : List Nat} (h : Occurs a l) (hs : l <:+ m) : Occurs a m := by
  obtain ⟨x, y, rfl⟩ := h
  obtain ⟨z, rfl⟩ := hs
  exact ⟨z ++ x, y, by simp⟩

theorem panicEscape_suffix {l m : List Nat} (h : PanicEscape l) (hs : l <:+ m) : PanicEscape m := by
  obtain ⟨ds, h1, h2⟩ := h
  exact ⟨ds, h1, occurs_suffix h2 hs⟩

/-- A test for the escape. -/
theorem not_panicEscape {l : List Nat} (h : ¬ runes "\\UFFFFFFFD" <:+: l.map upperHex) :
    ¬ PanicEscape l := by
  rintro ⟨ds, h1, a, b, h2⟩
  refine h ⟨a.map upperHex, b.map upperHex, ?_⟩
  rw [h2, List.map_append, List.map_append, List.map_append, h1]
  rfl

/-- The digits of an escape. -/
theorem scanUnicode_digits : ∀ (n u : Nat) (l : List Nat) (v : Nat) (rest : List Nat),
    scanUnicode u n l = (some v, rest) → ∃ rs ds : List Nat, l = rs ++ rest ∧ ds.length = n ∧
      rs.map hexDigit = ds.map some ∧ v = ds.foldl (fun u d => u * 16 + d) u
  | 0, u, l, v, rest, h => by
    simp only [scanUnicode, Prod.mk.injEq, Option.some.injEq] at h
    exact ⟨[], [], by simp [h.2], rfl, rfl, by simp [h.1]⟩
  | n + 1, u, [], v, rest, h => by simp [scanUnicode] at h
  | n + 1, u, r :: l, v, rest, h => by
    unfold scanUnicode at h
    split at h
    · simp at h
    · rename_i d hd
      obtain ⟨rs, ds, h1, h2, h3, h4⟩ := scanUnicode_digits n _ l v rest h
      exact ⟨r :: rs, d :: ds, by rw [h1]; rfl, by simp [h2], by simp [hd, h3], h4⟩

/-- Digits in upper case. -/
theorem hexDigit_upper {r d : Nat} (h : hexDigit r = some d) :
    upperHex r = if d < 10 then 48 + d else 55 + d := by
  unfold hexDigit at h
  unfold upperHex
  simp only [show '0'.toNat = 48 from rfl, show '9'.toNat = 57 from rfl, show 'A'.toNat = 65 from rfl,
    show 'F'.toNat = 70 from rfl, show 'a'.toNat = 97 from rfl, show 'f'.toNat = 102 from rfl] at h
  split at h
  · simp only [Option.some.injEq] at h
    split <;> split <;> omega
  · split at h
    · simp only [Option.some.injEq] at h
      split <;> split <;> omega
    · split at h
      · simp only [Option.some.injEq] at h
        split <;> split <;> omega
      · simp at h

theorem unicode_panic {l rest : List Nat} {v : Nat} (h : scanUnicode 0 8 l = (some v, rest))
    (hv : v = 0xFFFFFFFD) : ∃ rs, l = rs ++ rest ∧ rs.map upperHex = runes "FFFFFFFD" := by
  obtain ⟨rs, ds, h1, h2, h3, h4⟩ := scanUnicode_digits 8 0 l v rest h
  refine ⟨rs, h1, ?_⟩
  have hl : ∀ d ∈ ds, d < 16 := by
    intro d hd
    have : some d ∈ rs.map hexDigit := by rw [h3]; exact List.mem_map.2 ⟨d, hd, rfl⟩
    obtain ⟨r, _, hr⟩ := List.mem_map.1 this
    exact hex_lt ((hexDigit_iff r d).1 hr)
  have hu : rs.map upperHex = ds.map fun d => if d < 10 then 48 + d else 55 + d := by
    clear h1 h2 h4 hl h
    induction rs generalizing ds with
    | nil =>
      cases ds with
      | nil => rfl
      | cons d ds => simp at h3
    | cons r rs ih =>
      cases ds with
      | nil => simp at h3
      | cons d ds =>
        simp only [List.map_cons, List.cons.injEq] at h3 ⊢
        exact ⟨hexDigit_upper h3.1, ih ds h3.2⟩
  rw [hu]
  match ds, h2 with
  | [a, b, c, d, e, f, g, i], _ =>
    simp only [List.mem_cons, List.not_mem_nil, or_false, forall_eq_or_imp, forall_eq] at hl
    simp only [List.foldl_cons, List.foldl_nil] at h4
    obtain ⟨ha, hb, hc, hd, he, hf, hg, hi⟩ := hl
    have : a = 15 ∧ b = 15 ∧ c = 15 ∧ d = 15 ∧ e = 15 ∧ f = 15 ∧ g = 15 ∧ i = 13 := by omega
    obtain ⟨rfl, rfl, rfl, rfl, rfl, rfl, rfl, rfl⟩ := this
    rfl

theorem scanUnicode_lt : ∀ (n u : Nat) (l : List Nat) (v : Nat) (rest : List Nat),
    scanUnicode u n l = (some v, rest) → v < (u + 1) * 16 ^ n
  | 0, u, l, v, rest, h => by
    simp [scanUnicode] at h
    omega
  | n + 1, u, [], v, rest, h => by simp [scanUnicode] at h
  | n + 1, u, r :: l, v, rest, h => by
    unfold scanUnicode at h
    split at h
    · simp at h
    · rename_i d hd
      have h1 := hex_lt ((hexDigit_iff r d).1 hd)
      have h2 := scanUnicode_lt n _ l v rest h
      have : (u * 16 + d + 1) * 16 ^ n ≤ (u + 1) * 16 ^ (n + 1) := by
        rw [Nat.pow_succ, Nat.mul_comm (16 ^ n), ← Nat.mul_assoc]
        exact Nat.mul_le_mul_right _ (by omega)
      omega

theorem scanOctal_lt : ∀ (n u : Nat) (l : List Nat) (v : Nat) (rest : List Nat), u < 256 →
    scanOctal u n l = (some v, rest) → v < 256
  | 0, u, l, v, rest, hu, h => by
    simp [scanOctal] at h
    omega
  | n + 1, u, [], v, rest, hu, h => by simp [scanOctal] at h
  | n + 1, u, r :: l, v, rest, hu, h => by
    unfold scanOctal at h
    split at h
    · simp at h
    · exact scanOctal_lt n _ l v rest (Nat.mod_lt _ (by decide)) h

theorem toRune_small {u : Nat} (h : u < 2 ^ 31) : toRune u = u := by
  unfold toRune
  rw [BitVec.toInt_eq_toNat_cond, BitVec.toNat_ofNat, Nat.mod_eq_of_lt (by omega)]
  split <;> omega

/-- The rune -3 is written `\UFFFFFFFD`. -/
theorem escape_nil {l rest : List Nat} (h : scanEscape l = (some (-3), rest)) :
    ∃ ds, ds.map upperHex = runes "FFFFFFFD" ∧ l = 85 :: (ds ++ rest) := by
  cases l with
  | nil => simp [scanEscape] at h
  | cons r l =>
    simp only [scanEscape] at h
    split at h
    · rename_i c _
      simp at h
    · by_cases c1 : r = 'x'.toNat
      · rw [if_pos c1] at h
        cases hu : scanUnicode 0 2 l with
        | mk o rest2 =>
          rw [hu] at h
          cases o with
          | none => simp at h
          | some u =>
            have := scanUnicode_lt 2 0 l u rest2 hu
            rw [Option.map_some, toRune_small (by omega)] at h
            simp at h
      · rw [if_neg c1] at h
        by_cases c2 : r = 'u'.toNat
        · rw [if_pos c2] at h
          cases hu : scanUnicode 0 4 l with
          | mk o rest2 =>
            rw [hu] at h
            cases o with
            | none => simp at h
            | some u =>
              have := scanUnicode_lt 4 0 l u rest2 hu
              rw [Option.map_some, toRune_small (by omega)] at h
              simp at h
        · rw [if_neg c2] at h
          by_cases c3 : r = 'U'.toNat
          · rw [if_pos c3] at h
            cases hu : scanUnicode 0 8 l with
            | mk o rest2 =>
              rw [hu] at h
              cases o with
              | none => simp at h
              | some u =>
                have hlt := scanUnicode_lt 8 0 l u rest2 hu
                simp only [Option.map_some, Prod.mk.injEq, Option.some.injEq] at h
                obtain ⟨hr, rfl⟩ := h
                have hv : u = 0xFFFFFFFD := by
                  unfold toRune at hr
                  rw [BitVec.toInt_eq_toNat_cond, BitVec.toNat_ofNat,
                    Nat.mod_eq_of_lt (by omega)] at hr
                  split at hr <;> omega
                obtain ⟨rs, h1, h2⟩ := unicode_panic hu hv
                exact ⟨rs, h2, by rw [c3, h1]; rfl⟩
          · rw [if_neg c3] at h
            by_cases c4 : '0'.toNat ≤ r ∧ r ≤ '7'.toNat
            · rw [if_pos c4] at h
              cases hu : scanOctal (r - '0'.toNat) 2 l with
              | mk o rest2 =>
                rw [hu] at h
                cases o with
                | none => simp at h
                | some u =>
                  have := scanOctal_lt 2 _ l u rest2 (by
                    have : '7'.toNat = 55 := rfl
                    omega) hu
                  rw [Option.map_some, toRune_small (by omega)] at h
                  simp at h
            · rw [if_neg c4] at h
              simp at h

theorem quoted_nil (esc : Bool) : ∀ (n : Nat) (l : List Nat), l.length ≤ n → ∀ buf : Bytes,
    (scanQuotedConstant false esc buf l).1 = some true → PanicEscape l := by
  intro n
  induction n with
  | zero =>
    intro l hl buf h
    have : l = [] := List.length_eq_zero_iff.1 (by omega)
    subst this
    rw [scanQuotedConstant.eq_def] at h
    simp at h
  | succ n ih =>
    intro l hl buf h
    cases l with
    | nil =>
      rw [scanQuotedConstant.eq_def] at h
      simp at h
    | cons r rest =>
      have hlen : rest.length ≤ n := by simpa using hl
      rw [quoted_cons] at h
      by_cases hq : r = 39
      · rw [if_pos hq] at h
        cases rest with
        | nil => simp at h
        | cons r2 rest2 =>
          simp only at h
          by_cases hs : isSpace r2 = true
          · rw [if_pos hs] at h
            have hd : rest2.dropWhile isSpace <:+ rest2 := List.dropWhile_suffix _
            cases e : rest2.dropWhile isSpace with
            | nil => rw [e] at h; simp at h
            | cons r3 rest3 =>
              rw [e] at h hd
              simp only at h
              have hsuf : rest3 <:+ r :: r2 :: rest2 :=
                (((List.suffix_cons r3 rest3).trans hd).trans (List.suffix_cons r2 rest2)).trans
                  (List.suffix_cons r _)
              split at h
              · refine panicEscape_suffix (ih rest3 ?_ buf h) hsuf
                have := hd.length_le
                simp at this hlen
                omega
              · simp at h
          · rw [if_neg hs] at h
            split at h
            · simp at h
            · refine panicEscape_suffix (ih rest2 (by simp at hlen; omega) _ h) ?_
              exact (List.suffix_cons r2 rest2).trans (List.suffix_cons r _)
      · rw [if_neg hq] at h
        by_cases hb : r = 92 ∧ esc = true
        · rw [if_pos hb] at h
          have hsuf := escape_suffix rest
          cases e : scanEscape rest with
          | mk o rest2 =>
            rw [e] at h hsuf
            cases o with
            | none => simp at h
            | some c =>
              simp only at h
              split at h
              · simp at h
              · split at h
                · rename_i hc
                  subst hc
                  obtain ⟨ds, hds, rfl⟩ := escape_nil e
                  exact ⟨ds, hds, [], rest2, by rw [hb.1]; rfl⟩
                · refine panicEscape_suffix (ih rest2 ?_ _ h) (hsuf.trans (List.suffix_cons r rest))
                  have := hsuf.length_le
                  simp only at this
                  omega
        · rw [if_neg hb] at h
          exact panicEscape_suffix (ih rest hlen _ h) (List.suffix_cons r rest)

theorem identToken_error (env : ScanEnv) (b : Bytes) : env.identToken b ≠ .error true := by
  unfold ScanEnv.identToken
  split <;> simp

theorem numberToken_error (env : ScanEnv) (neg dbl : Bool) (b : Bytes) :
    env.numberToken neg dbl b ≠ .error true := by
  unfold ScanEnv.numberToken
  split <;> split <;> simp

theorem parameterToken_error (b : Bytes) : parameterToken b ≠ .error true := by
  unfold parameterToken
  split
  · simp
  · split <;> simp

theorem scanNumber_error (env : ScanEnv) (neg : Bool) : ∀ (l : List Nat) (dbl : Bool) (buf : Bytes),
    (scanNumber env false neg dbl buf l).token ≠ .error true
  | [], dbl, buf => numberToken_error _ _ _ _
  | r :: l, dbl, buf => by
    unfold scanNumber
    split
    · exact scanNumber_error env neg l _ _
    · split
      · exact scanNumber_error env neg l _ _
      · exact numberToken_error _ _ _ _

theorem quotedIdentifier_error (env : ScanEnv) (d : Nat) : ∀ (l : List Nat) (buf : Bytes),
    (scanQuotedIdentifier env d buf l).token ≠ .error true
  | [], buf => by simp [scanQuotedIdentifier]
  | r :: l, buf => by
    unfold scanQuotedIdentifier
    split
    · simp
    · exact quotedIdentifier_error env d l _

theorem hexBytes_error (buf : Bytes) (l : List Nat) : (scanHexBytes buf l).token ≠ .error true := by
  fun_induction scanHexBytes buf l <;> simp_all

theorem lookup_mem {α β : Type} [BEq α] [LawfulBEq α] {k : α} {v : β} :
    ∀ {l : List (α × β)}, l.lookup k = some v → (k, v) ∈ l
  | [], h => by simp at h
  | (a, b) :: l, h => by
    rw [List.lookup_cons] at h
    split at h
    · rename_i e
      cases h
      simp at e
      simp [e]
    · simp [lookup_mem h]

theorem operator_error (r : Nat) (l : List Nat) :
    (scanOperator false r l).token ≠ .error true := by
  cases l with
  | nil => simp [scanOperator]
  | cons r2 l =>
    simp only [scanOperator]
    by_cases c1 : r2 = '-'.toNat ∨ r2 = '+'.toNat
    · rw [if_pos c1]
      simp
    · rw [if_neg c1]
      by_cases c2 : isOpRune r2 = true
      · rw [if_pos c2]
        cases e : operators.lookup [r, r2] with
        | none => simp
        | some t =>
          have : ∀ p ∈ operators, p.2 ≠ .error true := by decide
          exact this _ (lookup_mem e)
      · rw [if_neg c2]
        simp

theorem string_error {esc : Bool} {l : List Nat} (h : (scanString false esc l).token = .error true) :
    PanicEscape l := by
  unfold scanString at h
  cases e : scanQuotedConstant false esc [] l with
  | mk o p =>
    rw [e] at h
    cases o with
    | none => simp at h
    | some b =>
      simp at h
      subst h
      exact quoted_nil esc _ l (Nat.le_refl _) [] (by rw [e])

theorem bytes_error {esc : Bool} {l : List Nat} (h : (scanBytes false esc l).token = .error true) :
    PanicEscape l := by
  unfold scanBytes at h
  cases e : scanQuotedConstant false esc [] l with
  | mk o p =>
    rw [e] at h
    cases o with
    | none => simp at h
    | some b =>
      simp at h
      subst h
      exact quoted_nil esc _ l (Nat.le_refl _) [] (by rw [e])

/-- An error that is nil comes from an escape `\U`. -/
theorem scan_error {env : ScanEnv} {l : List Nat} (h : (scan env false l).token = .error true) :
    PanicEscape l := by
  have hs := skip_spec l
  cases hk : skip .space l with
  | none =>
    have : scan env false l = ⟨.eof, [], []⟩ := by simp [scan, hk]
    rw [this] at h
    simp at h
  | some p =>
    obtain ⟨r, rest⟩ := p
    rw [hk] at hs
    obtain ⟨b, e, _⟩ := hs
    have hsuf : rest <:+ l := ⟨b ++ [r], by rw [e]; simp⟩
    revert h
    simp only [scan, hk]
    generalize hgoal : PanicEscape l = G
    have hG : ∀ m, m <:+ l → PanicEscape m → G := by
      intro m hm ho
      rw [← hgoal]
      exact panicEscape_suffix ho hm
    have ite : ∀ {c : Prop} [Decidable c] {x y : Scanned}, (x.token = .error true → G) →
        (y.token = .error true → G) → ((if c then x else y).token = .error true → G) := by
      intro c _ x y hx hy
      by_cases hc : c
      · rw [if_pos hc]; exact hx
      · rw [if_neg hc]; exact hy
    have ident : ∀ m buf, (scanIdentifier env false buf m).token = .error true → G := by
      intro m buf h
      rw [scanIdentifier_eq] at h
      exact absurd h (identToken_error _ _)
    have number : ∀ m neg dbl buf, (scanNumber env false neg dbl buf m).token = .error true → G :=
      fun m neg dbl buf h => absurd h (scanNumber_error env neg m dbl buf)
    have quoted : ∀ (f : List Nat → Scanned), (∀ m, (f m).token = .error true → PanicEscape m) →
        ((match reread false rest with
        | [] => scanIdentifier env false (runeBytes r) []
        | r2 :: rest2 =>
          if r2 = '\''.toNat then f rest2
          else scanIdentifier env false (runeBytes r) (r2 :: rest2)).token = .error true → G) := by
      intro f hf
      cases rest with
      | nil => exact ident _ _
      | cons r2 rest2 =>
        refine ite (fun h => hG rest2 ?_ (hf _ h)) (ident _ _)
        exact (List.suffix_cons r2 rest2).trans hsuf
    have sign : ∀ neg, ((match rest with
        | [] => (⟨.rune r, [], reread false []⟩ : Scanned)
        | r2 :: rest2 =>
          if env.digit r2 then scanNumber env false neg false (runeBytes r2) rest2
          else ⟨.rune r, [], r2 :: rest2⟩).token = .error true → G) := by
      intro neg
      cases rest with
      | nil => exact fun h => by simp at h
      | cons r2 rest2 => exact ite (number _ _ _ _) (fun h => by simp at h)
    refine ite (fun h => by simp at h) ?_
    refine ite (quoted _ fun m h => string_error h) ?_
    refine ite (quoted _ fun m h => bytes_error h) ?_
    refine ite (quoted _ fun m h => absurd h (hexBytes_error _ _)) ?_
    refine ite (ident _ _) ?_
    refine ite (number _ _ _ _) ?_
    refine ite (sign _) ?_
    refine ite (sign _) ?_
    refine ite (fun h => absurd h (quotedIdentifier_error _ _ _ _)) ?_
    refine ite (fun h => absurd h (quotedIdentifier_error _ _ _ _)) ?_
    refine ite (fun h => hG rest hsuf (string_error h)) ?_
    refine ite (fun h => absurd h (operator_error _ _)) ?_
    refine ite (fun h => by simp at h) ?_
    refine ite ?_ (fun h => by simp at h)
    cases rest with
    | nil => exact fun h => by simp at h
    | cons r2 rest2 =>
      refine ite (fun h => ?_) (fun h => by simp at h)
      rw [scanParameter_eq] at h
      exact absurd h (parameterToken_error _)

/-- The tokens of an input. -/
theorem tokenize_clean {env : ScanEnv} {l : List Nat} (h : ¬ PanicEscape l) :
    Clean (tokenize env l) := by
  constructor
  · intro hm
    obtain ⟨_, m, h1, h2⟩ := tokenize_mem hm
    exact h (panicEscape_suffix (scan_error h2) h1)
  · intro hm
    exact (tokenize_mem hm).1 rfl

theorem afterSemicolon_suffix (m : List Token) : afterSemicolon m <:+ m := by
  fun_induction afterSemicolon m with
  | case1 => exact List.suffix_refl _
  | case2 rest => exact List.suffix_cons _ _
  | case3 t rest h ih => exact ih.trans (List.suffix_cons _ _)

/-- The calls return statements and errors, and then the end of the input, or one panics. -/
theorem calls_end_any {env : ParseEnv} {ts : List Token} (hc : Token.eof ∉ ts) :
    ∃ k ≤ ts.length, (parsedAt env ts k = .eof ∨ (parsedAt env ts k = .panic ∧
        (Token.error true ∈ ts ∨ ∃ m, m <:+ ts ∧ NullSetting m))) ∧
      ∀ j < k, (∃ s, parsedAt env ts j = .stmt s) ∨ parsedAt env ts j = .error := by
  have inv : ∀ k, ((afterCalls env ts k).2 <:+ ts ∧ (afterCalls env ts k).2.length + k ≤ ts.length ∧
        ∀ j < k, (∃ s, parsedAt env ts j = .stmt s) ∨ parsedAt env ts j = .error) ∨
      ∃ k ≤ ts.length, (parsedAt env ts k = .eof ∨ (parsedAt env ts k = .panic ∧
        (Token.error true ∈ ts ∨ ∃ m, m <:+ ts ∧ NullSetting m))) ∧
        ∀ j < k, (∃ s, parsedAt env ts j = .stmt s) ∨ parsedAt env ts j = .error := by
    intro k
    induction k with
    | zero => exact Or.inl ⟨List.suffix_refl _, Nat.le_refl _, fun j h => absurd h (Nat.not_lt_zero j)⟩
    | succ k ih =>
      rcases ih with ⟨h1, h2, h3⟩ | h
      · have hp := parse_any (env := env) (failed := (afterCalls env ts k).1)
          fun h => hc (h1.subset h)
        rcases hp with ⟨p1, p2⟩ | ⟨p1, p2, p3⟩ | ⟨p1, _⟩
        · refine Or.inr ⟨k, by omega, .inr ⟨p1, ?_⟩, h3⟩
          rcases p2 with p2 | p2
          · exact .inl (h1.subset p2)
          · refine .inr ⟨_, ?_, p2⟩
            split
            · exact (afterSemicolon_suffix _).trans h1
            · exact h1
        · refine Or.inl ⟨p2.trans h1, ?_, ?_⟩
          · have : (afterCalls env ts (k + 1)).2.length < (afterCalls env ts k).2.length := p3
            omega
          · intro j hj
            by_cases e : j = k
            · subst e; exact p1
            · exact h3 j (by omega)
        · exact Or.inr ⟨k, by omega, .inl p1, h3⟩
      · exact Or.inr h
  rcases inv (ts.length + 1) with ⟨_, h, _⟩ | h
  · omega
  · exact h

/-- The calls of `Parse` reach the end of the input. -/
theorem calls_end {env : ParseEnv} {ts : List Token} (hc : Clean ts)
    (hn : ∀ m, m <:+ ts → ¬ NullSetting m) :
    ∃ k ≤ ts.length, parsedAt env ts k = .eof ∧
      ∀ j < k, (∃ s, parsedAt env ts j = .stmt s) ∨ parsedAt env ts j = .error := by
  obtain ⟨k, h1, h2 | ⟨-, h2 | ⟨m, h2, h4⟩⟩, h3⟩ := calls_end_any (env := env) hc.2
  · exact ⟨k, h1, h2, h3⟩
  · exact absurd h2 hc.1
  · exact absurd h4 (hn m h2)

end Maho
