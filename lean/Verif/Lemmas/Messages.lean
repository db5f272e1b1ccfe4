import Verif.Spec.Messages
import Verif.Lemmas.Lookback
import Verif.Lemmas.Value
/-
Helper lemmas for C90.
-/
namespace Maho.Msg
open Maho Maho.Spec

/-! ### The ring -/

/-- The ring stands before token `pos`, and holds the last three tokens, with what is left in the
field `String`. -/
structure CtxHolds (stream : Nat → Token) (r : CtxRing) (pos : Nat) : Prop where
  place : pos + r.unscanned = r.scanned
  behind : r.unscanned ≤ 3
  current : r.current = pos % 3
  slots : ∀ i, i < r.scanned → r.scanned ≤ i + 3 →
    (r.lookBack ((i + 1) % 3)).token = stream i ∧
      LeftOver stream i (r.lookBack ((i + 1) % 3)).string
  fresh : ∀ i, r.scanned ≤ i → i < 3 → (r.lookBack ((i + 1) % 3)).string = []

theorem CtxHolds.new (stream : Nat → Token) : CtxHolds stream CtxRing.new 0 :=
  ⟨rfl, by decide, rfl, fun i h => absurd h (by simp [CtxRing.new]), fun _ _ _ => rfl⟩

theorem scanned_leftOver {stream : Nat → Token} {c : ScanCtx} {k : Nat}
    (h1 : k < 3 → c.string = []) (h2 : ∀ i, k = i + 3 → LeftOver stream i c.string) :
    LeftOver stream k (c.scanned (stream k)).string := by
  by_cases hs : ∃ s, stream k = .string s
  · obtain ⟨s, hs⟩ := hs
    have : ((c.scanned (stream k)).string) = s := by rw [hs]; rfl
    rw [this]
    exact .own hs
  · have hs : ∀ s, stream k ≠ .string s := fun s e => hs ⟨s, e⟩
    have e : (c.scanned (stream k)).string = c.string := by
      cases ht : stream k <;> first | rfl | exact absurd ht (hs _)
    rw [e]
    by_cases hk : k < 3
    · rw [h1 hk]
      exact .absent hk hs
    · obtain ⟨i, rfl⟩ : ∃ i, k = i + 3 := ⟨k - 3, by omega⟩
      exact .earlier hs (h2 i rfl)

theorem CtxHolds.scan {stream : Nat → Token} {r : CtxRing} {pos : Nat} (h : CtxHolds stream r pos) :
    ((r.scan stream).1.token = stream pos ∧ LeftOver stream pos (r.scan stream).1.string) ∧
      CtxHolds stream (r.scan stream).2 (pos + 1) ∧
      (r.scan stream).2.scanned = max r.scanned (pos + 1) := by
  obtain ⟨h1, h2, h3, h4, h5⟩ := h
  unfold CtxRing.scan
  have hc : (r.current + 1) % 3 = (pos + 1) % 3 := by omega
  simp only [hc]
  split
  · refine ⟨h4 pos (by omega) (by omega), ⟨?_, ?_, rfl, h4, h5⟩, ?_⟩ <;> simp only <;> omega
  · have hp : r.scanned = pos := by omega
    have hl : LeftOver stream pos ((r.lookBack ((pos + 1) % 3)).scanned (stream pos)).string := by
      apply scanned_leftOver
      · intro hk
        exact h5 pos (by omega) hk
      · intro i hi
        have := (h4 i (by omega) (by omega)).2
        have e : (i + 1) % 3 = (pos + 1) % 3 := by omega
        rwa [e] at this
    refine ⟨by rw [hp]; exact ⟨rfl, hl⟩, ⟨?_, by simp, rfl, ?_, ?_⟩, ?_⟩
    · simp [hp]
    · intro i hi1 hi2
      simp only at hi1 hi2 ⊢
      by_cases e : i = pos
      · subst e
        rw [if_pos rfl, hp]
        exact ⟨rfl, hl⟩
      · rw [if_neg (by omega)]
        exact h4 i (by omega) (by omega)
    · intro i hi1 hi2
      simp only at hi1 ⊢
      rw [if_neg (by omega)]
      exact h5 i (by omega) hi2
    · simp only
      omega

theorem CtxHolds.unscan {stream : Nat → Token} {r : CtxRing} {pos : Nat}
    (h : CtxHolds stream r pos) (hp : 0 < pos) (hn : r.scanned < pos + 3) :
    ∃ r2, r.unscan = .ok r2 ∧ CtxHolds stream r2 (pos - 1) ∧ r2.scanned = r.scanned := by
  obtain ⟨h1, h2, h3, h4, h5⟩ := h
  unfold CtxRing.unscan
  rw [if_neg (by omega)]
  refine ⟨_, rfl, ⟨?_, ?_, ?_, h4, h5⟩, rfl⟩ <;> simp only
  · omega
  · omega
  · split <;> omega

theorem after_holds {stream : Nat → Token} : ∀ (calls : List RingCall) (r : CtxRing) (pos : Nat),
    CtxHolds stream r pos → Near pos r.scanned calls →
      ∃ r2, r.after stream calls = .ok r2 ∧ CtxHolds stream r2 (placeAfter pos calls)
  | [], r, _, h, _ => ⟨r, rfl, h⟩
  | .scan :: calls, r, pos, h, hn => by
    obtain ⟨-, e2, e3⟩ := h.scan
    exact after_holds calls _ _ e2 (by rw [e3]; exact hn)
  | .unscan :: calls, r, pos, h, hn => by
    obtain ⟨hp, hf, hn⟩ := hn
    obtain ⟨r2, e1, e2, e3⟩ := h.unscan hp hf
    have := after_holds calls _ _ e2 (by rw [e3]; exact hn)
    simpa only [CtxRing.after, e1, placeAfter] using this

theorem leftOver_own {stream : Nat → Token} {k : Nat} {s t : Bytes} (h : LeftOver stream k s)
    (e : stream k = .string t) : s = t := by
  cases h with
  | own h => rw [e] at h; cases h; rfl
  | earlier h _ => exact absurd e (h t)
  | absent _ h => exact absurd e (h t)

theorem leftOver_unique {stream : Nat → Token} {k : Nat} {s t : Bytes} (h1 : LeftOver stream k s)
    (h2 : LeftOver stream k t) : s = t := by
  induction h1 with
  | own h => exact (leftOver_own h2 h).symm
  | earlier h _ ih =>
    cases h2 with
    | own h' => exact absurd h' (h _)
    | earlier _ h' => exact ih h'
    | absent h' _ => omega
  | absent hk h =>
    cases h2 with
    | own h' => exact absurd h' (h _)
    | earlier _ _ => omega
    | absent _ _ => rfl

theorem bare_scan (stream : Nat → Token) (r : CtxRing) :
    (bareRing r).scan stream = ((r.scan stream).1.token, bareRing (r.scan stream).2) := by
  unfold Ring.scan CtxRing.scan bareRing
  simp only
  split
  · rfl
  · simp only [ScanCtx.scanned, Prod.mk.injEq, Ring.mk.injEq, true_and, and_true]
    funext i
    split <;> rfl

/-! ### Texts -/

theorem cut_at {p : Byte → Prop} {c d : Byte} {u v : Bytes} (hc : ¬ p c) (hd : ¬ p d) :
    ∀ {a b : Bytes}, (∀ x ∈ a, p x) → (∀ x ∈ b, p x) → a ++ c :: u = b ++ d :: v →
      a = b ∧ c :: u = d :: v
  | [], [], _, _, h => ⟨rfl, h⟩
  | [], b :: bs, _, hb, h => by
    simp only [List.nil_append, List.cons_append, List.cons.injEq] at h
    exact absurd (h.1 ▸ hb b (by simp)) hc
  | a :: as, [], ha, _, h => by
    simp only [List.nil_append, List.cons_append, List.cons.injEq] at h
    exact absurd (h.1 ▸ ha a (by simp)) hd
  | a :: as, b :: bs, ha, hb, h => by
    simp only [List.cons_append, List.cons.injEq] at h
    obtain ⟨rfl, h⟩ := h
    obtain ⟨e, h2⟩ := cut_at hc hd (fun x hx => ha x (by simp [hx])) (fun x hx => hb x (by simp [hx])) h
    exact ⟨by rw [e], h2⟩

/-! ### Numbers -/

def IsDigitByte (b : Byte) : Prop := 48 ≤ b.toNat ∧ b.toNat ≤ 57

theorem natDigits_digits (n : Nat) : ∀ b ∈ natDigits n, IsDigitByte b := (natDigits_decimal n).2.1

theorem natDigits_inj {m n : Nat} (h : natDigits m = natDigits n) : m = n := by
  have hm := natDigits_decimal m
  have hn := natDigits_decimal n
  rw [h] at hm
  exact hm.2.2.symm.trans hn.2.2

theorem minus_not_digit {n : Nat} {u v : Bytes} : 45#8 :: u ≠ natDigits n ++ v := by
  intro h
  obtain ⟨hne, hd, -⟩ := natDigits_decimal n
  cases e : natDigits n with
  | nil => exact hne e
  | cons b bs =>
    rw [e, List.cons_append, List.cons.injEq] at h
    have := hd b (by simp [e])
    rw [← h.1] at this
    exact absurd this (by decide)

theorem formatInt_cut {i j : Int} {c d : Byte} {u v : Bytes} (hc : ¬ IsDigitByte c)
    (hd : ¬ IsDigitByte d) (h : formatInt i ++ c :: u = formatInt j ++ d :: v) :
    i = j ∧ c :: u = d :: v := by
  unfold formatInt at h
  split at h <;> split at h
  · rw [List.cons_append, List.cons_append, List.cons.injEq] at h
    obtain ⟨e, h⟩ := cut_at hc hd (natDigits_digits _) (natDigits_digits _) h.2
    have := natDigits_inj e
    exact ⟨by omega, h⟩
  · exact absurd h minus_not_digit
  · exact absurd h.symm minus_not_digit
  · obtain ⟨e, h⟩ := cut_at hc hd (natDigits_digits _) (natDigits_digits _) h
    have := natDigits_inj e
    exact ⟨by omega, h⟩

theorem formatInt_inj {i j : Int} (h : formatInt i = formatInt j) : i = j :=
  (formatInt_cut (c := 0#8) (d := 0#8) (u := []) (v := []) (by simp [IsDigitByte])
    (by simp [IsDigitByte]) (by rw [h])).1

theorem natDigits_step {n : Nat} (h : 10 ≤ n) :
    natDigits n = natDigits (n / 10) ++ [BitVec.ofNat 8 (48 + n % 10)] := by
  rw [natDigits, if_neg (by omega)]

theorem natDigits_seven {r : Nat} (h : r < 1000000) : ∃ t, natDigits (1000000 + r) = 49#8 :: t := by
  rw [natDigits_step (by omega), natDigits_step (by omega), natDigits_step (by omega),
    natDigits_step (by omega), natDigits_step (by omega), natDigits_step (by omega)]
  have : (1000000 + r) / 10 / 10 / 10 / 10 / 10 / 10 = 1 := by omega
  rw [this]
  have e : natDigits 1 = [49#8] := by rw [natDigits]; rfl
  rw [e]
  simp only [List.cons_append, List.nil_append]
  exact ⟨_, rfl⟩

theorem millionths_inj {m n : Nat} (h : millionths m = millionths n) : m = n := by
  unfold millionths at h
  have hdot : ascii "." = [46#8] := by decide +kernel
  simp only [hdot, List.append_assoc, List.cons_append, List.nil_append] at h
  obtain ⟨h1, h2⟩ := cut_at (p := IsDigitByte) (by simp [IsDigitByte]) (by simp [IsDigitByte])
    (natDigits_digits _) (natDigits_digits _) h
  have h1 := natDigits_inj h1
  obtain ⟨s, hs⟩ := natDigits_seven (r := m % 1000000) (by omega)
  obtain ⟨t, ht⟩ := natDigits_seven (r := n % 1000000) (by omega)
  rw [hs, ht] at h2
  simp only [List.drop_succ_cons, List.drop_zero, List.cons.injEq, true_and] at h2
  rw [h2, ← ht] at hs
  have := natDigits_inj hs
  omega

theorem nearest_of (x U : Nat) (hU : 0 < U) :
    let n := if U < 2 * (x % U) ∨ (U = 2 * (x % U) ∧ x / U % 2 = 1) then x / U + 1 else x / U
    2 * (n * U) ≤ 2 * x + U ∧ 2 * x ≤ 2 * (n * U) + U := by
  intro n
  have hx := Nat.div_add_mod x U
  have hr := Nat.mod_lt x hU
  rw [Nat.mul_comm] at hx
  change 2 * ((if U < 2 * (x % U) ∨ (U = 2 * (x % U) ∧ x / U % 2 = 1) then x / U + 1 else x / U) * U) ≤
      2 * x + U ∧ 2 * x ≤
      2 * ((if U < 2 * (x % U) ∨ (U = 2 * (x % U) ∧ x / U % 2 = 1) then x / U + 1 else x / U) * U) + U
  split
  · next h =>
    rw [Nat.add_mul, Nat.one_mul]
    generalize x / U * U = q at hx ⊢
    omega
  · next h =>
    generalize x / U * U = q at hx ⊢
    omega

theorem unit_pos : 0 < F64.unit := by unfold F64.unit; exact Nat.two_pow_pos _

theorem nearest_millionth (f : F64) : Millionth (nearestMillionth (F64.mag f)) f :=
  nearest_of (F64.magScaled (F64.mag f) * 1000000) F64.unit unit_pos

theorem finite_nan {f : F64} (hf : F64.isFinite f = true) : F64.isNaN f = false := by
  simp only [F64.isFinite, F64.isNaN, decide_eq_true_eq, decide_eq_false_iff_not] at hf ⊢
  omega

theorem minus_millionths {n : Nat} {u : Bytes} : (45#8 :: u : Bytes) ≠ millionths n := by
  intro e
  unfold millionths at e
  rw [List.append_assoc] at e
  exact minus_not_digit e

theorem formatF_finite {f : F64} (hf : F64.isFinite f = true) :
    formatF f =
      (if F64.sign f then [45#8] else []) ++ millionths (nearestMillionth (F64.mag f)) := by
  have hm : ascii "-" = [45#8] := by decide +kernel
  unfold formatF
  rw [finite_nan hf, hf, if_neg Bool.false_ne_true, if_pos rfl, hm]

theorem signed_inj {m n : Nat} {s t : Bool}
    (h : (if s then [45#8] else []) ++ millionths m = (if t then [45#8] else []) ++ millionths n) :
    s = t ∧ m = n := by
  cases s <;> cases t <;>
    simp only [Bool.false_eq_true, if_false, if_true, List.nil_append, List.cons_append,
      List.cons.injEq, true_and] at h
  · exact ⟨rfl, millionths_inj h⟩
  · exact absurd h.symm minus_millionths
  · exact absurd h minus_millionths
  · exact ⟨rfl, millionths_inj h⟩

theorem formatF_alike {a b : F64} (ha : F64.isFinite a = true) (hb : F64.isFinite b = true)
    (h : formatF a = formatF b) :
    ∃ n, F64.sign a = F64.sign b ∧ Millionth n a ∧ Millionth n b := by
  rw [formatF_finite ha, formatF_finite hb] at h
  obtain ⟨h1, h2⟩ := signed_inj h
  refine ⟨nearestMillionth (F64.mag a), h1, nearest_millionth a, ?_⟩
  rw [h2]
  exact nearest_millionth b

/-! ### Names of tokens -/

theorem runeBytes_ascii {r : Nat} (h : r < 128) : runeBytes r = [BitVec.ofNat 8 r] := by
  unfold runeBytes
  rw [if_neg (by omega)]
  simp only [Int.toNat_natCast]
  rw [if_pos (by omega)]

theorem formatToken_rune {r : Nat} (h0 : 0 < r) (h : r < 128) :
    formatToken (Token.rune r).number = [114#8, 117#8, 110#8, 101#8, 32#8, BitVec.ofNat 8 r] := by
  unfold formatToken Token.number
  rw [if_pos (by simpa using h0), runeBytes_ascii h]
  have : ascii "rune " = [114#8, 117#8, 110#8, 101#8, 32#8] := by decide +kernel
  rw [this]; rfl

theorem byte_inj {a b : Nat} (ha : a < 128) (hb : b < 128)
    (h : BitVec.ofNat 8 a = BitVec.ofNat 8 b) : a = b := by
  have := congrArg BitVec.toNat h
  simp only [BitVec.toNat_ofNat] at this
  omega

/-- The kind of a token, by the first two bytes of its text. -/
def textKind : Bytes → Nat
  | a :: b :: s =>
    if a = 101#8 then (if s.length = 9 then 1 else 2)
    else if a = 105#8 then (if b = 100#8 then 3 else 4)
    else if a = 114#8 then (if b = 101#8 then 5 else 6)
    else if a = 115#8 then 7
    else if a = 102#8 then 8
    else if a = 124#8 then 9
    else if a = 60#8 then (if b = 60#8 then 10 else if b = 61#8 then 11 else 12)
    else if a = 62#8 then (if b = 62#8 then 13 else 14)
    else if a = 61#8 then 15
    else 16
  | _ => 0

def tokenKind : Token → Nat
  | .eof => 1
  | .endOfStatement => 2
  | .identifier _ => 3
  | .integer _ => 4
  | .reserved _ => 5
  | .rune _ => 6
  | .string _ => 7
  | .float _ => 8
  | .barBar => 9
  | .lessLess => 10
  | .lessEqual => 11
  | .lessGreater => 12
  | .greaterGreater => 13
  | .greaterEqual => 14
  | .equalEqual => 15
  | .bangEqual => 16
  | .error _ => 0
  | .bytes _ => 0
  | .parameter _ => 0

theorem got_kind {env : MessageEnv} {c : ScanCtx} {s : Bytes} (nc : Nameable c.token)
    (h : got env c = .ok s) : textKind s = tokenKind c.token := by
  obtain ⟨t, x⟩ := c
  change Nameable t at nc
  change textKind s = tokenKind t
  have e3 : ascii "identifier " = 105#8 :: 100#8 :: ascii "entifier " := by decide +kernel
  have e4 : ascii "reserved identifier " = 114#8 :: 101#8 :: ascii "served identifier " := by
    decide +kernel
  have e5 : ascii "string " = 115#8 :: 116#8 :: ascii "ring " := by decide +kernel
  have e6 : ascii "integer " = 105#8 :: 110#8 :: ascii "teger " := by decide +kernel
  have e7 : ascii "float " = 102#8 :: 108#8 :: ascii "oat " := by decide +kernel
  cases t <;> simp only [got] at h
  case error => exact nc.elim
  case bytes => exact nc.elim
  case parameter => exact nc.elim
  case rune r =>
    obtain ⟨n0, n1⟩ := nc
    rw [formatToken_rune n0 n1] at h
    cases h; rfl
  case identifier => rw [e3] at h; cases h; rfl
  case reserved => rw [e4] at h; cases h; rfl
  case string => rw [e5] at h; cases h; rfl
  case integer => rw [e6] at h; cases h; rfl
  case float => rw [e7] at h; cases h; rfl
  all_goals
    cases h
    decide +kernel

theorem kind_identifier {u : Token} (h : tokenKind u = 3) : ∃ b, u = .identifier b := by
  cases u <;> first | exact ⟨_, rfl⟩ | exact nomatch h

theorem kind_integer {u : Token} (h : tokenKind u = 4) : ∃ b, u = .integer b := by
  cases u <;> first | exact ⟨_, rfl⟩ | exact nomatch h

theorem kind_reserved {u : Token} (h : tokenKind u = 5) : ∃ b, u = .reserved b := by
  cases u <;> first | exact ⟨_, rfl⟩ | exact nomatch h

theorem kind_rune {u : Token} (h : tokenKind u = 6) : ∃ b, u = .rune b := by
  cases u <;> first | exact ⟨_, rfl⟩ | exact nomatch h

theorem kind_string {u : Token} (h : tokenKind u = 7) : ∃ b, u = .string b := by
  cases u <;> first | exact ⟨_, rfl⟩ | exact nomatch h

theorem kind_float {u : Token} (h : tokenKind u = 8) : ∃ b, u = .float b := by
  cases u <;> first | exact ⟨_, rfl⟩ | exact nomatch h

/-- The texts of the tokens tell them apart. -/
theorem got_alike {env : MessageEnv} {c d : ScanCtx} {s : Bytes} (hc : Own c) (hd : Own d)
    (nc : Nameable c.token) (nd : Nameable d.token) (h1 : got env c = .ok s)
    (h2 : got env d = .ok s) : NamedAlike env.toParseEnv c.token d.token := by
  have hk := (got_kind nd h2).symm.trans (got_kind nc h1)
  rw [← h2] at h1
  clear h2
  obtain ⟨t, x⟩ := c
  obtain ⟨u, y⟩ := d
  change tokenKind u = tokenKind t at hk
  change Nameable t at nc
  change Nameable u at nd
  change NamedAlike env.toParseEnv t u
  cases t
  case error => exact nc.elim
  case bytes => exact nc.elim
  case parameter => exact nc.elim
  case identifier a =>
    obtain ⟨b, rfl⟩ := kind_identifier hk
    simp only [got, Res.ok.injEq, List.append_cancel_left_eq] at h1
    exact .inr (.inl ⟨a, b, rfl, rfl, h1⟩)
  case reserved a =>
    obtain ⟨b, rfl⟩ := kind_reserved hk
    simp only [got, Res.ok.injEq, List.append_cancel_left_eq] at h1
    exact .inr (.inr (.inl ⟨a, b, rfl, rfl, h1⟩))
  case string a =>
    obtain ⟨b, rfl⟩ := kind_string hk
    simp only [got, Res.ok.injEq, List.append_cancel_left_eq] at h1
    have := env.quote_inj _ _ h1
    rw [show x = a from hc a rfl, show y = b from hd b rfl] at this
    rw [this]
    exact .inl rfl
  case integer a =>
    obtain ⟨b, rfl⟩ := kind_integer hk
    simp only [got, Res.ok.injEq, List.append_cancel_left_eq] at h1
    have := formatInt_inj h1
    rw [BitVec.eq_of_toInt_eq this]
    exact .inl rfl
  case float a =>
    obtain ⟨b, rfl⟩ := kind_float hk
    simp only [got, Res.ok.injEq, List.append_cancel_left_eq] at h1
    obtain ⟨n, h⟩ := formatF_alike nc nd h1
    exact .inr (.inr (.inr ⟨a, b, n, rfl, rfl, h⟩))
  case rune a =>
    obtain ⟨b, rfl⟩ := kind_rune hk
    simp only [got, Res.ok.injEq] at h1
    rw [formatToken_rune nc.1 nc.2, formatToken_rune nd.1 nd.2] at h1
    simp only [List.cons.injEq, true_and, and_true] at h1
    rw [byte_inj nc.2 nd.2 h1]
    exact .inl rfl
  all_goals
    clear h1
    cases u <;> first | exact .inl rfl | exact nomatch hk

/-! ### What was expected -/

/-- The names after the first one. -/
def orTail : List Bytes → Bytes
  | [] => []
  | [x] => ascii ", or " ++ x
  | x :: y :: xs => ascii ", " ++ x ++ orTail (y :: xs)

theorem listNames_tail : ∀ (xs : List Bytes) (i n : Nat), 0 < i → i + xs.length = n + 1 →
    listNames n i xs = orTail xs
  | [], _, _, _, _ => rfl
  | [x], i, n, h0, h => by
    have : i = n := by simpa using h
    simp [listNames, orTail, this]
  | x :: y :: xs, i, n, h0, h => by
    simp only [List.length_cons] at h
    have ih := listNames_tail (y :: xs) (i + 1) n (by omega) (by simp only [List.length_cons]; omega)
    rw [listNames, ih, if_neg (by omega), if_pos h0, orTail, List.append_assoc]

theorem expectedNames_eq (a : Bytes) (names : List Bytes) :
    expectedNames (a :: names) = a ++ orTail names := by
  cases names with
  | nil => simp [expectedNames, orTail]
  | cons b names =>
    rw [expectedNames]
    · have := listNames_tail (b :: names) 1 (names.length + 1) (by omega) (by simp; omega)
      simp only [List.length_cons, Nat.add_sub_cancel]
      rw [listNames, if_neg (by omega), if_neg (by omega), List.nil_append, this]
    · intro name; simp

theorem orList_eq (a : Bytes) (names : List Bytes) : orList (a :: names) = a ++ orTail names := by
  induction names generalizing a with
  | nil => simp [orList, orTail]
  | cons b names ih =>
    cases names with
    | nil => simp [orList, orTail]
    | cons d names => rw [orList, ih, orTail, List.append_assoc] <;> simp

/-- A list of names that ends in a separator can be taken apart again. -/
structure Names (N : Bytes → Prop) (sep : Bytes) : Prop where
  cut : ∀ a b u v, N a → N b → a ++ u = b ++ v →
    (u.head? = some 44#8 ∨ u.head? = some 59#8) → (v.head? = some 44#8 ∨ v.head? = some 59#8) →
    a = b ∧ u = v
  head : ∀ a, N a → ∃ x s, a = x :: s ∧ x ≠ 103#8 ∧ x ≠ 111#8
  sep : (∃ s, sep = 59#8 :: s) ∨ ∃ s, sep = 44#8 :: 32#8 :: 103#8 :: s

theorem Names.stop {N : Bytes → Prop} {sep : Bytes} (h : Names N sep) (xs : List Bytes) (w : Bytes) :
    ((orTail xs ++ (sep ++ w)).head? = some 44#8 ∨ (orTail xs ++ (sep ++ w)).head? = some 59#8) := by
  have e1 : ascii ", " = [44#8, 32#8] := by decide +kernel
  have e2 : ascii ", or " = [44#8, 32#8, 111#8, 114#8, 32#8] := by decide +kernel
  match xs with
  | [] =>
    rcases h.sep with ⟨s, e⟩ | ⟨s, e⟩ <;> simp [orTail, e]
  | [x] => simp [orTail, e2]
  | x :: y :: xs => simp [orTail, e1]

theorem Names.tail_inj {N : Bytes → Prop} {sep : Bytes} (h : Names N sep) {w v : Bytes} :
    ∀ {xs ys : List Bytes}, (∀ x ∈ xs, N x) → (∀ y ∈ ys, N y) →
      orTail xs ++ (sep ++ w) = orTail ys ++ (sep ++ v) → xs = ys ∧ w = v := by
  have e1 : ascii ", " = [44#8, 32#8] := by decide +kernel
  have e2 : ascii ", or " = [44#8, 32#8, 111#8, 114#8, 32#8] := by decide +kernel
  have nosep : ∀ (y : Bytes) (ys : List Bytes) (w v : Bytes), (∀ x ∈ y :: ys, N x) →
      sep ++ w ≠ orTail (y :: ys) ++ v := by
    intro y ys w v hN e
    obtain ⟨z, s, ez, h1, h2⟩ := h.head y (hN y (by simp))
    rcases h.sep with ⟨s', e'⟩ | ⟨s', e'⟩ <;> cases ys <;>
      simp [orTail, e1, e2, e', ez] at e
    exact h1 e.1.symm
  have noor : ∀ (x y y' : Bytes) (ys : List Bytes) (w v : Bytes), N y →
      orTail [x] ++ w ≠ orTail (y :: y' :: ys) ++ v := by
    intro x y y' ys w v hN e
    obtain ⟨z, s, ez, h1, h2⟩ := h.head y hN
    simp [orTail, e1, e2, ez] at e
    exact h2 e.1.symm
  intro xs
  induction xs with
  | nil =>
    intro ys _ hy e
    cases ys with
    | nil => exact ⟨rfl, by simpa [orTail] using e⟩
    | cons y ys => exact absurd e (nosep y ys w _ hy)
  | cons x xs ih =>
    intro ys hx hy e
    cases ys with
    | nil => exact absurd e.symm (nosep x xs v _ hx)
    | cons y ys =>
      cases xs with
      | nil =>
        cases ys with
        | nil =>
          simp only [orTail, List.append_assoc, List.append_cancel_left_eq] at e
          obtain ⟨rfl, e⟩ := h.cut _ _ _ _ (hx x (by simp)) (hy y (by simp)) e
            (by simpa [orTail] using h.stop [] w) (by simpa [orTail] using h.stop [] v)
          exact ⟨rfl, by simpa using e⟩
        | cons y' ys => exact absurd e (noor x y y' ys _ _ (hy y (by simp)))
      | cons x' xs =>
        cases ys with
        | nil => exact absurd e.symm (noor y x x' xs _ _ (hx x (by simp)))
        | cons y' ys =>
          rw [orTail, orTail, List.append_assoc, List.append_assoc, List.append_assoc,
            List.append_assoc, List.append_cancel_left_eq] at e
          obtain ⟨e0, e'⟩ := h.cut _ _ _ _ (hx x (by simp)) (hy y (by simp)) e
            (h.stop _ w) (h.stop _ v)
          obtain ⟨e1, e2⟩ := ih (ys := y' :: ys) (fun z hz => hx z (List.mem_cons_of_mem _ hz))
            (fun z hz => hy z (List.mem_cons_of_mem _ hz)) e'
          exact ⟨by rw [e0, e1], e2⟩

theorem Names.inj {N : Bytes → Prop} {sep : Bytes} (h : Names N sep) {w v : Bytes}
    {xs ys : List Bytes} (hx : ∀ x ∈ xs, N x) (hy : ∀ y ∈ ys, N y) (nx : xs ≠ []) (ny : ys ≠ [])
    (e : expectedNames xs ++ (sep ++ w) = expectedNames ys ++ (sep ++ v)) : xs = ys ∧ w = v := by
  cases xs with
  | nil => exact absurd rfl nx
  | cons x xs =>
    cases ys with
    | nil => exact absurd rfl ny
    | cons y ys =>
      rw [expectedNames_eq, expectedNames_eq, List.append_assoc, List.append_assoc] at e
      obtain ⟨e0, e'⟩ := h.cut _ _ _ _ (hx x (by simp)) (hy y (by simp)) e (h.stop _ w) (h.stop _ v)
      obtain ⟨e1, e2⟩ := h.tail_inj (fun z hz => hx z (List.mem_cons_of_mem _ hz))
        (fun z hz => hy z (List.mem_cons_of_mem _ hz)) e'
      exact ⟨by rw [e0, e1], e2⟩

theorem expectedNames_orList (names : List Bytes) : expectedNames names = orList names := by
  cases names with
  | nil => rfl
  | cons a names => rw [expectedNames_eq, orList_eq]

theorem keyword_names {env : ParseEnv} (h : NamesKeywords env) {id : Identifier} (hk : IsKeyword id) :
    env.string id ≠ [] ∧ ∀ x ∈ env.string id, 65 ≤ x.toNat ∧ x.toNat ≤ 90 := by
  obtain ⟨p, hp, rfl, hn⟩ := hk
  rw [h p hp hn]
  have : ∀ p ∈ keywordTable, p.2 < 0 →
      ascii p.1 ≠ [] ∧ ∀ x ∈ ascii p.1, 65 ≤ x.toNat ∧ x.toNat ≤ 90 := by decide +kernel
  exact this p hp hn

theorem keyword_inj {env : ParseEnv} (h : NamesKeywords env) {a b : Identifier} (ha : IsKeyword a)
    (hb : IsKeyword b) (e : env.string a = env.string b) : a = b := by
  obtain ⟨p, hp, rfl, hp0⟩ := ha
  obtain ⟨q, hq, rfl, hq0⟩ := hb
  rw [h p hp hp0, h q hq hq0] at e
  have : ∀ p ∈ keywordTable, ∀ q ∈ keywordTable, ascii p.1 = ascii q.1 → p.2 = q.2 := by
    decide +kernel
  exact this p hp q hq e

theorem map_inj {α β : Type} {f : α → β} {p : α → Prop}
    (h : ∀ a b, p a → p b → f a = f b → a = b) :
    ∀ {xs ys : List α}, (∀ x ∈ xs, p x) → (∀ y ∈ ys, p y) → xs.map f = ys.map f → xs = ys
  | [], [], _, _, _ => rfl
  | [], _ :: _, _, _, e => by cases e
  | _ :: _, [], _, _, e => by cases e
  | x :: xs, y :: ys, hx, hy, e => by
    simp only [List.map_cons, List.cons.injEq] at e
    rw [h x y (hx x (by simp)) (hy y (by simp)) e.1,
      map_inj h (fun z hz => hx z (by simp [hz])) (fun z hz => hy z (by simp [hz])) e.2]

/-- Names in capital letters. -/
theorem capital_names : Names (fun a => a ≠ [] ∧ ∀ x ∈ a, 65 ≤ x.toNat ∧ x.toNat ≤ 90)
    (ascii "; got ") where
  cut a b u v ha hb e hu hv := by
    obtain ⟨c, u', rfl, hc⟩ : ∃ c u', u = c :: u' ∧ (c = 44#8 ∨ c = 59#8) := by
      cases u with
      | nil => simp at hu
      | cons c u => exact ⟨c, u, rfl, by simpa using hu⟩
    obtain ⟨d, v', rfl, hd⟩ : ∃ d v', v = d :: v' ∧ (d = 44#8 ∨ d = 59#8) := by
      cases v with
      | nil => simp at hv
      | cons c u => exact ⟨c, u, rfl, by simpa using hv⟩
    exact cut_at (p := fun x : Byte => 65 ≤ x.toNat ∧ x.toNat ≤ 90)
      (by rcases hc with rfl | rfl <;> decide) (by rcases hd with rfl | rfl <;> decide) ha.2 hb.2 e
  head a ha := by
    obtain ⟨h1, h2⟩ := ha
    cases a with
    | nil => exact absurd rfl h1
    | cons x s =>
      have := h2 x (by simp)
      refine ⟨x, s, rfl, ?_, ?_⟩ <;> rintro rfl <;> revert this <;> decide
  sep := .inl ⟨ascii " got ", by decide +kernel⟩

/-- Names of runes. -/
theorem rune_names : Names (fun a => ∃ b, a = [114#8, 117#8, 110#8, 101#8, 32#8, b])
    (ascii ", got ") where
  cut a b u v ha hb e _ _ := by
    obtain ⟨x, rfl⟩ := ha
    obtain ⟨y, rfl⟩ := hb
    simp only [List.cons_append, List.nil_append, List.cons.injEq, true_and] at e
    exact ⟨by rw [e.1], e.2⟩
  head a ha := by
    obtain ⟨x, rfl⟩ := ha
    exact ⟨_, _, rfl, by decide, by decide⟩
  sep := .inr ⟨ascii "ot ", by decide +kernel⟩

/-! ### Messages -/

theorem messageOf_refuse {α : Type} (env : MessageEnv) (c : ScanCtx) (s : Bytes) :
    messageOf (refuse env c s : Expected α) =
      match got env c with
      | .ok g => .ok (some (s ++ g))
      | .err e => .err e
      | .panic => .panic := by
  unfold refuse
  cases got env c <;> rfl

theorem runes_names {rs : List Nat} (h : ∀ r ∈ rs, 0 < r ∧ r < 128) :
    ((rs.map Token.rune).map fun t => formatToken t.number) =
      rs.map fun r => ascii "rune " ++ [BitVec.ofNat 8 r] := by
  rw [List.map_map]
  apply List.map_congr_left
  intro r hr
  have e : ascii "rune " = [114#8, 117#8, 110#8, 101#8, 32#8] := by decide +kernel
  simp only [Function.comp_apply, formatToken_rune (h r hr).1 (h r hr).2, e, List.cons_append,
    List.nil_append]

theorem message_takes (env : MessageEnv) (c : ScanCtx) (w : Wanted) (h : w.Takes c.token) :
    w.message env c = .ok none := by
  obtain ⟨t, x⟩ := c
  change w.Takes t at h
  cases w with
  | keyword ids =>
    obtain ⟨id, hid, rfl⟩ := h
    simp [Wanted.message, reservedOf, hid, messageOf]
  | identifier text =>
    obtain ⟨id, rfl⟩ := h
    rfl
  | runes rs =>
    obtain ⟨r, hr, rfl⟩ := h
    simp only [Wanted.message, tokenOf]
    rw [if_pos (List.mem_map.2 ⟨r, hr, rfl⟩)]
    rfl
  | number min max =>
    obtain ⟨i, rfl, h1, h2⟩ := h
    unfold Wanted.message integerOf
    simp only
    rw [if_neg (by omega)]
    rfl
  | ended =>
    simp only [Wanted.message, endOf]
    rw [if_pos (show t = .eof ∨ t = .endOfStatement from h)]
    rfl

theorem message_refuses (env : MessageEnv) (c : ScanCtx) (w : Wanted) (hw : w.Usual)
    (h : ¬ w.Takes c.token) :
    w.message env c =
      match got env c with
      | .ok g => .ok (some (w.expected env.toParseEnv ++ g))
      | .err e => .err e
      | .panic => .panic := by
  obtain ⟨t, x⟩ := c
  change ¬ w.Takes t at h
  cases w with
  | keyword ids =>
    simp only [Wanted.message, reservedOf, Wanted.expected, expectedNames_orList]
    cases t with
    | reserved id =>
      simp only
      rw [if_neg (fun hm => h ⟨id, hm, rfl⟩), messageOf_refuse]
    | _ => simp only [messageOf_refuse]
  | identifier text =>
    simp only [Wanted.message, identifierOf, Wanted.expected]
    cases t with
    | identifier id => exact absurd ⟨id, rfl⟩ h
    | _ => simp only [messageOf_refuse]
  | runes rs =>
    simp only [Wanted.message, tokenOf, Wanted.expected]
    rw [if_neg (fun hm => by
      obtain ⟨r, hr, e⟩ := List.mem_map.1 hm
      exact h ⟨r, hr, e.symm⟩), messageOf_refuse, runes_names hw.2, expectedNames_orList]
  | number min max =>
    simp only [Wanted.message, integerOf, Wanted.expected]
    cases t with
    | integer i =>
      simp only
      rw [if_pos (Decidable.byContradiction fun hn => h ⟨i, rfl, by omega, by omega⟩),
        messageOf_refuse]
    | _ => simp only [messageOf_refuse]
  | ended =>
    simp only [Wanted.message, endOf, Wanted.expected]
    rw [if_neg (show ¬ (t = .eof ∨ t = .endOfStatement) from h), messageOf_refuse]

theorem message_some {env : MessageEnv} {c : ScanCtx} {w : Wanted} {m : Bytes} (hw : w.Usual)
    (h : w.message env c = .ok (some m)) :
    ¬ w.Takes c.token ∧ ∃ g, got env c = .ok g ∧ m = w.expected env.toParseEnv ++ g := by
  have ht : ¬ w.Takes c.token := fun ht => by
    rw [message_takes env c w ht] at h
    cases h
  refine ⟨ht, ?_⟩
  rw [message_refuses env c w hw ht] at h
  cases hg : got env c with
  | ok g =>
    rw [hg] at h
    simp only [Res.ok.injEq, Option.some.injEq] at h
    exact ⟨g, rfl, h.symm⟩
  | err e => rw [hg] at h; cases h
  | panic => rw [hg] at h; cases h

/-- The beginnings of the messages. -/
def heads : List Bytes :=
  ascii "expected keyword " :: ascii "expected rune " :: ascii "expected a number between " ::
    ascii "expected the end of the statement, got " ::
    identifierTexts.map fun s => ascii s ++ ascii ", got "

theorem heads_apart : ∀ a ∈ heads, ∀ b ∈ heads, a <+: b → a = b := by decide +kernel

def Wanted.head : Wanted → Bytes
  | .keyword _ => ascii "expected keyword "
  | .identifier text => text ++ ascii ", got "
  | .runes _ => ascii "expected rune "
  | .number _ _ => ascii "expected a number between "
  | .ended => ascii "expected the end of the statement, got "

theorem head_mem {w : Wanted} (hw : w.Usual) : Wanted.head w ∈ heads := by
  cases w with
  | keyword => simp [Wanted.head, heads]
  | runes => simp [Wanted.head, heads]
  | number => simp [Wanted.head, heads]
  | ended => simp [Wanted.head, heads]
  | identifier text =>
    obtain ⟨s, hs, rfl⟩ := hw
    have : ascii s ++ ascii ", got " ∈ identifierTexts.map fun s => ascii s ++ ascii ", got " :=
      List.mem_map.2 ⟨s, hs, rfl⟩
    simp only [Wanted.head, heads, List.mem_cons]
    exact .inr (.inr (.inr (.inr this)))

theorem head_prefix {env : ParseEnv} {w : Wanted} (hw : w.Usual) (g : Bytes) :
    Wanted.head w <+: w.expected env ++ g := by
  cases w with
  | keyword ids =>
    simp only [Wanted.head, Wanted.expected, List.append_assoc]
    exact List.prefix_append _ _
  | runes rs =>
    obtain ⟨h0, -⟩ := hw
    cases rs with
    | nil => exact absurd rfl h0
    | cons r rs =>
      have e : ascii "expected rune " = ascii "expected " ++ ascii "rune " := by decide +kernel
      simp only [Wanted.head, Wanted.expected, List.map_cons, orList_eq, List.append_assoc, e]
      rw [← List.append_assoc]
      exact List.prefix_append _ _
  | number =>
    simp only [Wanted.head, Wanted.expected, List.append_assoc]
    exact List.prefix_append _ _
  | ended => exact List.prefix_append _ _
  | identifier text => exact List.prefix_append _ _

theorem head_eq {env : ParseEnv} {w v : Wanted} (hw : w.Usual) (hv : v.Usual) {g k : Bytes}
    (h : w.expected env ++ g = v.expected env ++ k) : Wanted.head w = Wanted.head v := by
  have h1 := head_prefix (env := env) hw g
  have h2 := head_prefix (env := env) hv k
  rw [h] at h1
  rcases List.prefix_or_prefix_of_prefix h1 h2 with hp | hp
  · exact heads_apart _ (head_mem hw) _ (head_mem hv) hp
  · exact (heads_apart _ (head_mem hv) _ (head_mem hw) hp).symm

/-- The identifier texts are no other beginnings. -/
theorem texts_other : ∀ s ∈ identifierTexts, ascii s ++ ascii ", got " ∉ heads.take 4 := by
  decide +kernel

theorem expected_inj {env : ParseEnv} (hn : NamesKeywords env) {w v : Wanted} (hw : w.Usual)
    (hv : v.Usual) {g k : Bytes} (h : w.expected env ++ g = v.expected env ++ k) :
    w = v ∧ g = k := by
  have hh := head_eq hw hv h
  have other : ∀ {text : Bytes}, (∃ s ∈ identifierTexts, text = ascii s) →
      text ++ ascii ", got " ∉ heads.take 4 := by
    rintro _ ⟨s, hs, rfl⟩
    exact texts_other s hs
  have m1 : ascii "expected keyword " ∈ heads.take 4 := by decide +kernel
  have m2 : ascii "expected rune " ∈ heads.take 4 := by decide +kernel
  have m3 : ascii "expected a number between " ∈ heads.take 4 := by decide +kernel
  have m4 : ascii "expected the end of the statement, got " ∈ heads.take 4 := by decide +kernel
  cases w with
  | keyword ids =>
    cases v with
    | keyword ids' =>
      simp only [Wanted.expected, List.append_assoc, List.append_cancel_left_eq,
        ← expectedNames_orList] at h
      obtain ⟨e1, e2⟩ := capital_names.inj
        (by simp only [List.mem_map]; rintro _ ⟨id, hid, rfl⟩; exact keyword_names hn (hw.2 id hid))
        (by simp only [List.mem_map]; rintro _ ⟨id, hid, rfl⟩; exact keyword_names hn (hv.2 id hid))
        (by simpa using hw.1) (by simpa using hv.1) h
      exact ⟨by rw [map_inj (p := IsKeyword) (fun a b => keyword_inj hn) hw.2 hv.2 e1], e2⟩
    | identifier text =>
      exact absurd ((show ascii "expected keyword " = text ++ ascii ", got " from hh) ▸ m1)
        (other hv)
    | runes =>
      exact absurd (show ascii "expected keyword " = ascii "expected rune " from hh)
        (by decide +kernel)
    | number =>
      exact absurd (show ascii "expected keyword " = ascii "expected a number between " from hh)
        (by decide +kernel)
    | ended =>
      exact absurd (show ascii "expected keyword " = ascii "expected the end of the statement, got " from hh)
        (by decide +kernel)
  | identifier text =>
    cases v with
    | identifier text' =>
      have e := List.append_cancel_right hh
      subst e
      exact ⟨rfl, List.append_cancel_left h⟩
    | keyword =>
      exact absurd ((show text ++ ascii ", got " = ascii "expected keyword " from hh).symm ▸ m1)
        (other hw)
    | runes =>
      exact absurd ((show text ++ ascii ", got " = ascii "expected rune " from hh).symm ▸ m2)
        (other hw)
    | number =>
      exact absurd ((show text ++ ascii ", got " = ascii "expected a number between " from hh).symm ▸ m3)
        (other hw)
    | ended =>
      exact absurd ((show text ++ ascii ", got " = ascii "expected the end of the statement, got " from hh).symm ▸ m4)
        (other hw)
  | runes rs =>
    cases v with
    | runes rs' =>
      have er : ascii "rune " = [114#8, 117#8, 110#8, 101#8, 32#8] := by decide +kernel
      simp only [Wanted.expected, List.append_assoc, List.append_cancel_left_eq,
        ← expectedNames_orList] at h
      obtain ⟨e1, e2⟩ := rune_names.inj
        (by simp only [List.mem_map]; rintro _ ⟨r, hr, rfl⟩; exact ⟨_, by rw [er]; rfl⟩)
        (by simp only [List.mem_map]; rintro _ ⟨r, hr, rfl⟩; exact ⟨_, by rw [er]; rfl⟩)
        (by simpa using hw.1) (by simpa using hv.1) h
      refine ⟨?_, e2⟩
      rw [map_inj (p := fun r => 0 < r ∧ r < 128) (fun a b ha hb e => by
        have := List.append_cancel_left e
        simp only [List.cons.injEq, and_true] at this
        exact byte_inj ha.2 hb.2 this) hw.2 hv.2 e1]
    | identifier text =>
      exact absurd ((show ascii "expected rune " = text ++ ascii ", got " from hh) ▸ m2)
        (other hv)
    | keyword =>
      exact absurd (show ascii "expected rune " = ascii "expected keyword " from hh)
        (by decide +kernel)
    | number =>
      exact absurd (show ascii "expected rune " = ascii "expected a number between " from hh)
        (by decide +kernel)
    | ended =>
      exact absurd (show ascii "expected rune " = ascii "expected the end of the statement, got " from hh)
        (by decide +kernel)
  | number min max =>
    cases v with
    | number min' max' =>
      have ea : ascii " and " = 32#8 :: ascii "and " := by decide +kernel
      have ei : ascii " inclusive, got " = 32#8 :: ascii "inclusive, got " := by decide +kernel
      simp only [Wanted.expected, List.append_assoc, List.append_cancel_left_eq] at h
      simp only [ea, ei, List.cons_append] at h
      have hd : ¬ IsDigitByte 32#8 := by simp [IsDigitByte]
      obtain ⟨rfl, h2⟩ := formatInt_cut hd hd h
      simp only [List.cons.injEq, true_and, List.append_cancel_left_eq] at h2
      obtain ⟨rfl, h3⟩ := formatInt_cut hd hd h2
      simp only [List.cons.injEq, true_and, List.append_cancel_left_eq] at h3
      exact ⟨rfl, h3⟩
    | identifier text =>
      exact absurd ((show ascii "expected a number between " = text ++ ascii ", got " from hh) ▸ m3)
        (other hv)
    | keyword =>
      exact absurd (show ascii "expected a number between " = ascii "expected keyword " from hh)
        (by decide +kernel)
    | runes =>
      exact absurd (show ascii "expected a number between " = ascii "expected rune " from hh)
        (by decide +kernel)
    | ended =>
      exact absurd (show ascii "expected a number between " = ascii "expected the end of the statement, got " from hh)
        (by decide +kernel)
  | ended =>
    cases v with
    | ended => exact ⟨rfl, List.append_cancel_left h⟩
    | identifier text =>
      exact absurd ((show ascii "expected the end of the statement, got " = text ++ ascii ", got " from hh) ▸ m4)
        (other hv)
    | keyword =>
      exact absurd (show ascii "expected the end of the statement, got " = ascii "expected keyword " from hh)
        (by decide +kernel)
    | runes =>
      exact absurd (show ascii "expected the end of the statement, got " = ascii "expected rune " from hh)
        (by decide +kernel)
    | number =>
      exact absurd (show ascii "expected the end of the statement, got " = ascii "expected a number between " from hh)
        (by decide +kernel)

/-! ### The methods of the parser -/

theorem scan_current (stream : Nat → Token) (r : CtxRing) :
    (r.scan stream).2.lookBack (r.scan stream).2.current = (r.scan stream).1 := by
  unfold CtxRing.scan
  simp only
  split
  · rfl
  · simp

theorem errorGot_eq {α : Type} (env : MessageEnv) (ts : List Token) (r : CtxRing) (c : ScanCtx)
    (h : r.lookBack r.current = c) (s : Bytes) :
    (RP.errorGot : RP α) ts (bareRing r) = readOutcome r c (refuse env c s) := by
  have hb : (bareRing r).lookBack (bareRing r).current = c.token := by rw [← h]; rfl
  have e : (RP.errorGot : RP α) ts (bareRing r) =
      if c.token = .error true then .panic
      else .fail (c.token == .endOfStatement) (bareRing r) := by
    show (match RP.current ts (bareRing r) with
      | .ok a r => (if a = Token.error true then RP.crash else RP.error) ts r
      | .fail ended r => RRes.fail ended r
      | .panic => .panic
      | .stuck => .stuck) = _
    simp only [RP.current, hb]
    split
    · rfl
    · simp only [RP.error, hb]
  rw [e]
  obtain ⟨t, x⟩ := c
  unfold refuse got
  cases t with
  | error b => cases b <;> rfl
  | _ => rfl

theorem got_ok (env : MessageEnv) {c : ScanCtx} (h : c.token ≠ .error true) :
    ∃ g, got env c = .ok g := by
  obtain ⟨t, x⟩ := c
  change t ≠ _ at h
  cases t with
  | error b =>
    cases b with
    | true => exact absurd rfl h
    | false => exact ⟨_, rfl⟩
  | _ => exact ⟨_, rfl⟩

theorem next_bind {α : Type} {ts : List Token} {r : CtxRing}
    (h : ¬ (r.unscanned = 0 ∧ (r.scan (RP.stream ts)).1.token = .error false)) (f : Token → RP α) :
    (RP.next.bind f) ts (bareRing r) =
      f (r.scan (RP.stream ts)).1.token ts (bareRing (r.scan (RP.stream ts)).2) := by
  unfold RP.bind RP.next
  simp only [bare_scan]
  rw [if_neg (show ¬ ((bareRing r).unscanned = 0 ∧ _) from h)]

end Maho.Msg
