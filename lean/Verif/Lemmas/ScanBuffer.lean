import Verif.Spec.Literals
import Verif.Lemmas.LiteralsStmt
/-
The buffer of the scanner.
-/
namespace Maho.Lit
open Maho Maho.Spec

theorem array_set_self {s : ScanBuffer} (h : s.cur < s.arrays.length) (l : Bytes) :
    (ScanBuffer.mk (s.arrays.set s.cur l) s.cur).array s.cur = l := by
  simp [ScanBuffer.array, h]

theorem array_set_other {s : ScanBuffer} {a : Nat} (h : s.cur ≠ a) (l : Bytes) :
    (ScanBuffer.mk (s.arrays.set s.cur l) s.cur).array a = s.array a := by
  simp [ScanBuffer.array, List.getElem?_set, h]

theorem array_append {s : ScanBuffer} {a : Nat} (h : a < s.arrays.length) (l : Bytes) (c : Nat) :
    (ScanBuffer.mk (s.arrays ++ [l]) c).array a = s.array a := by
  unfold ScanBuffer.array
  rw [List.getD_eq_getElem?_getD, List.getD_eq_getElem?_getD, List.getElem?_append_left h]

theorem array_append_new (s : ScanBuffer) (l : Bytes) :
    (ScanBuffer.mk (s.arrays ++ [l]) s.arrays.length).array s.arrays.length = l := by
  simp [ScanBuffer.array]

theorem writeByte_cur {s : ScanBuffer} (h : s.cur < s.arrays.length) (move : Bool) (pos : Nat)
    (b : Byte) : (s.writeByte move pos b).cur < (s.writeByte move pos b).arrays.length ∧
      s.arrays.length ≤ (s.writeByte move pos b).arrays.length := by
  unfold ScanBuffer.writeByte
  cases move <;> simp [h]

theorem write_cur (move : Nat → Bool) : ∀ (w : Bytes) (pos : Nat) (s : ScanBuffer),
    s.cur < s.arrays.length → (s.write move pos w).cur < (s.write move pos w).arrays.length ∧
      s.arrays.length ≤ (s.write move pos w).arrays.length
  | [], _, _, h => ⟨h, Nat.le_refl _⟩
  | b :: bs, pos, s, h => by
    have h1 := writeByte_cur h (move pos) pos b
    have h2 := write_cur move bs (pos + 1) _ h1.1
    exact ⟨h2.1, Nat.le_trans h1.2 h2.2⟩

/-- What was written since the last reset is at the start of the array. -/
theorem write_own (move : Nat → Bool) : ∀ (w : Bytes) (pre : Bytes) (s : ScanBuffer),
    s.cur < s.arrays.length → (s.array s.cur).take pre.length = pre →
    ((s.write move pre.length w).array (s.write move pre.length w).cur).take
      (pre.length + w.length) = pre ++ w
  | [], pre, s, _, hp => by simpa [ScanBuffer.write] using hp
  | b :: bs, pre, s, h, hp => by
    have h1 := writeByte_cur h (move pre.length) pre.length b
    have key : ((s.writeByte (move pre.length) pre.length b).array
        (s.writeByte (move pre.length) pre.length b).cur).take (pre ++ [b]).length =
        pre ++ [b] := by
      unfold ScanBuffer.writeByte
      cases move pre.length
      · simp only [Bool.false_eq_true, if_false]
        rw [array_set_self h, overwrite, hp]
        rw [show pre ++ b :: (s.array s.cur).drop (pre.length + 1) =
          (pre ++ [b]) ++ (s.array s.cur).drop (pre.length + 1) by simp]
        exact List.take_left' rfl
      · simp only [if_true]
        rw [array_append_new, hp]
        exact List.take_of_length_le (Nat.le_refl _)
    have := write_own move bs (pre ++ [b]) _ h1.1 key
    simp only [List.length_append, List.length_cons, List.length_nil] at this
    rw [ScanBuffer.write]
    simpa [Nat.add_assoc, Nat.add_comm 1, List.append_assoc] using this

/-- Writing the same bytes keeps what a slice contains. -/
theorem write_keeps (move : Nat → Bool) (v : Bytes) (a : Nat) :
    ∀ (w : Bytes) (pos : Nat) (s : ScanBuffer), s.cur < s.arrays.length → a < s.arrays.length →
    (s.array a).take v.length = v →
    (∀ (k : Nat) (x y : Byte), v[pos + k]? = some x → w[k]? = some y → x = y) →
    ((s.write move pos w).array a).take v.length = v
  | [], _, _, _, _, h, _ => h
  | b :: bs, pos, s, hc, ha, h, hk => by
    have h1 := writeByte_cur hc (move pos) pos b
    rw [ScanBuffer.write]
    refine write_keeps move v a bs (pos + 1) _ h1.1 (Nat.lt_of_lt_of_le ha h1.2) ?_ ?_
    · unfold ScanBuffer.writeByte
      cases move pos
      · simp only [Bool.false_eq_true, if_false]
        by_cases hca : s.cur = a
        · subst hca
          rw [array_set_self hc]
          generalize s.array s.cur = l at h
          have hl : v.length ≤ l.length := by
            have := congrArg List.length h
            rw [List.length_take] at this
            omega
          unfold overwrite
          by_cases hp : pos < v.length
          · have hv : l[pos]? = v[pos]? := by
              conv => rhs; rw [← h]
              rw [List.getElem?_take_of_lt hp]
            have hb : v[pos]? = some b := by
              rw [List.getElem?_eq_getElem hp]
              congr 1
              exact hk 0 v[pos] b (by simp) (by simp)
            have : l.take pos ++ b :: l.drop (pos + 1) = l := by
              have hlt : pos < l.length := by omega
              rw [hb, List.getElem?_eq_getElem hlt] at hv
              have hv := Option.some.inj hv
              rw [← hv, List.getElem_cons_drop, List.take_append_drop]
            rw [this, h]
          · rw [List.take_append_of_le_length (by simp; omega), List.take_take,
              Nat.min_eq_left (by omega), h]
        · rw [array_set_other hca, h]
      · simp only [if_true]
        rw [array_append ha, h]
    · intro k x y hx hy
      refine hk (k + 1) x y ?_ (by simpa using hy)
      rw [← hx]
      congr 1
      omega

theorem after_append (env : BufferEnv) : ∀ (a b : List Scan) (s : ScanBuffer) (k : Nat),
    env.after s k (a ++ b) = env.after (env.after s k a) (k + a.length) b
  | [], _, _, _ => rfl
  | c :: a, b, s, k => by
    rw [List.cons_append, BufferEnv.after, BufferEnv.after, after_append env a b]
    simp [Nat.add_assoc, Nat.add_comm 1]

theorem after_cur (env : BufferEnv) : ∀ (cs : List Scan) (s : ScanBuffer) (k : Nat),
    s.cur < s.arrays.length → (env.after s k cs).cur < (env.after s k cs).arrays.length
  | [], _, _, h => h
  | c :: cs, s, k, h => after_cur env cs _ _ (write_cur _ _ _ _ h).1

theorem after_keeps (env : BufferEnv) (v : Bytes) (a : Nat) :
    ∀ (cs : List Scan) (s : ScanBuffer) (k : Nat), s.cur < s.arrays.length → a < s.arrays.length →
    (s.array a).take v.length = v →
    (∀ c ∈ cs, ∀ (k : Nat) (x y : Byte), v[k]? = some x → c.written[k]? = some y → x = y) →
    ((env.after s k cs).array a).take v.length = v
  | [], _, _, _, _, h, _ => h
  | c :: cs, s, k, hc, ha, h, hk => by
    have h1 := write_cur (env.moves k) c.written 0 s hc
    exact after_keeps env v a cs _ _ h1.1 (Nat.lt_of_lt_of_le ha h1.2)
      (write_keeps _ v a _ 0 s hc ha h fun k x y hx hy =>
        hk c (by simp) k x y (by simpa using hx) hy)
      fun c' hc' => hk c' (by simp [hc'])

theorem held_kept (env : BufferEnv) {cs : List Scan} {start upto i : Nat} {c : Scan} {b : Bytes}
    (hu : Undisturbed cs start upto) (hs : start ≤ i) (hi : cs[i]? = some c)
    (ht : c.token = .bytes b) : env.held cs i upto = c.written := by
  have hlen : i < cs.length := (List.getElem?_eq_some_iff.1 hi).1
  unfold BufferEnv.held
  rw [List.getD_eq_getElem?_getD, hi, Option.getD_some]
  by_cases hlt : i < upto
  · rw [if_pos hlt]
    have e1 : cs.take (i + 1) = cs.take i ++ [c] := by
      rw [List.take_add_one, hi]; rfl
    have e2 : cs.take upto = cs.take (i + 1) ++ (cs.take upto).drop (i + 1) := by
      conv => lhs; rw [← List.take_append_drop (i + 1) (cs.take upto)]
      rw [List.take_take, Nat.min_eq_left (by omega)]
    have hnew : ScanBuffer.new.cur < ScanBuffer.new.arrays.length := by decide
    rw [e2, after_append]
    generalize hst : env.after .new 0 (cs.take (i + 1)) = st
    have hown : (st.array st.cur).take c.written.length = c.written := by
      rw [← hst, e1, after_append]
      have := write_own (env.moves (0 + (cs.take i).length)) c.written []
        (env.after .new 0 (cs.take i)) (after_cur env _ _ _ hnew) rfl
      simpa [BufferEnv.after] using this
    have hcur : st.cur < st.arrays.length := hst ▸ after_cur env _ _ _ hnew
    refine after_keeps env c.written st.cur _ st _ hcur hcur hown ?_
    intro d hd k x y hx hy
    obtain ⟨j, hj, hjd⟩ := List.mem_iff_getElem.1 hd
    have hjd : (cs.take upto)[i + 1 + j]? = some d := by
      rw [← List.getElem?_drop, List.getElem?_eq_getElem hj, hjd]
    have hju : i + 1 + j < upto := by
      have := (List.getElem?_eq_some_iff.1 hjd).1
      rw [List.length_take] at this
      omega
    rw [List.getElem?_take_of_lt hju] at hjd
    exact hu i (i + 1 + j) c d b hs (by omega) hju hi hjd ht k x y hx hy
  · rw [if_neg hlt]

/-! ### Scans of an input -/

theorem scansFuel_tokens (env : ScanEnv) : ∀ (n : Nat) (l : List Nat),
    (scansFuel env n l).map (·.token) = tokenizeFuel env n l
  | 0, _ => rfl
  | n + 1, l => by
    unfold scansFuel tokenizeFuel
    dsimp only
    by_cases h : (scan env false l).token = .eof
    · rw [if_pos h, if_pos h]; rfl
    · rw [if_neg h, if_neg h, List.map_cons, scansFuel_tokens env n]

theorem scans_tokens (env : ScanEnv) (l : List Nat) :
    (scans env l).map (·.token) = tokenize env l := scansFuel_tokens env _ l

/-- The value of a bytes token is what was written. -/
def Wrote (s : Scanned) : Prop := ∀ b, s.token = .bytes b → s.buf = b

theorem wrote_identifier (env : ScanEnv) (fails : Bool) : ∀ (l : List Nat) (buf : Bytes),
    Wrote (scanIdentifier env fails buf l)
  | [], buf => by
    intro b hb
    unfold scanIdentifier ScanEnv.identToken at hb
    split at hb
    · cases hb
    · dsimp only at hb; split at hb <;> cases hb
  | r :: rest, buf => by
    intro b hb
    unfold scanIdentifier at hb ⊢
    split at hb
    · rename_i h; rw [if_pos h]; exact wrote_identifier env fails rest _ b hb
    · unfold ScanEnv.identToken at hb; dsimp only at hb; split at hb <;> cases hb

theorem numberToken_ne (env : ScanEnv) (neg dbl : Bool) (buf b : Bytes) :
    env.numberToken neg dbl buf ≠ .bytes b := by
  unfold ScanEnv.numberToken
  split <;> split <;> intro h <;> cases h

theorem wrote_number (env : ScanEnv) (fails neg : Bool) : ∀ (l : List Nat) (dbl : Bool) (buf : Bytes),
    Wrote (scanNumber env fails neg dbl buf l)
  | [], dbl, buf => by
    intro b hb
    unfold scanNumber at hb
    split at hb
    · cases hb
    · exact absurd hb (numberToken_ne _ _ _ _ _)
  | r :: rest, dbl, buf => by
    intro b hb
    unfold scanNumber at hb ⊢
    split at hb
    · rename_i h; rw [if_pos h]; exact wrote_number env fails neg rest _ _ b hb
    · rename_i h0
      rw [if_neg h0]
      split at hb
      · rename_i h; rw [if_pos h]; exact wrote_number env fails neg rest _ _ b hb
      · exact absurd hb (numberToken_ne _ _ _ _ _)

theorem parameterToken_ne (buf b : Bytes) : parameterToken buf ≠ .bytes b := by
  unfold parameterToken
  split
  · intro h; cases h
  · split <;> intro h <;> cases h

theorem wrote_parameter (env : ScanEnv) (fails : Bool) : ∀ (l : List Nat) (buf : Bytes),
    Wrote (scanParameter env fails buf l)
  | [], buf => by
    intro b hb
    unfold scanParameter at hb
    split at hb
    · cases hb
    · exact absurd hb (parameterToken_ne _ _)
  | r :: rest, buf => by
    intro b hb
    unfold scanParameter at hb ⊢
    split at hb
    · rename_i h; rw [if_pos h]; exact wrote_parameter env fails rest _ b hb
    · exact absurd hb (parameterToken_ne _ _)

theorem wrote_quoted (env : ScanEnv) (delim : Nat) : ∀ (l : List Nat) (buf : Bytes),
    Wrote (scanQuotedIdentifier env delim buf l)
  | [], buf => by intro b hb; cases hb
  | r :: rest, buf => by
    intro b hb
    unfold scanQuotedIdentifier at hb ⊢
    split at hb
    · cases hb
    · rename_i h; rw [if_neg h]; exact wrote_quoted env delim rest _ b hb

theorem wrote_string (fails esc : Bool) (l : List Nat) : Wrote (scanString fails esc l) := by
  intro b hb
  unfold scanString at hb
  split at hb <;> cases hb

theorem wrote_bytes (fails esc : Bool) (l : List Nat) : Wrote (scanBytes fails esc l) := by
  intro b hb
  unfold scanBytes at hb ⊢
  split at hb
  · cases hb
  · exact Token.bytes.inj hb

theorem wrote_hex : ∀ (n : Nat) (l : List Nat) (buf : Bytes), l.length ≤ n →
    Wrote (scanHexBytes buf l)
  | _, [], buf, _ => by intro b hb; unfold scanHexBytes at hb; cases hb
  | 0, r :: rest, buf, h => by simp at h
  | n + 1, r :: rest, buf, h => by
    intro b hb
    unfold scanHexBytes at hb ⊢
    split at hb
    · rename_i hr; rw [if_pos hr]; exact Token.bytes.inj hb
    · rename_i hr
      rw [if_neg hr]
      revert hb
      cases hexDigit r with
      | none => intro hb; cases hb
      | some d1 =>
        cases rest with
        | nil => intro hb; cases hb
        | cons r2 rest2 =>
          dsimp only
          cases hexDigit r2 with
          | none => intro hb; cases hb
          | some d2 => exact wrote_hex n rest2 _ (by simp at h; omega) b

theorem wrote_plain {t : Token} {buf : Bytes} {rest : List Nat} (h : ∀ b, t ≠ .bytes b) :
    Wrote ⟨t, buf, rest⟩ := fun b hb => absurd hb (h b)

theorem wrote_ite {c : Prop} [Decidable c] {a b : Scanned} (ha : Wrote a) (hb : Wrote b) :
    Wrote (if c then a else b) := by
  split
  · exact ha
  · exact hb

theorem wrote_operator (fails : Bool) (r : Nat) (l : List Nat) : Wrote (scanOperator fails r l) := by
  have hr : ∀ rest : List Nat, Wrote ⟨.rune r, runeBytes r, rest⟩ := fun rest =>
    wrote_plain (by intro b h; cases h)
  cases l with
  | nil => exact hr _
  | cons r2 rest =>
    unfold scanOperator
    refine wrote_ite (hr _) (wrote_ite ?_ (hr _))
    cases h : operators.lookup [r, r2] with
    | none => exact wrote_plain (by intro b h; cases h)
    | some t =>
      refine wrote_plain fun b hb => ?_
      have hm : ∀ p ∈ operators, ∀ b, p.2 ≠ Token.bytes b := by
        simp [operators]
      obtain ⟨l1, l2, hl, -⟩ := List.lookup_eq_some_iff.1 h
      exact hm ([r, r2], t) (by rw [hl]; simp) b hb

theorem wrote_scan (env : ScanEnv) (fails : Bool) (l : List Nat) : Wrote (scan env fails l) := by
  unfold scan
  have hp : ∀ (r : Nat) (rest : List Nat), Wrote ⟨.rune r, [], rest⟩ := fun r rest =>
    wrote_plain (by intro b h; cases h)
  have he : ∀ rest : List Nat, Wrote ⟨.error false, [], rest⟩ := fun rest =>
    wrote_plain (by intro b h; cases h)
  cases skip .space l with
  | none => cases fails <;> exact wrote_plain (by intro b h; cases h)
  | some x =>
    obtain ⟨r, rest⟩ := x
    refine wrote_ite (wrote_plain (by intro b h; cases h)) (wrote_ite ?_ (wrote_ite ?_ (wrote_ite ?_
      (wrote_ite (wrote_identifier env fails _ _) (wrote_ite (wrote_number env fails _ _ _ _)
      (wrote_ite ?_ (wrote_ite ?_ (wrote_ite (wrote_quoted env _ _ _) (wrote_ite
      (wrote_quoted env _ _ _) (wrote_ite (wrote_string fails _ _) (wrote_ite
      (wrote_operator fails _ _) (wrote_ite (hp _ _) (wrote_ite ?_ (he _))))))))))))))
    · cases reread fails rest with
      | nil => exact wrote_identifier env fails _ _
      | cons r2 rest2 => exact wrote_ite (wrote_string fails _ _) (wrote_identifier env fails _ _)
    · cases reread fails rest with
      | nil => exact wrote_identifier env fails _ _
      | cons r2 rest2 => exact wrote_ite (wrote_bytes fails _ _) (wrote_identifier env fails _ _)
    · cases reread fails rest with
      | nil => exact wrote_identifier env fails _ _
      | cons r2 rest2 =>
        exact wrote_ite (wrote_hex _ _ _ (Nat.le_refl _)) (wrote_identifier env fails _ _)
    · cases rest with
      | nil => exact hp _ _
      | cons r2 rest2 => exact wrote_ite (wrote_number env fails _ _ _ _) (hp _ _)
    · cases rest with
      | nil => exact hp _ _
      | cons r2 rest2 => exact wrote_ite (wrote_number env fails _ _ _ _) (hp _ _)
    · cases rest with
      | nil => exact he _
      | cons r2 rest2 => exact wrote_ite (wrote_parameter env fails _ _) (he _)

theorem scansFuel_wrote (env : ScanEnv) : ∀ (n : Nat) (l : List Nat),
    ∀ c ∈ scansFuel env n l, ∀ b, c.token = .bytes b → c.written = b
  | 0, _, c, hc => by cases hc
  | n + 1, l, c, hc => by
    unfold scansFuel at hc
    dsimp only at hc
    split at hc
    · cases hc
    · rcases List.mem_cons.1 hc with rfl | hc
      · exact wrote_scan env false l
      · exact scansFuel_wrote env n _ c hc

theorem scans_wrote (env : ScanEnv) (l : List Nat) :
    ∀ c ∈ scans env l, ∀ b, c.token = .bytes b → c.written = b := scansFuel_wrote env _ l

/-! ### Numbers in place of bytes -/

theorem numbered_drop : ∀ (k i : Nat) (cs : List Scan),
    (numbered i cs).drop k = numbered (i + k) (cs.drop k)
  | 0, _, _ => rfl
  | _ + 1, _, [] => rfl
  | k + 1, i, c :: cs => by
    rw [numbered, List.drop_succ_cons, List.drop_succ_cons, numbered_drop k (i + 1) cs]
    congr 1
    omega

theorem numbered_with (contents : Nat → Bytes) : ∀ (cs : List Scan) (i : Nat),
    (∀ k c b, cs[k]? = some c → c.token = .bytes b → contents (i + k) = b) →
    (numbered i cs).map (tokenWith fun tag => contents tag.length) = cs.map (·.token)
  | [], _, _ => rfl
  | c :: cs, i, h => by
    rw [numbered, List.map_cons, List.map_cons, numbered_with contents cs (i + 1) fun k d b hd ht => by
      have := h (k + 1) d b (by simpa using hd) ht
      rwa [show i + (k + 1) = i + 1 + k by omega] at this]
    congr 1
    cases hc : c.token with
    | bytes b =>
      have := h 0 c b rfl hc
      simpa [tokenWith] using this
    | _ => rfl

/-- What `Parse` returns, if no slice is written to. -/
theorem parsedAfter_kept (penv : ParseEnv) (benv : BufferEnv) (failed : Bool) (cs : List Scan)
    (start upto : Nat) (hw : ∀ c ∈ cs, ∀ b, c.token = .bytes b → c.written = b)
    (hu : Undisturbed cs start upto) :
    parsedAfter penv benv failed cs start upto =
      (parse penv failed ((cs.drop start).map (·.token))).1 := by
  have hn := numbered_with (fun i => benv.held cs i upto) (cs.drop start) start
    fun k c b hk ht => by
      rw [List.getElem?_drop] at hk
      rw [held_kept benv hu (by omega) hk ht]
      exact hw c (List.mem_of_getElem? hk) b ht
  have hp := (parse_with (f := fun tag => benv.held cs tag.length upto) penv failed
    ((numbered 0 cs).drop start)).1
  rw [numbered_drop, Nat.zero_add, hn] at hp
  unfold parsedAfter
  rw [numbered_drop, Nat.zero_add]
  revert hp
  generalize (parse penv failed ((cs.drop start).map (·.token))).1 = a
  generalize (parse penv failed (numbered start (cs.drop start))).1 = b
  intro hp
  match a, b, hp with
  | .stmt none, .stmt none, _ => rfl
  | .eof, .eof, _ => rfl
  | .error, .error, _ => rfl
  | .panic, .panic, _ => rfl
  | .stuck, .stuck, _ => rfl
  | .stmt (some s'), .stmt (some s), hp =>
    have hp : StmtWith _ s' s := hp
    dsimp only
    congr 2
    unfold heldBy
    cases s' with
    | set v w => rfl
    | createDatabase d o => rfl
    | _ => cases s <;> first | exact hp.symm | exact hp.elim

end Maho.Lit
