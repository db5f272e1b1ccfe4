import Verif.Lemmas.SoundStmt
import Verif.Lemmas.ParseInput
/-
Helper lemmas for C76: the statements that the calls of `Parse` return.
-/
namespace Maho
open Maho.Spec

/-- What is skipped ends with the first `;`. -/
theorem skipStatement_none : ∀ {ts rest : List Token}, skipStatement ts = (none, rest) →
    ∃ m, Token.endOfStatement ∉ m ∧ ts = m ++ .endOfStatement :: rest
  | [], _, h => by cases h
  | t :: ts, rest, h => by
    have key : skipStatement ts = (none, rest) → t ≠ .endOfStatement →
        ∃ m, Token.endOfStatement ∉ m ∧ t :: ts = m ++ .endOfStatement :: rest := by
      intro h1 h2
      obtain ⟨m, h3, rfl⟩ := skipStatement_none h1
      exact ⟨t :: m, by simp [h3, Ne.symm h2], rfl⟩
    cases t with
    | eof => cases h
    | error b =>
      cases b with
      | false => cases h
      | true => exact key h (by simp)
    | endOfStatement =>
      cases h
      exact ⟨[], by simp, rfl⟩
    | _ => exact key h (by simp)

theorem parseRecover_sound {env : ParseEnv} {ts rest : List Token} {o : Option Stmt} {f : Bool}
    (hR : Readable ts) (h : parseRecover env ts = (.stmt o, f, rest)) : f = false ∧ ∃ us, (match o with
      | some s => StmtForm env (ExprForm env) (QueryForm env) s us
      | none => us = [.endOfStatement] ∨
        ∃ w ∈ [Kw.DETACH, Kw.EXECUTE, Kw.PREPARE], us = [.reserved w]) ∧
      (ts = us ++ .endOfStatement :: rest ∨ ts = us ∧ rest = []) := by
  unfold parseRecover at h
  split at h
  · rename_i s r hs
    cases h
    exact ⟨rfl, (parsersSound env _).stmtEnd hR hs⟩
  · cases h
  · cases h
  · cases h

/-- One call of `Parse` that returns a statement. -/
theorem parse_sound {env : ParseEnv} {failed f : Bool} {ts rest : List Token} {o : Option Stmt}
    (hR : Readable ts) (h : parse env failed ts = (.stmt o, f, rest)) : f = false ∧
    ∃ skipped us, (match o with
      | some s => StmtForm env (ExprForm env) (QueryForm env) s us
      | none => us = [.endOfStatement] ∨
        ∃ w ∈ [Kw.DETACH, Kw.EXECUTE, Kw.PREPARE], us = [.reserved w]) ∧
      (if failed then ∃ m, Token.endOfStatement ∉ m ∧ skipped = m ++ [.endOfStatement]
        else skipped = []) ∧
      (ts = skipped ++ us ++ .endOfStatement :: rest ∨ ts = skipped ++ us ∧ rest = []) := by
  have key : (if failed then
      match skipStatement ts with
      | (some true, rest) => (.error, true, rest)
      | (some false, rest) => (.eof, true, rest)
      | (none, rest) => parseRecover env rest
    else parseRecover env ts) = (Parsed.stmt o, f, rest) := by
    unfold parse at h
    split at h
    · cases h
    · cases h
    · cases h
    · exact h
  cases failed with
  | false =>
    obtain ⟨rfl, us, h1, h2⟩ := parseRecover_sound hR key
    exact ⟨rfl, [], us, h1, rfl, by simpa using h2⟩
  | true =>
    simp only [if_true] at key
    split at key
    · cases key
    · cases key
    · rename_i r hr
      obtain ⟨m, hm, rfl⟩ := skipStatement_none hr
      have hR' : Readable r := hR.of_suffix ⟨m ++ [.endOfStatement], by simp⟩
      obtain ⟨rfl, us, h1, h2⟩ := parseRecover_sound hR' key
      refine ⟨rfl, m ++ [.endOfStatement], us, h1, by simp only [if_true]; exact ⟨m, hm, rfl⟩, ?_⟩
      rcases h2 with rfl | ⟨rfl, rfl⟩
      · left; simp
      · right; simp

theorem parse_panic {env : ParseEnv} {failed : Bool} {ts : List Token}
    (h : (parse env failed ts).1 = .panic) : (parse env failed ts).2.2 = [] := by
  have hr : ∀ l, (parseRecover env l).1 = .panic → (parseRecover env l).2.2 = [] := by
    intro l
    unfold parseRecover
    split <;> intro h <;> first | rfl | cases h
  unfold parse at h ⊢
  split at h
  · cases h
  · cases h
  · cases h
  · cases failed with
    | false => exact hr _ h
    | true =>
      simp only [if_true] at h ⊢
      split at h
      · cases h
      · cases h
      · exact hr _ h

/-- The tokens that are left after some calls are the last ones. -/
theorem afterCalls_suffix {env : ParseEnv} {ts : List Token} (hc : Token.eof ∉ ts) :
    ∀ k, (afterCalls env ts k).2 <:+ ts
  | 0 => List.suffix_refl _
  | k + 1 => by
    have h1 := afterCalls_suffix (env := env) hc k
    have hp := parse_any (env := env) (failed := (afterCalls env ts k).1) fun h => hc (h1.subset h)
    rcases hp with ⟨p1, _⟩ | ⟨_, p2, _⟩ | ⟨_, p2⟩
    · have : (parse env (afterCalls env ts k).1 (afterCalls env ts k).2).2.2 = [] := parse_panic p1
      show (parse env _ _).2.2 <:+ ts
      rw [this]
      exact List.nil_suffix
    · exact p2.trans h1
    · exact p2.trans h1

theorem tokenize_readable {env : ScanEnv} (h : ∀ b q, env.id b q ≠ 0) (l : List Nat) :
    Readable (tokenize env l) := by
  refine ⟨fun hm => (tokenize_mem hm).1 rfl, fun hm => ?_⟩
  obtain ⟨_, m, _, hs⟩ := tokenize_mem hm
  obtain ⟨_, _, _, _, _, _, ⟨h1, _⟩ | ⟨_, _, h2⟩⟩ := scan_spec env m
  · rw [hs] at h1; cases h1
  · rw [hs] at h2
    rcases h2 with ⟨_, h3, _⟩ | ⟨_, _, _, _, _, _, h3⟩
    · exact h _ _ h3.symm
    · exact h _ _ h3.symm

/-- What the calls return is written in the text. -/
theorem parsedAt_sound {env : ParseEnv} {l : List Nat} {k : Nat} {s : Stmt}
    (hid : ∀ b q, env.id b q ≠ 0)
    (hk : parsedAt env (tokenize env.toScanEnv l) k = .stmt (some s)) :
    ∃ pre us post, tokenize env.toScanEnv l = pre ++ us ++ post ∧
      StmtForm env (ExprForm env) (QueryForm env) s us ∧
      (post = [] ∨ ∃ m, post = .endOfStatement :: m) := by
  obtain ⟨a, ha⟩ := afterCalls_suffix (env := env) (fun hm => (tokenize_mem hm).1 rfl) k
  have hR := (tokenize_readable hid l).of_suffix (afterCalls_suffix (env := env) (fun hm => (tokenize_mem hm).1 rfl) k)
  unfold parsedAt at hk
  obtain ⟨_, skipped, us, h1, _, h2⟩ := parse_sound (o := some s)
    (f := (parse env (afterCalls env (tokenize env.toScanEnv l) k).1
      (afterCalls env (tokenize env.toScanEnv l) k).2).2.1)
    (rest := (parse env (afterCalls env (tokenize env.toScanEnv l) k).1
      (afterCalls env (tokenize env.toScanEnv l) k).2).2.2) hR (Prod.ext hk rfl)
  rcases h2 with h2 | ⟨h2, _⟩
  · generalize (parse env (afterCalls env (tokenize env.toScanEnv l) k).1
      (afterCalls env (tokenize env.toScanEnv l) k).2).2.2 = r at h2
    exact ⟨a ++ skipped, us, .endOfStatement :: r, by rw [← ha, h2]; simp, h1, .inr ⟨_, rfl⟩⟩
  · exact ⟨a ++ skipped, us, [], by rw [← ha, h2]; simp, h1, .inl rfl⟩

/-- A text of one byte is ASCII. -/
theorem runeText_one {c : Nat} {b : Byte} (h : runeText c = [b]) : b.toNat < 128 := by
  have key : ∀ c, utf8Encode c = [b] → b.toNat < 128 := by
    intro c h
    unfold utf8Encode at h
    split at h
    · simp only [List.cons.injEq, and_true] at h
      rw [← h, BitVec.toNat_ofNat]
      omega
    · split at h
      · simp at h
      · split at h <;> simp at h
  unfold runeText at h
  split at h <;> exact key _ h

theorem constant_one {esc : Bool} {l : List Nat} {v : Bytes} {b : Byte} (h : Constant esc l v)
    (hv : v = [b]) : b.toNat < 128 := by
  induction h with
  | done => simp at hv
  | piece l m v w hp hc ih =>
    rcases List.append_eq_singleton_iff.1 hv with ⟨_, hw⟩ | ⟨hw, _⟩
    · exact ih hw
    · cases hp with
      | plain r _ _ => exact runeText_one hw
      | quote => simp only [List.cons.injEq, and_true] at hw; rw [← hw]; decide
      | join _ _ _ => simp at hw
      | escape l c _ _ => exact runeText_one hw

/-- The scanner finds no string of one byte that is not ASCII. -/
theorem string_one {env : ScanEnv} {l : List Nat} {b : Byte} (h : Token.string [b] ∈ tokenize env l) :
    b.toNat < 128 := by
  obtain ⟨_, m, _, hs⟩ := tokenize_mem h
  obtain ⟨_, _, _, _, _, _, ⟨h1, _⟩ | ⟨_, _, h2⟩⟩ := scan_spec env m
  · rw [hs] at h1; cases h1
  · rw [hs] at h2
    rcases h2 with ⟨_, _, h3⟩ | ⟨_, _, _, _, h3⟩
    · exact constant_one h3 rfl
    · exact constant_one h3 rfl

/-- What is parsed of `COPY`. -/
theorem parsed_copy {env : ParseEnv} {failed : Bool} {l : List Nat} {ts : List Token} {tn : TableName}
    {cols : List Identifier} {input : List Nat} {d : Nat} (hid : ∀ b q, env.id b q ≠ 0)
    (hs : ts <:+ tokenize env.toScanEnv l)
    (h : (parse env failed ts).1 = .stmt (some (.copy tn cols input d))) :
    input = [] ∧ cols.Nodup ∧ d < 128 := by
  obtain ⟨_, skipped, us, h1, _, h2⟩ := parse_sound (o := some (.copy tn cols input d))
    ((tokenize_readable hid l).of_suffix hs) (Prod.ext h rfl)
  have hm : ∀ t ∈ us, t ∈ tokenize env.toScanEnv l := by
    intro t ht
    refine hs.subset ?_
    rcases h2 with h2 | ⟨h2, _⟩ <;> rw [h2] <;> simp [ht]
  cases h1 with
  | copy h3 h4 h5 =>
    refine ⟨rfl, by cases h4; assumption, ?_⟩
    cases h5 with
    | none => decide
    | some h6 =>
      cases h6 with
      | mk b => exact string_one (hm _ (by simp))

end Maho
