import Verif.Lemmas.ScanBuffer
/-
The buffer of the scanner while it has its first array.
-/
namespace Maho.Lit
open Maho Maho.Spec

theorem write_small (move : Nat → Bool) : ∀ (w : Bytes) (pos : Nat) (l : Bytes), pos ≤ l.length →
    (∀ k, pos ≤ k → k < pos + w.length → move k = false) →
    (ScanBuffer.mk [l] 0).write move pos w =
      ⟨[l.take pos ++ w ++ l.drop (pos + w.length)], 0⟩
  | [], pos, l, _, _ => by simp [ScanBuffer.write]
  | b :: bs, pos, l, hp, hm => by
    have h0 : move pos = false := hm pos (Nat.le_refl _) (by simp)
    have h1 : (ScanBuffer.mk [l] 0).writeByte (move pos) pos b = ⟨[overwrite l pos b], 0⟩ := by
      rw [h0]; rfl
    have hl : (l.take pos).length = pos := by rw [List.length_take, Nat.min_eq_left hp]
    rw [ScanBuffer.write, h1, write_small move bs (pos + 1) _ (by simp [overwrite]; omega)
      fun k hk hk' => hm k (by omega) (by simp only [List.length_cons]; omega)]
    have e : overwrite l pos b = (l.take pos ++ [b]) ++ l.drop (pos + 1) := by
      simp [overwrite]
    have hl' : (l.take pos ++ [b]).length = pos + 1 := by simp [hl]
    rw [e, List.take_left' hl', List.drop_append, hl',
      List.drop_eq_nil_of_le (by rw [hl']; omega), List.drop_drop]
    simp only [List.append_assoc, List.nil_append, List.singleton_append, List.length_cons]
    rw [show pos + 1 + (pos + 1 + bs.length - (pos + 1)) = pos + (bs.length + 1) by omega]

/-- No scan needs more than the first array of the buffer. -/
def Small (cs : List Scan) : Prop := ∀ c ∈ cs, c.written.length ≤ 61

theorem after_small (env : BufferEnv) : ∀ (cs : List Scan) (k : Nat) (l : Bytes), Small cs →
    env.after ⟨[l], 0⟩ k cs =
      ⟨[cs.foldl (fun l c => c.written ++ l.drop c.written.length) l], 0⟩
  | [], _, _, _ => rfl
  | c :: cs, k, l, h => by
    have hc := h c (by simp)
    rw [BufferEnv.after, write_small _ _ _ _ (Nat.zero_le _)
      fun p _ hp => env.small k p (by simp at hp; omega), List.foldl_cons]
    rw [after_small env cs (k + 1) _ fun d hd => h d (by simp [hd])]
    simp

theorem take_overlay (n : Nat) : ∀ (cs : List Scan) (l : Bytes),
    (cs.foldl (fun l c => c.written ++ l.drop c.written.length) l).take n =
      (cs.foldl (fun v c => (c.written ++ v.drop c.written.length).take n) (l.take n))
  | [], _ => rfl
  | c :: cs, l => by
    rw [List.foldl_cons, List.foldl_cons, take_overlay n cs]
    congr 1
    rw [List.take_append, List.take_append]
    congr 1
    rw [List.drop_take, List.take_take]
    congr 1
    omega

/-- What a slice contains: the bytes of the token, with those of the later tokens over them. -/
theorem held_small (env : BufferEnv) {cs : List Scan} (hs : Small cs) {i upto : Nat} {c : Scan}
    (hi : cs[i]? = some c) (hlt : i < upto) :
    env.held cs i upto = ((cs.take upto).drop (i + 1)).foldl
      (fun v d => d.written.take v.length ++ v.drop d.written.length) c.written := by
  have e1 : cs.take (i + 1) = cs.take i ++ [c] := by
    rw [List.take_add_one, hi]; rfl
  have e2 : cs.take upto = cs.take (i + 1) ++ (cs.take upto).drop (i + 1) := by
    conv => lhs; rw [← List.take_append_drop (i + 1) (cs.take upto)]
    rw [List.take_take, Nat.min_eq_left (by omega)]
  have sub : ∀ k, Small (cs.take k) := fun k d hd => hs d (List.mem_of_mem_take hd)
  unfold BufferEnv.held
  rw [if_pos hlt, List.getD_eq_getElem?_getD, hi, Option.getD_some]
  have h1 := after_small env (cs.take (i + 1)) 0 [] (sub _)
  have h2 := after_small env (cs.take upto) 0 [] (sub _)
  unfold ScanBuffer.new
  rw [h1, h2]
  show (cs.take upto |>.foldl (fun l c => c.written ++ l.drop c.written.length) []).take _ = _
  rw [e2, List.foldl_append, e1, List.foldl_append]
  simp only [List.foldl_cons, List.foldl_nil]
  generalize (cs.take i).foldl (fun l c => c.written ++ l.drop c.written.length) [] = l0
  rw [take_overlay, List.take_left' rfl, ← e1, ← e2]
  generalize (cs.take upto).drop (i + 1) = rest
  have key : ∀ (rest : List Scan) (v : Bytes) (n : Nat), v.length = n →
      rest.foldl (fun v c => (c.written ++ v.drop c.written.length).take n) v =
      rest.foldl (fun v d => d.written.take v.length ++ v.drop d.written.length) v := by
    intro rest
    induction rest with
    | nil => intro _ _ _; rfl
    | cons d rest ih =>
      intro v n hv
      rw [List.foldl_cons, List.foldl_cons]
      have : (d.written ++ v.drop d.written.length).take n =
          d.written.take v.length ++ v.drop d.written.length := by
        rw [List.take_append, hv, List.take_of_length_le (l := v.drop _) (by simp; omega)]
      rw [this]
      refine ih _ n ?_
      simp
      omega
  exact key rest c.written _ rfl

theorem parsedAfter_small (penv : ParseEnv) (env env' : BufferEnv) (failed : Bool) {cs : List Scan}
    (hs : Small cs) (start upto : Nat) :
    parsedAfter penv env failed cs start upto = parsedAfter penv env' failed cs start upto := by
  have : (fun i => env.held cs i upto) = fun i => env'.held cs i upto := by
    funext i
    have h : ∀ k (e : BufferEnv), e.after .new 0 (cs.take k) =
        ⟨[(cs.take k).foldl (fun l c => c.written ++ l.drop c.written.length) []], 0⟩ := fun k e =>
      after_small e (cs.take k) 0 [] fun d hd => hs d (List.mem_of_mem_take hd)
    unfold BufferEnv.held
    rw [h, h, h, h]
  unfold parsedAfter
  rw [this]

/-- A buffer that never moves. -/
def _root_.Maho.BufferEnv.still : BufferEnv := ⟨fun _ _ => false, fun _ _ _ => rfl⟩

/-- Whether two tokens write different bytes at a position. -/
def differ : Bytes → Bytes → Bool
  | x :: v, y :: w => x != y || differ v w
  | _, _ => false

theorem differ_false : ∀ {v w : Bytes}, differ v w = false →
    ∀ (k : Nat) (x y : Byte), v[k]? = some x → w[k]? = some y → x = y
  | [], _, _, k, x, y, hx, _ => by simp at hx
  | _ :: _, [], _, k, x, y, _, hy => by simp at hy
  | a :: v, b :: w, h, k, x, y, hx, hy => by
    simp only [differ, Bool.or_eq_false_iff, bne_eq_false_iff_eq] at h
    cases k with
    | zero => simp at hx hy; rw [← hx, ← hy]; exact h.1
    | succ k => exact differ_false h.2 k x y (by simpa using hx) (by simpa using hy)

/-- `Undisturbed` as a test. -/
def undisturbed (cs : List Scan) (start upto : Nat) : Bool :=
  (List.range upto).all fun j => (List.range j).all fun i =>
    i < start || (match cs[i]?, cs[j]? with
      | some ci, some cj => (match ci.token with
        | .bytes _ => !differ ci.written cj.written
        | _ => true)
      | _, _ => true)

theorem undisturbed_sound {cs : List Scan} {start upto : Nat}
    (h : undisturbed cs start upto = true) : Undisturbed cs start upto := by
  intro i j ci cj b hs hij hju hi hj ht
  unfold undisturbed at h
  rw [List.all_eq_true] at h
  have h := h j (List.mem_range.2 hju)
  rw [List.all_eq_true] at h
  have h := h i (List.mem_range.2 hij)
  rw [hi, hj] at h
  simp only [ht, Bool.or_eq_true, decide_eq_true_eq, Bool.not_eq_true'] at h
  rcases h with h | h
  · omega
  · exact differ_false h

end Maho.Lit
