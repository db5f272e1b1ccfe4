import Verif.Model.ScanBuffer
/-
What a statement holds, and which parts of it cannot depend on the contents of bytes literals.
-/
namespace Maho.Spec
open Maho

/-- `s'` is `s` with other bytes: in the literals, and in the texts that were made from one. -/
def StmtWith (f : Bytes → Bytes) : Stmt → Stmt → Prop
  | .set var' _, .set var _ => var' = var
  | .createDatabase d' o', .createDatabase d o => d' = d ∧ o'.map (·.1) = o.map (·.1)
  | s', s => s' = stmtWith f s

/-- The results of `Parse`, with other bytes in the statement. -/
def ParsedWith (f : Bytes → Bytes) : Parsed → Parsed → Prop
  | .stmt (some s'), .stmt (some s) => StmtWith f s' s
  | .stmt none, .stmt none => True
  | .eof, .eof => True
  | .error, .error => True
  | .panic, .panic => True
  | .stuck, .stuck => True
  | _, _ => False

/-- No scan before number `upto` writes other bytes over those of a bytes token from number `start` on:
where both have a byte, it is the same one. -/
def Undisturbed (cs : List Scan) (start upto : Nat) : Prop :=
  ∀ i j ci cj b, start ≤ i → i < j → j < upto → cs[i]? = some ci → cs[j]? = some cj →
    ci.token = .bytes b →
    ∀ (k : Nat) (x y : Byte), ci.written[k]? = some x → cj.written[k]? = some y → x = y

end Maho.Spec
