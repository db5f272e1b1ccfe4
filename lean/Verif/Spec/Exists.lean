import Verif.Spec.Session
/-
What a statement that creates or drops should say about what exists.
-/
namespace Maho.Spec
open Maho

/-- The replies after a statement that creates or drops something has succeeded: `next stmt b`
means that the statement `stmt` about the same thing now succeeds (`b`) or fails. What exists can
be dropped and cannot be created, what does not exist cannot be dropped, and `IF EXISTS` and
`IF NOT EXISTS` turn the failure into success. -/
inductive Next : Stmt → Stmt → Bool → Prop
  | database_again (d o) : Next (.createDatabase d o) (.createDatabase d []) false
  | database_drop (d o b) : Next (.createDatabase d o) (.dropDatabase b d) true
  | database_gone (d a b) : Next (.dropDatabase a d) (.dropDatabase b d) b
  | database_new (d a) : Next (.dropDatabase a d) (.createDatabase d []) true
  | schema_again (sn) : Next (.createSchema sn) (.createSchema sn) false
  | schema_drop (sn b) : Next (.createSchema sn) (.dropSchema b sn) true
  | schema_gone (sn a b) : Next (.dropSchema a sn) (.dropSchema b sn) b
  | table_again (s s' : CreateTable) (h : s'.table = s.table) :
      Next (.createTable s) (.createTable s') s'.ifNotExists

/-! ### What exists according to the replies -/

/-- Something with a name. -/
inductive Named where
  | database (d : Bytes)
  | schema (d s : Bytes)
  | table (d s t : Bytes)
deriving DecidableEq

/-- Whether it exists in the committed catalog, and in the open transaction. -/
structure Mark where
  committed : Bool
  current : Bool
deriving DecidableEq

/-- What exists after one more operation, from its reply: what was created successfully exists, what
was dropped successfully does not, COMMIT keeps what the transaction did and ROLLBACK does not. -/
def Mark.after (env : EngineEnv) (x : Named) (m : Mark) (op : EngineOp) (reply : EngineReply) : Mark :=
  if reply ≠ .done (.ok ()) then m
  else
    match op with
    | .createDatabase dn _ => if x = .database (env.name dn) then ⟨true, true⟩ else m
    | .dropDatabase dn _ => if x = .database (env.name dn) then ⟨false, false⟩ else m
    | .createSchema sn =>
      if x = .schema (env.name sn.database) (env.name sn.schema) then ⟨m.committed, true⟩ else m
    | .dropSchema sn _ =>
      if x = .schema (env.name sn.database) (env.name sn.schema) then ⟨m.committed, false⟩ else m
    | .createTable tn _ _ _ =>
      if x = .table (env.name tn.database) (env.name tn.schema) (env.name tn.table) then
        ⟨m.committed, true⟩
      else m
    | .dropTable tn =>
      if x = .table (env.name tn.database) (env.name tn.schema) (env.name tn.table) then
        ⟨m.committed, false⟩
      else m
    | .commit => ⟨m.current, m.current⟩
    | .rollback => ⟨m.committed, m.committed⟩
    | _ => m

/-- The same after a history. -/
def Mark.run (env : EngineEnv) (x : Named) (m : Mark) : List (EngineOp × EngineReply) → Mark
  | [] => m
  | (op, reply) :: rest => Mark.run env x (m.after env x op reply) rest

/-- What exists in a new system. -/
def Named.initial : Named → Bool
  | .database d => d = ascii "system" ∨ d = ascii "maho"
  | .schema d s => d = ascii "system" ∧ s = ascii "info" ∨ d = ascii "maho" ∧ s = ascii "public"
  | .table d s t =>
    d = ascii "system" ∧ s = ascii "info" ∧
      t ∈ [ascii "sequences", ascii "databases", ascii "schemas", ascii "tables"]

/-- Whether it exists after a history, for the session with the open transaction if there is one. -/
def Named.exists (env : EngineEnv) (x : Named) (history : List (EngineOp × EngineReply)) : Bool :=
  (Mark.run env x ⟨x.initial, x.initial⟩ history).current

/-- The operations of a history with their replies. -/
def historyOf (env : EngineEnv) (ops : List EngineOp) : List (EngineOp × EngineReply) :=
  ops.zip (engineRun env (EngineState.initial env) ops).1

end Maho.Spec
