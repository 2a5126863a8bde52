/-
Specification for C63: what database servers keep of the work of a connection, when calls of the driver fail and when the connection is lost.

From the manuals of the drivers: asyncpg (`execute` of a script and `executemany` are atomic), aiomysql and redshift_connector (each statement is committed by itself
in autocommit mode), python-oracledb (in autocommit mode there is a commit after each call that succeeds; after a failure of `executemany`, the rows before stay part
of the transaction), pyodbc (autocommit is off; leaving the `with` block of a cursor without an exception commits), PostgreSQL and Redshift (COPY is one statement).
-/
import Verif.Model.Transact

set_option autoImplicit false

namespace PySqlSync.Spec

/-- What the server has: the work that it keeps whatever happens, and the work of the transaction that is in progress. -/
structure ServerState (U : Type) where
  durable : List U
  pending : List U := []
deriving DecidableEq, Repr

/-- How a call ends: it returns; it raises an error, and the connection may be used further; or the connection is lost (or the client dies). -/
inductive End where
  | returned | failed | lost
deriving DecidableEq, Repr

/-- When the work of a call is committed. -/
inductive Discipline where
  /-- the call is one transaction -/
  | together
  /-- each part of the work is one transaction -/
  | each
  /-- the work becomes part of the transaction in progress, which is committed if the call succeeds -/
  | after
  /-- the work becomes part of the transaction in progress -/
  | none
deriving DecidableEq, Repr

def discipline {U : Type} (e : PySqlSync.Engine) (auto : Bool) : DriverCall U → Discipline
  | call =>
    match e, auto, call with
    | .postgresql, _, _ => .together
    | _, false, _ => .none
    | .oracle, true, _ => .after
    | .redshift, true, .copy _ => .together
    | _, true, _ => .each

variable {U : Type}

/-- A call of the driver, in all the ways it may go.  A call that fails has done a part of its work; when the connection is lost, the client does not know whether the last commit took place. -/
inductive Served : Discipline → List U → ServerState U → End → ServerState U → Prop
  | together {w k} : Served .together w k .returned ⟨k.durable ++ k.pending ++ w, []⟩
  | togetherFails {w k} : Served .together w k .failed k
  | togetherLost {w k} : Served .together w k .lost ⟨k.durable, []⟩
  | togetherUnknown {w k} : Served .together w k .lost ⟨k.durable ++ k.pending ++ w, []⟩
  | each {w k} : Served .each w k .returned ⟨k.durable ++ k.pending ++ w, []⟩
  | eachFails {w k} (n : Nat) : n < w.length ∨ n = 0 → Served .each w k .failed ⟨k.durable ++ k.pending ++ w.take n, []⟩
  | eachLost {w k} (n : Nat) : Served .each w k .lost ⟨k.durable ++ k.pending ++ w.take n, []⟩
  | after {w k} : Served .after w k .returned ⟨k.durable ++ k.pending ++ w, []⟩
  | afterFails {w k} (n : Nat) : n < w.length ∨ n = 0 → Served .after w k .failed ⟨k.durable, k.pending ++ w.take n⟩
  | afterLost {w k} : Served .after w k .lost ⟨k.durable, []⟩
  | afterUnknown {w k} : Served .after w k .lost ⟨k.durable ++ k.pending ++ w, []⟩
  | none {w k} : Served .none w k .returned ⟨k.durable, k.pending ++ w⟩
  | noneFails {w k} (n : Nat) : n < w.length ∨ n = 0 → Served .none w k .failed ⟨k.durable, k.pending ++ w.take n⟩
  | noneLost {w k} : Served .none w k .lost ⟨k.durable, []⟩

/-- The end of the `with` block of a cursor, if no call in it failed. -/
inductive Leaves : PySqlSync.Engine → Bool → ServerState U → End → ServerState U → Prop
  /-- pyodbc commits -/
  | commit {k} : Leaves .mssql false k .returned ⟨k.durable ++ k.pending, []⟩
  | commitFails {k} : Leaves .mssql false k .failed k
  | commitLost {k} : Leaves .mssql false k .lost ⟨k.durable, []⟩
  | commitUnknown {k} : Leaves .mssql false k .lost ⟨k.durable ++ k.pending, []⟩
  | nothing {e auto k} : e ≠ .mssql ∨ auto = true → Leaves e auto k .returned k

/-- The calls of a block, up to the first that does not return. -/
inductive DoesBlock (e : PySqlSync.Engine) (auto : Bool) : Block U → ServerState U → End → ServerState U → Prop
  | leave {k o k'} : Leaves e auto k o k' → DoesBlock e auto [] k o k'
  | stop {c rest k o k'} : o ≠ .returned → Served (discipline e auto c) c.work k o k' → DoesBlock e auto (c :: rest) k o k'
  | next {c rest k k' o k''} : Served (discipline e auto c) c.work k .returned k' → DoesBlock e auto rest k' o k'' → DoesBlock e auto (c :: rest) k o k''

/-- The blocks of an operation, up to the first that does not return.  The source of the records may fail before any of them. -/
inductive DoesAll (e : PySqlSync.Engine) (auto : Bool) : List (Block U) → ServerState U → End → ServerState U → Prop
  | done {k} : DoesAll e auto [] k .returned k
  | source {bs k} : DoesAll e auto bs k .failed k
  | stop {b rest k o k'} : o ≠ .returned → DoesBlock e auto b k o k' → DoesAll e auto (b :: rest) k o k'
  | next {b rest k k' o k''} : DoesBlock e auto b k .returned k' → DoesAll e auto rest k' o k'' → DoesAll e auto (b :: rest) k o k''

/-- The history of a connection: operations, the next of which is called unless the connection is lost; how each of them ended; and what the server has. -/
inductive History (e : PySqlSync.Engine) (auto : Bool) : List (List (Block U)) → ServerState U → List End → ServerState U → Prop
  | done {k} : History e auto [] k [] k
  | lost {op rest k k'} : DoesAll e auto op k .lost k' → History e auto (op :: rest) k [.lost] k'
  | next {op rest k o k' os k''} : o ≠ .lost → DoesAll e auto op k o k' → History e auto rest k' os k'' → History e auto (op :: rest) k (o :: os) k''

/-- The work of an operation. -/
def workOf (bs : List (Block U)) : List U := (bs.flatMap id).flatMap DriverCall.work

/-- When the connection is closed, or found lost, the transaction in progress is rolled back. -/
def ServerState.close (k : ServerState U) : List U := k.durable

/-- The work of several operations, in order: all of it for those that returned, a first part of it for the others. -/
inductive FirstParts : List (List (Block U)) → List End → List U → Prop
  | nil {ops} : FirstParts ops [] []
  | returned {op ops os l} : FirstParts ops os l → FirstParts (op :: ops) (.returned :: os) (workOf op ++ l)
  | other {op ops o os p l} : o ≠ .returned → p <+: workOf op → FirstParts ops os l → FirstParts (op :: ops) (o :: os) (p ++ l)

end PySqlSync.Spec
