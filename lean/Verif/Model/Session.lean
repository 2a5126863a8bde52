/-
Model of the schema model that a connection's generator keeps (`BaseGenerator.state`) and of the calls that change it
(pysqlsync/base.py).

Not modelled: how classes are turned into the target catalog (`target` is given), the explorer's queries (`explore` is
given), and that `mutate_catalog_stmt` reorders the namespaces of both catalogs in place (the order in which namespaces
are listed has no influence on what a catalog describes).
-/
import Verif.Model.Mutation
import Verif.Model.Merge
import Verif.Spec.Ddl

set_option autoImplicit false

namespace PySqlSync

/-- What a connection's generator believes, and the database. -/
structure Session where
  state : Catalog
  db : Spec.Db

/-- The environment of a session. -/
structure Env where
  topo : List (Text × List Text) → Except Err (List Text)
  dialect : Dialect
  engine : Spec.Engine
  /-- `Explorer.get_namespace` (or `get_namespace_current`) -/
  explore : Spec.Db → Text → Except Err Namespace

/-- How a call ends: it returns, raises before it sends anything to the database, or the database refuses a
    statement (or the connection is lost). -/
inductive Outcome where
  | returned | raised | failed
deriving DecidableEq, Repr

/-- What `execute(script)` can do to the database: run all statements, or stop somewhere; with `atomic` what was done
    is then undone. -/
inductive Executes (E : Spec.Engine) (atomic : Bool) (db : Spec.Db) (script : List Stmt) : Spec.Db → Outcome → Prop where
  | all {db' : Spec.Db} : Spec.Runs E db script db' → Executes E atomic db script db' .returned
  | undone : atomic = true → Executes E atomic db script db .failed
  | stopped {done rest : List Stmt} {db' : Spec.Db} : atomic = false → script = done ++ rest → Spec.Runs E db done db' →
      Executes E atomic db script db' .failed

/-- The calls. -/
inductive Call where
  | createObjects (target : Catalog)
  | dropObjects
  | discover (names : List Text)
  | synchronize (target : Catalog) (names : List Text)

/-- The loop 1395-1401 of `discover`, after `reset` (187-188): the state, and whether the loop ended. -/
def discoverLoop (explore : Text → Except Err Namespace) : Catalog → List Text → Catalog × Bool
  | c, [] => (c, true)
  | c, n :: rest =>
    match explore n with
    | .error _ => (c, false)
    | .ok ns =>
      let (c', ok) := c.merge ⟨⟨[ns]⟩⟩
      if ok then discoverLoop explore c' rest else (c', false)

/-- 1392-1401. -/
def discovered (v : Env) (db : Spec.Db) (names : List Text) : Catalog × Bool :=
  discoverLoop (v.explore db) ⟨⟨[]⟩⟩ names

/-- `create` (base.py:283-299) and `drop` (303-316), then `execute` (987-1001).  The state is replaced before the
    script is executed. -/
inductive Replace (v : Env) (atomic : Bool) (s : Session) (target : Catalog) : Session → Outcome → Prop where
  | raised {e : Err} : mutateCatalog v.topo v.dialect {} s.state target = .error e → Replace v atomic s target s .raised
  | nothing : mutateCatalog v.topo v.dialect {} s.state target = .ok [] →
      Replace v atomic s target ⟨target, s.db⟩ .returned
  | executed {script : List Stmt} {db' : Spec.Db} {o : Outcome} :
      mutateCatalog v.topo v.dialect {} s.state target = .ok script → script ≠ [] →
      Executes v.engine atomic s.db script db' o → Replace v atomic s target ⟨target, db'⟩ o

/-- The effect of a call.  `synchronize` (1418-1457) forgets the state, computes the target (which fails if it cannot be
    created from nothing, 1444), discovers, and adopts the target only after the script was executed. -/
inductive Step (v : Env) (atomic : Bool) (s : Session) : Call → Session → Outcome → Prop where
  | create {target : Catalog} {s' : Session} {o : Outcome} : Replace v atomic s target s' o →
      Step v atomic s (.createObjects target) s' o
  | drop {s' : Session} {o : Outcome} : Replace v atomic s ⟨⟨[]⟩⟩ s' o → Step v atomic s .dropObjects s' o
  | discover {names : List Text} {c : Catalog} {ok : Bool} : discovered v s.db names = (c, ok) →
      Step v atomic s (.discover names) ⟨c, s.db⟩ (if ok then .returned else .raised)
  | syncTarget {target : Catalog} {names : List Text} {e : Err} :
      mutateCatalog v.topo v.dialect {} ⟨⟨[]⟩⟩ target = .error e →
      Step v atomic s (.synchronize target names) ⟨⟨⟨[]⟩⟩, s.db⟩ .raised
  | syncDiscover {target : Catalog} {names : List Text} {script0 : List Stmt} {c : Catalog} :
      mutateCatalog v.topo v.dialect {} ⟨⟨[]⟩⟩ target = .ok script0 →
      discovered v s.db names = (c, false) →
      Step v atomic s (.synchronize target names) ⟨c, s.db⟩ .raised
  | syncRaised {target : Catalog} {names : List Text} {script0 : List Stmt} {found : Catalog} {e : Err} :
      mutateCatalog v.topo v.dialect {} ⟨⟨[]⟩⟩ target = .ok script0 →
      discovered v s.db names = (found, true) →
      mutateCatalog v.topo v.dialect {} found target = .error e →
      Step v atomic s (.synchronize target names) ⟨found, s.db⟩ .raised
  | syncNothing {target : Catalog} {names : List Text} {script0 : List Stmt} {found : Catalog} :
      mutateCatalog v.topo v.dialect {} ⟨⟨[]⟩⟩ target = .ok script0 →
      discovered v s.db names = (found, true) →
      mutateCatalog v.topo v.dialect {} found target = .ok [] →
      Step v atomic s (.synchronize target names) ⟨found, s.db⟩ .returned
  | syncExecuted {target : Catalog} {names : List Text} {script0 : List Stmt} {found : Catalog} {script : List Stmt}
      {db' : Spec.Db} {o : Outcome} :
      mutateCatalog v.topo v.dialect {} ⟨⟨[]⟩⟩ target = .ok script0 →
      discovered v s.db names = (found, true) →
      mutateCatalog v.topo v.dialect {} found target = .ok script → script ≠ [] →
      Executes v.engine atomic s.db script db' o →
      Step v atomic s (.synchronize target names) ⟨if o = .returned then target else found, db'⟩ o

end PySqlSync
