/-
Specification for C60: what servers answer and do when schemas and tables are dropped.  (From the manuals.  Names are compared as they are, without
regard to collations.)
-/
import Verif.Model.DropSchema
import Verif.Spec.Ddl
import Verif.Spec.Lex

set_option autoImplicit false

namespace PySqlSync.Spec
open PySqlSync

/-- What is known of a server. -/
structure DropServer where
  /-- how it reads literals -/
  read : Text → Option (Text × Text)
  /-- `DROP TABLE` with several tables drops them at once (MySQL), not one after the other (SQL Server) -/
  atOnce : Bool
  /-- `DROP SCHEMA` drops what is in the schema, too, even without `CASCADE` (Snowflake) -/
  always : Bool := false
  /-- names of views -/
  views : List Key
  /-- the user of the connection -/
  me : Text
  /-- names and owners of tables of other users -/
  foreign : List (Text × Text)

/-- The object `k` is a table with a foreign key to an object of a set. -/
def Db.RefersTo (db : Db) (k : Key) (P : Key → Bool) : Prop :=
  ∃ ts n cs tgt rs, db.objs k = some (.table ts) ∧ ts.cons n = some (.foreign cs tgt rs) ∧ P tgt = true

/-- The database without a set of objects; all others as they are. -/
def Db.without (db : Db) (P : Key → Bool) : Db := { db with objs := fun k => if P k then none else db.objs k }

/-! ### Dropping with everything that depends -/

/-- A type mentions an object of a set. -/
def usesAny (P : Key → Bool) (ty : SqlType) : Bool := ty.refs.any P

/-- A column goes because of its type. -/
def TableState.goes (P : Key → Bool) (ts : TableState) (n : Text) : Bool := (ts.cols n).any (fun c => usesAny P c.ty)

/-- A table loses its primary key because of the type of a column. -/
def Db.losesKey (db : Db) (P : Key → Bool) (k : Key) : Bool :=
  match db.objs k with
  | some (.table ts) => ts.pk.any (ts.goes P)
  | _ => false

/-- A constraint goes if one of its columns goes, or the object or the key it refers to. -/
def ConState.goes (db : Db) (P : Key → Bool) (ts : TableState) (c : ConState) : Bool :=
  c.cols.any (ts.goes P) ||
  (match c with
   | .foreign _ k _ => P k || db.losesKey P k
   | _ => false)

/-- What remains of an object when a set of objects is dropped with everything that depends on them. -/
def Obj.rest (db : Db) (P : Key → Bool) : Obj → Obj
  | .enum vs => .enum vs
  | .struct attrs => .struct (fun n => (attrs n).filter (fun ty => !usesAny P ty))
  | .table ts => .table
    { cols := fun n => (ts.cols n).filter (fun c => !usesAny P c.ty)
      pk := if ts.pk.any (ts.goes P) then [] else ts.pk
      cons := fun n => (ts.cons n).filter (fun c => !c.goes db P ts)
      dfs := fun n => (ts.dfs n).filter (fun m => !ts.goes P m) }

/-- `DROP ... CASCADE` of a set of objects. -/
def Db.cascade (db : Db) (P : Key → Bool) : Db :=
  { db with objs := fun k => if P k then none else (db.objs k).map (Obj.rest db P) }

/-! ### Statements and queries -/

/-- Tables are dropped one after the other; missing ones are skipped. -/
inductive DropsEach (views : List Key) : Db → List Key → Db → Prop where
  | nil (db : Db) : DropsEach views db [] db
  | missing {db db' : Db} {k : Key} {ks : List Key} : db.isTable k = false → k ∉ views → DropsEach views db ks db' →
      DropsEach views db (k :: ks) db'
  | table {db db' : Db} {k : Key} {ks : List Key} : db.isTable k = true → (∀ k', k' ≠ k → ¬ db.RefersTo k' (fun x => x = k)) →
      DropsEach views (db.set k none) ks db' → DropsEach views db (k :: ks) db'

/-- The effect of a statement. -/
inductive Does (srv : DropServer) : Db → DropCmd → Db → Prop where
  | dropConstraint {db : Db} {k : Key} {n : Text} {ts : TableState} : db.objs k = some (.table ts) → (ts.cons n).isSome = true →
      Does srv db (.dropConstraint k n) (db.set k (some (.table { ts with cons := upd ts.cons n none })))
  /-- no other table may refer to one of the tables -/
  | dropAtOnce {db : Db} {ks : List Key} : srv.atOnce = true →
      (∀ k', ¬ (k' ∈ ks ∧ db.isTable k' = true) → ¬ db.RefersTo k' (fun k => ks.contains k)) →
      Does srv db (.dropTables ks) (db.without (fun k => ks.contains k && db.isTable k))
  | dropEach {db db' : Db} {ks : List Key} : srv.atOnce = false → DropsEach srv.views db ks db' → Does srv db (.dropTables ks) db'
  | dropTableCascade {db : Db} {k : Key} : db.isTable k = true → Does srv db (.dropTableCascade k) (db.cascade (fun x => x = k))
  | createSchema {db : Db} {n : Text} {ine : Bool} : db.schemas n = false →
      Does srv db (.createSchema n ine) { db with schemas := upd db.schemas n true }
  | createExisting {db : Db} {n : Text} : db.schemas n = true → Does srv db (.createSchema n true) db
  | dropMissing {db : Db} {n : Text} {c : Bool} : db.schemas n = false → Does srv db (.dropSchema n true c) db
  /-- an empty one -/
  | dropEmpty {db : Db} {n : Text} {ie : Bool} : srv.always = false → db.schemas n = true → (∀ k, k.1 = n → db.objs k = none) →
      Does srv db (.dropSchema n ie false) { db with schemas := upd db.schemas n false }
  | dropCascade {db : Db} {n : Text} {ie c : Bool} : (c = true ∨ srv.always = true) → db.schemas n = true →
      Does srv db (.dropSchema n ie c) { db.cascade (fun k => k.1 = n) with schemas := upd db.schemas n false }

/-- The rows that a query returns. -/
def Answered (srv : DropServer) (db : Db) (rows : List (Text × Text)) : DropQuery → Prop
  | .foreignKeys lit => ∃ s, srv.read (lit ++ t ";") = some (s, t ";") ∧
      ∀ r, r ∈ rows ↔ ∃ ts cs k rs, db.objs (s, r.1) = some (.table ts) ∧ ts.cons r.2 = some (.foreign cs k rs)
  | .tablesOf lit => ∃ s, srv.read (lit ++ t ";") = some (s, t ";") ∧
      ∀ r, r ∈ rows ↔ r.2 = [] ∧ (db.isTable (s, r.1) = true ∨ (s, r.1) ∈ srv.views)
  | .tablesLike lit => ∃ pat, srv.read (lit ++ t " ESCAPE '~';") = some (pat, t " ESCAPE '~';") ∧
      ∀ r, r ∈ rows ↔ r.2 = [] ∧ LikeMatch '~' pat r.1 ∧ (db.isTable ([], r.1) = true ∨ ([], r.1) ∈ srv.views)
  | .allTablesLike lit => ∃ pat, srv.read (lit ++ t " ESCAPE '~'") = some (pat, t " ESCAPE '~'") ∧
      ∀ r, r ∈ rows ↔ LikeMatch '~' pat r.1 ∧ ((r.2 = srv.me ∧ db.isTable ([], r.1) = true) ∨ r ∈ srv.foreign)

/-- A conversation that is not refused, the database before and after it. -/
inductive Talks (srv : DropServer) : Db → Talk → Db → Prop where
  | done (db : Db) : Talks srv db .done db
  | ask {db db' : Db} {q : DropQuery} {next : List (Text × Text) → Talk} {rows : List (Text × Text)} : rows.Nodup → Answered srv db rows q →
      Talks srv db (next rows) db' → Talks srv db (.ask q next) db'
  | run {db db1 db' : Db} {c : DropCmd} {next : Talk} : Does srv db c db1 → Talks srv db1 next db' → Talks srv db (.run c next) db'

/-- There are finitely many objects and constraints. -/
def Db.Finite (db : Db) : Prop :=
  ∃ (keys : List Key) (names : List Text), (∀ k o, db.objs k = some o → k ∈ keys) ∧
    ∀ k ts n c, db.objs k = some (.table ts) → ts.cons n = some c → n ∈ names

/-- There are no user-defined types. -/
def Db.OnlyTables (db : Db) : Prop := ∀ k o, db.objs k = some o → db.isTable k = true

/-- The servers. -/
structure IsServer (e : PySqlSync.Engine) (srv : DropServer) : Prop where
  read : srv.read = if e = .mysql then readMySQL else readString
  atOnce : srv.atOnce = true ↔ e = .mysql
  always : srv.always = true ↔ e = .snowflake
  foreign : ∀ r ∈ srv.foreign, r.2 ≠ srv.me

/-- The objects of a namespace: those in the schema, or those with the prefix (MySQL, Oracle). -/
def inNamespace (e : PySqlSync.Engine) (ns : Text) (k : Key) : Bool :=
  match e with
  | .mysql | .oracle => k.1 = [] && (ns ++ t "__").isPrefixOf k.2
  | _ => k.1 = ns

/-- The object `k` mentions an object of a set in a type. -/
def Db.UsesType (db : Db) (k : Key) (P : Key → Bool) : Prop :=
  (∃ ts n c, db.objs k = some (.table ts) ∧ ts.cols n = some c ∧ usesAny P c.ty = true) ∨
  ∃ attrs n ty, db.objs k = some (.struct attrs) ∧ attrs n = some ty ∧ usesAny P ty = true

/-- No object outside of a set refers to one of it. -/
def Db.SelfContained (db : Db) (P : Key → Bool) : Prop :=
  ∀ k, P k = false → ¬ db.RefersTo k P ∧ ¬ db.UsesType k P

end PySqlSync.Spec
