/-
Specification: what a relational database does with the statements of Spec/Stmt.lean.

Nothing here depends on how pysqlsync computes anything.  The machine is deliberately strict: a statement fails if a
name it creates is taken, a name it uses is missing, or if the resulting database would violate one of the integrity
rules in `Valid`.  It looks at the schema only, not at rows (rows are in Spec/Rows.lean); `INSERT`, `UPDATE` and
`COMMENT` change no schema and are only checked for the existence of the tables they name.
Simplifications: data type conversions always succeed; a foreign key must refer to the primary key of the
other table; enumeration values form a set (their order is in C07); constraint names are local to a table; a composite
type cannot be created with an attribute of its own type, but altering one so that it has such an attribute is not
refused.
-/
import Verif.Spec.Stmt

set_option autoImplicit false

namespace PySqlSync.Spec
open PySqlSync

/-- `f` with the value at `k` replaced. -/
def upd {α β : Type} [DecidableEq α] (f : α → β) (k : α) (v : β) : α → β := fun x => if x = k then v else f x

/-- Parameters of a database engine. -/
structure Engine where
  /-- `DROP COLUMN` also removes the table's own constraints that involve the column (PostgreSQL, Oracle); otherwise
      such constraints stay and make the statement fail unless it removes them too. -/
  cascadeDrop : Bool
  /-- The columns a condition in SQL is about. -/
  condCols : Text → List Text

/-- A column as the database knows it. -/
structure ColState where
  ty : SqlType
  nullable : Bool
  default : Option Text
  identity : Bool
deriving DecidableEq, Repr

/-- A constraint as the database knows it. -/
inductive ConState where
  | unique (cols : List Text)
  | foreign (cols : List Text) (table : Key) (refCols : List Text)
  /-- the condition (as first given) and the columns it is about -/
  | check (cond : Text) (cols : List Text)
deriving DecidableEq, Repr

/-- The table's own columns that a constraint involves. -/
def ConState.cols : ConState → List Text
  | .unique cs => cs
  | .foreign cs _ _ => cs
  | .check _ cs => cs

def ConState.mapCols (f : Text → Text) : ConState → ConState
  | .unique cs => .unique (cs.map f)
  | .foreign cs k rs => .foreign (cs.map f) k rs
  | .check c cs => .check c (cs.map f)

/-- A table as the database knows it: columns, primary key, constraints; and the names of the constraints that carry
    column defaults (SQL Server only). -/
structure TableState where
  cols : Text → Option ColState
  pk : List Text
  cons : Text → Option ConState
  dfs : Text → Option Text

/-- What kind of thing a name denotes, as far as references to it are concerned. -/
inductive Kind where
  | enum
  | struct
  | table (pk : List Text)
deriving DecidableEq, Repr

inductive Obj where
  | enum (values : Text → Bool)
  | struct (attrs : Text → Option SqlType)
  | table (ts : TableState)

def Obj.kind : Obj → Kind
  | .enum _ => .enum
  | .struct _ => .struct
  | .table ts => .table ts.pk

/-- A database: its schemas and objects (a schema's tables and types share one name space). The schema with the empty
    name stands for databases without schemas. -/
structure Db where
  schemas : Text → Bool
  objs : Key → Option Obj

abbrev Kinds := Key → Option Kind

def Db.kinds (db : Db) : Kinds := fun k => (db.objs k).map Obj.kind

/-! ### Integrity rules -/

/-- Every user-defined type mentioned exists and is a type. -/
def TypeFits (K : Kinds) (ty : SqlType) : Prop := ∀ k ∈ ty.refs, K k = some .enum ∨ K k = some .struct

/-- An identity column is not nullable and has no default. -/
def ColState.Ok (c : ColState) : Prop := c.identity = true → c.nullable = false ∧ c.default = none

def ConState.Fits (K : Kinds) (cols : Text → Option ColState) (c : ConState) : Prop :=
  (∀ n ∈ c.cols, (cols n).isSome) ∧
  (match c with
   | .foreign _ k rs => K k = some (.table rs)
   | _ => True)

structure TableState.Fits (K : Kinds) (ts : TableState) : Prop where
  cols : ∀ n c, ts.cols n = some c → c.Ok ∧ TypeFits K c.ty
  pk : ∀ n ∈ ts.pk, ∃ c, ts.cols n = some c ∧ c.nullable = false
  cons : ∀ n c, ts.cons n = some c → c.Fits K ts.cols
  dfs : ∀ n m, ts.dfs n = some m → ∃ c, ts.cols m = some c ∧ c.default ≠ none

def Obj.Fits (K : Kinds) : Obj → Prop
  | .enum _ => True
  | .struct attrs => ∀ n ty, attrs n = some ty → TypeFits K ty
  | .table ts => ts.Fits K

/-- A database in which everything that is referred to exists. -/
structure Valid (db : Db) : Prop where
  schema : ∀ k o, db.objs k = some o → db.schemas k.1 = true
  fits : ∀ k o, db.objs k = some o → o.Fits db.kinds

/-! ### Statements -/

/-- The column a column definition creates. -/
def ColSpec.state (s : ColSpec) : ColState :=
  { ty := s.ty, nullable := !(s.notNull || s.identity), default := s.default, identity := s.identity }

/-- Change one column. -/
def TableState.onCol (ts : TableState) (n : Text) (f : ColState → Option ColState) : Option TableState :=
  match ts.cols n with
  | some c => (f c).map (fun c' => { ts with cols := upd ts.cols n (some c') })
  | none => none

/-- Remove a column, which must exist. -/
def TableState.dropCol (E : Engine) (ts : TableState) (n : Text) : Option TableState :=
  match ts.cols n with
  | some _ => some
    { ts with
      cols := upd ts.cols n none
      pk := if E.cascadeDrop && ts.pk.contains n then [] else ts.pk
      cons := if E.cascadeDrop then (fun m => (ts.cons m).filter (fun c => !c.cols.contains n)) else ts.cons }
  | none => none

/-- The effect of one action of `ALTER TABLE`; `none` if the database refuses it. -/
def stepAction (E : Engine) (ts : TableState) : Action → Option TableState
  | .addColumn n spec =>
    if (ts.cols n).isSome then none
    else match spec.defaultName with
      | none => some { ts with cols := upd ts.cols n (some (ColSpec.state spec)) }
      | some df =>
        if (ts.cons df).isSome || (ts.dfs df).isSome then none
        else some { ts with cols := upd ts.cols n (some (ColSpec.state spec)), dfs := upd ts.dfs df (some n) }
  | .dropColumn n => ts.dropCol E n
  | .dropDefaultAndColumn df n =>
    if ts.dfs df = some n then ({ ts with dfs := upd ts.dfs df none } : TableState).dropCol E n else none
  | .renameColumn old new _ =>
    match ts.cols old with
    | none => none
    | some c =>
      if (ts.cols new).isSome then none
      else
        let f := fun n => if n = old then new else n
        some { cols := upd (upd ts.cols old none) new (some c)
               pk := ts.pk.map f
               cons := fun m => (ts.cons m).map (ConState.mapCols f)
               dfs := fun m => (ts.dfs m).map f }
  | .setDataType n ty => ts.onCol n (fun c => some { c with ty := ty })
  | .setNotNull n => ts.onCol n (fun c => some { c with nullable := false })
  | .dropNotNull n => ts.onCol n (fun c => if c.identity then none else some { c with nullable := true })
  | .setDefault n e => ts.onCol n (fun c => if c.identity then none else some { c with default := some e })
  | .dropDefault n => ts.onCol n (fun c => if c.identity then none else some { c with default := none })
  | .addIdentity n => ts.onCol n (fun c =>
      if c.identity || c.nullable || c.default.isSome then none else some { c with identity := true })
  | .dropIdentity n => ts.onCol n (fun c => if c.identity then some { c with identity := false } else none)
  | .redefine n spec => ts.onCol n (fun _ => some (ColSpec.state spec))
  | .modify n ty default nullable identity => ts.onCol n (fun c => some
      { ty := ty.getD c.ty, default := default.getD c.default, nullable := nullable.getD c.nullable
        identity := identity.getD c.identity })
  | .retype n ty notNull => ts.onCol n (fun c => some { c with ty := ty, nullable := !notNull })
  | .addDefault df e n =>
    if (ts.cons df).isSome || (ts.dfs df).isSome then none
    else match ts.cols n with
      | none => none
      | some c =>
        if c.default.isSome || c.identity then none
        else some { ts with cols := upd ts.cols n (some { c with default := some e }), dfs := upd ts.dfs df (some n) }
  | .addConstraint n spec =>
    if (ts.cons n).isSome || (ts.dfs n).isSome then none
    else some { ts with cons := upd ts.cons n (some (match spec with
      | .unique cs => .unique cs
      | .foreign cs k rs => .foreign cs k.key rs
      | .check c => .check c (E.condCols c))) }
  | .dropConstraint n =>
    match ts.dfs n with
    | some m =>
      match ts.cols m with
      | some c => some
        { ts with cols := upd ts.cols m (some { c with default := none }), dfs := upd ts.dfs n none }
      | none => none
    | none =>
      match ts.cons n with
      | some _ => some { ts with cons := upd ts.cons n none }
      | none => none

def stepActions (E : Engine) (ts : TableState) : List Action → Option TableState
  | [] => some ts
  | a :: rest => (stepAction E ts a).bind (fun ts' => stepActions E ts' rest)

def stepAttr (attrs : Text → Option SqlType) : AttrAction → Option (Text → Option SqlType)
  | .drop n => if (attrs n).isSome then some (upd attrs n none) else none
  | .setDataType n ty => if (attrs n).isSome then some (upd attrs n (some ty)) else none
  | .add n ty => if (attrs n).isSome then none else some (upd attrs n (some ty))

def stepAttrs (attrs : Text → Option SqlType) : List AttrAction → Option (Text → Option SqlType)
  | [] => some attrs
  | a :: rest => (stepAttr attrs a).bind (fun attrs' => stepAttrs attrs' rest)

/-- The state of a new table. -/
def newTable (cols : List (Text × ColSpec)) (pk : List Text) : TableState where
  cols := fun n => (cols.find? (fun p => p.1 = n)).map (fun p => ColSpec.state p.2)
  pk := pk
  cons := fun _ => none
  dfs := fun n => (cols.find? (fun p => p.2.defaultName = some n)).map Prod.fst

/-- A reference to a user-defined type after the type with key `k` was renamed.  (Global names are not those of user-defined types.) -/
def renameRef (k : Key) (new : Text) (q : QId) : QId :=
  if q.isGlobal = false ∧ q.key = k then .qualified q.scopeId new else q

def Obj.mapRef (f : QId → QId) : Obj → Obj
  | .enum vs => .enum vs
  | .struct attrs => .struct (fun n => (attrs n).map (SqlType.mapRef f))
  | .table ts => .table { ts with cols := fun n => (ts.cols n).map (fun c => { c with ty := c.ty.mapRef f }) }

def Db.set (db : Db) (k : Key) (o : Option Obj) : Db := { db with objs := upd db.objs k o }

def Db.isTable (db : Db) (k : Key) : Bool :=
  match db.objs k with
  | some (.table _) => true
  | _ => false

def Db.hasColumn (db : Db) (k : Key) (n : Text) : Bool :=
  match db.objs k with
  | some (.table ts) => (ts.cols n).isSome
  | some (.struct attrs) => (attrs n).isSome
  | _ => false

/-- Create an object under a new name in an existing schema. -/
def Db.create (db : Db) (k : Key) (o : Obj) : Option Db :=
  if (db.objs k).isSome || !db.schemas k.1 then none else some (db.set k (some o))

/-- The effect of one statement; `none` if the database refuses it because of the names involved. -/
def step (E : Engine) (db : Db) : Stmt → Option Db
  | .createSchema n ifNotExists =>
    if db.schemas n then (if ifNotExists then some db else none)
    else some { db with schemas := upd db.schemas n true }
  | .dropSchema n cascade =>
    if db.schemas n then some
      { schemas := upd db.schemas n false
        objs := if cascade then (fun k => if k.1 = n then none else db.objs k) else db.objs }
    else if cascade then some db else none
  | .createEnum q vs => if vs.Nodup then db.create q.key (.enum (fun v => vs.contains v)) else none
  | .createStruct q attrs =>
    if (attrs.map Prod.fst).Nodup ∧ ∀ p ∈ attrs, q.key ∉ p.2.refs then
      db.create q.key (.struct (fun n => (attrs.find? (fun p => p.1 = n)).map Prod.snd))
    else none
  | .createTable q cols _ pk _ =>
    if (cols.map Prod.fst).Nodup ∧ (cols.filterMap (fun p => p.2.defaultName)).Nodup ∧ pk ≠ [] then
      db.create q.key (.table (newTable cols pk))
    else none
  | .alterTable q actions =>
    match db.objs q.key with
    | some (.table ts) => (stepActions E ts actions).map (fun ts' => db.set q.key (some (.table ts')))
    | _ => none
  | .addValue q v =>
    match db.objs q.key with
    | some (.enum vs) => if vs v then none else some (db.set q.key (some (.enum (upd vs v true))))
    | _ => none
  | .alterStruct q actions =>
    match db.objs q.key with
    | some (.struct attrs) => (stepAttrs attrs actions).map (fun attrs' => db.set q.key (some (.struct attrs')))
    | _ => none
  | .renameType q new =>
    match db.objs q.key with
    | some (.table _) | none => none
    | some o =>
      if (db.objs (q.key.1, new)).isSome then none
      else some
        { db with objs := fun k =>
            (upd (upd db.objs q.key none) (q.key.1, new) (some o) k).map (Obj.mapRef (renameRef q.key new)) }
  | .dropType q =>
    match db.objs q.key with
    | some (.table _) | none => none
    | some _ => some (db.set q.key none)
  | .dropTable q => if db.isTable q.key then some (db.set q.key none) else none
  | .commentTable q _ => if db.isTable q.key then some db else none
  | .commentType q _ => if (db.objs q.key).isSome then some db else none
  | .commentColumn q n _ => if db.hasColumn q.key n then some db else none
  | .insertRows q cols _ => if db.isTable q.key && cols.all (db.hasColumn q.key) then some db else none
  | .insertLabels q _ _ => if db.isTable q.key then some db else none
  | .insertDistinct q n data => if db.isTable q.key && db.hasColumn data.key n then some db else none
  | .updateKeys data tgt src q =>
    if db.hasColumn data.key tgt && db.hasColumn data.key src && db.isTable q.key then some db else none

/-- The database accepts the statements one after the other, is valid after each of them, and ends as `db'`. -/
inductive Runs (E : Engine) : Db → List Stmt → Db → Prop where
  | nil (db : Db) : Runs E db [] db
  | cons {db db1 db' : Db} {s : Stmt} {rest : List Stmt} :
      step E db s = some db1 → Valid db1 → Runs E db1 rest db' → Runs E db (s :: rest) db'

end PySqlSync.Spec
