/-
Specification: the database a catalog describes.
-/
import Verif.Model.Objects
import Verif.Spec.Ddl

set_option autoImplicit false

namespace PySqlSync.Spec
open PySqlSync

/-- The engine that a dialect's statements are sent to. -/
def engine (d : Dialect) (condCols : Text → List Text) : Engine where
  cascadeDrop := match d with
    | .mysql | .mssql => false
    | _ => true
  condCols := condCols

/-- The described column.  (Where the dialect writes a timestamp default as `TIMESTAMP '...'`, that is the default.) -/
def Column.state (d : Dialect) (c : Column) : ColState where
  ty := c.ty
  nullable := c.nullable
  default := c.default.map (defaultExpr d c.ty)
  identity := c.identity

/-- The described constraint; a discriminated key is not a database constraint. -/
def Constraint.state (E : Engine) : Constraint → Option ConState
  | .unique _ cs => some (.unique cs)
  | .foreign _ cs r => some (.foreign cs r.table.key r.columns)
  | .discriminated .. => none
  | .check _ c => some (.check c (E.condCols c))

/-- The described table. -/
def Table.state (d : Dialect) (E : Engine) (tb : Table) : TableState where
  cols := fun n => (tb.columns.get n).map (Column.state d)
  pk := tb.primaryKey
  cons := fun n => (tb.constraints.get n).bind (Constraint.state E)
  dfs := match d with
    | .mssql => fun n =>
      (tb.columns.items.find? (fun c => c.default.isSome && defaultConstraintName c.name = n)).map Column.name
    | _ => fun _ => none

def EnumType.obj (e : EnumType) : Obj := .enum (fun v => e.values.contains v)
def StructType.obj (s : StructType) : Obj := .struct (fun n => (s.members.get n).map StructMember.ty)

/-- The object a namespace describes under a name. -/
def Namespace.obj (d : Dialect) (E : Engine) (n : Namespace) (k : Text) : Option Obj :=
  match n.enums.get k with
  | some e => some (EnumType.obj e)
  | none =>
    match n.structs.get k with
    | some s => some (StructType.obj s)
    | none => (n.tables.get k).map (fun tb => .table (Table.state d E tb))

/-- The described database. -/
def Catalog.db (d : Dialect) (E : Engine) (c : Catalog) : Db where
  schemas := fun n => n = [] || c.namespaces.contains n
  objs := fun k =>
    match c.namespaces.get k.1 with
    | some n => Namespace.obj d E n k.2
    | none => none

end PySqlSync.Spec
