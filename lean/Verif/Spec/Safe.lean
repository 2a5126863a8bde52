/-
Specification: well-formed catalogs, and the circumstances in which a schema change is within what the library can do.
These are exact: outside of them the emitted script is refused by the database or ends in the wrong state
(Props/C06Exact.lean for `TableSafe`, Props/C01Exact.lean for `NsSafe` and `CatSafe`; Props/C01Fails.lean has cases).
-/
import Verif.Spec.Denote

set_option autoImplicit false

namespace PySqlSync.Spec
open PySqlSync

/-- Distinct names in a collection. -/
def Distinct {α : Type} [Named α] (d : ODict α) : Prop := (d.items.map key).Nodup

/-- A table that can be written down in the dialect: distinct column and constraint names, a primary key, and
    names that are not reserved by the library (`pysqlsync$...` for columns; on SQL Server `df_...` for constraints).
    Delta's column definitions carry no defaults. -/
structure TableWF (d : Dialect) (tb : Table) : Prop where
  columns : Distinct tb.columns
  constraints : Distinct tb.constraints
  key : tb.primaryKey ≠ []
  names : ∀ c ∈ tb.columns.items, ∀ x, c.name ≠ t "pysqlsync$" ++ x
  mssql : d = .mssql → ∀ c ∈ tb.constraints.items, ∀ x, c.name ≠ t "df_" ++ x
  delta : d = .delta → ∀ c ∈ tb.columns.items, c.default = none
  snowflake : d = .snowflake → ∀ c ∈ tb.columns.items, ∀ e, c.default = some e → defaultExpr d c.ty e = e

/-- A column whose data is to be converted from an enumeration (or text) to an integer key. -/
def Converted (d : Dialect) (s u : Column) : Prop :=
  s.ty ≠ u.ty ∧ u.ty.isInteger ∧ (s.ty.isEnum ∨ s.ty.isVarChar ∨ (d = .postgresql ∧ s.ty.isUser))

/-- Two versions of a table between which the library can alter. -/
structure TableSafe (d : Dialect) (E : Engine) (source target : Table) : Prop where
  /-- the primary key stays -/
  key : source.primaryKey = target.primaryKey
  /-- a converted column takes no part in the primary key or in a constraint of the source (MySQL: in one that the
      target has, too); its identity property stays (except on MySQL and Oracle); on SQL Server it has no default
      afterwards -/
  converted : ∀ s ∈ source.columns.items, ∀ u ∈ target.columns.items, s.name = u.name → Converted d s u →
    s.name ∉ source.primaryKey
    ∧ (∀ c ∈ source.constraints.items, (d = .mysql → ∃ c' ∈ target.constraints.items, c'.name = c.name) →
        ∀ x, Constraint.state E c = some x → s.name ∉ x.cols)
    ∧ (d ≠ .mysql → d ≠ .oracle → s.identity = u.identity)
    ∧ (d = .mssql → u.default = none)
  /-- a dropped column takes no part in a constraint of the source (MySQL can drop both in one statement) -/
  dropped : d ≠ .mysql → ∀ s ∈ source.columns.items, (∀ u ∈ target.columns.items, s.name ≠ u.name) →
    ∀ c ∈ source.constraints.items, ∀ x, Constraint.state E c = some x → s.name ∉ x.cols
  /-- a column that ceases to be an identity column stays not nullable and gets no default -/
  identity : d ≠ .mysql → d ≠ .oracle → ∀ s ∈ source.columns.items, ∀ u ∈ target.columns.items, s.name = u.name →
    s.identity = true → u.identity = false → u.nullable = false ∧ u.default = none
  /-- Oracle: an unchanged default is not re-interpreted because of a changed type -/
  oracle : d = .oracle → ∀ s ∈ source.columns.items, ∀ u ∈ target.columns.items, s.name = u.name →
    ¬ Converted d s u → s.default = u.default → (Column.state d s).default = (Column.state d u).default

/-- A namespace that can be written down: distinct names, tables and types sharing one name space; every object is
    named within the namespace; no name is reserved by the library; enumeration values and members are distinct. -/
structure NsWF (d : Dialect) (n : Namespace) : Prop where
  enums : Distinct n.enums
  structs : Distinct n.structs
  tables : Distinct n.tables
  enumScope : ∀ e ∈ n.enums.items, e.name.key.1 = n.name
  structScope : ∀ s ∈ n.structs.items, s.name.key.1 = n.name
  tableScope : ∀ tb ∈ n.tables.items, tb.name.key.1 = n.name
  enumStruct : ∀ e ∈ n.enums.items, ∀ s ∈ n.structs.items, e.name.localId ≠ s.name.localId
  enumTable : ∀ e ∈ n.enums.items, ∀ tb ∈ n.tables.items, e.name.localId ≠ tb.name.localId
  structTable : ∀ s ∈ n.structs.items, ∀ tb ∈ n.tables.items, s.name.localId ≠ tb.name.localId
  enumNames : ∀ e ∈ n.enums.items, ∀ x, e.name.localId ≠ t "pysqlsync$" ++ x
  structNames : ∀ s ∈ n.structs.items, ∀ x, s.name.localId ≠ t "pysqlsync$" ++ x
  tableNames : ∀ tb ∈ n.tables.items, ∀ x, tb.name.localId ≠ t "pysqlsync$" ++ x
  values : ∀ e ∈ n.enums.items, e.values.Nodup
  members : ∀ s ∈ n.structs.items, Distinct s.members
  wf : ∀ tb ∈ n.tables.items, TableWF d tb

/-- Composite types are listed such that each mentions only earlier ones (of the list). -/
def StructsInOrder (l : List StructType) : Prop :=
  ∀ p a s, l = p ++ a :: s → ∀ b ∈ a :: s, ∀ m ∈ a.members.items, b.name.key ∉ m.ty.refs

/-- Composite types are listed such that none is mentioned by a later one (of the list). -/
def StructsInDropOrder (l : List StructType) : Prop :=
  ∀ p a s, l = p ++ a :: s → ∀ b ∈ s, ∀ m ∈ b.members.items, a.name.key ∉ m.ty.refs

/-- Tables are listed such that none is the target of a foreign key of a later one (of the list). -/
def TablesInDropOrder (l : List Table) : Prop :=
  ∀ p a s, l = p ++ a :: s → ∀ b ∈ s, ∀ c ∈ b.constraints.items, ∀ n cols r,
    c = .foreign n cols r → r.table.key ≠ a.name.key

/-- Two versions of a namespace between which the library can alter. -/
structure NsSafe (d : Dialect) (E : Engine) (source target : Namespace) : Prop where
  /-- a name that stays in use keeps denoting the same kind of object, except that a table may take the place of an
      enumeration -/
  enumKind : ∀ e ∈ target.enums.items, (∀ s ∈ source.structs.items, e.name.localId ≠ s.name.localId)
    ∧ (∀ tb ∈ source.tables.items, e.name.localId ≠ tb.name.localId)
  structKind : ∀ s ∈ target.structs.items, (∀ e ∈ source.enums.items, s.name.localId ≠ e.name.localId)
    ∧ (∀ tb ∈ source.tables.items, s.name.localId ≠ tb.name.localId)
  tableKind : ∀ tb ∈ target.tables.items, ∀ s ∈ source.structs.items, tb.name.localId ≠ s.name.localId
  /-- then both have the same name, and it is not a name with a namespace prefix -/
  lookup : ∀ tb ∈ target.tables.items, ∀ e ∈ source.enums.items, e.name.localId = tb.name.localId →
    e.name = tb.name ∧ ∀ x, (e.name.rename x).key = (e.name.key.1, x)
  createOrder : StructsInOrder (target.structs.difference source.structs)
  dropOrder : StructsInDropOrder (source.structs.difference target.structs)
  tableOrder : TablesInDropOrder (source.tables.difference target.tables)
  tables : ∀ a ∈ source.tables.items, ∀ b ∈ target.tables.items, a.name.localId = b.name.localId →
    TableSafe d E a b

/-- A namespace with its tables' constraints left out. -/
def unconstrained (n : Namespace) : Namespace :=
  { n with tables := ⟨n.tables.items.map (fun tb => { tb with constraints := ⟨[]⟩ })⟩ }

/-- A catalog that can be written down: namespaces have distinct names and can be written down. -/
structure CatWF (d : Dialect) (c : Catalog) : Prop where
  names : Distinct c.namespaces
  wf : ∀ n ∈ c.namespaces.items, NsWF d n

/-- The database in which some namespaces are as listed. -/
def dbOf (d : Dialect) (E : Engine) (l : List Namespace) : Db := Catalog.db d E ⟨⟨l⟩⟩

/-- Two catalogs (their namespaces listed in the order in which the library takes them) between which the library can
    alter.  Namespaces are changed one after the other; the conditions `Valid (...)` say that the database is
    consistent at these points, i.e. that no namespace already changed needs an object of one that comes later, and no
    namespace still to be changed needs an object that is gone. -/
structure CatSafe (d : Dialect) (E : Engine) (source target : Catalog) : Prop where
  /-- new namespaces: each refers to types of earlier ones or of the source only -/
  created : ∀ p s, target.namespaces.difference source.namespaces = p ++ s →
    Valid (dbOf d E (p.map unconstrained ++ source.namespaces.items))
  /-- their foreign keys refer to new namespaces and the source only -/
  keys : Valid (dbOf d E (target.namespaces.difference source.namespaces ++ source.namespaces.items))
  order : ∀ n ∈ target.namespaces.difference source.namespaces, StructsInOrder n.structs.items
  /-- namespaces in both -/
  changed : ∀ p s, source.namespaces.intersection target.namespaces = p ++ s →
    Valid (dbOf d E (target.namespaces.difference source.namespaces ++ p.map Prod.snd ++ s.map Prod.fst
      ++ source.namespaces.difference target.namespaces))
  safe : ∀ a ∈ source.namespaces.intersection target.namespaces, NsSafe d E a.1 a.2
  /-- removed namespaces: none refers to types of an earlier one (of the removed), nothing refers to any of them -/
  dropped : ∀ p s, source.namespaces.difference target.namespaces = p ++ s →
    Valid (dbOf d E (target.namespaces.items ++ s.map unconstrained))
  dropOrder : ∀ n ∈ source.namespaces.difference target.namespaces, StructsInDropOrder n.structs.items.reverse

end PySqlSync.Spec
