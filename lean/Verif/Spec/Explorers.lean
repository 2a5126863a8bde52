/-
Specification: what the catalogs of MySQL (`information_schema`), Microsoft SQL Server (`information_schema`, `sys`) and Oracle (`dba_...`) report about tables,
according to the manuals (trusted), and which tables are expected to need no change when they are compared with what is read from there.
-/
import Verif.Model.Explorers
import Verif.Spec.ServerTypes
import Verif.Spec.Safe
import Verif.Spec.Lex
import Verif.Spec.Merge

set_option autoImplicit false

namespace PySqlSync.Spec
open PySqlSync

/-! ### Names -/

/-- A name with a prefix that can be told from the prefix: there is no `__` but the one after the prefix, up to the end of that one.  (A name without prefix has
    no `__` at all.) -/
def Separable : QId → Prop
  | .prefixed (some ns) _ => ¬ t "__" <:+: ns ++ t "_"
  | .prefixed none id => ¬ t "__" <:+: id
  | _ => False

/-- The namespace that a module is mapped to; an empty name stands for none. -/
def nsOf (k : Text) : Option Text := if k = [] then none else some k

/-- The name of a stored table says that the table belongs to a namespace. -/
def Belongs : Option Text → Text → Prop
  | some ns, nm => ns ++ t "__" <+: nm
  | none, nm => ¬ t "__" <:+: nm

/-- The one namespace of a database without schemas. -/
structure TablesOnly (n : Namespace) : Prop where
  name : n.name = []
  enums : n.enums = ⟨[]⟩
  structs : n.structs = ⟨[]⟩
  tables : Distinct n.tables
  columns : ∀ tb ∈ n.tables.items, Distinct tb.columns
  constraints : ∀ tb ∈ n.tables.items, Distinct tb.constraints

/-- Schemas with tables only, at least one in each. -/
structure SchemasOnly (c : Catalog) : Prop where
  distinct : CatDistinct c
  enums : ∀ n ∈ c.namespaces.items, n.enums = ⟨[]⟩
  structs : ∀ n ∈ c.namespaces.items, n.structs = ⟨[]⟩
  some : ∀ n ∈ c.namespaces.items, n.tables.items ≠ []
  named : ∀ n ∈ c.namespaces.items, ∀ tb ∈ n.tables.items, ∃ id, tb.name = .qualified (nsOf n.name) id

/-- Each table is named after one of the namespaces, and it is stored. -/
def Housed (names stored : List Text) (n : Namespace) : Prop :=
  ∀ tb ∈ n.tables.items, tb.name.localId ∈ stored ∧ ∃ k ∈ names, ∃ id, tb.name = .prefixed (nsOf k) id

/-! ### Rows -/

/-- The rows about a uniqueness constraint: its name and a column. -/
def uniqueRows : Constraint → List (Text × Text)
  | .unique n cs => cs.map (fun c => (n, c))
  | _ => []

/-- The server has the uniqueness constraints of a table, and no others; the rows of each are in the order of its columns, rows of different constraints
    in any order. -/
structure HasUnique (rows : List (Text × Text)) (tb : Table) : Prop where
  each : ∀ c ∈ tb.constraints.items, rows.filter (fun r => r.1 = c.name) = uniqueRows c
  noOther : ∀ r ∈ rows, ∃ c ∈ tb.constraints.items, r ∈ uniqueRows c

/-- The server has the foreign keys of a table, and no others. -/
structure HasForeign (rowsOf : Constraint → List AnsiForeignRow) (rows : List AnsiForeignRow) (tb : Table) : Prop where
  each : ∀ c ∈ tb.constraints.items, rows.filter (fun r => r.name = c.name) = rowsOf c
  noOther : ∀ r ∈ rows, ∃ c ∈ tb.constraints.items, r ∈ rowsOf c

/-- The key that a foreign key refers to has the columns that it names, perhaps in another order. -/
def Ordered (order : Constraint → List Text) : Prop := ∀ n cs r, (order (.foreign n cs r)).Perm r.columns

/-- The first line of a text. -/
def line (s : Text) : Text := s.takeWhile (· ≠ '\n')

/-- The stored names that a pattern, written as a literal of SQL, matches. -/
def Matches (read : Text → Option (Text × Text)) (stored : List Text) (like : Text → List Text) : Prop :=
  ∀ lit pat, read (lit ++ t " ESCAPE '~'") = some (pat, t " ESCAPE '~'") → (like lit).Nodup ∧ ∀ nm, nm ∈ like lit ↔ nm ∈ stored ∧ LikeMatch '~' pat nm

/-! ### MySQL -/

namespace My

/-- The library stores the first line of a description; the catalog has an empty text if there is none. -/
def comment (d : Option Text) : Text := (d.map line).getD []

/-- How a server reports a column: `expr` is how it reports a default, `generated` tells whether it takes a default for an expression. -/
def columnRow (expr : SqlType → Text → Text) (generated : Text → Bool) (c : Column) : Option MyColumnRow :=
  (row c.ty).map (fun r =>
    { name := c.name, spec := r.2.spec, nullable := c.nullable, default := c.default.map (expr c.ty)
      extra := if c.identity then t "auto_increment" else if c.default.any generated then t "DEFAULT_GENERATED" else []
      comment := comment c.description })

/-- The columns of a foreign key with those they refer to; `db` is the name of the database. -/
def foreignRows (db : Text) : Constraint → List AnsiForeignRow
  | .foreign n cs r => (cs.zip r.columns).map (fun p => ⟨n, p.1, db, r.table.localId, p.2⟩)
  | _ => []

/-- A server that has a table. -/
structure Has (expr : SqlType → Text → Text) (generated : Text → Bool) (db : Text) (s : MyServer) (tb : Table) : Prop where
  count : (s.table tb.name.localId).count = 1
  columns : tb.columns.items.map (columnRow expr generated) = (s.table tb.name.localId).columns.map some
  primary : (s.table tb.name.localId).primary = tb.primaryKey
  unique : HasUnique (s.table tb.name.localId).unique tb
  foreign : HasForeign (foreignRows db) (s.table tb.name.localId).foreign tb
  comment : (s.table tb.name.localId).comment = [comment tb.description]

/-- A server with the tables `stored`. -/
structure Server (stored : List Text) (s : MyServer) : Prop where
  constraints : s.constraints = true
  like : Matches readMySQL stored s.like
  othersNodup : s.others.Nodup
  others : ∀ nm, nm ∈ s.others ↔ nm ∈ stored ∧ ¬ t "__" <:+: nm

structure SettledColumn (expr : SqlType → Text → Text) (c : Column) : Prop where
  ty : Kept c.ty
  default : ∀ d, c.default = some d → expr c.ty d = d
  description : ∀ s, c.description = some s → line s ≠ [] ∧ (line s).length ≤ 1024

def SettledConstraint : Constraint → Prop
  | .unique _ cs => cs ≠ []
  | .foreign _ cs r => cs ≠ [] ∧ cs.length = r.columns.length ∧ Separable r.table
  | .discriminated .. => True
  | .check .. => False

/-- A table that is not changed if it is what the server has. -/
structure Settled (expr : SqlType → Text → Text) (tb : Table) : Prop where
  columns : ∀ c ∈ tb.columns.items, SettledColumn expr c
  constraints : ∀ c ∈ tb.constraints.items, SettledConstraint c
  description : ∀ s, tb.description = some s → line s ≠ []

end My

/-! ### SQL Server -/

namespace Ms

def columnRow (expr : SqlType → Text → Text) (c : Column) : Option AnsiColumnRow :=
  (row c.ty).map (fun r => { name := c.name, spec := r.2.spec, nullable := c.nullable, default := c.default.map (expr c.ty) })

/-- The schema that is reported for a table; `current` is the current one. -/
def schemaOf (current : Text) : QId → Text
  | .qualified (some ns) _ => ns
  | _ => current

/-- The columns of a foreign key with the columns of the key that it refers to, position by position; `order` has the columns of that key in the order
    in which they are declared. -/
def foreignRows (current : Text) (order : Constraint → List Text) : Constraint → List AnsiForeignRow
  | .foreign n cs r => (cs.zip (order (.foreign n cs r))).map (fun p => ⟨n, p.1, schemaOf current r.table, r.table.localId, p.2⟩)
  | _ => []

/-- A server that has a table in the schema `ns` (`none`: the current one). -/
structure Has (expr : SqlType → Text → Text) (current : Text) (order : Constraint → List Text) (s : MsServer) (ns : Option Text) (tb : Table) : Prop where
  count : (s.table ns tb.name.localId).count = 1
  columns : tb.columns.items.map (columnRow expr) = (s.table ns tb.name.localId).columns.map some
  identity : ∀ nm, nm ∈ (s.table ns tb.name.localId).identity ↔ ∃ c ∈ tb.columns.items, c.name = nm ∧ c.identity = true
  defaults : ∀ nm d, (nm, d) ∈ (s.table ns tb.name.localId).defaults ↔ ∃ c ∈ tb.columns.items, c.name = nm ∧ c.default.map (expr c.ty) = some d
  primary : (s.table ns tb.name.localId).primary = tb.primaryKey
  unique : HasUnique (s.table ns tb.name.localId).unique tb
  foreign : HasForeign (foreignRows current order) (s.table ns tb.name.localId).foreign tb

/-- A server with the tables `stored ns` in the schema `ns`. -/
structure Server (stored : Option Text → List Text) (s : MsServer) : Prop where
  constraints : s.constraints = true
  nodup : ∀ ns, (s.tables ns).Nodup
  tables : ∀ ns nm, nm ∈ s.tables ns ↔ nm ∈ stored ns

structure SettledColumn (expr : SqlType → Text → Text) (c : Column) : Prop where
  ty : Kept c.ty
  default : ∀ d, c.default = some d → expr c.ty d = d

def SettledConstraint (order : Constraint → List Text) : Constraint → Prop
  | .unique _ cs => cs ≠ []
  | .foreign n cs r => cs ≠ [] ∧ cs.length = r.columns.length ∧ order (.foreign n cs r) = r.columns ∧ ∃ ns id, r.table = .qualified (some ns) id
  | .discriminated .. => True
  | .check .. => False

/-- A table that is not changed if it is what the server has. -/
structure Settled (expr : SqlType → Text → Text) (order : Constraint → List Text) (tb : Table) : Prop where
  columns : ∀ c ∈ tb.columns.items, SettledColumn expr c
  constraints : ∀ c ∈ tb.constraints.items, SettledConstraint order c

end Ms

/-! ### Oracle -/

namespace Ora

/-- The types of texts: for these, `char_length` has the length; it is 0 for others.  (`data_length` counts bytes: here four
    to each character.) -/
def isText (dataType : Text) : Bool := dataType = t "CHAR" || dataType = t "VARCHAR2"

def columnRow (expr : SqlType → Text → Text) (c : Column) : Option OraColumnRow :=
  (row c.ty).map (fun r =>
    { name := c.name, dataType := r.2.spec.definition.getD [], owner := none
      dataLength := match r.2.spec.length with
        | some n => if isText (r.2.spec.definition.getD []) then 4 * n.toNat else n.toNat
        | none => 4000
      charLength := if isText (r.2.spec.definition.getD []) then (match r.2.spec.length with
        | some n => n.toNat
        | none => 0) else 0
      precision := r.2.spec.precision, scale := r.2.spec.scale, nullable := c.nullable, default := c.default.map (expr c.ty)
      identity := c.identity, comments := none })

/-- Each column of a foreign key with each column of the key that it refers to. -/
def foreignRows (order : Constraint → List Text) : Constraint → List OraConstraintRow
  | .foreign n cs r => cs.flatMap (fun s => (order (.foreign n cs r)).map (fun c => ⟨n, 'R', s, r.table.localId, c⟩))
  | _ => []

/-- A server that has a table.  The identity columns of Oracle have a default (a sequence), which is not looked at. -/
structure Has (expr : SqlType → Text → Text) (order : Constraint → List Text) (s : OraServer) (tb : Table) : Prop where
  columns : tb.columns.items.map (columnRow expr) = (s.table tb.name.localId).columns.map some
  primary : ((s.table tb.name.localId).constraints.filter (fun r => r.kind = 'P')).map OraConstraintRow.source = tb.primaryKey
  unique : HasUnique (((s.table tb.name.localId).constraints.filter (fun r => r.kind = 'U')).map (fun r => (r.name, r.source))) tb
  foreign : ∀ c ∈ tb.constraints.items,
    ((s.table tb.name.localId).constraints.filter (fun r => r.kind = 'R' ∧ r.name = c.name)).Perm (foreignRows order c)
  noOther : ∀ r ∈ (s.table tb.name.localId).constraints, r.kind = 'R' → ∃ c ∈ tb.constraints.items, r ∈ foreignRows order c

/-- A server with the tables `stored`; the query leaves out names with `$`. -/
structure Server (stored : List Text) (s : OraServer) : Prop where
  like : Matches readString (stored.filter (fun nm => '$' ∉ nm)) s.like
  othersNodup : s.others.Nodup
  others : ∀ nm, nm ∈ s.others ↔ nm ∈ stored ∧ '$' ∉ nm ∧ ¬ t "__" <:+: nm

structure SettledColumn (expr : SqlType → Text → Text) (c : Column) : Prop where
  ty : Kept c.ty
  default : ∀ d, c.default = some d → c.identity = false ∧ expr c.ty d = d

/-- A foreign key of more than one column is multiplied. -/
def SettledConstraint : Constraint → Prop
  | .unique _ cs => cs ≠ []
  | .foreign _ cs r => cs.length = 1 ∧ r.columns.length = 1 ∧ Separable r.table
  | .discriminated .. => True
  | .check .. => False

/-- A table that is not changed if it is what the server has. -/
structure Settled (expr : SqlType → Text → Text) (tb : Table) : Prop where
  columns : ∀ c ∈ tb.columns.items, SettledColumn expr c
  constraints : ∀ c ∈ tb.constraints.items, SettledConstraint c

end Ora
end PySqlSync.Spec
