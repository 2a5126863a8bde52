/-
Specification for C33: which rows a table accepts, and what it means that they represent lists or sets of entities.
-/
import Verif.Spec.Convert
import Verif.Spec.Dml

set_option autoImplicit false

namespace PySqlSync.Spec

variable {V : Type} [DecidableEq V]

/-- The rows satisfy all declarations of a table: columns that are not nullable have values, the primary key and unique columns have no value
    twice, and each foreign key has a value of the column that it refers to.  `keys` tells the values of the referenced columns. -/
structure TableAccepts (tb : Table) (keys : Ref → List (List V)) (rows : List (DataRow V)) : Prop where
  consistent : consistent tb rows = true
  foreign : ∀ c ∈ tb.constraints.items, ∀ l ∈ links c, ∀ r ∈ rows, ∀ vs : List V, l.1.map r = vs.map some → vs ∈ keys l.2

/-- The rows say which items each owner has: they belong to owners only, and the items in the rows of an owner are those of the owner, each as
    many times as the owner has it (in any order: a table has none). -/
structure Represents (left right : Text) (rows : List (DataRow V)) (owners : List V) (items : V → List V) : Prop where
  owned : ∀ r ∈ rows, ∃ w ∈ owners, r left = some w
  items : ∀ w ∈ owners, ((rows.filter (fun r => r left = some w)).map (fun r => r right)).Perm ((items w).map some)

/-- The type of the items of a list or set that becomes a table: an entity with this key, or an enumeration. -/
def ItemType (o : ConvOptions) (defs : PyDefs) (item : PyType) (n : PyName) (key : Text) : Prop :=
  (item = .cls n ∧ ∃ c k, defs.cls n = some c ∧ c.key = some k ∧ key = k.name) ∨
  (item = .enum n ∧ o.arrayMode = .relation ∧ o.enumMode = .relation ∧ key = t "id")

/-- A table that joins two others: a key of its own and a reference to either side, none of which may be NULL. -/
structure Joins (tb : Table) (left right : Text) (owner item : Ref) : Prop where
  columns : tb.columns.items.map Column.name = [t "uuid", left, right]
  required : ∀ c ∈ tb.columns.items, c.nullable = false
  key : tb.primaryKey = [t "uuid"]
  references : ∃ n n' rest, tb.constraints.items = .foreign n [left] owner :: .foreign n' [right] item :: rest ∧ ∀ c ∈ rest, links c = []

end PySqlSync.Spec
