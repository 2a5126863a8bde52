/-
Specification: two descriptions agree on everything the library can change.
-/
import Verif.Spec.Same

set_option autoImplicit false

namespace PySqlSync.Spec
open PySqlSync

/-- The same type, nullability, default and identity property. -/
structure AgreeColumn (a b : Column) : Prop where
  ty : a.ty = b.ty
  nullable : a.nullable = b.nullable
  default : a.default = b.default
  identity : a.identity = b.identity

/-- The same columns and the same constraints under the same names.  (The primary key is not mentioned.) -/
structure AgreeTable (a b : Table) : Prop where
  columns : ∀ n, OptRel AgreeColumn (a.columns.get n) (b.columns.get n)
  constraints : ∀ n, (a.constraints.get n).bind Constraint.spec = (b.constraints.get n).bind Constraint.spec

/-- The same labels. -/
def AgreeEnum (a b : EnumType) : Prop := ∀ v, v ∈ a.values ↔ v ∈ b.values

/-- The same members. -/
def AgreeStruct (a b : StructType) : Prop := ∀ n, a.members.get n = b.members.get n

structure AgreeNs (a b : Namespace) : Prop where
  enums : ∀ k, OptRel AgreeEnum (a.enums.get k) (b.enums.get k)
  structs : ∀ k, OptRel AgreeStruct (a.structs.get k) (b.structs.get k)
  tables : ∀ k, OptRel AgreeTable (a.tables.get k) (b.tables.get k)

/-- The same schemas, with the same contents. -/
structure AgreeCat (a b : Catalog) : Prop where
  schemas : ∀ k, k ≠ [] → OptRel AgreeNs (a.namespaces.get k) (b.namespaces.get k)
  /-- the objects that are in no schema -/
  others : ∀ x y, a.namespaces.get [] = some x → b.namespaces.get [] = some y → AgreeNs x y

end PySqlSync.Spec
