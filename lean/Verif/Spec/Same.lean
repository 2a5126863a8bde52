/-
Specification: two descriptions that differ in the order in which things are listed only.
-/
import Verif.Spec.Safe

set_option autoImplicit false

namespace PySqlSync.Spec
open PySqlSync

/-- Both absent, or both present and related. -/
def OptRel {α : Type} (R : α → α → Prop) : Option α → Option α → Prop
  | none, none => True
  | some a, some b => R a b
  | _, _ => False

structure SameEnum (a b : EnumType) : Prop where
  name : a.name = b.name
  values : a.values.Perm b.values

structure SameStruct (a b : StructType) : Prop where
  name : a.name = b.name
  members : a.members.items.Perm b.members.items
  description : a.description = b.description

structure SameTable (a b : Table) : Prop where
  name : a.name = b.name
  columns : a.columns.items.Perm b.columns.items
  key : a.primaryKey = b.primaryKey
  constraints : a.constraints.items.Perm b.constraints.items
  description : a.description = b.description

structure SameNs (a b : Namespace) : Prop where
  name : a.name = b.name
  enums : ∀ k, OptRel SameEnum (a.enums.get k) (b.enums.get k)
  structs : ∀ k, OptRel SameStruct (a.structs.get k) (b.structs.get k)
  tables : ∀ k, OptRel SameTable (a.tables.get k) (b.tables.get k)

/-- The same catalog, its namespaces, types, tables, columns, constraints, members and values listed in any order. -/
def SameCat (a b : Catalog) : Prop := ∀ k, OptRel SameNs (a.namespaces.get k) (b.namespaces.get k)

/-- MySQL stores no column comment of more than 1024 characters; pysqlsync keeps the first line of a description. -/
def CommentsFit (d : Dialect) (c : Catalog) : Prop :=
  d = .mysql → ∀ n ∈ c.namespaces.items, ∀ tb ∈ n.tables.items, ∀ col ∈ tb.columns.items, ∀ s,
    col.description = some s → (s.takeWhile (· ≠ '\n')).length ≤ 1024

end PySqlSync.Spec
