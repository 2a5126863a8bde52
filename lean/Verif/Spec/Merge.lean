/-
Specification: the union of two collections of definitions.
-/
import Verif.Spec.Safe

set_option autoImplicit false

namespace PySqlSync.Spec
open PySqlSync

/-- The same definition of a composite type (listed in any order). -/
def SameStructDef (a b : StructType) : Prop :=
  a.name = b.name ∧ (∀ n, a.members.get n = b.members.get n) ∧ a.description = b.description

/-- The same definition of a table (columns and constraints listed in any order).  The rows of a lookup table are not
    part of the definition, but whether it is one is. -/
def SameTableDef (a b : Table) : Prop :=
  a.name = b.name ∧ (∀ n, a.columns.get n = b.columns.get n) ∧ a.primaryKey = b.primaryKey
  ∧ (∀ n, a.constraints.get n = b.constraints.get n) ∧ a.description = b.description
  ∧ a.enumValues.isSome = b.enumValues.isSome

/-- No name has two definitions. -/
def Compatible {α : Type} [Named α] (Same : α → α → Prop) (x y : ODict α) : Prop :=
  ∀ k a b, x.get k = some a → y.get k = some b → Same a b

/-- `z` has exactly the names of `x` and of `y`, with their definitions. -/
def Union {α : Type} [Named α] (x y z : ODict α) : Prop := ∀ k, z.get k = (x.get k).or (y.get k)

structure CompatibleNs (m n : Namespace) : Prop where
  enums : Compatible Eq m.enums n.enums
  structs : Compatible SameStructDef m.structs n.structs
  tables : Compatible SameTableDef m.tables n.tables

structure UnionNs (m n p : Namespace) : Prop where
  name : p.name = m.name
  enums : Union m.enums n.enums p.enums
  structs : Union m.structs n.structs p.structs
  tables : Union m.tables n.tables p.tables

/-- `c` has exactly the schemas of `a` and of `b`, and in each exactly the objects of both. -/
def UnionCat (a b c : Catalog) : Prop := ∀ k,
  match a.namespaces.get k, b.namespaces.get k with
  | some m, some n => ∃ p, c.namespaces.get k = some p ∧ UnionNs m n p
  | some m, none => c.namespaces.get k = some m
  | none, y => c.namespaces.get k = y

/-- A collection of catalogs as Python dictionaries: no name occurs twice. -/
structure NsDistinct (n : Namespace) : Prop where
  enums : Distinct n.enums
  structs : Distinct n.structs
  tables : Distinct n.tables
  members : ∀ s ∈ n.structs.items, Distinct s.members
  columns : ∀ tb ∈ n.tables.items, Distinct tb.columns
  constraints : ∀ tb ∈ n.tables.items, Distinct tb.constraints

structure CatDistinct (c : Catalog) : Prop where
  names : Distinct c.namespaces
  each : ∀ n ∈ c.namespaces.items, NsDistinct n

end PySqlSync.Spec
