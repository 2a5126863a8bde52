/-
Specification: a condition, in terms of the two catalogs alone, under which changing schema after schema is possible:
references across schemas are to things that stay.
-/
import Verif.Spec.Safe

set_option autoImplicit false

namespace PySqlSync.Spec
open PySqlSync

/-- The namespace mentions a user-defined type, somewhere inside the type of a column or of an attribute. -/
def MentionsType (n : Namespace) (k : Key) : Prop :=
  (∃ s ∈ n.structs.items, ∃ m ∈ s.members.items, k ∈ m.ty.refs)
  ∨ (∃ tb ∈ n.tables.items, ∃ c ∈ tb.columns.items, k ∈ c.ty.refs)

/-- A table of the namespace has a foreign key to a table. -/
def MentionsTable (n : Namespace) (k : Key) : Prop :=
  ∃ tb ∈ n.tables.items, ∃ c ∈ tb.constraints.items, ∃ name cols r, c = .foreign name cols r ∧ r.table.key = k

def Mentions (n : Namespace) (k : Key) : Prop := MentionsType n k ∨ MentionsTable n k

/-- The type of a column, or of an attribute of a composite type, is that user-defined type, given with its schema. -/
def MentionsDirectly (n : Namespace) (k : Key) : Prop :=
  (∃ s ∈ n.structs.items, ∃ m ∈ s.members.items, ∃ q, m.ty = .user q ∧ q.key = k ∧ q.scopeId = some k.1)
  ∨ (∃ tb ∈ n.tables.items, ∃ c ∈ tb.columns.items, ∃ q, c.ty = .user q ∧ q.key = k ∧ q.scopeId = some k.1)

/-- The catalog has a schema of that name. -/
def HasSchema (c : Catalog) (k : Text) : Prop := ∃ n ∈ c.namespaces.items, n.name = k

/-- Two catalogs between which the library can alter. -/
structure CatStable (d : Dialect) (E : Engine) (source target : Catalog) : Prop where
  /-- what a schema mentions of another schema that is in both catalogs is the same kind of thing in both -/
  stable : ∀ n, n ∈ source.namespaces.items ∨ n ∈ target.namespaces.items → ∀ k, Mentions n k → k.1 ≠ n.name →
    HasSchema source k.1 → HasSchema target k.1 →
    (Catalog.db d E source).kinds k = (Catalog.db d E target).kinds k
  /-- what a new schema mentions of another new one is mentioned as the type of a column or attribute, rather than as
      the type of the elements of an array, say -/
  direct : ∀ n ∈ target.namespaces.items, ¬ HasSchema source n.name → ∀ k, MentionsType n k → k.1 ≠ n.name →
    ¬ HasSchema source k.1 → MentionsDirectly n k
  /-- no removed schema uses types of another removed schema -/
  dropped : ∀ n ∈ source.namespaces.items, ¬ HasSchema target n.name → ∀ k, MentionsType n k → k.1 ≠ n.name →
    HasSchema target k.1
  /-- the composite types of new and of removed schemas are listed in order of reference -/
  order : ∀ n ∈ target.namespaces.items, ¬ HasSchema source n.name → StructsInOrder n.structs.items
  dropOrder : ∀ n ∈ source.namespaces.items, ¬ HasSchema target n.name → StructsInOrder n.structs.items
  /-- the schemas in both can be altered -/
  safe : ∀ a ∈ source.namespaces.items, ∀ b ∈ target.namespaces.items, a.name = b.name → NsSafe d E a b

end PySqlSync.Spec
