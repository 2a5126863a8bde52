/-
Model of `Namespace.merge` and `Catalog.merge` (pysqlsync/formation/object_types.py:733-764, 856-863).
A call that raises may have changed the object before; the result is therefore the object afterwards and whether the
call returned.
-/
import Verif.Model.Objects

set_option autoImplicit false

namespace PySqlSync

/-- Equality of enumeration types (a dataclass, object_types.py:92-97). -/
def EnumType.eqv (a b : EnumType) : Bool := a = b

/-- Equality of composite types (a dataclass, 142-151; `ObjectDict.__eq__` ignores the order). -/
def StructType.eqv (a b : StructType) : Bool :=
  a.name = b.name && a.members.eqv b.members && a.description = b.description

/-- Equality of tables: the `__eq__` generated for the dataclass `Table` (361-374) compares the class and the fields
    of `Table`; `EnumTable` (585-586) is no dataclass, its values are not compared. -/
def Table.eqv (a b : Table) : Bool :=
  a.enumValues.isSome = b.enumValues.isSome && a.name = b.name && a.columns.eqv b.columns
  && a.primaryKey = b.primaryKey && a.constraints.eqv b.constraints && a.description = b.description

/-- The loops 736-744, 746-754, 756-764: an item of the same name must be equal, otherwise a copy is added. -/
def mergeItems {α : Type} [Named α] (eqv : α → α → Bool) (self : ODict α) : List α → ODict α × Bool
  | [] => (self, true)
  | a :: rest =>
    match self.get (key a) with
    | some b => if eqv b a then mergeItems eqv self rest else (self, false)
    | none => mergeItems eqv ⟨ODict.setItem self.items a⟩ rest

/-- 733-764 `Namespace.merge`. -/
def Namespace.merge (self op : Namespace) : Namespace × Bool :=
  let (enums, ok1) := mergeItems EnumType.eqv self.enums op.enums.items
  if ok1 then
    let (structs, ok2) := mergeItems StructType.eqv self.structs op.structs.items
    if ok2 then
      let (tables, ok3) := mergeItems Table.eqv self.tables op.tables.items
      ({ self with enums := enums, structs := structs, tables := tables }, ok3)
    else ({ self with enums := enums, structs := structs }, false)
  else ({ self with enums := enums }, false)

/-- The loop 859-863. -/
def mergeNamespaces (self : ODict Namespace) : List Namespace → ODict Namespace × Bool
  | [] => (self, true)
  | n :: rest =>
    match self.get n.name with
    | some m =>
      let (m', ok) := m.merge n
      -- `self.namespaces[name].merge(op_ns)` changes the namespace in place
      if ok then mergeNamespaces ⟨ODict.setItem self.items m'⟩ rest else (⟨ODict.setItem self.items m'⟩, false)
    | none => mergeNamespaces ⟨ODict.setItem self.items n⟩ rest

/-- 856-863 `Catalog.merge`. -/
def Catalog.merge (self op : Catalog) : Catalog × Bool :=
  let (ns, ok) := mergeNamespaces self.namespaces op.namespaces.items
  (⟨ns⟩, ok)

end PySqlSync
