/-
Specification for C59: the values that a mandatory column starts with.
-/
import Verif.Model.PyTypes

set_option autoImplicit false

namespace PySqlSync.Spec

/-- Python's `T()` (or the least point in time) as an SQL constant, if there is one. -/
def zero : Prim → Option Text
  | .bool => some (t "FALSE")
  | .int | .int8 | .int16 | .int32 | .int64 | .uint8 | .uint16 | .uint32 | .uint64 | .decimal => some (t "0")
  | .float | .float32 | .float64 => some (t "0.0")
  | .str => some (t "''")
  | .datetime => some (t "'0001-01-01 00:00:00'")
  | .date | .time | .timedelta | .uuid | .json | .ipv4 | .ipv6 => none

/-- A field that has no default, must not be NULL, and gets no value otherwise. -/
def NeedsDefault (f : FieldDecl) : Prop := f.default = none ∧ f.nullable = false ∧ f.primary = false ∧ f.identity = false

/-- Types of one value each: not lists, sets, data-classes without a key, or unions without a scalar. -/
def OneValue (defs : PyDefs) (ty : PyType) : Prop :=
  ty.isSimple = true ∨ defs.isEntity ty = true ∨
  ∃ ms, ty = .union ms ∧ ((∀ m ∈ ms.toList, defs.isEntity m = true) ∨ ∃ m ∈ ms.toList, m.isSimple = true)

end PySqlSync.Spec
