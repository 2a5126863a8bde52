/-
  How values of a type are stored in a file with tab-separated values.
-/
import Verif.Model.TsvTypes

set_option autoImplicit false

namespace PySqlSync
namespace Spec

/-- The values of a type that is no union are stored like this. -/
inductive StoredAs : PyType → TsvType → Prop
  | bool : StoredAs (.prim .bool) .bool
  | int {p : Prim} : p ∈ [Prim.int, .int8, .int16, .int32, .int64, .uint8, .uint16, .uint32, .uint64] → StoredAs (.prim p) .int
  | float {p : Prim} : p ∈ [Prim.float, .float32, .float64] → StoredAs (.prim p) .float
  | str : StoredAs (.prim .str) .str
  | uuid : StoredAs (.prim .uuid) .uuid
  | datetime : StoredAs (.prim .datetime) .datetime
  | date : StoredAs (.prim .date) .date
  | time : StoredAs (.prim .time) .time
  | decimal : StoredAs (.prim .decimal) .decimal
  | ipv4 : StoredAs (.prim .ipv4) .ipv4
  | ipv6 : StoredAs (.prim .ipv6) .ipv6
  | annotated {p : Prim} {k : TsvType} (metas : List Meta) : StoredAs (.prim p) k → StoredAs (.annotated p metas) k
  | enum (n : PyName) : StoredAs (.enum n) .str
  | literal (v : Text) (vs : List Text) : StoredAs (.literal (v :: vs)) .str
  | cls (n : PyName) : StoredAs (.cls n) .dict
  | list (item : PyType) : StoredAs (.list item) .list
  | set (item : PyType) : StoredAs (.set item) .set
  | bytes : StoredAs (.other (t "builtins", t "bytes")) .bytes

/-- The alternatives of a type. -/
def alternatives : PyType → List PyType
  | .union ms => ms.toList
  | ty => [ty]

/-- A union has no unions as members (`typing` makes it flat). -/
def FlatUnion (ty : PyType) : Prop := ∀ m ∈ alternatives ty, alternatives m = [m]

/-- All values of the type can be read with this type: they are all stored like that, or they are IP addresses of both kinds. -/
structure ReadAs (ty : PyType) (k : TsvType) : Prop where
  some : alternatives ty ≠ []
  all : ∀ m ∈ alternatives ty, StoredAs m k ∨ (k = .ip ∧ (StoredAs m .ipv4 ∨ StoredAs m .ipv6))
  both : k = .ip → (∃ m ∈ alternatives ty, StoredAs m .ipv4) ∧ (∃ m ∈ alternatives ty, StoredAs m .ipv6)

end Spec
end PySqlSync
