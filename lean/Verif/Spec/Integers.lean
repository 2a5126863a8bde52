/-
Specification for C31: the values of Python integer types, and the integers that a column holds, by the name of its data type.
-/
import Verif.Model.Engines
import Verif.Spec.Values

set_option autoImplicit false

namespace PySqlSync.Spec

/-- The least and the greatest value of a fixed-width integer type (`strong_typing.auxiliary`). -/
def fixedRange : Prim → Option (Int × Int)
  | .int8 => some (-2 ^ 7, 2 ^ 7 - 1)
  | .int16 => some (-2 ^ 15, 2 ^ 15 - 1)
  | .int32 => some (-2 ^ 31, 2 ^ 31 - 1)
  | .int64 => some (-2 ^ 63, 2 ^ 63 - 1)
  | .uint8 => some (0, 2 ^ 8 - 1)
  | .uint16 => some (0, 2 ^ 16 - 1)
  | .uint32 => some (0, 2 ^ 32 - 1)
  | .uint64 => some (0, 2 ^ 64 - 1)
  | _ => none

/-- The least and the greatest integer of a column whose type is given by its name in the language of the engine; `none` if the engine
    has no such type.  From the manuals: Oracle's `SMALLINT`, `INTEGER` and `NUMBER` and all integer types of Snowflake have
    38 decimal digits, `TINYINT` is unsigned in SQL Server, and does not exist in PostgreSQL, Redshift and Oracle; Oracle has no `BIGINT`. -/
def columnRange (e : Engine) (name : Text) : Option (Int × Int) :=
  match e with
  | .snowflake =>
    if name = t "tinyint" ∨ name = t "smallint" ∨ name = t "integer" ∨ name = t "bigint" then some (-(10 ^ 38 - 1), 10 ^ 38 - 1) else none
  | .oracle =>
    if name = t "number" ∨ name = t "smallint" ∨ name = t "integer" then some (-(10 ^ 38 - 1), 10 ^ 38 - 1) else none
  | _ =>
    if name = t "smallint" then some (-2 ^ 15, 2 ^ 15 - 1)
    else if name = t "integer" then some (-2 ^ 31, 2 ^ 31 - 1)
    else if name = t "bigint" then some (-2 ^ 63, 2 ^ 63 - 1)
    else if name = t "tinyint" then
      match e with
      | .postgresql | .redshift => none
      | .mssql => some (0, 255)
      | _ => some (-128, 127)
    else none

/-- A column with this type accepts this integer. -/
def Accepts (e : Engine) (ty : SqlType) (n : Int) : Prop :=
  ∃ name r, ty.str = .ok name ∧ columnRange e name = some r ∧ r.1 ≤ n ∧ n ≤ r.2

/-- The integer types extended by a PostgreSQL module, whose names tell their width in bytes. -/
def extensionRange (name : Text) : Option (Int × Int) :=
  if name = t "int1" then some (-2 ^ 7, 2 ^ 7 - 1)
  else if name = t "uint1" then some (0, 2 ^ 8 - 1)
  else if name = t "uint2" then some (0, 2 ^ 16 - 1)
  else if name = t "uint4" then some (0, 2 ^ 32 - 1)
  else if name = t "uint8" then some (0, 2 ^ 64 - 1)
  else none

def Meta.width? : Meta → Option Nat
  | .storage n => some n
  | _ => none
def Meta.signed? : Meta → Option Bool
  | .signed b => some b
  | _ => none
def Meta.bounds? : Meta → Option (Int × Int)
  | .integerRange a b => some (a, b)
  | _ => none

/-- The declared width of an integer in bytes: the last `Storage` counts. -/
def declaredWidth (ms : List Meta) : Nat := (ms.reverse.findSome? Meta.width?).getD 8
/-- Whether an integer is declared to be signed: the last `Signed` counts. -/
def declaredSigned (ms : List Meta) : Bool := (ms.reverse.findSome? Meta.signed?).getD true
/-- The declared range: the last `IntegerRange` counts. -/
def declaredBounds (ms : List Meta) : Option (Int × Int) := ms.reverse.findSome? Meta.bounds?

/-- The values of `Annotated[int, ...]`. -/
def Declared (ms : List Meta) (n : Int) : Prop :=
  FitsBytes (declaredWidth ms) (declaredSigned ms) n ∧ ∀ a b, declaredBounds ms = some (a, b) → a ≤ n ∧ n ≤ b

/-- Annotations that apply to integers. -/
def IntMeta : Meta → Prop
  | .storage _ | .signed _ | .integerRange .. | .skipped => True
  | _ => False

end PySqlSync.Spec
