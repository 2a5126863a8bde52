/-
Specification: what it means that the data of a table survive a script.
-/
import Verif.Spec.Rows
import Verif.Spec.Foot

set_option autoImplicit false

namespace PySqlSync.Spec
open PySqlSync

/-- Every row that was there is still there, in the same place, and related to what it was; rows may have been added at the end. -/
def Survives (P : Row → Row → Prop) (before after : List Row) : Prop :=
  ∃ kept added, after = kept ++ added ∧ Each P before kept

/-- Under the name of the column the row holds what it held. -/
def SameValue (column : Text) : Row → Row → Prop := fun r r' => r' column = r column

/-- Under the name of the column the row holds what it held, as the database converts it to the type. -/
def ConvertedValue (R : RowEngine) (ty : SqlType) (column : Text) : Row → Row → Prop :=
  fun r r' => R.cast ty (r column) = some (r' column)

/-- Converting a value to a type a second time changes nothing. -/
def Settles (R : RowEngine) (ty : SqlType) : Prop := ∀ v w, R.cast ty v = some w → R.cast ty w = some w

/-- MySQL: a column of labels is to be converted to keys of the table; the labels are added to the table. -/
def Fed (d : Dialect) (S T : Catalog) (k : Key) : Prop :=
  d = .mysql ∧ ∃ x y, IsTable S x ∧ IsTable T y ∧ x.name.key = y.name.key ∧ ∃ s ∈ x.columns.items, ∃ u ∈ y.columns.items,
    s.name = u.name ∧ Converted d s u ∧ ∃ nm r, Constraint.foreign nm [u.name] r ∈ y.constraints.items ∧ r.table.key = k

/-- When the labels of a column survive its conversion to a key: with PostgreSQL, if the lookup table lists every label
    that a row has; with MySQL always, as the script lists the labels itself; with any other dialect only if there is no
    label at all. -/
def LabelsKept (d : Dialect) (lookup rows : List Row) (column : Text) : Prop :=
  match d with
  | .postgresql => ∀ r ∈ rows, r column ≠ .null → ∃ l ∈ lookup, l (t "value") = r column
  | .mysql => True
  | _ => ∀ r ∈ rows, r column = .null

/-- The values of a column with an inline enumeration type are among its labels. -/
def EnumTyped (c : Column) (rows : List Row) : Prop :=
  ∀ vs, c.ty = .enum vs → ∀ r ∈ rows, r c.name ≠ .null → ∃ v ∈ vs, r c.name = .text v

end PySqlSync.Spec
