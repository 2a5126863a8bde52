/-
Specification for C50: the rows of a lookup table.
-/
import Verif.Spec.Keep

set_option autoImplicit false

namespace PySqlSync.Spec
open PySqlSync

/-- The rows are those of the texts, in their order: under the `j`-th name the `j`-th value of the text, and under `"id"` a number. -/
def Filled (R : RowEngine) (names texts : List Text) (rows : List Row) : Prop :=
  rows.length = texts.length ∧ ∀ (i : Nat) (text : Text) (r : Row), texts[i]? = some text → rows[i]? = some r →
    (∀ (j : Nat) (name : Text) (v : Val), names[j]? = some name → (R.literal text)[j]? = some v → r name = v) ∧ ∃ k, r (t "id") = .int k

/-- No two rows have the same `"id"`. -/
def DistinctIds (rows : List Row) : Prop := (rows.map (fun r => r (t "id"))).Nodup

/-- The database never generates a number that is in use. -/
def FreshIds (R : RowEngine) : Prop := ∀ (rows : List Row), ∀ r ∈ rows, r (t "id") ≠ .int (R.fresh rows)

end PySqlSync.Spec
