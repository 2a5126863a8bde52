/-
Specification: what a statement touches.
-/
import Verif.Spec.Safe

set_option autoImplicit false

namespace PySqlSync.Spec
open PySqlSync

/-- A table of a catalog. -/
def IsTable (c : Catalog) (tb : Table) : Prop := ∃ n ∈ c.namespaces.items, tb ∈ n.tables.items

/-- An action that makes a column disappear under its name. -/
def Removes : Action → Text → Prop
  | .dropColumn n, m => n = m
  | .dropDefaultAndColumn _ n, m => n = m
  | .renameColumn n _ _, m => n = m
  | _, _ => False

/-- The table that a statement creates, changes, removes, describes or writes to. -/
def Touches : Stmt → QId → Prop
  | .createTable q _ _ _ _, r => q = r
  | .alterTable q _, r => q = r
  | .dropTable q, r => q = r
  | .commentTable q _, r => q = r
  | .insertRows q _ _, r => q = r
  | .insertLabels q _ _, r => q = r
  | .insertDistinct q _ _, r => q = r
  | .updateKeys q _ _ _, r => q = r
  | _, _ => False

/-- The object that a schema statement creates, changes, renames or removes. -/
def Addresses : Stmt → Key → Prop
  | .createEnum q _, k => q.key = k
  | .createStruct q _, k => q.key = k
  | .createTable q _ _ _ _, k => q.key = k
  | .alterTable q _, k => q.key = k
  | .addValue q _, k => q.key = k
  | .alterStruct q _, k => q.key = k
  | .renameType q new, k => q.key = k ∨ (q.key.1, new) = k
  | .dropType q, k => q.key = k
  | .dropTable q, k => q.key = k
  | .dropSchema n _, k => n = k.1
  | _, _ => False

end PySqlSync.Spec
