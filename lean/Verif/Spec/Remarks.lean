/-
Specification: the comments a database stores for tables, types and columns, and the effect of statements on them.
-/
import Verif.Spec.Safe

set_option autoImplicit false

namespace PySqlSync.Spec
open PySqlSync

/-- The comments stored for one table or type: its own, and those of its columns (members). -/
structure Remarks where
  own : Option Text
  cols : Text → Option Text

def noRemarks : Remarks := ⟨none, fun _ => none⟩

/-- An empty comment is no comment (PostgreSQL and MySQL). -/
def stored : Option Text → Option Text
  | some [] => none
  | x => x

/-- A column definition carries the comment of the column; `RENAME COLUMN` keeps it. -/
def remarkAction (d : Dialect) (r : Remarks) : Action → Remarks
  | .addColumn n s => { r with cols := upd r.cols n (stored s.comment) }
  | .redefine n s => { r with cols := upd r.cols n (stored s.comment) }
  | .dropColumn n => { r with cols := upd r.cols n none }
  | .dropDefaultAndColumn _ n => { r with cols := upd r.cols n none }
  | .renameColumn old new s =>
    { r with cols := upd (upd r.cols old none) new (if d = .mysql then stored s.comment else r.cols old) }
  | _ => r

def remarkAttr (r : Remarks) : AttrAction → Remarks
  | .add n _ => { r with cols := upd r.cols n none }
  | .drop n => { r with cols := upd r.cols n none }
  | .setDataType _ _ => r

/-- The comments after a statement. -/
def remark (d : Dialect) (c : Key → Remarks) : Stmt → Key → Remarks
  | .createTable q cols _ _ x =>
    upd c q.key ⟨stored x, fun n => stored ((cols.find? (fun p => p.1 = n)).bind (fun p => p.2.comment))⟩
  | .createEnum q _ => upd c q.key noRemarks
  | .createStruct q _ => upd c q.key noRemarks
  | .alterTable q acts => upd c q.key (acts.foldl (remarkAction d) (c q.key))
  | .alterStruct q acts => upd c q.key (acts.foldl remarkAttr (c q.key))
  | .renameType q new => upd (upd c q.key noRemarks) (q.key.1, new) (c q.key)
  | .dropType q => upd c q.key noRemarks
  | .dropTable q => upd c q.key noRemarks
  | .dropSchema n _ => fun k => if k.1 = n then noRemarks else c k
  | .commentTable q x => upd c q.key { c q.key with own := stored x }
  | .commentType q x => upd c q.key { c q.key with own := stored x }
  | .commentColumn q n x => upd c q.key { c q.key with cols := upd (c q.key).cols n (stored x) }
  | _ => c

/-- The comments after a script. -/
def remarks (d : Dialect) (c : Key → Remarks) (script : List Stmt) : Key → Remarks := script.foldl (remark d) c

/-- What pysqlsync keeps of a description: MySQL stores the first line. -/
def keptText (d : Dialect) (s : Text) : Text := if d = .mysql then s.takeWhile (fun c => c ≠ '\n') else s

/-- The stored comments are the descriptions of the table and of its columns. -/
structure Described (d : Dialect) (tb : Table) (r : Remarks) : Prop where
  own : r.own = stored (tb.description.map (keptText d))
  cols : ∀ c ∈ tb.columns.items, r.cols c.name = stored (c.description.map (keptText d))

/-- On PostgreSQL a converted column that has a description gets a different one (else the comment is lost, see
    `C46_comment_of_converted_column_is_lost`). -/
def ConvertedChange (d : Dialect) (S T : Table) : Prop :=
  d = .postgresql → ∀ s ∈ S.columns.items, ∀ u ∈ T.columns.items, s.name = u.name → Converted d s u →
    s.description = u.description → stored u.description = none

/-- On PostgreSQL, a column that is converted and has the same description before and after: it is created anew, without a comment. -/
def Forgotten (d : Dialect) (S : Table) (u : Column) : Prop :=
  d = .postgresql ∧ ∃ s ∈ S.columns.items, s.name = u.name ∧ Converted d s u ∧ s.description = u.description

/-- The comments of a changed table: those of the target, except for columns whose comment is forgotten. -/
structure Left (d : Dialect) (S T : Table) (r : Remarks) : Prop where
  own : r.own = stored (T.description.map (keptText d))
  cols : ∀ c ∈ T.columns.items, ¬ Forgotten d S c → r.cols c.name = stored (c.description.map (keptText d))
  lost : ∀ c ∈ T.columns.items, Forgotten d S c → r.cols c.name = none

/-- A table of the target does not take the name of a composite type of the source; if it takes the name of an
    enumeration of the source, both are named alike, and without a namespace prefix. -/
structure KindsKept (source target : Namespace) : Prop where
  structs : ∀ tb ∈ target.tables.items, ∀ s ∈ source.structs.items, tb.name.localId ≠ s.name.localId
  enums : ∀ tb ∈ target.tables.items, ∀ e ∈ source.enums.items, e.name.localId = tb.name.localId →
    e.name = tb.name ∧ ∀ x, (e.name.rename x).key = (e.name.key.1, x)

/-- A composite type of the target does not take the name of an enumeration or a table of the source. -/
def StructKindsKept (source target : Namespace) : Prop :=
  ∀ s ∈ target.structs.items, (∀ e ∈ source.enums.items, s.name.localId ≠ e.name.localId)
    ∧ ∀ tb ∈ source.tables.items, s.name.localId ≠ tb.name.localId

/-- A composite type of a catalog. -/
def IsStruct (c : Catalog) (s : StructType) : Prop := ∃ n ∈ c.namespaces.items, s ∈ n.structs.items

end PySqlSync.Spec
