/-
Model of pysqlsync/model/id_types.py.
-/
import Verif.Basic

namespace PySqlSync

/-- id_types.py:8-9 `quote_id`: doubles the identifier quote character. -/
def quoteId (name : Text) : Text := replaceChar '"' (t "\"\"") name

/-- id_types.py:80-97 `LocalId`. -/
structure LocalId where
  id : Text
deriving DecidableEq, Repr

/-- id_types.py:90-92 `LocalId.quoted_id`, also 94-97 `__str__`. -/
def LocalId.quoted (i : LocalId) : Text := t "\"" ++ quoteId i.id ++ t "\""

/-- id_types.py:100-207: the three implementations of `SupportsQualifiedId`. -/
inductive QId where
  /-- `QualifiedId` (id_types.py:139-180) -/
  | qualified (ns : Option Text) (id : Text)
  /-- `PrefixedId` (id_types.py:100-136) -/
  | prefixed (ns : Option Text) (id : Text)
  /-- `GlobalId` (id_types.py:183-207) -/
  | global (id : Text)
deriving DecidableEq, Repr

/-- `scope_id` (id_types.py:105-107, 144-146, 187-189). -/
def QId.scopeId : QId → Option Text
  | .qualified ns _ => ns
  | .prefixed _ _ => none
  | .global _ => none

/-- `local_id` (id_types.py:109-111, 148-150, 191-193). -/
def QId.localId : QId → Text
  | .qualified _ id => id
  | .prefixed (some ns) id => ns ++ t "__" ++ id
  | .prefixed none id => id
  | .global id => id

/-- `compact_id` (id_types.py:113-115, 152-157, 195-197). -/
def QId.compactId : QId → Text
  | .qualified (some ns) id => ns ++ t "." ++ id
  | .qualified none id => id
  | .prefixed ns id => (QId.prefixed ns id).localId
  | .global id => id

/-- `quoted_id` (id_types.py:117-128, 159-172, 199-201) = `__str__`. -/
def QId.quoted : QId → Text
  | .qualified (some ns) id =>
      t "\"" ++ quoteId ns ++ t "\"" ++ t "." ++ t "\"" ++ quoteId id ++ t "\""
  | .qualified none id => t "\"" ++ quoteId id ++ t "\""
  | .prefixed (some ns) id => t "\"" ++ quoteId ns ++ t "__" ++ quoteId id ++ t "\""
  | .prefixed none id => t "\"" ++ quoteId id ++ t "\""
  | .global id => id

/-- `rename` (id_types.py:130-131, 174-175, 203-204). -/
def QId.rename : QId → Text → QId
  | .qualified ns _, id => .qualified ns id
  | .prefixed ns _, id => .prefixed ns id
  | .global _, id => .global id

/-- Whether a name is a `GlobalId` (id_types.py:183-207): the library uses it for the database's own types only, e.g. `inet`. -/
def QId.isGlobal : QId → Bool
  | .global _ => true
  | _ => false

/-- formation/object_types.py:14-17 `deleted`: name of a soft-deleted object. -/
def deletedName (name : Text) : Text := t "pysqlsync$" ++ name

end PySqlSync
