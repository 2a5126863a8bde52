/-
Model of pysqlsync/resultset.py and of how the dialects use it (`_query_all`).
A result set is the list of its column names and the list of its rows; a row is the list of its values.
-/
import Verif.Model.Objects

set_option autoImplicit false

namespace PySqlSync
variable {V : Type}

/-- `item[0]`; an `IndexError` if there is none. -/
def firstOf (row : List V) : Except Err V :=
  match row with
  | v :: _ => .ok v
  | [] => .error .key

/-- `resultset_unwrap_tuple` (resultset.py:69-94) for `bool`, `int`, `float` or `str`: the shape of the first row only is
    checked. -/
def unwrapScalar (rows : List (List V)) : Except Err (List V) :=
  match rows with
  | [] => .ok []
  | first :: rest =>
    if first.length ≠ 1 then .error .value
    else do
      let v ← firstOf first
      let vs ← rest.mapM firstOf
      pure (v :: vs)

/-- `resultset_unwrap_tuple` (resultset.py:96-129) for a tuple type with a number of items; a row is the same tuple before and
    after. -/
def unwrapTuple (arity : Nat) (rows : List (List V)) : Except Err (List (List V)) :=
  match rows with
  | [] => .ok []
  | first :: rest => if first.length ≠ arity then .error .value else .ok (first :: rest)

/-- A field of a data-class: its name, and whether it has a default value. -/
structure FieldDef where
  name : Text
  hasDefault : Bool
deriving DecidableEq, Repr

/-- An instance of a data-class: each field with the value it was given, or `none` for its default. -/
abbrev Instance (V : Type) := List (Text × Option V)

/-- The last value under a name in a list of items from which a dictionary is made. -/
def lastValue (items : List (Text × V)) (name : Text) : Option V := (items.reverse.find? (fun p => p.1 = name)).map Prod.snd

/-- `signature(**kwargs)`: refused (`TypeError`) if there is a name that is not a field, or a field without default that is not
    given. -/
def constructNamed (fields : List FieldDef) (kwargs : List (Text × V)) : Except Err (Instance V) :=
  if kwargs.any (fun p => !(fields.map FieldDef.name).contains p.1) then .error .value
  else if fields.any (fun f => !f.hasDefault && (lastValue kwargs f.name).isNone) then .error .value
  else .ok (fields.map (fun f => (f.name, lastValue kwargs f.name)))

/-- `signature(*args)`: refused if there are too many arguments, or a field without default that is not given. -/
def constructPositional (fields : List FieldDef) (args : List V) : Except Err (Instance V) :=
  if fields.length < args.length then .error .value
  else if (fields.drop args.length).any (fun f => !f.hasDefault) then .error .value
  else .ok (fields.zipIdx.map (fun p => (p.1.name, args[p.2]?)))

/-- `resultset_unwrap_dict` (resultset.py:19-37), used by PostgreSQL and MySQL. -/
def unwrapDict (fields : List FieldDef) (columns : List Text) (rows : List (List V)) : Except Err (List (Instance V)) :=
  rows.mapM (fun row => constructNamed fields (columns.zip row))

/-- `record.__getattribute__(name)`: an `AttributeError` if there is no such column. -/
def rowAttr (columns : List Text) (row : List V) (name : Text) : Except Err V :=
  match (columns.zip row).find? (fun p => p.1 = name) with
  | some p => .ok p.2
  | none => .error .key

/-- The keyword argument for a field (resultset.py:53-56). -/
def keywordOf (columns : List Text) (row : List V) (f : FieldDef) : Except Err (Text × V) :=
  match rowAttr columns row f.name with
  | .ok v => .ok (f.name, v)
  | .error e => .error e

/-- `resultset_unwrap_object` (resultset.py:40-57), used by SQL Server. -/
def unwrapObject (fields : List FieldDef) (columns : List Text) (rows : List (List V)) : Except Err (List (Instance V)) :=
  rows.mapM (fun row => do
    let kwargs ← fields.mapM (keywordOf columns row)
    constructNamed fields kwargs)

/-- `OracleContext._query_all` (oracle/connection.py:127-136) for a data-class: the row factory passes values by position. -/
def unwrapOracle (fields : List FieldDef) (rows : List (List V)) : Except Err (List (Instance V)) :=
  rows.mapM (fun row => constructPositional fields row)

end PySqlSync
