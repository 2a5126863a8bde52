/-
Model of how constraints are put together from the rows of the information schema
(pysqlsync/formation/constraints.py:7-81), and of the queries that yield those rows.
A Python dictionary is the list of its items, in the order of insertion.
-/
import Verif.Model.Objects

set_option autoImplicit false

namespace PySqlSync

/-- `UniqueFactory.add` (15-16): `setdefault(name, []).append(column)`. -/
def uniqueAdd (d : List (Text × List Text)) (name column : Text) : List (Text × List Text) :=
  if d.any (fun p => p.1 = name) then d.map (fun p => if p.1 = name then (p.1, p.2 ++ [column]) else p)
  else d ++ [(name, [column])]

/-- The loop `for con in constraint_meta: constraints.add(...)` (discovery.py:267-269). -/
def uniqueAddAll (rows : List (Text × Text)) : List (Text × List Text) :=
  rows.foldl (fun d r => uniqueAdd d r.1 r.2) []

/-- `UniqueFactory.fetch` (18-22). -/
def uniqueFetch (d : List (Text × List Text)) : List Constraint := d.map (fun p => .unique p.1 p.2)

/-- A row about a foreign key: constraint, source column, target table, target column. -/
structure ForeignRow where
  name : Text
  source : Text
  table : QId
  target : Text
deriving DecidableEq, Repr

/-- `ForeignFactory.name_to_constraint`: target table and pairs of columns. -/
abbrev ForeignLinks := List (Text × QId × List (Text × Text))

/-- `ForeignFactory.add` (50-65). -/
def foreignAdd (d : ForeignLinks) (r : ForeignRow) : Except Err ForeignLinks :=
  match d.find? (fun p => p.1 = r.name) with
  | some (_, table, _) =>
    if r.table ≠ table then .error .value
    else .ok (d.map (fun p => if p.1 = r.name then (p.1, p.2.1, p.2.2 ++ [(r.source, r.target)]) else p))
  | none => .ok (d ++ [(r.name, r.table, [(r.source, r.target)])])

/-- The loop that adds all rows (discovery.py:302-309, postgresql/discovery.py:323-329). -/
def foreignAddAll : ForeignLinks → List ForeignRow → Except Err ForeignLinks
  | d, [] => .ok d
  | d, r :: rows => do foreignAddAll (← foreignAdd d r) rows

/-- `ForeignFactory.fetch` (67-81). -/
def foreignFetch (d : ForeignLinks) : List Constraint :=
  d.map (fun p => .foreign p.1 (p.2.2.map Prod.fst) ⟨p.2.1, p.2.2.map Prod.snd⟩)

/-- A foreign key as the database has it; `uniqueKey` has the columns of the key that it refers to, in the order in which that
    key lists them, which need not be the order in which the foreign key refers to them. -/
structure ForeignKey where
  name : Text
  source : List Text
  table : QId
  target : List Text
  uniqueKey : List Text

/-- postgresql/discovery.py:286-312: `UNNEST(con.conkey, con.confkey)` pairs columns (as does MySQL's
    `referenced_column_name`, mysql/discovery.py:112-131). -/
def ForeignKey.rowsPaired (k : ForeignKey) : List ForeignRow :=
  (k.source.zip k.target).map (fun p => ⟨k.name, p.1, k.table, p.2⟩)

/-- formation/discovery.py:275-300: columns are joined on their ordinal positions in the two keys. -/
def ForeignKey.rowsByPosition (k : ForeignKey) : List ForeignRow :=
  (k.source.zip k.uniqueKey).map (fun p => ⟨k.name, p.1, k.table, p.2⟩)

/-- oracle/discovery.py:165-179: the columns of the two keys are joined on nothing but the names of the constraints. -/
def ForeignKey.rowsCrossed (k : ForeignKey) : List ForeignRow :=
  k.source.flatMap (fun s => k.uniqueKey.map (fun c => ⟨k.name, s, k.table, c⟩))

/-- The constraint that should be found. -/
def ForeignKey.constraint (k : ForeignKey) : Constraint := .foreign k.name k.source ⟨k.table, k.target⟩

end PySqlSync
