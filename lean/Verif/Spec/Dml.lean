/-
Specification: what the statements that change data do to a table, for one record of parameters.
-/
import Verif.Model.Dml

set_option autoImplicit false

namespace PySqlSync.Spec
open PySqlSync

variable {V : Type} [DecidableEq V]

/-- A row: a value, or NULL, for each column. -/
abbrev DataRow (V : Type) := Text → Option V

/-- The sets of columns that must be unique: the primary key, and the columns of each uniqueness constraint. -/
def uniqueSets (tb : Table) : List (List Text) :=
  tb.primaryKey :: tb.constraints.items.filterMap (fun c => match c with | .unique _ cols => some cols | _ => none)

/-- Two rows agree on a set of columns, none of which is NULL. -/
def agreeOn (cols : List Text) (a b : DataRow V) : Bool := cols.all (fun c => (a c).isSome && a c = b c)

/-- Two rows that a table cannot both have. -/
def clash (tb : Table) (a b : DataRow V) : Bool := (uniqueSets tb).any (fun cols => agreeOn cols a b)

/-- A value for each column that was supplied one. -/
def supplied (cols : List Text) (values : Record V) (c : Text) : Option (Option V) := (cols.zip values).lookup c

/-- The row that is inserted: supplied values; identity columns get a generated value, other columns their default. -/
def newRow (tb : Table) (default : DataRow V) (generated : Text → V) (cols : List Text) (values : Record V) : DataRow V :=
  fun c =>
    match supplied cols values c with
    | some v => v
    | none =>
      match tb.columns.get c with
      | some col => if col.identity then some (generated c) else default c
      | none => none

/-- No column that must not be NULL is. -/
def notNull (tb : Table) (row : DataRow V) : Bool := tb.columns.items.all (fun c => c.nullable || (row c.name).isSome)

/-- Some columns of `m` replaced by those of `r`. -/
def overwrite (cols : List Text) (r m : DataRow V) : DataRow V := fun c => if cols.contains c then r c else m c

/-- The rows are pairwise compatible, and have no forbidden NULL. -/
def consistent (tb : Table) : List (DataRow V) → Bool
  | [] => true
  | r :: rest => notNull tb r && rest.all (fun s => !clash tb r s && !clash tb s r) && consistent tb rest

/-- Accept a change only if the table is consistent afterwards. -/
def checked (tb : Table) (rows : List (DataRow V)) : Option (List (DataRow V)) :=
  if consistent tb rows then some rows else none

/-- Replace the first row that satisfies a condition. -/
def updateFirst (p : DataRow V → Bool) (f : DataRow V → DataRow V) : List (DataRow V) → List (DataRow V)
  | [] => []
  | r :: rest => if p r then f r :: rest else r :: updateFirst p f rest

/-- The table after the statement was executed with the record as parameters; `none` if it is refused. -/
def exec (tb : Table) (default : DataRow V) (generated : Text → V) (rows : List (DataRow V)) (s : Dml)
    (values : Record V) : Option (List (DataRow V)) :=
  if s.params.length ≠ values.length then none
  else
    match s with
    | .insert _ cols => checked tb (rows ++ [newRow tb default generated cols values])
    | .insertOrNothing _ cols =>
      let r := newRow tb default generated cols values
      if rows.any (fun m => clash tb r m) then (if notNull tb r then some rows else none) else checked tb (rows ++ [r])
    | .insertOrNothingOn _ cols keys =>
      let r := newRow tb default generated cols values
      if rows.any (fun m => agreeOn keys r m) then (if notNull tb r then some rows else none) else checked tb (rows ++ [r])
    | .insertOrUpdateOn _ cols keys updates =>
      let r := newRow tb default generated cols values
      if rows.any (fun m => agreeOn keys r m) then
        -- the row that was to be inserted must not have a forbidden NULL either
        if notNull tb r then checked tb (updateFirst (fun m => agreeOn keys r m) (overwrite updates r) rows) else none
      else checked tb (rows ++ [r])
    | .insertOrSelf _ cols _ =>
      let r := newRow tb default generated cols values
      if rows.any (fun m => clash tb r m) then some rows else checked tb (rows ++ [r])
    | .insertOrUpdate _ cols updates =>
      let r := newRow tb default generated cols values
      -- any unique key counts; if several rows clash, one of them is changed
      if rows.any (fun m => clash tb r m) then
        if notNull tb r then checked tb (updateFirst (fun m => clash tb r m) (overwrite updates r) rows) else none
      else checked tb (rows ++ [r])
    | .merge _ cols on updates inserts =>
      -- `MERGE` without `ON` is not a statement
      if on = [] then none
      else
        let src : DataRow V := fun c => (supplied cols values c).getD none
        let matched := fun (m : DataRow V) => on.any (fun c => agreeOn [c] src m)
        if rows.any matched then
          if updates = [] then some rows
          else checked tb (rows.map (fun m => if matched m then overwrite updates src m else m))
        else if inserts = [] then some rows
        else checked tb (rows ++ [newRow tb default generated inserts (inserts.map src)])
    | .delete _ key =>
      some (rows.filter (fun m => !agreeOn [key] (fun c => (supplied [key] values c).getD none) m))

/-- The statement is executed for one record after the other; generated values are whatever the engine likes. -/
inductive ExecAll (tb : Table) (default : DataRow V) (s : Dml) : List (DataRow V) → List (Record V) → List (DataRow V) → Prop where
  | nil (rows : List (DataRow V)) : ExecAll tb default s rows [] rows
  | cons {rows rows1 rows' : List (DataRow V)} {values : Record V} {rest : List (Record V)} (generated : Text → V) :
      exec tb default generated rows s values = some rows1 → ExecAll tb default s rows1 rest rows' →
      ExecAll tb default s rows (values :: rest) rows'

/-- The columns of a statement's record as a row. -/
def recordRow (cols : List Text) (values : Record V) : DataRow V := fun c => (supplied cols values c).getD none

/-- The row with a given primary key. -/
def rowWith (tb : Table) (rows : List (DataRow V)) (key : List V) : Option (DataRow V) :=
  rows.find? (fun r => tb.primaryKey.map r = key.map some)

end PySqlSync.Spec
