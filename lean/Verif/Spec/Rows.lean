/-
Specification: what the statements of Spec/Stmt.lean do to the rows of tables.  Names and types are checked in
Spec/Ddl.lean; here a statement is refused only because of the data.
-/
import Verif.Spec.Ddl

set_option autoImplicit false

namespace PySqlSync.Spec
open PySqlSync

/-- The value in a cell. -/
inductive Val where
  | null
  | text (s : Text)
  | int (n : Int)
deriving DecidableEq, Repr

/-- A row: the values under the names of the columns (`null` under other names). -/
abbrev Row := Text → Val

/-- The rows of every table. -/
abbrev Data := Key → List Row

/-- What is specific to a database engine. -/
structure RowEngine where
  /-- the value of a default expression -/
  eval : Text → Val
  /-- the value that existing rows get in a new column that is `NOT NULL` and has no default; `none` if the database
      refuses to add such a column to a table with rows (MySQL has such values, others refuse) -/
  implicit : SqlType → Option Val
  /-- the conversion of a value to a type; `none` if it is not possible -/
  cast : SqlType → Val → Option Val
  /-- the number that the `i`-th existing row gets in a new identity column -/
  number : Nat → Int
  /-- the `"id"` of a row added to a table with the given rows -/
  fresh : List Row → Int
  /-- the values in the text of a row -/
  literal : Text → List Val

/-- Convert the values in one column. -/
def castColumn (R : RowEngine) (n : Text) (ty : SqlType) (notNull : Bool) : List Row → Option (List Row)
  | [] => some []
  | r :: rows =>
    match R.cast ty (r n), castColumn R n ty notNull rows with
    | some v, some rows' => if notNull && v = .null then none else some (upd r n v :: rows')
    | _, _ => none

/-- The effect of one action of `ALTER TABLE` on the rows of the table. -/
def rowAction (R : RowEngine) (rows : List Row) : Action → Option (List Row)
  | .addColumn n spec =>
    if spec.identity then some (rows.mapIdx (fun i r => upd r n (.int (R.number i))))
    else match spec.default with
      | some e => some (rows.map (fun r => upd r n (R.eval e)))
      | none =>
        if spec.notNull && !rows.isEmpty then (R.implicit spec.ty).map (fun v => rows.map (fun r => upd r n v))
        else some (rows.map (fun r => upd r n .null))
  | .dropColumn n => some (rows.map (fun r => upd r n .null))
  | .dropDefaultAndColumn _ n => some (rows.map (fun r => upd r n .null))
  | .renameColumn old new _ => some (rows.map (fun r => upd (upd r old .null) new (r old)))
  | .setDataType n ty => castColumn R n ty false rows
  | .setNotNull n => if rows.any (fun r => r n = .null) then none else some rows
  | .redefine n spec => castColumn R n spec.ty spec.notNull rows
  | .modify n ty _ nullable _ =>
    match ty with
    | some ty => castColumn R n ty (nullable = some false) rows
    | none => if nullable = some false && rows.any (fun r => r n = .null) then none else some rows
  | .retype n ty notNull => castColumn R n ty notNull rows
  | _ => some rows

def rowActions (R : RowEngine) (rows : List Row) : List Action → Option (List Row)
  | [] => some rows
  | a :: rest => (rowAction R rows a).bind (fun rows' => rowActions R rows' rest)

/-- Add a row for each label to a lookup table (columns `"id"`, generated, and `"value"`, unique). -/
def insertAll (R : RowEngine) (ignore : Bool) (rows : List Row) : List Val → Option (List Row)
  | [] => some rows
  | v :: vs =>
    if rows.any (fun r => r (t "value") = v) then (if ignore then insertAll R ignore rows vs else none)
    else insertAll R ignore
      (rows ++ [fun n => if n = t "value" then v else if n = t "id" then .int (R.fresh rows) else .null]) vs

/-- The row of a lookup table for a label; `NULL` is not equal to anything. -/
def findLabel (lookup : List Row) (v : Val) : Option Row :=
  if v = .null then none else lookup.find? (fun r => r (t "value") = v)

/-- The effect of one statement on the rows. -/
def rowStep (R : RowEngine) (D : Data) : Stmt → Option Data
  | .createTable q _ _ _ _ => some (upd D q.key [])
  | .dropTable q => some (upd D q.key [])
  | .dropSchema n _ => some (fun k => if k.1 = n then [] else D k)
  | .alterTable q actions => (rowActions R (D q.key) actions).map (upd D q.key)
  | .insertRows q cols rows => some (upd D q.key (rows.foldl (fun acc text => acc ++ [fun n =>
      match (cols.zip (R.literal text)).find? (fun p => p.1 = n) with
      | some p => p.2
      | none => if n = t "id" then .int (R.fresh acc) else .null]) (D q.key)))
  | .insertLabels q labels ignore => (insertAll R ignore (D q.key) (labels.map Val.text)).map (upd D q.key)
  | .insertDistinct q column data =>
    -- the column "value" of a lookup table is NOT NULL
    if (D data.key).any (fun r => r column = .null) then none
    else (insertAll R true (D q.key) ((D data.key).map (fun r => r column))).map (upd D q.key)
  | .updateKeys data tgt src q => some (upd D data.key ((D data.key).map (fun r =>
      match findLabel (D q.key) (r src) with
      | some l => upd r tgt (l (t "id"))
      | none => r)))
  | _ => some D

/-- The statements one after the other. -/
def rowRun (R : RowEngine) (D : Data) : List Stmt → Option Data
  | [] => some D
  | s :: rest => (rowStep R D s).bind (fun D' => rowRun R D' rest)

/-- Two lists of rows correspond to each other one by one. -/
def Each (P : Row → Row → Prop) (before after : List Row) : Prop :=
  after.length = before.length ∧ ∀ (i : Nat) (r r' : Row), before[i]? = some r → after[i]? = some r' → P r r'

/-- A value of a key column resolves to a label. -/
def ResolvesTo (lookup : List Row) (k v : Val) : Prop :=
  ∃ l ∈ lookup, l (t "value") = v ∧ l (t "id") = k ∧ k ≠ .null

end PySqlSync.Spec
