/-
Model of the statements that change data (pysqlsync/base.py:332-431; dialect/postgresql/generator.py:60-117;
dialect/mysql/generator.py:73-118) as values; their meaning is in Spec/Dml.lean.

Redshift uses PostgreSQL's table classes but the base class' statements, as do Oracle, SQL Server, Snowflake and Delta.
-/
import Verif.Model.Objects
import Verif.Model.Records

set_option autoImplicit false

namespace PySqlSync

/-- A statement executed once for each record; the columns of a statement say which column the k-th parameter is for. -/
inductive Dml where
  /-- `INSERT INTO t (cols) VALUES (...)` -/
  | insert (table : QId) (cols : List Text)
  /-- `INSERT ... ON CONFLICT DO NOTHING` -/
  | insertOrNothing (table : QId) (cols : List Text)
  /-- `INSERT ... ON CONFLICT (keys) DO NOTHING` -/
  | insertOrNothingOn (table : QId) (cols : List Text) (keys : List Text)
  /-- `INSERT ... ON CONFLICT (keys) DO UPDATE SET c = EXCLUDED.c, ...` -/
  | insertOrUpdateOn (table : QId) (cols : List Text) (keys : List Text) (updates : List Text)
  /-- `INSERT ... ON DUPLICATE KEY UPDATE k = k, ...` -/
  | insertOrSelf (table : QId) (cols : List Text) (keys : List Text)
  /-- `INSERT ... ON DUPLICATE KEY UPDATE c = VALUES(c), ...` -/
  | insertOrUpdate (table : QId) (cols : List Text) (updates : List Text)
  /-- `MERGE INTO t target USING (VALUES (...)) source(cols) ON (target.m = source.m OR ...)
      [WHEN MATCHED THEN UPDATE SET u = source.u] [WHEN NOT MATCHED THEN INSERT (inserts) VALUES (...)]`;
      `on` empty: there is no `ON` clause -/
  | merge (table : QId) (cols : List Text) (on : List Text) (updates : List Text) (inserts : List Text)
  /-- `DELETE FROM t WHERE key = ?` -/
  | delete (table : QId) (key : Text)
deriving DecidableEq, Repr

/-- The columns that the parameters are for, in order. -/
def Dml.params : Dml → List Text
  | .insert _ cols => cols
  | .insertOrNothing _ cols => cols
  | .insertOrNothingOn _ cols _ => cols
  | .insertOrUpdateOn _ cols _ _ => cols
  | .insertOrSelf _ cols _ => cols
  | .insertOrUpdate _ cols _ => cols
  | .merge _ cols _ _ _ => cols
  | .delete _ key => [key]

/-- object_types.py:405-423 `get_columns`. -/
def Table.getColumns (tb : Table) : Option (List Text) → Except Err (List Column)
  | none => .ok tb.columns.items
  | some names => names.mapM (fun n => match tb.columns.get n with | some c => .ok c | none => .error .value)

/-- 425-429 `check_primary`. -/
def Table.checkPrimary (tb : Table) : Except Err Unit := if tb.primaryKey.length = 1 then .ok () else .error .key

/-- 437-445 `get_primary_column`. -/
def Table.primaryColumn (tb : Table) : Except Err Column := do
  tb.checkPrimary
  match tb.columns.items.find? (fun c => tb.primaryKey.contains c.name) with
  | some c => return c
  | none => .error .key

/-- 462-473 `is_unique_column`. -/
def Table.isUniqueColumn (tb : Table) (c : Column) : Bool :=
  tb.constraints.items.any (fun con =>
    match con with
    | .unique _ cols => !(cols.length > 1) && cols.contains c.name
    | _ => false)

/-- 475-478 `is_lookup_column`; `is_primary_column` (431-435) raises if the key is not a single column. -/
def Table.isLookupColumn (tb : Table) (c : Column) : Except Err Bool := do
  tb.checkPrimary
  return tb.primaryKey.contains c.name || tb.isUniqueColumn c

/-- Those of the columns that are lookup columns. -/
def Table.lookupColumns (tb : Table) (cols : List Column) : Except Err (List Column) := do
  let flags ← cols.mapM (fun c => tb.isLookupColumn c)
  return ((cols.zip flags).filter Prod.snd).map Prod.fst

/-- The families of generators by the data statements they emit. -/
inductive Writer where
  | base | postgresql | mysql
deriving DecidableEq, Repr

/-- `get_table_insert_stmt` (base.py:332-350, postgresql/generator.py:60-72, mysql/generator.py:73-83). -/
def insertStmt (_w : Writer) (tb : Table) (order : Option (List Text)) : Except Err Dml := do
  let columns := (← tb.getColumns order).filter (fun c => !c.identity)
  return .insert tb.name (columns.map Column.name)

/-- `get_table_merge_stmt` (base.py:374-392, postgresql/generator.py:74-88, mysql/generator.py:85-99). -/
def mergeStmt (w : Writer) (tb : Table) (order : Option (List Text)) : Except Err Dml := do
  let columns := (← tb.getColumns order).filter (fun c => !c.identity)
  let names := columns.map Column.name
  match w with
  | .postgresql => return .insertOrNothing tb.name names
  | .mysql => return .insertOrSelf tb.name names tb.primaryKey
  | .base =>
    let on ← tb.lookupColumns columns
    return .merge tb.name names (on.map Column.name) [] names

/-- `get_table_upsert_stmt` (base.py:394-426, postgresql/generator.py:90-117, mysql/generator.py:101-118). -/
def upsertStmt (w : Writer) (tb : Table) (order : Option (List Text)) : Except Err Dml := do
  let columns ← tb.getColumns order
  let names := columns.map Column.name
  match w with
  | .postgresql =>
    if tb.valueColumns = [] then return .insertOrNothingOn tb.name names tb.primaryKey
    else return .insertOrUpdateOn tb.name names tb.primaryKey (tb.valueColumns.map Column.name)
  | .mysql =>
    if tb.valueColumns = [] then return .insertOrUpdate tb.name names tb.primaryKey
    else return .insertOrUpdate tb.name names (tb.valueColumns.map Column.name)
  | .base =>
    let on ← tb.lookupColumns columns
    let inserts := columns.filter (fun c => !c.identity)
    let lookup ← tb.lookupColumns inserts
    let updates := inserts.filter (fun c => !lookup.contains c)
    return .merge tb.name names (on.map Column.name) (updates.map Column.name) (inserts.map Column.name)

/-- `get_table_delete_stmt` (428-431). -/
def deleteStmt (tb : Table) : Except Err Dml := do
  return .delete tb.name (← tb.primaryColumn).name

/-- `order` (1090, 1148): the labels that are not empty, if there are labels. -/
def fieldOrder (names : Option (List Text)) : Option (List Text) :=
  match names with
  | none => none
  | some [] => none
  | some (x :: l) => some ((x :: l).filter (fun n => n ≠ []))

/-- `_insert_rows` (base.py:1073-1092): the statement, and the batches of parameters for it. -/
def insertRows {V : Type} (w : Writer) (tb : Table) (make : Nat → FieldType → Text → Except Err (Transformer V))
    (types : List FieldType) (names : Option (List Text)) (records : List (Record V)) :
    Except Err (Dml × List (List (Record V))) := do
  let out ← generateRecords (tb.columns.items.map Column.name) make types names (toBatches records)
  let stmt ← insertStmt w tb (fieldOrder names)
  return (stmt, out)

/-- PostgreSQL's `_insert_rows` (postgresql/connection.py:124-143), like Redshift's (redshift/connection.py:120-134),
    copies records into the columns instead, identity columns included. -/
def copyRows {V : Type} (tb : Table) (make : Nat → FieldType → Text → Except Err (Transformer V))
    (types : List FieldType) (names : Option (List Text)) (records : List (Record V)) :
    Except Err (Dml × List (List (Record V))) := do
  let out ← generateRecords (tb.columns.items.map Column.name) make types names (toBatches records)
  let columns ← tb.getColumns (fieldOrder names)
  return (.insert tb.name (columns.map Column.name), out)

/-- `_upsert_rows` (base.py:1131-1151). -/
def upsertRows {V : Type} (w : Writer) (tb : Table) (make : Nat → FieldType → Text → Except Err (Transformer V))
    (types : List FieldType) (names : Option (List Text)) (records : List (Record V)) :
    Except Err (Dml × List (List (Record V))) := do
  let out ← generateRecords (tb.columns.items.map Column.name) make types names (toBatches records)
  let stmt ← upsertStmt w tb (fieldOrder names)
  return (stmt, out)

/-- `_delete_rows` (1284-1306). -/
def deleteRows {V : Type} (tb : Table) (transformer : Option (V → V)) (keys : List V) :
    Except Err (Dml × List (List (Record V))) := do
  let stmt ← deleteStmt tb
  return (stmt, toBatches (keys.map (fun k => match transformer with | some f => [some (f k)] | none => [some k])))

/-- `_get_dataclass_extractors` (base.py:487-498) and the record made from an object (457-485): one value for each field
    of the class, in the order of the fields.  `extract` is `get_field_extractor` (500-508). -/
def dataclassRecord {O V : Type} (tb : Table) (extract : Text → O → Option V) (skipIdentity : Bool) (fields : List Text)
    (item : O) : Except Err (Record V) := do
  let kept ← fields.filterMapM (fun f =>
    match tb.columns.get f with
    | none => .error .key
    | some c => .ok (if skipIdentity && c.identity then none else some f))
  return kept.map (fun f => extract f item)

/-- `insert_data` (1003-1013): the statement for the table as the connection knows it, and the batches.
    (PostgreSQL and Redshift name the columns after the fields instead: postgresql/connection.py:105-121,
    redshift/connection.py:104-117.) -/
def insertData {O V : Type} (w : Writer) (tb : Table) (extract : Text → O → Option V) (fields : List Text)
    (items : List O) : Except Err (Dml × List (List (Record V))) := do
  let stmt ← insertStmt w tb none
  let records ← items.mapM (dataclassRecord tb extract true fields)
  return (stmt, toBatches records)

/-- `upsert_data` (1015-1025). -/
def upsertData {O V : Type} (w : Writer) (tb : Table) (extract : Text → O → Option V) (fields : List Text)
    (items : List O) : Except Err (Dml × List (List (Record V))) := do
  let stmt ← upsertStmt w tb none
  let records ← items.mapM (dataclassRecord tb extract false fields)
  return (stmt, toBatches records)

end PySqlSync
