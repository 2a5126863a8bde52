/-
Model of the declarations of parameters that SQL Server's and Oracle's drivers are given before records are sent (`setinputsizes`).
-/
import Verif.Model.Dml
import Verif.Model.Engines

set_option autoImplicit false

namespace PySqlSync

/-- The type codes of pyodbc that `sql_to_odbc_type` returns (mssql/data_types.py:63-109). -/
inductive OdbcType where
  | bit | tinyint | smallint | integer | bigint | real | double | float | decimal | timestamp | date | time | char | varchar | binary | varbinary
  | unknown
deriving DecidableEq, Repr

/-- The declaration of a parameter: type code, column size and decimal digits (the tuple returned, mssql/data_types.py:63). -/
structure OdbcParam where
  type : OdbcType
  size : Nat
  digits : Nat
deriving DecidableEq, Repr

/-- Python's `x or default` for an optional integer: 0 counts as absent. -/
def orElse (x : Option Nat) (default : Nat) : Nat :=
  match x with
  | some 0 => default
  | some n => n
  | none => default

/-- `sql_to_odbc_type` (mssql/data_types.py:63-109).  No class is a subclass of another of those tested, except that `MSSQLBooleanType` is one of
    `SqlBooleanType`, which is not tested. -/
def odbcParam : SqlType → OdbcParam
  | .boolean .mssql => ⟨.bit, 0, 0⟩
  | .integer _ w _ _ _ =>
    if w = 1 then ⟨.tinyint, 0, 0⟩
    else if w = 2 then ⟨.smallint, 0, 0⟩
    else if w = 4 then ⟨.integer, 0, 0⟩
    else ⟨.bigint, 0, 0⟩
  | .real _ => ⟨.real, 0, 0⟩
  | .double _ => ⟨.double, 0, 0⟩
  | .float p => ⟨.float, orElse p 53, 0⟩
  | .decimal p s => ⟨.decimal, orElse p 15, orElse s 0⟩
  | .timestamp _ p _ => ⟨.timestamp, orElse p 6, 0⟩
  | .date => ⟨.date, 0, 0⟩
  | .time _ p _ => ⟨.time, orElse p 6, 0⟩
  | .fixedChar l => ⟨.char, orElse l 0, 0⟩
  | .varChar _ l => ⟨.varchar, orElse l 0, 0⟩
  | .fixedBinary _ s => ⟨.binary, orElse s 0, 0⟩
  | .varBinary _ s => ⟨.varbinary, orElse s 0, 0⟩
  | _ => ⟨.unknown, 0, 0⟩

/-- The type codes of oracledb that `sql_to_oracle_type` passes to `cur.var` (oracle/data_types.py:61-104). -/
inductive OracleDbType where
  | boolean | binaryFloat | binaryDouble | number | binaryInteger | raw | blob | char | varchar | clob | date | intervalDS | timestamp | unknown
deriving DecidableEq, Repr

/-- The variable that `cur.var` creates: the type code and the size, if one is given. -/
structure OracleVar where
  type : OracleDbType
  size : Option Nat := none
deriving DecidableEq, Repr

/-- `sql_to_oracle_type` (oracle/data_types.py:61-104). -/
def oracleVar : SqlType → OracleVar
  | .boolean _ => { type := .boolean }
  | .real _ => { type := .binaryFloat }
  | .double _ => { type := .binaryDouble }
  | .integer _ w _ _ _ => if w > 4 then { type := .number } else { type := .binaryInteger, size := some w }
  | .varBinary _ (some n) => { type := .raw, size := some n }
  | .varBinary _ none => { type := .blob }
  | .fixedChar (some n) => { type := .char, size := some n }
  | .fixedChar none => { type := .char, size := some 4000 }
  | .varChar _ (some n) => { type := .varchar, size := some n }
  | .varChar _ none => { type := .clob }
  | .date => { type := .date }
  | .time .. => { type := .intervalDS }
  | .decimal .. => { type := .number }
  | .timestamp .. => { type := .timestamp }
  | _ => { type := .unknown }

/-- The argument of `setinputsizes` (mssql/connection.py:114-119, oracle/connection.py:117-122), for any function that declares a type. -/
def declaredParams {P : Type} (declare : SqlType → P) (tb : Table) (order : Option (List Text)) : Except Err (List P) := do
  return (← tb.getColumns order).map (fun c => declare c.ty)

/-- `_insert_rows` (base.py:1073-1092) with `_execute_typed` (mssql/connection.py:87-95, 105-120, oracle/connection.py:89-97, 107-123): the
    statement, the declarations (the same for each batch) and the batches. -/
def typedInsert {V P : Type} (declare : SqlType → P) (tb : Table) (make : Nat → FieldType → Text → Except Err (Transformer V))
    (types : List FieldType) (names : Option (List Text)) (records : List (Record V)) : Except Err (Dml × List P × List (List (Record V))) := do
  let (stmt, out) ← insertRows .base tb make types names records
  return (stmt, ← declaredParams declare tb (fieldOrder names), out)

/-- `_upsert_rows` (base.py:1131-1151), likewise. -/
def typedUpsert {V P : Type} (declare : SqlType → P) (tb : Table) (make : Nat → FieldType → Text → Except Err (Transformer V))
    (types : List FieldType) (names : Option (List Text)) (records : List (Record V)) : Except Err (Dml × List P × List (List (Record V))) := do
  let (stmt, out) ← upsertRows .base tb make types names records
  return (stmt, ← declaredParams declare tb (fieldOrder names), out)

/-- `_delete_rows` (base.py:1284-1304), likewise; the order is the name of the primary key column (1303). -/
def typedDelete {V P : Type} (declare : SqlType → P) (tb : Table) (transformer : Option (V → V)) (keys : List V) :
    Except Err (Dml × List P × List (List (Record V))) := do
  let (stmt, out) ← deleteRows tb transformer keys
  let key ← tb.primaryColumn
  return (stmt, ← declaredParams declare tb (some [key.name]), out)

end PySqlSync
