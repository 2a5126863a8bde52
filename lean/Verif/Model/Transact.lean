/-
Model of how a connection has statements and records executed: which calls of the driver are made, one after another, for a script or for batches of records.
-/
import Verif.Model.Engines

set_option autoImplicit false

namespace PySqlSync

/-- A call of the driver; `U` is what a single statement, or a statement with one record, does. -/
inductive DriverCall (U : Type) where
  /-- one text, of one or several statements -/
  | execute (stmts : List U)
  /-- `executemany`: a statement with several records -/
  | executeMany (rows : List U)
  /-- `COPY` (asyncpg's `copy_records_to_table`, Redshift's `COPY ... FROM STDIN`) -/
  | copy (rows : List U)

def DriverCall.work {U : Type} : DriverCall U → List U
  | .execute l | .executeMany l | .copy l => l

/-- Calls that are made with the same cursor, in a `with` statement. -/
abbrev Block (U : Type) := List (DriverCall U)

/-- Whether the connection is in autocommit mode after `open`: set in mysql/connection.py:77, oracle/connection.py:48, redshift/connection.py:48; asyncpg and
    aiotrino begin no transaction by themselves; pyodbc's default is left as it is (mssql/connection.py:50). -/
def Engine.autocommit : Engine → Bool
  | .mssql => false
  | _ => true

/-- `_execute` (postgresql/connection.py:84-85, mysql/connection.py:93-95, mssql/connection.py:76-79, oracle/connection.py:70-82, redshift/connection.py:68-79,
    trino/connection.py:48-50) of a script.  A text that begins with BEGIN (Oracle) is a single statement. -/
def Engine.scriptBlocks {U : Type} (e : Engine) (stmts : List U) : List (Block U) :=
  match e with
  | .oracle | .redshift => [stmts.map (fun s => .execute [s])]
  | _ => [[.execute stmts]]

/-- `_execute_all`, `_execute_typed` of batches of records (postgresql/connection.py:88-90, mysql/connection.py:98-101, mssql/connection.py:82-122,
    oracle/connection.py:85-123, redshift/connection.py:82-91, trino/connection.py:53-54). -/
def Engine.recordBlocks {U : Type} (e : Engine) (batches : List (List U)) : Except Err (List (Block U)) :=
  match e with
  | .trino => .error .notImplemented
  | _ => .ok (batches.map (fun b => [.executeMany b]))

/-- `_insert_rows` (postgresql/connection.py:124-143, redshift/connection.py:120-161, base.py:1073-1092). -/
def Engine.insertBlocks {U : Type} (e : Engine) (batches : List (List U)) : Except Err (List (Block U)) :=
  match e with
  | .postgresql | .redshift => .ok (batches.map (fun b => [.copy b]))
  | _ => e.recordBlocks batches

end PySqlSync
