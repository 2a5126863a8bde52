/-
Model of `create_schema` and `drop_schema` of a connection (pysqlsync/base.py:944-956, mysql/connection.py:119-133, mssql/connection.py:135-167,
oracle/connection.py:145-161).

The text of queries and statements is replaced by what they ask for and do, except for the literals by which schemas and tables are selected.
-/
import Verif.Model.Engines
import Verif.Model.Literal

set_option autoImplicit false

namespace PySqlSync

/-- The queries of `drop_schema`; the text is that of the literal in the condition. A row is a pair of texts. -/
inductive DropQuery where
  /-- `information_schema.table_constraints`: tables and names of foreign keys in a schema (mssql/connection.py:139-144) -/
  | foreignKeys (schema : Text)
  /-- `information_schema.tables`: names in a schema (mssql/connection.py:154-159) -/
  | tablesOf (schema : Text)
  /-- `information_schema.tables`: names in the current database that are like a pattern (mysql/connection.py:122-127) -/
  | tablesLike (pattern : Text)
  /-- `dba_tables`: names that are like a pattern (oracle/connection.py:147-153) -/
  | allTablesLike (pattern : Text)
deriving DecidableEq, Repr

/-- The statements of `drop_schema`. -/
inductive DropCmd where
  /-- `ALTER TABLE ... DROP CONSTRAINT ...` -/
  | dropConstraint (table : Key) (name : Text)
  /-- `DROP TABLE IF EXISTS ..., ...` -/
  | dropTables (tables : List Key)
  /-- `DROP TABLE ... CASCADE CONSTRAINTS PURGE` -/
  | dropTableCascade (table : Key)
  /-- `CREATE SCHEMA ...` -/
  | createSchema (name : Text) (ifNotExists : Bool)
  /-- `DROP SCHEMA ...` -/
  | dropSchema (name : Text) (ifExists cascade : Bool)
deriving DecidableEq, Repr

/-- A conversation with the server. -/
inductive Talk where
  | done
  | ask (query : DropQuery) (next : List (Text × Text) → Talk)
  | run (cmd : DropCmd) (next : Talk)

/-- Several statements, and then the rest. -/
def Talk.runAll (cmds : List DropCmd) (next : Talk) : Talk := cmds.foldr Talk.run next

/-- `create_schema` (base.py:944-949) with `create_schema_stmt` (object_types.py:690-694, postgresql/object_types.py:79-83,
    delta/object_types.py:67-71, mssql/object_types.py:80-85). -/
def Engine.createSchema (e : Engine) (ns : Text) : Talk :=
  if ns = [] then .done
  else match e.dialect with
    | .postgresql | .delta | .mssql => .run (.createSchema ns true) .done
    | _ => .run (.createSchema ns false) .done

/-- `drop_schema`: base.py:951-956 with `drop_schema_stmt` (object_types.py:696-700, postgresql/object_types.py:85-89, delta/object_types.py:73-77),
    mysql/connection.py:119-133, mssql/connection.py:135-167, oracle/connection.py:145-161. -/
def Engine.dropSchema (e : Engine) (ns : Text) : Talk :=
  match e with
  | .postgresql | .redshift | .delta => if ns = [] then .done else .run (.dropSchema ns true true) .done
  | .snowflake | .trino => if ns = [] then .done else .run (.dropSchema ns false false) .done
  | .mysql =>
    .ask (.tablesLike (dropSchemaPattern ns)) fun tables =>
      if tables = [] then .done
      else .run (.dropTables (tables.map (fun r => ([], r.1)))) .done
  | .mssql =>
    .ask (.foreignKeys (quote ns)) fun constraints =>
      Talk.runAll (constraints.map (fun r => .dropConstraint (ns, r.1) r.2)) <|
      .ask (.tablesOf (quote ns)) fun tables =>
        Talk.runAll (if tables = [] then [] else [.dropTables (tables.map (fun r => (ns, r.1)))]) <|
        .run (.dropSchema ns true false) .done
  | .oracle =>
    .ask (.allTablesLike (dropSchemaPattern ns)) fun tables =>
      Talk.runAll (tables.map (fun r => .dropTableCascade ([], r.1))) .done

end PySqlSync
