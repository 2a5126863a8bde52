/-
Syntax of the SQL statements that pysqlsync emits to change a schema.  This is only a vocabulary: what the statements
do is in Spec/Ddl.lean, how they are written as text is in Model/Render.lean, which ones are emitted is in
Model/Mutation.lean.
-/
import Verif.Model.SqlType

set_option autoImplicit false

namespace PySqlSync

/-- A column definition as written after the column's name:
    `TYPE [NOT NULL] [[CONSTRAINT defaultName] DEFAULT expr] [IDENTITY] [COMMENT text]`. -/
structure ColSpec where
  ty : SqlType
  notNull : Bool
  default : Option Text
  /-- SQL Server: name given to the default's constraint -/
  defaultName : Option Text
  identity : Bool
  comment : Option Text
deriving DecidableEq, Repr

/-- What follows `CONSTRAINT name`. -/
inductive ConSpec where
  | unique (cols : List Text)
  | foreign (cols : List Text) (table : QId) (refCols : List Text)
  | check (cond : Text)
deriving DecidableEq, Repr

/-- The actions of an `ALTER TABLE` statement. -/
inductive Action where
  /-- `ADD COLUMN name spec` -/
  | addColumn (name : Text) (spec : ColSpec)
  /-- `DROP COLUMN name` -/
  | dropColumn (name : Text)
  /-- SQL Server: `DROP CONSTRAINT con, COLUMN name` -/
  | dropDefaultAndColumn (con name : Text)
  /-- `RENAME COLUMN old TO new`; MySQL: `CHANGE old new spec` -/
  | renameColumn (old new : Text) (spec : ColSpec)
  /-- `ALTER COLUMN name SET DATA TYPE ty` -/
  | setDataType (name : Text) (ty : SqlType)
  /-- `ALTER COLUMN name SET NOT NULL` -/
  | setNotNull (name : Text)
  /-- `ALTER COLUMN name DROP NOT NULL` -/
  | dropNotNull (name : Text)
  /-- `ALTER COLUMN name SET DEFAULT expr` -/
  | setDefault (name : Text) (expr : Text)
  /-- `ALTER COLUMN name DROP DEFAULT` -/
  | dropDefault (name : Text)
  /-- `ALTER COLUMN name ADD GENERATED BY DEFAULT AS IDENTITY` -/
  | addIdentity (name : Text)
  /-- `ALTER COLUMN name DROP IDENTITY` -/
  | dropIdentity (name : Text)
  /-- MySQL: `MODIFY COLUMN name spec` -/
  | redefine (name : Text) (spec : ColSpec)
  /-- Oracle: `MODIFY name [TYPE] [DEFAULT expr | DEFAULT NULL] [NOT NULL | NULL] [GENERATED .. | DROP IDENTITY]` -/
  | modify (name : Text) (ty : Option SqlType) (default : Option (Option Text)) (nullable : Option Bool)
      (identity : Option Bool)
  /-- SQL Server: `ALTER COLUMN name ty [NOT NULL]` -/
  | retype (name : Text) (ty : SqlType) (notNull : Bool)
  /-- SQL Server: `ADD CONSTRAINT con DEFAULT expr FOR name` -/
  | addDefault (con : Text) (expr : Text) (name : Text)
  /-- `ADD CONSTRAINT name spec` -/
  | addConstraint (name : Text) (spec : ConSpec)
  /-- `DROP CONSTRAINT name` -/
  | dropConstraint (name : Text)
deriving DecidableEq, Repr

/-- The actions of an `ALTER TYPE` statement on a composite type. -/
inductive AttrAction where
  | drop (name : Text)
  | setDataType (name : Text) (ty : SqlType)
  | add (name : Text) (ty : SqlType)
deriving DecidableEq, Repr

inductive Stmt where
  /-- `CREATE SCHEMA [IF NOT EXISTS] name` -/
  | createSchema (name : Text) (ifNotExists : Bool)
  /-- `DROP SCHEMA name`, or `DROP SCHEMA IF EXISTS name CASCADE` -/
  | dropSchema (name : Text) (cascade : Bool)
  | createEnum (name : QId) (values : List Text)
  | createStruct (name : QId) (attrs : List (Text × SqlType))
  | createTable (name : QId) (cols : List (Text × ColSpec)) (keyName : Text) (pk : List Text) (comment : Option Text)
  | alterTable (name : QId) (actions : List Action)
  | addValue (name : QId) (value : Text)
  | alterStruct (name : QId) (actions : List AttrAction)
  | renameType (name : QId) (new : Text)
  | dropType (name : QId)
  | dropTable (name : QId)
  /-- `COMMENT ON TABLE name IS ...` (`none`: `NULL`); MySQL: `ALTER TABLE name COMMENT = ...` -/
  | commentTable (name : QId) (text : Option Text)
  | commentType (name : QId) (text : Option Text)
  | commentColumn (name : QId) (column : Text) (text : Option Text)
  /-- `INSERT INTO name (cols) VALUES rows` (rows given by their text) -/
  | insertRows (name : QId) (cols : List Text) (rows : List Text)
  /-- `INSERT INTO name ("value") VALUES ('..'), ...`, skipping values already there if `ignore` -/
  | insertLabels (name : QId) (labels : List Text) (ignore : Bool)
  /-- `INSERT INTO name ("value") SELECT DISTINCT column FROM data`, skipping values already there -/
  | insertDistinct (name : QId) (column : Text) (data : QId)
  /-- set column `target` of `data` to the `"id"` of the row of `lookup` whose `"value"` equals column `source` -/
  | updateKeys (data : QId) (target source : Text) (lookup : QId)
deriving DecidableEq, Repr

end PySqlSync
