/-
Model of the literal-producing functions:
pysqlsync/model/data_types.py (quote, constant, escape_like) and the dialect-specific `sql_quoted_string`.
-/
import Verif.Basic
import Verif.Model.Ident

namespace PySqlSync

/-- data_types.py:20-23 `quote`. -/
def quote (s : Text) : Text := t "'" ++ replaceChar '\'' (t "''") s ++ t "'"

/-- A Python constant that may appear as a column default or enumeration value (data_types.py:26-54).
    Numbers (`int`, `float`, `Decimal`) are represented by the text Python's `str` gives for them;
    `datetime` by the text of its ISO representation after conversion to naive UTC, which is then quoted.
    Data-class instances are rendered exactly like tuples of their field values. -/
inductive PyConst where
  | str (s : Text)
  | bool (b : Bool)
  | num (repr : Text)
  | datetime (iso : Text)
  | tuple (vs : List PyConst)

/-- data_types.py:26-54 `constant`. -/
def constant : PyConst → Text
  | .str s => quote s
  | .bool b => if b then t "TRUE" else t "FALSE"
  | .num r => r
  | .datetime iso => quote iso
  | .tuple vs => t "(" ++ joinWith (t ", ") (vs.map constant) ++ t ")"

/-- data_types.py:57-65 `escape_like`. -/
def escapeLike (value : Text) (e : Char) : Text :=
  replaceChar '%' [e, '%'] (replaceChar '_' [e, '_'] (replaceChar e [e, e] (replaceChar '\'' (t "''") value)))

/-- mysql/connection.py:119-130 and oracle/connection.py:145-159 `drop_schema`: the quoted LIKE pattern
    `'{escape_like(namespace.id, '~')}~_~_%'`. -/
def dropSchemaPattern (ns : Text) : Text :=
  t "'" ++ escapeLike ns '~' ++ t "~_~_%" ++ t "'"

/-- `str.translate` with a table mapping characters to replacement texts. -/
def translate (table : Char → Option Text) (s : Text) : Text :=
  s.flatMap (fun c => (table c).getD [c])

/-- postgresql/object_types.py:13-23 `_sql_quoted_str_table`. -/
def pgTable (c : Char) : Option Text :=
  if c = '\\' then some (t "\\\\")
  else if c = '\'' then some (t "\\'")
  else if c = '\x08' then some (t "\\b")
  else if c = '\x0c' then some (t "\\f")
  else if c = '\n' then some (t "\\n")
  else if c = '\r' then some (t "\\r")
  else if c = '\t' then some (t "\\t")
  else none

/-- The character class `[\b\f\n\r\t]` of postgresql/object_types.py:27 (inside a class `\b` is backspace). -/
def isPgCtl (c : Char) : Bool :=
  c = '\x08' || c = '\x0c' || c = '\n' || c = '\r' || c = '\t'

/-- postgresql/object_types.py:26-32 `sql_quoted_string`. -/
def pgQuotedString (s : Text) : Text :=
  if s.any isPgCtl then t "E'" ++ translate pgTable s ++ t "'"
  else t "'" ++ replaceChar '\'' (t "''") s ++ t "'"

/-- delta/object_types.py:7-19 `_sql_quoted_str_table`. -/
def deltaTable (c : Char) : Option Text :=
  if c = '\\' then some (t "\\\\")
  else if c = '\'' then some (t "\\'")
  else if c = '"' then some (t "\\\"")
  else if c = '\x00' then some (t "\\0")
  else if c = '\x08' then some (t "\\b")
  else if c = '\n' then some (t "\\n")
  else if c = '\r' then some (t "\\r")
  else if c = '\t' then some (t "\\t")
  else if c = '\x1a' then some (t "\\Z")
  else none

/-- delta/object_types.py:22-25 `sql_quoted_string`: the searched character class is the table's domain. -/
def deltaQuotedString (s : Text) : Text :=
  t "'" ++ (if s.any (fun c => (deltaTable c).isSome) then translate deltaTable s else s) ++ t "'"

/-- snowflake/object_types.py:8-20 `_sql_quoted_str_table`. -/
def snowflakeTable (c : Char) : Option Text :=
  if c = '\\' then some (t "\\\\")
  else if c = '\'' then some (t "\\'")
  else if c = '"' then some (t "\\\"")
  else if c = '\x00' then some (t "\\0")
  else if c = '\x08' then some (t "\\b")
  else if c = '\x0c' then some (t "\\f")
  else if c = '\n' then some (t "\\n")
  else if c = '\r' then some (t "\\r")
  else if c = '\t' then some (t "\\t")
  else none

/-- The character class `[\\\0\b\f\n\r\t]` of snowflake/object_types.py:24. -/
def isSnowflakeCtl (c : Char) : Bool :=
  c = '\\' || c = '\x00' || c = '\x08' || c = '\x0c' || c = '\n' || c = '\r' || c = '\t'

/-- snowflake/object_types.py:23-28 `sql_quoted_string`. -/
def snowflakeQuotedString (s : Text) : Text :=
  t "'" ++
    (if s.any isSnowflakeCtl then translate snowflakeTable s
     else if s.any (· = '\'') then replaceChar '\'' (t "''") s
     else s)
  ++ t "'"

/-- mysql/connection.py:23-24 `quoted_id` (back-quoted MySQL identifier). -/
def mysqlQuotedId (s : Text) : Text := t "`" ++ replaceChar '`' (t "``") s ++ t "`"

/-- mssql/object_types.py:79-85 `MSSQLNamespace.create_schema_stmt`, the non-empty name branch:
    the identifier is embedded in the string literal of `EXEC('CREATE SCHEMA ...')`. -/
def mssqlCreateSchema (name : Text) : Text :=
  t "IF NOT EXISTS ( SELECT * FROM sys.schemas WHERE name = N" ++ quote name ++
  t " ) EXEC('CREATE SCHEMA " ++ (LocalId.mk name).quoted ++ t "');"

/-- The argument of `EXEC(...)` in the text above, from its opening quote on. -/
def mssqlExecArg (name : Text) : Text :=
  t "'CREATE SCHEMA " ++ (LocalId.mk name).quoted ++ t "');"

end PySqlSync
