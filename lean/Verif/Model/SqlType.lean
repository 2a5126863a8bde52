/-
Model of pysqlsync/model/data_types.py (the data type classes) and of the dialect-specific subclasses.
-/
import Verif.Model.Literal

set_option autoImplicit false

namespace PySqlSync

/-- Exceptions, as values. -/
inductive Err where
  /-- `FormationError` (object_types.py:45-46) -/
  | formation
  /-- `ColumnFormationError` (object_types.py:49-59) -/
  | columnFormation (column : Text)
  /-- `TableFormationError` (object_types.py:62-76) -/
  | tableFormation (table : QId)
  /-- `MappingError` (object_types.py:41-42) -/
  | mapping
  /-- `KeyError` -/
  | key
  /-- `ValueError` -/
  | value
  /-- `TypeError` -/
  | type
  /-- `CompatibilityError` (data_types.py:345-346) -/
  | compatibility
  /-- `NotImplementedError` -/
  | notImplemented
  /-- `RuntimeError` raised by strong_typing.topological on a cycle -/
  | cycle
deriving DecidableEq, Repr

/-- Which class a data type object is an instance of.  Python's dataclass `==` requires the very same class;
    `isinstance` accepts the subclasses.
    (postgresql/data_types.py, redshift/data_types.py, mysql/data_types.py, mssql/data_types.py,
    oracle/data_types.py, delta/data_types.py, snowflake/data_types.py) -/
inductive Cls where
  | base | postgresql | redshift | mysql | mssql | oracle | delta | snowflake
deriving DecidableEq, Repr

mutual
/-- data_types.py:76-342: one constructor per class; classes that have subclasses carry a `Cls`.
    `MSSQLVariableCharacterType.encoding` (mssql/data_types.py:34-41) is not a dataclass field and does not take part
    in `==`; it is not represented here. -/
inductive SqlType where
  /-- 76-81 -/
  | array (elem : SqlType)
  /-- 84-87 -/
  | uuid
  /-- 90-93, mssql/data_types.py:24-26 -/
  | boolean (cls : Cls)
  /-- 96-124, oracle/data_types.py:19-24 -/
  | integer (cls : Cls) (width : Nat) (signed : Bool) (minimum maximum : Option Int)
  /-- 127-149 -/
  | float (precision : Option Nat)
  /-- 152-155, delta/data_types.py:13-16 -/
  | real (cls : Cls)
  /-- 158-161, delta/data_types.py:19-22 -/
  | double (cls : Cls)
  /-- 164-189 -/
  | decimal (precision scale : Option Nat)
  /-- 192-198, delta/data_types.py:25-28 -/
  | fixedBinary (cls : Cls) (storage : Option Nat)
  /-- 201-215, mysql/data_types.py:32-44, oracle/data_types.py:53-58, redshift/data_types.py:4-10,
      delta/data_types.py:31-34 -/
  | varBinary (cls : Cls) (storage : Option Nat)
  /-- 218-224 -/
  | fixedChar (limit : Option Nat)
  /-- 227-241, mysql/data_types.py:17-29, mssql/data_types.py:34-52, oracle/data_types.py:45-50,
      delta/data_types.py:37-40 -/
  | varChar (cls : Cls) (limit : Option Nat)
  /-- 244-264, mysql/data_types.py:8-14, mssql/data_types.py:55-60, oracle/data_types.py:27-37,
      snowflake/data_types.py:4-11, delta/data_types.py:43-51 -/
  | timestamp (cls : Cls) (precision : Option Nat) (withTimeZone : Bool)
  /-- 267-270 -/
  | date
  /-- 273-293, oracle/data_types.py:40-42 -/
  | time (cls : Cls) (precision : Option Nat) (withTimeZone : Bool)
  /-- 296-299 -/
  | interval
  /-- 302-305, postgresql/data_types.py:4-6, snowflake/data_types.py:14-18 -/
  | json (cls : Cls)
  /-- 308-314 -/
  | enum (values : List Text)
  /-- 328-334 -/
  | struct (fields : StructFields)
  /-- 337-342 -/
  | user (ref : QId)
/-- 317-325 `list[SqlStructMember]`. -/
inductive StructFields where
  | nil
  | cons (name : Text) (ty : SqlType) (nullable : Bool) (rest : StructFields)
end

deriving instance DecidableEq for SqlType, StructFields
deriving instance Repr for SqlType, StructFields
instance : Inhabited SqlType := ⟨.date⟩

/-- `isinstance(ty, SqlIntegerType)` -/
def SqlType.isInteger : SqlType → Bool
  | .integer .. => true
  | _ => false
/-- `isinstance(ty, SqlEnumType)` -/
def SqlType.isEnum : SqlType → Bool
  | .enum _ => true
  | _ => false
/-- `isinstance(ty, SqlVariableCharacterType)` -/
def SqlType.isVarChar : SqlType → Bool
  | .varChar .. => true
  | _ => false
/-- `isinstance(ty, SqlUserDefinedType)` -/
def SqlType.isUser : SqlType → Bool
  | .user _ => true
  | _ => false

/-- Python `str(n)` of a non-negative integer. -/
def natStr (n : Nat) : Text := Nat.toDigits 10 n

/-- `f"({n})" if n is not None else ""` -/
def paren : Option Nat → Text
  | some n => t "(" ++ natStr n ++ t ")"
  | none => []

/-- `" with time zone" if ... else ""` -/
def tzSuffix (b : Bool) : Text := if b then t " with time zone" else []

mutual
/-- `SqlDataType.__str__`, all classes (lines as above). -/
def SqlType.str : SqlType → Except Err Text
  | .array e => do return (← e.str) ++ t " ARRAY"
  | .uuid => .ok (t "uuid")
  | .boolean .mssql => .ok (t "bit")
  | .boolean _ => .ok (t "boolean")
  | .integer .oracle _ _ _ _ => .ok (t "number")
  | .integer _ w _ _ _ =>
    if w = 1 then .ok (t "tinyint")
    else if w = 2 then .ok (t "smallint")
    else if w = 4 then .ok (t "integer")
    else if w = 8 then .ok (t "bigint")
    else .error .type
  | .float p => .ok (t "float(" ++ natStr (p.getD 53) ++ t ")")
  | .real .delta => .ok (t "float")
  | .real _ => .ok (t "real")
  | .double .delta => .ok (t "double")
  | .double _ => .ok (t "double precision")
  | .decimal (some p) (some s) => .ok (t "decimal(" ++ natStr p ++ t ", " ++ natStr s ++ t ")")
  | .decimal (some p) none => .ok (t "decimal(" ++ natStr p ++ t ")")
  | .decimal none _ => .ok (t "decimal")
  | .fixedBinary .delta _ => .ok (t "binary")
  | .fixedBinary _ s => .ok (t "binary" ++ paren s)
  | .varBinary .mysql none => .ok (t "mediumblob")
  | .varBinary .mysql (some n) =>
    if n < 65536 then .ok (t "varbinary(" ++ natStr n ++ t ")")
    else if n < 16777216 then .ok (t "mediumblob")
    else if n < 4294967296 then .ok (t "longblob")
    else .error .value
  | .varBinary .oracle s =>
    match s with
    | some n => if n ≤ 2000 then .ok (t "raw(" ++ natStr n ++ t ")") else .ok (t "blob")
    | none => .ok (t "blob")
  | .varBinary .redshift s => .ok (t "varbyte" ++ paren s)
  | .varBinary .delta _ => .ok (t "binary")
  | .varBinary _ (some n) => .ok (t "varbinary(" ++ natStr n ++ t ")")
  | .varBinary _ none => .ok (t "blob")
  | .fixedChar l => .ok (t "char" ++ paren l)
  | .varChar .mysql none => .ok (t "mediumtext")
  | .varChar .mysql (some n) =>
    if n < 65536 then .ok (t "varchar(" ++ natStr n ++ t ")")
    else if n < 16777216 then .ok (t "mediumtext")
    else if n < 4294967296 then .ok (t "longtext")
    else .error .value
  | .varChar .mssql l =>
    match l with
    | some n => if 0 < n ∧ n ≠ 2147483647 then .ok (t "varchar(" ++ natStr n ++ t ")") else .ok (t "varchar(max)")
    | none => .ok (t "varchar(max)")
  | .varChar .oracle l =>
    match l with
    | some n => if n ≤ 4000 then .ok (t "varchar2(" ++ natStr n ++ t ")") else .ok (t "clob")
    | none => .ok (t "clob")
  | .varChar .delta _ => .ok (t "string")
  | .varChar _ (some n) => .ok (t "varchar(" ++ natStr n ++ t ")")
  | .varChar _ none => .ok (t "text")
  | .timestamp .mysql p _ => .ok (t "datetime" ++ paren p)
  | .timestamp .mssql _ _ => .ok (t "datetime2")
  | .timestamp .oracle p z => .ok (t "timestamp" ++ (if p = some 6 then [] else paren p) ++ tzSuffix z)
  | .timestamp .snowflake _ _ => .ok (t "datetime")
  | .timestamp .delta _ _ => .ok (t "timestamp_ntz")
  | .timestamp _ p z => .ok (t "timestamp" ++ paren p ++ tzSuffix z)
  | .date => .ok (t "date")
  | .time .oracle _ _ => .ok (t "interval day to second")
  | .time _ p z => .ok (t "time" ++ paren p ++ tzSuffix z)
  | .interval => .ok (t "interval")
  | .json .postgresql => .ok (t "jsonb")
  | .json .snowflake => .ok (t "variant")
  | .json _ => .ok (t "json")
  | .enum vs => .ok (t "ENUM (" ++ joinWith (t ", ") (vs.map quote) ++ t ")")
  | .struct fs => do
    let parts ← fs.strs
    return t "STRUCT <" ++ joinWith (t ", ") parts ++ t ">"
  | .user q => .ok q.quoted
/-- 323-325 `SqlStructMember.__str__`, for each field. -/
def StructFields.strs : StructFields → Except Err (List Text)
  | .nil => .ok []
  | .cons n ty nullable rest => do
    let s ← ty.str
    let ss ← rest.strs
    return ((LocalId.mk n).quoted ++ t " " ++ s ++ (if nullable then [] else t " NOT NULL")) :: ss
end

/-- Schema and unqualified name of an object: how `Catalog.get_table` (object_types.py:802) addresses it. -/
abbrev Key := Text × Text

def QId.key (q : QId) : Key := (q.scopeId.getD [], q.localId)

mutual
/-- The user-defined types a data type mentions, at any depth.  (A global name is the name of a type of the database or of an extension.) -/
def SqlType.refs : SqlType → List Key
  | .user q => if q.isGlobal then [] else [q.key]
  | .array e => e.refs
  | .struct fs => fs.refs
  | _ => []
def StructFields.refs : StructFields → List Key
  | .nil => []
  | .cons _ ty _ rest => ty.refs ++ rest.refs
end

mutual
/-- The same data type with each mentioned user-defined type renamed. -/
def SqlType.mapRef (f : QId → QId) : SqlType → SqlType
  | .user q => .user (f q)
  | .array e => .array (e.mapRef f)
  | .struct fs => .struct (fs.mapRef f)
  | other => other
def StructFields.mapRef (f : QId → QId) : StructFields → StructFields
  | .nil => .nil
  | .cons n ty b rest => .cons n (ty.mapRef f) b (rest.mapRef f)
end

end PySqlSync
