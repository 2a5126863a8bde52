/-
What the catalogs of database servers report about a column whose data type is spelled in a certain way, according to the manuals (trusted):
PostgreSQL: `pg_type.typname`, `pg_namespace.nspname` and `format_type`; MySQL and Microsoft SQL Server: `information_schema.columns`;
Oracle: `dba_tab_columns`.  And which data types are expected to be recognized.
-/
import Verif.Model.TypeDiscovery

set_option autoImplicit false

namespace PySqlSync.Spec

/-- A number in parentheses. -/
def inParens (n : Nat) : Text := t "(" ++ natStr n ++ t ")"
/-- A number in parentheses if there is one. -/
def optParens : Option Nat → Text
  | some n => inParens n
  | none => []

/-- What is reported about a column of an array type (in PostgreSQL, the element type), or of another type. -/
structure Report where
  spec : TypeSpec
  isArray : Bool := false
deriving DecidableEq, Repr

/-- How the columns of the engines are read: PostgreSQL (discovery.py:279-286), MySQL, SQL Server and Oracle. -/
def readColumn (e : Engine) (r : Report) : Except Err SqlType := do
  let ty ← typeFromSpec e.discovered r.spec
  pure (if r.isArray then .array ty else ty)

/-- The spelling of a type in DDL and what is reported about a column of that type. -/
abbrev ServerRow := Text × Report

namespace Pg

/-- A type of the system catalog. -/
def builtin (text name format : Text) : Option ServerRow := some (text, ⟨⟨name, some (t "pg_catalog"), some format, none, none, none, none⟩, false⟩)

/-- How `format_type` writes an identifier. -/
def plain (c : Char) : Bool := c.isLower || c == '_'
def identifier (s : Text) : Text := if s ≠ [] ∧ s.all (fun c => plain c || c.isDigit) ∧ (s.head?.all plain) then s else t "\"" ++ s ++ t "\""

/-- With or without time zone. -/
def zone (z : Bool) : Text := if z then t " with time zone" else t " without time zone"

def scalar : SqlType → Option ServerRow
  | .boolean .base => builtin (t "boolean") (t "bool") (t "boolean")
  | .integer .base 2 _ _ _ => builtin (t "smallint") (t "int2") (t "smallint")
  | .integer .base 4 _ _ _ => builtin (t "integer") (t "int4") (t "integer")
  | .integer .base 8 _ _ _ => builtin (t "bigint") (t "int8") (t "bigint")
  | .real .base => builtin (t "real") (t "float4") (t "real")
  | .double .base => builtin (t "double precision") (t "float8") (t "double precision")
  | .float (some p) =>
    if 1 ≤ p ∧ p ≤ 24 then builtin (t "float" ++ inParens p) (t "float4") (t "real")
    else if 25 ≤ p ∧ p ≤ 53 then builtin (t "float" ++ inParens p) (t "float8") (t "double precision")
    else none
  | .float none => builtin (t "float(53)") (t "float8") (t "double precision")
  | .decimal (some p) (some s) =>
    builtin (t "decimal(" ++ natStr p ++ t ", " ++ natStr s ++ t ")") (t "numeric") (t "numeric(" ++ natStr p ++ t "," ++ natStr s ++ t ")")
  | .decimal (some p) none => builtin (t "decimal" ++ inParens p) (t "numeric") (t "numeric(" ++ natStr p ++ t ",0)")
  | .decimal none _ => builtin (t "decimal") (t "numeric") (t "numeric")
  | .fixedChar (some n) => builtin (t "char" ++ inParens n) (t "bpchar") (t "character" ++ inParens n)
  | .fixedChar none => builtin (t "char") (t "bpchar") (t "character(1)")
  | .varChar .base (some n) => builtin (t "varchar" ++ inParens n) (t "varchar") (t "character varying" ++ inParens n)
  | .varChar .base none => builtin (t "text") (t "text") (t "text")
  | .timestamp .base p z => builtin (t "timestamp" ++ optParens p ++ (if z then t " with time zone" else []))
      (if z then t "timestamptz" else t "timestamp") (t "timestamp" ++ optParens p ++ zone z)
  | .date => builtin (t "date") (t "date") (t "date")
  | .time .base p z => builtin (t "time" ++ optParens p ++ (if z then t " with time zone" else []))
      (if z then t "timetz" else t "time") (t "time" ++ optParens p ++ zone z)
  | .interval => builtin (t "interval") (t "interval") (t "interval")
  | .json .postgresql => builtin (t "jsonb") (t "jsonb") (t "jsonb")
  | .json .base => builtin (t "json") (t "json") (t "json")
  | .uuid => builtin (t "uuid") (t "uuid") (t "uuid")
  | .user (.global id) => if id = t "inet" then builtin (t "inet") (t "inet") (t "inet") else none
  | .user (.qualified (some ns) id) =>
    if ns = t "pg_catalog" then none
    else some ((QId.qualified (some ns) id).quoted, ⟨⟨id, some ns, some (identifier ns ++ t "." ++ identifier id), none, none, none, none⟩, false⟩)
  | _ => none

/-- The columns of PostgreSQL. -/
def row : SqlType → Option ServerRow
  | .array elem => (scalar elem).map (fun (text, r) =>
      (text ++ t " ARRAY", { spec := { r.spec with definition := r.spec.definition.map (· ++ t "[]") }, isArray := true }))
  | ty => scalar ty

/-- The names that denote standard types. -/
def standardNames : List Text :=
  [t "bool", t "boolean", t "tinyint", t "tinyint(1)", t "int1", t "smallint", t "int2", t "integer", t "int", t "int4", t "bigint", t "int8",
   t "decimal", t "number", t "numeric", t "real", t "float4", t "double", t "double precision", t "float8", t "float", t "timestamp",
   t "timestamp without time zone", t "timestamp with time zone", t "datetime", t "date", t "time", t "time without time zone",
   t "time with time zone", t "char", t "character", t "varchar", t "character varying", t "text", t "binary", t "varbinary",
   t "binary varying", t "bytea", t "json", t "jsonb", t "uuid"]

/-- The types that are recognized as what they are. -/
def keptScalar : SqlType → Prop
  | .integer _ _ signed lo hi => signed = true ∧ lo = none ∧ hi = none
  | .float _ => False
  | .decimal (some _) (some _) => True
  | .decimal none s => s = none
  | .decimal (some _) none => False
  | .fixedChar l => l ≠ none
  | .timestamp _ p z => p ≠ none ∨ z = false
  | .time _ p z => p = none ∧ z = false
  | .interval => False
  | .user (.qualified (some ns) id) => lowerText id ∉ standardNames ∧ ¬ (ns = t "SYS" ∧ id = t "inet")
  | _ => True

/-- The types whose arrays are recognized: parameters are lost. -/
def keptElement : SqlType → Prop
  | .decimal p _ => p = none
  | .fixedChar _ => False
  | .varChar _ l => l = none
  | .timestamp _ p z => p = none ∧ z = false
  | _ => True

def Kept : SqlType → Prop
  | .array elem => keptScalar elem ∧ keptElement elem
  | ty => keptScalar ty

end Pg

namespace My

def row : SqlType → Option ServerRow
  | .integer .base 1 _ _ _ => some (t "tinyint", { spec := { name := t "tinyint", definition := t "tinyint", precision := some 3, scale := some 0 } })
  | .integer .base 2 _ _ _ => some (t "smallint", { spec := { name := t "smallint", definition := t "smallint", precision := some 5, scale := some 0 } })
  | .integer .base 4 _ _ _ => some (t "integer", { spec := { name := t "int", definition := t "int", precision := some 10, scale := some 0 } })
  | .integer .base 8 _ _ _ => some (t "bigint", { spec := { name := t "bigint", definition := t "bigint", precision := some 19, scale := some 0 } })
  | .real .base => some (t "real", { spec := { name := t "double", definition := t "double", precision := some 22 } })
  | .double .base => some (t "double precision", { spec := { name := t "double", definition := t "double", precision := some 22 } })
  | .float (some p) =>
    if p ≤ 24 then some (t "float" ++ inParens p, { spec := { name := t "float", definition := t "float", precision := some 12 } })
    else if p ≤ 53 then some (t "float" ++ inParens p, { spec := { name := t "double", definition := t "double", precision := some 22 } })
    else none
  | .float none => some (t "float(53)", { spec := { name := t "double", definition := t "double", precision := some 22 } })
  | .decimal (some p) (some s) => some (t "decimal(" ++ natStr p ++ t ", " ++ natStr s ++ t ")",
      { spec := { name := t "decimal", definition := t "decimal(" ++ natStr p ++ t "," ++ natStr s ++ t ")", precision := some p, scale := some s } })
  | .decimal (some p) none => some (t "decimal" ++ inParens p,
      { spec := { name := t "decimal", definition := t "decimal(" ++ natStr p ++ t ",0)", precision := some p, scale := some 0 } })
  | .decimal none _ => some (t "decimal", { spec := { name := t "decimal", definition := t "decimal(10,0)", precision := some 10, scale := some 0 } })
  | .fixedBinary .base (some n) => some (t "binary" ++ inParens n,
      { spec := { name := t "binary", definition := t "binary" ++ inParens n, length := some (Int.ofNat n) } })
  | .fixedBinary .base none => some (t "binary", { spec := { name := t "binary", definition := t "binary(1)", length := some 1 } })
  | .varBinary .mysql (some n) =>
    if n < 65536 then some (t "varbinary" ++ inParens n,
      { spec := { name := t "varbinary", definition := t "varbinary" ++ inParens n, length := some (Int.ofNat n) } })
    else if n < 16777216 then some (t "mediumblob", { spec := { name := t "mediumblob", definition := t "mediumblob", length := some 16777215 } })
    else if n < 4294967296 then some (t "longblob", { spec := { name := t "longblob", definition := t "longblob", length := some 4294967295 } })
    else none
  | .varBinary .mysql none => some (t "mediumblob", { spec := { name := t "mediumblob", definition := t "mediumblob", length := some 16777215 } })
  | .fixedChar (some n) => some (t "char" ++ inParens n,
      { spec := { name := t "char", definition := t "char" ++ inParens n, length := some (Int.ofNat n) } })
  | .fixedChar none => some (t "char", { spec := { name := t "char", definition := t "char(1)", length := some 1 } })
  | .varChar .mysql (some n) =>
    if n < 65536 then some (t "varchar" ++ inParens n,
      { spec := { name := t "varchar", definition := t "varchar" ++ inParens n, length := some (Int.ofNat n) } })
    else if n < 16777216 then some (t "mediumtext", { spec := { name := t "mediumtext", definition := t "mediumtext", length := some 16777215 } })
    else if n < 4294967296 then some (t "longtext", { spec := { name := t "longtext", definition := t "longtext", length := some 4294967295 } })
    else none
  | .varChar .mysql none => some (t "mediumtext", { spec := { name := t "mediumtext", definition := t "mediumtext", length := some 16777215 } })
  | .timestamp .mysql p _ => some (t "datetime" ++ optParens p,
      { spec := { name := t "datetime", definition := t "datetime" ++ optParens p, fraction := some (p.getD 0) } })
  | .date => some (t "date", { spec := { name := t "date", definition := t "date" } })
  | .time .base p false => some (t "time" ++ optParens p, { spec := { name := t "time", definition := t "time" ++ optParens p, fraction := some (p.getD 0) } })
  | .json .base => some (t "json", { spec := { name := t "json", definition := t "json" } })
  | .enum vs =>
    if vs = [] ∨ ∃ v ∈ vs, '\\' ∈ v then none
    else some (t "ENUM (" ++ joinWith (t ", ") (vs.map quote) ++ t ")",
      { spec := { name := t "enum", definition := t "enum(" ++ joinWith (t ",") (vs.map quote) ++ t ")" } })
  | _ => none

def Kept : SqlType → Prop
  | .integer _ _ signed lo hi => signed = true ∧ lo = none ∧ hi = none
  | .real _ => False
  | .float p => p = some 12
  | .decimal p s => p ≠ none ∧ s ≠ none
  | .fixedBinary _ n => n ≠ none
  | .varBinary _ n => ∃ k, n = some k ∧ (0 < k ∧ k < 65536 ∨ k = 16777215 ∨ k = 4294967295)
  | .fixedChar n => n ≠ none
  | .varChar _ n => ∃ k, n = some k ∧ (0 < k ∧ k < 65536 ∨ k = 16777215 ∨ k = 4294967295)
  | .timestamp _ p z => p ≠ some 0 ∧ z = false
  | .time _ p _ => p ≠ some 0
  | .enum vs => ∀ v ∈ vs, '\'' ∉ v ∧ '\n' ∉ v
  | _ => True

end My

namespace Ms

def row : SqlType → Option ServerRow
  | .boolean .mssql => some (t "bit", { spec := { name := t "bit" } })
  | .integer .base 1 _ _ _ => some (t "tinyint", { spec := { name := t "tinyint", precision := some 3, scale := some 0 } })
  | .integer .base 2 _ _ _ => some (t "smallint", { spec := { name := t "smallint", precision := some 5, scale := some 0 } })
  | .integer .base 4 _ _ _ => some (t "integer", { spec := { name := t "int", precision := some 10, scale := some 0 } })
  | .integer .base 8 _ _ _ => some (t "bigint", { spec := { name := t "bigint", precision := some 19, scale := some 0 } })
  | .real .base => some (t "real", { spec := { name := t "real", precision := some 24 } })
  | .double .base => some (t "double precision", { spec := { name := t "float", precision := some 53 } })
  | .float (some p) =>
    if 1 ≤ p ∧ p ≤ 24 then some (t "float" ++ inParens p, { spec := { name := t "real", precision := some 24 } })
    else if 25 ≤ p ∧ p ≤ 53 then some (t "float" ++ inParens p, { spec := { name := t "float", precision := some 53 } })
    else none
  | .float none => some (t "float(53)", { spec := { name := t "float", precision := some 53 } })
  | .decimal (some p) (some s) => some (t "decimal(" ++ natStr p ++ t ", " ++ natStr s ++ t ")",
      { spec := { name := t "decimal", precision := some p, scale := some s } })
  | .decimal (some p) none => some (t "decimal" ++ inParens p, { spec := { name := t "decimal", precision := some p, scale := some 0 } })
  | .decimal none _ => some (t "decimal", { spec := { name := t "decimal", precision := some 18, scale := some 0 } })
  | .fixedBinary .base (some n) => some (t "binary" ++ inParens n, { spec := { name := t "binary", length := some (Int.ofNat n) } })
  | .fixedBinary .base none => some (t "binary", { spec := { name := t "binary", length := some 1 } })
  | .varBinary .base (some n) =>
    if 0 < n then some (t "varbinary" ++ inParens n, { spec := { name := t "varbinary", length := some (Int.ofNat n) } }) else none
  | .fixedChar (some n) => some (t "char" ++ inParens n, { spec := { name := t "char", length := some (Int.ofNat n) } })
  | .fixedChar none => some (t "char", { spec := { name := t "char", length := some 1 } })
  | .varChar .mssql (some n) =>
    if n = 0 ∨ n = 2147483647 then some (t "varchar(max)", { spec := { name := t "varchar", length := some (-1) } })
    else some (t "varchar" ++ inParens n, { spec := { name := t "varchar", length := some (Int.ofNat n) } })
  | .varChar .mssql none => some (t "varchar(max)", { spec := { name := t "varchar", length := some (-1) } })
  | .timestamp .mssql _ _ => some (t "datetime2", { spec := { name := t "datetime2", fraction := some 7 } })
  | .date => some (t "date", { spec := { name := t "date", fraction := some 0 } })
  | .time .base p false => some (t "time" ++ optParens p, { spec := { name := t "time", fraction := some (p.getD 7) } })
  | _ => none

def Kept : SqlType → Prop
  | .integer _ _ signed lo hi => signed = true ∧ lo = none ∧ hi = none
  | .double _ => False
  | .float p => p = some 53
  | .decimal p s => p ≠ none ∧ s ≠ none
  | .fixedBinary _ n => n ≠ none
  | .fixedChar n => n ≠ none
  | .varChar _ n => n ≠ some 0 ∧ n ≠ some 2147483647
  | .timestamp _ p z => p = some 7 ∧ z = false
  | .time _ p _ => ∃ k, p = some k ∧ 0 < k
  | _ => True

end Ms

namespace Ora

def row : SqlType → Option ServerRow
  | .integer .oracle _ _ _ _ => some (t "number", { spec := { name := t "NUMBER", definition := t "NUMBER", length := some 22 } })
  | .integer .base 2 _ _ _ => some (t "smallint", { spec := { name := t "NUMBER", definition := t "NUMBER", length := some 22, scale := some 0 } })
  | .integer .base 4 _ _ _ => some (t "integer", { spec := { name := t "NUMBER", definition := t "NUMBER", length := some 22, scale := some 0 } })
  | .real .base => some (t "real", { spec := { name := t "FLOAT", definition := t "FLOAT", length := some 22, precision := some 63 } })
  | .double .base => some (t "double precision", { spec := { name := t "FLOAT", definition := t "FLOAT", length := some 22, precision := some 126 } })
  | .float (some p) => some (t "float" ++ inParens p, { spec := { name := t "FLOAT", definition := t "FLOAT", length := some 22, precision := some p } })
  | .float none => some (t "float(53)", { spec := { name := t "FLOAT", definition := t "FLOAT", length := some 22, precision := some 53 } })
  | .decimal (some p) (some s) => some (t "decimal(" ++ natStr p ++ t ", " ++ natStr s ++ t ")",
      { spec := { name := t "NUMBER", definition := t "NUMBER", length := some 22, precision := some p, scale := some s } })
  | .decimal (some p) none => some (t "decimal" ++ inParens p,
      { spec := { name := t "NUMBER", definition := t "NUMBER", length := some 22, precision := some p, scale := some 0 } })
  | .decimal none _ => some (t "decimal", { spec := { name := t "NUMBER", definition := t "NUMBER", length := some 22, scale := some 0 } })
  | .varBinary .oracle (some n) =>
    if n = 0 then none
    else if n ≤ 2000 then some (t "raw" ++ inParens n, { spec := { name := t "RAW", definition := t "RAW", length := some (Int.ofNat n) } })
    else some (t "blob", { spec := { name := t "BLOB", definition := t "BLOB" } })
  | .varBinary .oracle none => some (t "blob", { spec := { name := t "BLOB", definition := t "BLOB" } })
  | .fixedChar (some n) =>
    if n = 0 then none else some (t "char" ++ inParens n, { spec := { name := t "CHAR", definition := t "CHAR", length := some (Int.ofNat n) } })
  | .fixedChar none => some (t "char", { spec := { name := t "CHAR", definition := t "CHAR", length := some 1 } })
  | .varChar .oracle (some n) =>
    if n = 0 then none
    else if n ≤ 4000 then some (t "varchar2" ++ inParens n, { spec := { name := t "VARCHAR2", definition := t "VARCHAR2", length := some (Int.ofNat n) } })
    else some (t "clob", { spec := { name := t "CLOB", definition := t "CLOB" } })
  | .varChar .oracle none => some (t "clob", { spec := { name := t "CLOB", definition := t "CLOB" } })
  | .timestamp .oracle p z => some (t "timestamp" ++ (if p = some 6 then [] else optParens p) ++ (if z then t " with time zone" else []),
      { spec := { name := t "TIMESTAMP", length := some 11, scale := some (p.getD 6)
                  definition := t "TIMESTAMP" ++ inParens (p.getD 6) ++ (if z then t " WITH TIME ZONE" else []) } })
  | .date => some (t "date", { spec := { name := t "DATE", definition := t "DATE", length := some 7 } })
  | .time .oracle _ _ => some (t "interval day to second",
      { spec := { name := t "INTERVAL DAY", definition := t "INTERVAL DAY(2) TO SECOND(6)", length := some 11, precision := some 2, scale := some 6 } })
  | _ => none

def Kept : SqlType → Prop
  | .integer cls w signed lo hi => cls = .oracle ∧ w = 8 ∧ signed = true ∧ lo = none ∧ hi = none
  | .real _ => False
  | .double _ => False
  | .float p => p ≠ none
  | .decimal _ _ => False
  | .varBinary _ n => ∀ k, n = some k → k ≤ 2000
  | .fixedChar n => n ≠ none
  | .varChar _ n => ∀ k, n = some k → k ≤ 4000
  | .timestamp _ p z => p = none ∧ z = false
  | .time _ p z => p = none ∧ z = false
  | _ => True

end Ora

/-- The engines whose catalogs are described here. -/
def declared : Engine → SqlType → Option ServerRow
  | .postgresql => Pg.row
  | .mysql => My.row
  | .mssql => Ms.row
  | .oracle => Ora.row
  | _ => fun _ => none

/-- The types that are recognized as what they are. -/
def Kept : Engine → SqlType → Prop
  | .postgresql => Pg.Kept
  | .mysql => My.Kept
  | .mssql => Ms.Kept
  | .oracle => Ora.Kept
  | _ => fun _ => False

end PySqlSync.Spec
