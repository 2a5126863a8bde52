/-
Model of how databases other than PostgreSQL are explored: pysqlsync/formation/discovery.py (the information schema), pysqlsync/dialect/mysql/discovery.py,
pysqlsync/dialect/mssql/discovery.py and pysqlsync/dialect/oracle/discovery.py.

As in Model/Discovery.lean, the queries are texts that a server answers; modelled is what is made of the answers.  The pattern by which the tables of a
namespace are selected in databases without qualified names is part of the model, since it depends on the namespace.
-/
import Verif.Model.Discovery

set_option autoImplicit false

namespace PySqlSync

/-! ### Tables -/

/-- formation/discovery.py:267-270, 302-309 and 326-334, oracle/discovery.py:182-207: the last steps of `get_table`. -/
def assembleTable (name : QId) (columns : List Column) (primary : List Text) (unique : List (Text × Text)) (foreign : List ForeignRow)
    (description : Option Text) : Except Err Table := do
  let links ← foreignAddAll [] foreign
  return { name := name, columns := .ofList columns, primaryKey := primary
           constraints := .ofList (uniqueFetch (uniqueAddAll unique) ++ foreignFetch links), description := description }

/-- formation/discovery.py:335-340: without information on constraints, `columns[0].name` is the key. -/
def tableByFirst (name : QId) (columns : List Column) : Except Err Table :=
  match columns with
  | c :: _ => .ok { name := name, columns := .ofList columns, primaryKey := [c.name], constraints := .ofList [], description := none }
  | [] => .error .key

/-- formation/discovery.py:42-53 `AnsiConstraintMeta`, as far as it is used. -/
structure AnsiForeignRow where
  name : Text
  source : Text
  targetSchema : Text
  targetTable : Text
  targetColumn : Text
deriving DecidableEq, Repr

/-! ### SQL Server -/

/-- formation/discovery.py:23-32 `AnsiColumnMeta`. -/
structure AnsiColumnRow where
  name : Text
  spec : TypeSpec
  nullable : Bool
  default : Option Text
deriving DecidableEq, Repr

/-- What a server answers about a table: formation/discovery.py:139-147 (`count`), 185-215 (`columns`), 217-236 (`primary`), 238-270 (`unique`: constraint
    and column), 272-309 (`foreign`); mssql/discovery.py:43-50 (`identity`) and 51-59 (`defaults`). -/
structure MsTable where
  count : Nat
  columns : List AnsiColumnRow
  identity : List Text
  defaults : List (Text × Text)
  primary : List Text
  unique : List (Text × Text)
  foreign : List AnsiForeignRow

/-- What a server answers: formation/discovery.py:70-93 (whether constraints are known) and mssql/discovery.py:83-89 (the tables of a schema; `none` is the
    current one). -/
structure MsServer where
  constraints : Bool
  tables : Option Text → List Text
  table : Option Text → Text → MsTable

/-- The loop 205-214 of formation/discovery.py (SQL Server has the columns of `has_column_extended_info`). -/
def ansiReadColumn (e : Engine) (r : AnsiColumnRow) : Except Err Column := do
  return { name := r.name, ty := ← typeFromSpec e.discovered r.spec, nullable := r.nullable, default := r.default }

/-- `dict(rows).get(key)`: the last one counts. -/
def lastRow (rows : List (Text × Text)) (k : Text) : Option Text := (rows.reverse.find? (fun p => p.1 = k)).map Prod.snd

/-- mssql/discovery.py:60-66: identity and default. -/
def msAmend (tb : MsTable) (c : Column) : Column :=
  { c with
    identity := if c.name ∈ tb.identity then true else c.identity
    default := match lastRow tb.defaults c.name with
      | some d => some d
      | none => c.default }

/-- `QualifiedId(con.uq_table_schema, con.uq_table_name)` (formation/discovery.py:307). -/
def AnsiForeignRow.qualified (r : AnsiForeignRow) : ForeignRow := ⟨r.name, r.source, .qualified (some r.targetSchema) r.targetTable, r.targetColumn⟩

/-- formation/discovery.py:316-340 `get_table` with mssql/discovery.py:41-68 `get_columns`. -/
def msReadTable (s : MsServer) (ns : Option Text) (id : Text) : Except Err Table := do
  let tb := s.table ns id
  if tb.count = 0 then throw .key
  let columns := (← tb.columns.mapM (ansiReadColumn .mssql)).map (msAmend tb)
  if s.constraints then assembleTable (.qualified ns id) columns tb.primary tb.unique (tb.foreign.map AnsiForeignRow.qualified) none
  else tableByFirst (.qualified ns id) columns

/-- mssql/discovery.py:76-109 `_get_namespace`. -/
def msReadNamespace (s : MsServer) (ns : Option Text) : Except Err Namespace := do
  let tables ← (s.tables ns).mapM (msReadTable s ns)
  return if (s.tables ns).isEmpty then {} else { name := ns.getD [], tables := .ofList tables }

/-! ### Names with prefixes -/

/-- `"__" in name` and `name.split("__", 1)`: the parts before and after the first two underscores. -/
def splitDouble : Text → Option (Text × Text)
  | [] => none
  | [_] => none
  | c :: d :: rest => if c = '_' ∧ d = '_' then some ([], rest) else (splitDouble (d :: rest)).map (fun p => (c :: p.1, p.2))

/-- mysql/discovery.py:63-68, oracle/discovery.py:80-85 `split_composite_id`. -/
def splitComposite (name : Text) : QId :=
  match splitDouble name with
  | some (ns, id) => .prefixed (some ns) id
  | none => .prefixed none name

/-- `str.removeprefix` -/
def removePrefix (p s : Text) : Text := if p.isPrefixOf s then s.drop p.length else s

/-! ### MySQL -/

/-- mysql/discovery.py:26-30 `MySQLColumnMeta`. -/
structure MyColumnRow where
  name : Text
  spec : TypeSpec
  nullable : Bool
  default : Option Text
  extra : Text
  comment : Text
deriving DecidableEq, Repr

/-- What a server answers about a table: formation/discovery.py:139-147, mysql/discovery.py:71-88, formation/discovery.py:217-270, mysql/discovery.py:112-131
    and 143-155. -/
structure MyTable where
  count : Nat
  columns : List MyColumnRow
  primary : List Text
  unique : List (Text × Text)
  foreign : List AnsiForeignRow
  comment : List Text

/-- What a server answers: `like` to the query with a pattern (formation/discovery.py:395-406), which is given as it is written in the query; `others`
    if no namespace is given. -/
structure MyServer where
  constraints : Bool
  like : Text → List Text
  others : List Text
  table : Text → MyTable

/-- `needle in s` -/
def hasInfix (needle : Text) : Text → Bool
  | [] => needle.isEmpty
  | c :: s => needle.isPrefixOf (c :: s) || hasInfix needle s

/-- `s or None` -/
def nonEmpty (s : Text) : Option Text := if s.isEmpty then none else some s

/-- The loop 90-107 of `get_columns`. -/
def myReadColumn (r : MyColumnRow) : Except Err Column := do
  return { name := r.name, ty := ← typeFromSpec Engine.mysql.discovered r.spec, nullable := r.nullable, default := r.default
           identity := hasInfix (t "auto_increment") r.extra, description := nonEmpty r.comment }

/-- mysql/discovery.py:135-140. -/
def AnsiForeignRow.split (r : AnsiForeignRow) : ForeignRow := ⟨r.name, r.source, splitComposite r.targetTable, r.targetColumn⟩

/-- formation/discovery.py:316-340 `get_table` with the methods of mysql/discovery.py. -/
def myReadTable (s : MyServer) (name : QId) : Except Err Table := do
  let tb := s.table name.localId
  if tb.count = 0 then throw .key
  let columns ← tb.columns.mapM myReadColumn
  if s.constraints then
    let comment ← firstRow tb.comment
    assembleTable name columns tb.primary tb.unique (tb.foreign.map AnsiForeignRow.split) (nonEmpty comment)
  else tableByFirst name columns

/-- `PrefixedId(namespace, ...)` for the name of a table that was found (formation/discovery.py:414-420). -/
def prefixedName (ns : Option Text) (name : Text) : QId :=
  .prefixed ns (match ns with
    | some n => removePrefix (n ++ t "__") name
    | none => name)

/-- formation/discovery.py:382-427 `get_namespace_flat`. -/
def myReadNamespace (s : MyServer) (ns : Option Text) : Except Err Namespace := do
  let names := match ns with
    | some n => s.like (dropSchemaPattern n)
    | none => s.others
  let tables ← names.mapM (fun name => myReadTable s (prefixedName ns name))
  return { tables := .ofList tables }

/-! ### Oracle -/

/-- oracle/discovery.py:31-42 `OracleColumnMeta`. -/
structure OraColumnRow where
  name : Text
  dataType : Text
  owner : Option Text
  dataLength : Nat
  precision : Option Nat
  scale : Option Nat
  nullable : Bool
  default : Option Text
  charLength : Nat
  identity : Bool
  comments : Option Text
deriving DecidableEq, Repr

/-- oracle/discovery.py:45-51 `OracleConstraintMeta`; `kind` is `P`, `U`, `R`, or `C` for conditions. -/
structure OraConstraintRow where
  name : Text
  kind : Char
  source : Text
  targetTable : Text
  targetColumn : Text
deriving DecidableEq, Repr

/-- What a server answers about a table: oracle/discovery.py:102-108, 110-128 and 165-180. -/
structure OraTable where
  comments : List (Option Text)
  columns : List OraColumnRow
  constraints : List OraConstraintRow

/-- What a server answers (222-235): `like` to the query with a pattern, `others` if no namespace is given.  Names with `$` are left out by the query. -/
structure OraServer where
  like : Text → List Text
  others : List Text
  table : Text → OraTable

/-- 132-150: `^([^()]+)`, and the length.  (Simplification: the pattern begins at the start of the text, and `[^()]` takes line breaks, too.) -/
def OraColumnRow.spec (r : OraColumnRow) : TypeSpec where
  name := if r.dataType.takeWhile (fun c => c ≠ '(' ∧ c ≠ ')') = [] then r.dataType else r.dataType.takeWhile (fun c => c ≠ '(' ∧ c ≠ ')')
  schema := r.owner
  definition := some r.dataType
  length := if r.dataType = t "BLOB" ∨ r.dataType = t "CLOB" then none else some (Int.ofNat (if r.charLength = 0 then r.dataLength else r.charLength))
  precision := r.precision
  scale := r.scale

/-- The loop 131-162. -/
def oraReadColumn (r : OraColumnRow) : Except Err Column := do
  return { name := r.name, ty := ← typeFromSpec Engine.oracle.discovered r.spec, nullable := r.nullable, identity := r.identity
           default := if r.identity then none else r.default, description := r.comments }

/-- 192-198. -/
def OraConstraintRow.foreign (r : OraConstraintRow) : ForeignRow := ⟨r.name, r.source, splitComposite r.targetTable, r.targetColumn⟩

/-- 99-210 `get_table`.  (Nothing is raised if there is no such table.) -/
def oraReadTable (s : OraServer) (name : QId) : Except Err Table := do
  let tb := s.table name.localId
  let columns ← tb.columns.mapM oraReadColumn
  assembleTable name columns ((tb.constraints.filter (fun r => r.kind = 'P')).map OraConstraintRow.source)
    ((tb.constraints.filter (fun r => r.kind = 'U')).map (fun r => (r.name, r.source)))
    ((tb.constraints.filter (fun r => r.kind = 'R')).map OraConstraintRow.foreign) (tb.comments.head?.getD none)

/-- 221-247 `_get_namespace`. -/
def oraReadNamespace (s : OraServer) (ns : Option Text) : Except Err Namespace := do
  let names := match ns with
    | some n => s.like (dropSchemaPattern n)
    | none => s.others
  let tables ← names.mapM (fun name => oraReadTable s (splitComposite name))
  return { tables := .ofList tables }

end PySqlSync
