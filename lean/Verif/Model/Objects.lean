/-
Model of pysqlsync/formation/object_types.py (the objects and the single statements they emit) and of the dialects'
object_types.py.  Statements are produced as values of `Spec/Stmt.lean`; their text is in Model/Render.lean.
-/
import Verif.Spec.Stmt
import Verif.Model.ObjectDict

set_option autoImplicit false

namespace PySqlSync

/-- The families of object and mutator classes.  Redshift uses PostgreSQL's classes
    (redshift/generator.py:32-36). -/
inductive Dialect where
  | ansi | postgresql | mysql | oracle | mssql | delta | snowflake
deriving DecidableEq, Repr

/-- object_types.py:92-121 `EnumType`. -/
structure EnumType where
  name : QId
  values : List Text
deriving DecidableEq, Repr

/-- object_types.py:124-139 `StructMember`. -/
structure StructMember where
  name : Text
  ty : SqlType
  description : Option Text := none
deriving DecidableEq, Repr
instance : Named StructMember := ⟨StructMember.name⟩

/-- object_types.py:142-179 `StructType`. -/
structure StructType where
  name : QId
  members : ODict StructMember
  description : Option Text := none
deriving DecidableEq, Repr

/-- object_types.py:182-237 `Column`. -/
structure Column where
  name : Text
  ty : SqlType
  nullable : Bool
  default : Option Text := none
  identity : Bool := false
  description : Option Text := none
deriving DecidableEq, Repr
instance : Named Column := ⟨Column.name⟩

/-- object_types.py:240-250 `ConstraintReference`. -/
structure Ref where
  table : QId
  columns : List Text
deriving DecidableEq, Repr

/-- object_types.py:253-358 `Constraint` and its subclasses. -/
inductive Constraint where
  | unique (name : Text) (columns : List Text)
  | foreign (name : Text) (columns : List Text) (ref : Ref)
  | discriminated (name : Text) (columns : List Text) (refs : List Ref)
  | check (name : Text) (condition : Text)
deriving DecidableEq, Repr

def Constraint.name : Constraint → Text
  | .unique n _ => n
  | .foreign n _ _ => n
  | .discriminated n _ _ => n
  | .check n _ => n
instance : Named Constraint := ⟨Constraint.name⟩

/-- `is_alter_table` (267-270, 286-287, 317-318, 353-354) together with `spec` (289-292, 320-323, 356-358):
    `none` where `is_alter_table` is False. -/
def Constraint.spec : Constraint → Option ConSpec
  | .unique _ cs => some (.unique cs)
  | .foreign _ cs r => some (.foreign cs r.table r.columns)
  | .discriminated .. => none
  | .check _ c => some (.check c)

/-- object_types.py:361-582 `Table`; `enumValues` is `some` for an `EnumTable` (585-622), its rows being given by
    their text (`constant(value)`, in parentheses unless it is a tuple). -/
structure Table where
  name : QId
  columns : ODict Column
  primaryKey : List Text
  constraints : ODict Constraint := ⟨[]⟩
  description : Option Text := none
  enumValues : Option (List Text) := none
deriving DecidableEq, Repr

instance : Named EnumType := ⟨fun e => e.name.localId⟩
instance : Named StructType := ⟨fun s => s.name.localId⟩
instance : Named Table := ⟨fun s => s.name.localId⟩

/-- object_types.py:625-767 `Namespace`. -/
structure Namespace where
  name : Text := []
  enums : ODict EnumType := ⟨[]⟩
  structs : ODict StructType := ⟨[]⟩
  tables : ODict Table := ⟨[]⟩
deriving DecidableEq, Repr
instance : Named Namespace := ⟨Namespace.name⟩

/-- object_types.py:770-866 `Catalog`. -/
structure Catalog where
  namespaces : ODict Namespace := ⟨[]⟩
deriving DecidableEq, Repr

/-! ### Columns -/

/-- The text up to the first line break (mysql/object_types.py:20-24, 62-66). -/
def firstLine (s : Text) : Text := s.takeWhile (· ≠ '\n')

/-- Matches `^'\d{4}-\d{2}-\d{2} \d{2}:\d{2}:\d{2}'$` (oracle/object_types.py:14-17, snowflake/object_types.py:56-59).
    Simplification: `\d` is taken to be an ASCII digit, and `$` the end of the text. -/
def isTimestampLiteral (s : Text) : Bool :=
  match s with
  | [q1, y1, y2, y3, y4, d1, m1, m2, d2, a1, a2, sp, h1, h2, c1, i1, i2, c2, s1, s2, q2] =>
    q1 = '\'' && y1.isDigit && y2.isDigit && y3.isDigit && y4.isDigit && d1 = '-' && m1.isDigit && m2.isDigit
      && d2 = '-' && a1.isDigit && a2.isDigit && sp = ' ' && h1.isDigit && h2.isDigit && c1 = ':' && i1.isDigit
      && i2.isDigit && c2 = ':' && s1.isDigit && s2.isDigit && q2 = '\''
  | _ => false

def SqlType.isTimestamp : SqlType → Bool
  | .timestamp .. => true
  | _ => false

/-- `default_expr` (oracle/object_types.py:9-22, snowflake/object_types.py:50-64); elsewhere the default itself. -/
def defaultExpr (d : Dialect) (ty : SqlType) (default : Text) : Text :=
  match d with
  | .oracle | .snowflake =>
    if ty.isTimestamp && isTimestampLiteral default then t "TIMESTAMP " ++ default else default
  | _ => default

/-- mssql/object_types.py:17-20 `default_constraint_name`. -/
def defaultConstraintName (column : Text) : Text := t "df_" ++ column

/-- mysql/object_types.py:58-76, delta/object_types.py:58-63, snowflake/object_types.py:73-78 `comment`;
    `none` for the classes without comments. (The text is quoted when rendered.) -/
def Column.comment (d : Dialect) (c : Column) : Except Err (Option Text) :=
  match d, c.description with
  | .mysql, some s =>
    if (firstLine s).length > 1024 then .error .formation else .ok (some (firstLine s))
  | .delta, some s => .ok (some s)
  | .snowflake, some s => .ok (some s)
  | _, _ => .ok none

/-- `data_spec`: object_types.py:209-214; mysql/object_types.py:45-56; oracle/object_types.py:24-29;
    mssql/object_types.py:22-32; delta/object_types.py:47-56; snowflake/object_types.py:65-71. -/
def Column.dataSpec (d : Dialect) (c : Column) : Except Err ColSpec := do
  let comment ← c.comment d
  return {
    ty := c.ty
    notNull := match d with
      | .mysql | .mssql => !c.nullable
      | _ => !c.nullable && !c.identity
    default := match d with
      | .delta => none
      | _ => c.default.map (defaultExpr d c.ty)
    defaultName := match d with
      | .mssql => c.default.map (fun _ => defaultConstraintName c.name)
      | _ => none
    identity := c.identity
    comment := comment }

/-- `create_stmt` (object_types.py:216-219, mssql/object_types.py:34-36). -/
def Column.createStmt (d : Dialect) (c : Column) : Except Err Action := do
  return .addColumn c.name (← c.dataSpec d)

/-- `drop_stmt` (object_types.py:221-224, mssql/object_types.py:38-44). -/
def Column.dropStmt (d : Dialect) (c : Column) : Action :=
  match d, c.default with
  | .mssql, some _ => .dropDefaultAndColumn (defaultConstraintName c.name) c.name
  | _, _ => .dropColumn c.name

/-- `rename_stmt` (object_types.py:236-237; mysql/object_types.py:78-79, which writes out `data_spec`). -/
def Column.renameStmt (d : Dialect) (c : Column) (new : Text) : Except Err Action :=
  match d with
  | .mysql => do return .renameColumn c.name new (← c.dataSpec d)
  | _ => .ok (.renameColumn c.name new ⟨c.ty, false, none, none, false, none⟩)

/-- `soft_drop_stmt` (226-229). -/
def Column.softDropStmt (d : Dialect) (c : Column) : Except Err Action := c.renameStmt d (deletedName c.name)

/-- `hard_drop_stmt` (231-234). -/
def Column.hardDropStmt (c : Column) : Action := .dropColumn (deletedName c.name)

/-! ### Enumerations and composite types -/

/-- 99-101 -/
def EnumType.createStmt (e : EnumType) : List Stmt := [.createEnum e.name e.values]
/-- 103-104 -/
def EnumType.dropStmt (e : EnumType) : List Stmt := [.dropType e.name]
/-- 106-109, 116-117 -/
def EnumType.softDropStmt (e : EnumType) : List Stmt := [.renameType e.name (deletedName e.name.localId)]
/-- 111-114 -/
def EnumType.hardDropStmt (e : EnumType) : List Stmt := [.dropType (e.name.rename (deletedName e.name.localId))]

/-- 171-173; postgresql/object_types.py:61-76 -/
def StructType.createStmt (d : Dialect) (s : StructType) : List Stmt :=
  .createStruct s.name (s.members.items.map (fun m => (m.name, m.ty))) ::
    (match d with
     | .postgresql =>
       (match s.description with
        | some text => [Stmt.commentType s.name (some text)]
        | none => []) ++
       s.members.items.flatMap (fun m =>
        match m.description with
        | some text => [Stmt.commentColumn s.name m.name (some text)]
        | none => [])
     | _ => [])
/-- 175-176 -/
def StructType.dropStmt (s : StructType) : List Stmt := [.dropType s.name]

/-! ### Tables -/

/-- Python `s.replace('.', '_')`. -/
def dotToUnderscore (s : Text) : Text := replaceChar '.' ['_'] s

/-- 401-403; postgresql/object_types.py:52-54, delta/object_types.py:41-43, snowflake/object_types.py:44-46. -/
def Table.keyName (d : Dialect) (tb : Table) : Text :=
  match d with
  | .postgresql | .delta | .snowflake => t "pk_" ++ dotToUnderscore tb.name.localId
  | _ => t "pk_" ++ dotToUnderscore tb.name.compactId

/-- 447-460 `get_value_columns` without argument. -/
def Table.valueColumns (tb : Table) : List Column :=
  tb.columns.items.filter (fun c => !tb.primaryKey.contains c.name && !c.identity)

/-- The comment clause of `CREATE TABLE` (mysql/object_types.py:15-24, 34-39; delta/object_types.py:34-38;
    snowflake/object_types.py:37-41): absent if the text is empty. -/
def Table.createComment (d : Dialect) (tb : Table) : Option Text :=
  match d, tb.description with
  | .mysql, some s => if firstLine s = [] then none else some (firstLine s)
  | .delta, some s => if s = [] then none else some s
  | .snowflake, some s => if s = [] then none else some s
  | _, _ => none

/-- `create_stmt`: 544-549; EnumTable 605-622; PostgreSQL comments (postgresql/object_types.py:36-50);
    mysql/object_types.py:26-40, delta/object_types.py:29-39, snowflake/object_types.py:32-42.
    Delta's and Snowflake's `EnumTable` is the base class (their factories do not override it), hence without comment;
    PostgreSQL's, MySQL's, Oracle's and SQL Server's call the dialect's own `create_stmt` first. -/
def Table.createStmt (d : Dialect) (tb : Table) : Except Err (List Stmt) := do
  let cols ← tb.columns.items.mapM (fun c => do return (c.name, ← c.dataSpec d))
  let comment := match d, tb.enumValues with
    | .delta, some _ => none
    | .snowflake, some _ => none
    | _, _ => tb.createComment d
  let keyName := match d, tb.enumValues with
    | .delta, some _ => tb.keyName .ansi
    | .snowflake, some _ => tb.keyName .ansi
    | _, _ => tb.keyName d
  let create := Stmt.createTable tb.name cols keyName tb.primaryKey comment
  let comments : List Stmt := match d with
    | .postgresql =>
      (match tb.description with
       | some text => [Stmt.commentTable tb.name (some text)]
       | none => []) ++
      tb.columns.items.flatMap (fun c =>
        match c.description with
        | some text => [Stmt.commentColumn tb.name c.name (some text)]
        | none => [])
    | _ => []
  let rows : List Stmt := match tb.enumValues with
    | some vs => [Stmt.insertRows tb.name (tb.valueColumns.map Column.name) vs]
    | none => []
  return create :: (comments ++ rows)

/-- 551-552 -/
def Table.dropStmt (tb : Table) : List Stmt := [.dropTable tb.name]

/-- Whether `alter_table_stmt` writes one statement per action (mssql/object_types.py:48-51,
    oracle/object_types.py:33-36) or a single statement (object_types.py:557-558). -/
def Dialect.splits : Dialect → Bool
  | .mssql | .oracle => true
  | _ => false

/-- `alter_table_stmt`. -/
def Table.alterStmt (d : Dialect) (tb : Table) (actions : List Action) : List Stmt :=
  if d.splits then actions.map (fun a => .alterTable tb.name [a]) else [.alterTable tb.name actions]

/-- 580-582 `table_constraints`, with the text that follows the name. -/
def Table.tableConstraints (tb : Table) : List (Text × ConSpec) :=
  tb.constraints.items.filterMap (fun c => c.spec.map (fun s => (c.name, s)))

/-- 560-566 (through `alter_table_stmt`, hence split on Oracle); mssql/object_types.py:53-61 (one statement). -/
def Table.addConstraintsStmt (d : Dialect) (tb : Table) : List Stmt :=
  if tb.tableConstraints = [] then []
  else
    let actions := tb.tableConstraints.map (fun c => Action.addConstraint c.1 c.2)
    match d with
    | .mssql => [.alterTable tb.name actions]
    | _ => tb.alterStmt d actions

/-- 568-578, mssql/object_types.py:63-72: one statement in every dialect. -/
def Table.dropConstraintsStmt (tb : Table) : List Stmt :=
  if tb.tableConstraints = [] then []
  else [.alterTable tb.name (tb.tableConstraints.map (fun c => Action.dropConstraint c.1))]

/-- 510-522 `get_constraint`. -/
def Table.getConstraint (tb : Table) (column : Text) : Except Err Ref :=
  match tb.constraints.items.findSome? (fun c =>
    match c with
    | .foreign _ cols r => if cols.length > 1 then none else if cols.contains column then some r else none
    | _ => none) with
  | some r => .ok r
  | none => .error .key

/-! ### Namespaces -/

/-- 690-694; postgresql/object_types.py:80-84, delta/object_types.py:67-71, mssql/object_types.py:79-85 -/
def Namespace.createSchemaStmt (d : Dialect) (n : Namespace) : List Stmt :=
  if n.name = [] then []
  else match d with
    | .postgresql | .delta | .mssql => [.createSchema n.name true]
    | _ => [.createSchema n.name false]

/-- 696-700; postgresql/object_types.py:86-90, delta/object_types.py:73-77 -/
def Namespace.dropSchemaStmt (d : Dialect) (n : Namespace) : List Stmt :=
  if n.name = [] then []
  else match d with
    | .postgresql | .delta => [.dropSchema n.name true]
    | _ => [.dropSchema n.name false]

/-- 709-714 -/
def Namespace.createObjectsStmt (d : Dialect) (n : Namespace) : Except Err (List Stmt) := do
  let tables ← n.tables.items.mapM (fun tb => tb.createStmt d)
  return n.enums.items.flatMap EnumType.createStmt ++ n.structs.items.flatMap (StructType.createStmt d)
    ++ tables.flatten

/-- 716-721 -/
def Namespace.dropObjectsStmt (n : Namespace) : List Stmt :=
  n.tables.items.reverse.flatMap Table.dropStmt ++ n.structs.items.reverse.flatMap StructType.dropStmt
    ++ n.enums.items.reverse.flatMap EnumType.dropStmt

/-- 723-726 -/
def Namespace.addConstraintsStmt (d : Dialect) (n : Namespace) : List Stmt :=
  n.tables.items.flatMap (Table.addConstraintsStmt d)

/-- 728-731 -/
def Namespace.dropConstraintsStmt (n : Namespace) : List Stmt :=
  n.tables.items.flatMap Table.dropConstraintsStmt

/-! ### Order of namespaces -/

/-- 162-167 and 524-529 `get_referenced_types`: only columns (members) whose type is itself a user-defined type. -/
def directRef : SqlType → Option QId
  | .user q => some q
  | _ => none

/-- 524-529 -/
def Table.referencedTypes (tb : Table) : List QId := tb.columns.items.filterMap (fun c => directRef c.ty)
/-- 162-167 -/
def StructType.referencedTypes (s : StructType) : List QId := s.members.items.filterMap (fun m => directRef m.ty)

/-- 531-538 `get_referenced_tables`. -/
def Table.referencedTables (tb : Table) : List QId :=
  tb.constraints.items.flatMap (fun c =>
    match c with
    | .foreign _ _ r => [r.table]
    | .discriminated _ _ rs => rs.map Ref.table
    | _ => [])

/-- 681-688 `get_referenced_namespaces`. -/
def Namespace.referencedNamespaces (n : Namespace) : List Text :=
  (n.structs.items.flatMap StructType.referencedTypes
    ++ n.tables.items.flatMap (fun tb => tb.referencedTypes ++ tb.referencedTables)).filterMap QId.scopeId

/-- The graph of 848-852: each namespace with the namespaces of the catalog it refers to. -/
def Catalog.graph (c : Catalog) : List (Text × List Text) :=
  c.namespaces.items.map (fun n => (n.name, n.referencedNamespaces.filter (fun r => c.namespaces.contains r)))

/-- 840-854 `sort`.  `topo` is `strong_typing.topological.topological_sort`, an external function. -/
def Catalog.sort (topo : List (Text × List Text) → Except Err (List Text)) (c : Catalog) : Except Err Catalog := do
  let order ← topo c.graph
  match c.namespaces.reorder order with
  | some ns => return ⟨ns⟩
  | none => .error .key

end PySqlSync
