/-
Model of pysqlsync/formation/mutation.py and of the dialects' mutation.py.
A Python result `None` is the empty list of statements.
-/
import Verif.Model.Objects

set_option autoImplicit false

namespace PySqlSync

/-- mutation.py:28-42 `MutatorOptions`. -/
structure MutatorOptions where
  allowDropEnum : Bool := true
  allowDropStruct : Bool := true
  allowDropTable : Bool := true
  allowDropNamespace : Bool := true
deriving DecidableEq, Repr

/-- `check_identity` (53-55). -/
def checkIdentity (source target : QId) : Except Err Unit :=
  if source = target then .ok () else .error .formation

/-- `migrate_enum_stmt` (57-59); postgresql/mutation.py:36-38 adds `ON CONFLICT ("value") DO NOTHING`. -/
def migrateEnum (d : Dialect) (e : EnumType) (tb : Table) : List Stmt :=
  [.insertLabels tb.name e.values (d = .postgresql)]

/-- `mutate_enum_stmt` (61-78). -/
def mutateEnum (source target : EnumType) : Except Err (List Stmt) := do
  checkIdentity source.name target.name
  let removed := source.values.filter (fun v => !target.values.contains v)
  if removed ≠ [] then throw .formation
  let added := target.values.filter (fun v => !source.values.contains v)
  return added.map (fun v => Stmt.addValue source.name v)

/-- The actions of `mutate_struct_stmt` (85-98). -/
def structActions (source target : StructType) : List AttrAction :=
  (source.members.difference target.members).map (fun m => .drop m.name)
  ++ (source.members.intersection target.members).filterMap (fun p =>
      if p.1 ≠ p.2 then some (.setDataType p.1.name p.2.ty) else none)
  ++ (target.members.difference source.members).map (fun m => .add m.name m.ty)

/-- Comment statements on a description that may change (postgresql/mutation.py:58-65, 68-76, 87-96). -/
def commentChange (source target : Option Text) (mk : Option Text → Stmt) : List Stmt :=
  match target with
  | none => if source.isSome then [mk none] else []
  | some text => if source ≠ some text then [mk (some text)] else []

/-- `mutate_struct_stmt` (80-102); postgresql/mutation.py:80-98. -/
def mutateStruct (d : Dialect) (source target : StructType) : Except Err (List Stmt) := do
  checkIdentity source.name target.name
  let actions := structActions source target
  let alter := if actions = [] then [] else [Stmt.alterStruct source.name actions]
  return alter ++ (match d with
    | .postgresql => commentChange source.description target.description (Stmt.commentType target.name)
    | _ => [])

/-- `is_column_migrated` (109-130), postgresql/mutation.py:21-34; `None` counts as False where it is used
    (line 179). -/
def isColumnMigrated (d : Dialect) (source target : Column) : Bool :=
  if source = target || source.ty = target.ty then false
  else if target.ty.isInteger then
    source.ty.isEnum || source.ty.isVarChar || (d = .postgresql && source.ty.isUser)
  else false

/-- `migrate_column_stmt`: base 104-107 (nothing); mysql/mutation.py:19-39; postgresql/mutation.py:40-49. -/
def migrateColumn (d : Dialect) (sourceTable : Table) (source : Column) (targetTable : Table) (target : Column) :
    Except Err (List Stmt) :=
  match d with
  | .postgresql => do
    let ref ← targetTable.getConstraint target.name
    return [.updateKeys sourceTable.name target.name (deletedName source.name) ref.table]
  | .mysql => do
    let ref ← targetTable.getConstraint target.name
    let inserts := match source.ty with
      | .enum vs => [Stmt.insertLabels ref.table vs true]
      | .varChar .. => [Stmt.insertDistinct ref.table (deletedName source.name) sourceTable.name]
      | _ => []
    return inserts ++ [.updateKeys sourceTable.name target.name (deletedName source.name) ref.table]
  | _ => .ok []

/-- `mutate_column_stmt`: base 132-159; mysql/mutation.py:66-84; oracle/mutation.py:11-39; mssql/mutation.py:17-29. -/
def mutateColumn (d : Dialect) (source target : Column) : Except Err (List Action) :=
  match d with
  | .mysql => do
    if source.ty ≠ target.ty || source.nullable ≠ target.nullable || source.default ≠ target.default
        || source.identity ≠ target.identity then
      return [.redefine source.name (← target.dataSpec d)]
    else if (← source.comment d) ≠ (← target.comment d) then
      return [.redefine source.name (← target.dataSpec d)]
    else return []
  | .oracle =>
    let ty := if source.ty ≠ target.ty then some target.ty else none
    let default := if source.default ≠ target.default then some (target.default.map (defaultExpr d target.ty)) else none
    let nullable := if source.nullable ≠ target.nullable then some target.nullable else none
    let identity := if source.identity ≠ target.identity then some target.identity else none
    if ty.isSome || default.isSome || nullable.isSome || identity.isSome then
      .ok [.modify source.name ty default nullable identity]
    else .ok []
  | .mssql =>
    if source.identity ≠ target.identity then .error (.columnFormation source.name)
    else if source.ty ≠ target.ty || source.nullable ≠ target.nullable then
      .ok [.retype source.name target.ty (!target.nullable)]
    else .ok []
  | _ =>
    if source = target then .ok []
    else .ok (
      (if source.ty ≠ target.ty then [Action.setDataType source.name target.ty] else [])
      ++ (if source.nullable && !target.nullable then [Action.setNotNull source.name]
          else if !source.nullable && target.nullable then [Action.dropNotNull source.name] else [])
      ++ (match source.default, target.default with
          | some _, none => [Action.dropDefault source.name]
          | _, some e => if source.default ≠ target.default then [Action.setDefault source.name e] else []
          | none, none => [])
      ++ (if source.identity && !target.identity then [Action.dropIdentity source.name]
          else if !source.identity && target.identity then [Action.addIdentity source.name] else []))

/-- `except ColumnFormationError as e: raise TableFormationError(...) from e`. -/
def wrapColumn {α : Type} (tb : QId) (x : Except Err α) : Except Err α :=
  match x with
  | .error (.columnFormation _) => .error (.tableFormation tb)
  | other => other

/-- The pairs to be migrated (173-186). -/
def migratedPairs (d : Dialect) (source target : Table) : List (Column × Column) :=
  (source.columns.intersection target.columns).filter (fun p => isColumnMigrated d p.1 p.2)

/-- The last group of actions (203-257): hard drops, column changes, column drops, constraint drops and additions. -/
def alterActions (source target : Table) (d : Dialect) : Except Err (List Action) := do
  let hard := (migratedPairs d source target).map (fun p => p.1.hardDropStmt)
  let changes ← wrapColumn target.name
    ((source.columns.intersection target.columns).mapM (fun p => mutateColumn d p.1 p.2))
  let drops := (source.columns.difference target.columns).map (Column.dropStmt d)
  let dropCons := (source.constraints.difference target.constraints).filterMap (fun c =>
    c.spec.map (fun _ => Action.dropConstraint c.name))
  if (source.constraints.intersection target.constraints).any (fun p => p.1 ≠ p.2) then
    throw (.tableFormation target.name)
  let addCons := (target.constraints.difference source.constraints).filterMap (fun c =>
    c.spec.map (fun s => Action.addConstraint c.name s))
  return hard ++ changes.flatten ++ drops ++ dropCons ++ addCons

/-- `Mutator.mutate_table_stmt` (161-262). -/
def mutateTableBase (d : Dialect) (source target : Table) : Except Err (List Stmt) := do
  checkIdentity source.name target.name
  let migrated := migratedPairs d source target
  let renames ← wrapColumn target.name (migrated.mapM (fun p => p.1.softDropStmt d))
  let addsMigrated ← wrapColumn target.name (migrated.mapM (fun p => p.2.createStmt d))
  let addsNew ← wrapColumn target.name
    ((target.columns.difference source.columns).mapM (fun c => c.createStmt d))
  let adds := addsMigrated ++ addsNew
  let migrates ← wrapColumn target.name
    (migrated.mapM (fun p => migrateColumn d source p.1 target p.2))
  let alters ← alterActions source target d
  return renames.flatMap (fun a => source.alterStmt d [a])
    ++ (if adds = [] then [] else source.alterStmt d adds)
    ++ migrates.flatten
    ++ (if alters = [] then [] else source.alterStmt d alters)

/-- mssql/mutation.py:38-49: the default constraint of a common column. -/
def mssqlDefault (source target : Column) : List Action :=
  if source.default = target.default then []
  else
    (if source.default.isSome then [Action.dropConstraint (defaultConstraintName source.name)] else [])
    ++ (match target.default with
        | some e => [Action.addDefault (defaultConstraintName source.name) e source.name]
        | none => [])

/-- mssql/mutation.py:33-49: the default constraints of common columns. -/
def mssqlDefaults (source target : Table) : List Action :=
  (source.columns.intersection target.columns).flatMap (fun p => mssqlDefault p.1 p.2)

/-- mysql/object_types.py:15-24 `short_description`. -/
def Table.shortDescription (tb : Table) : Option Text := tb.description.map firstLine

/-- `mutate_table_stmt`: base; mssql/mutation.py:31-54; mysql/mutation.py:41-64; postgresql/mutation.py:51-78. -/
def mutateTable (d : Dialect) (source target : Table) : Except Err (List Stmt) := do
  let base ← mutateTableBase d source target
  match d with
  | .mssql =>
    let ds := mssqlDefaults source target
    return (if ds = [] then [] else source.alterStmt d ds) ++ base
  | .mysql =>
    let comments := match source.shortDescription, target.shortDescription with
      | none, some s => [Stmt.commentTable target.name (some s)]
      | none, none => []
      | some _, none => [Stmt.commentTable target.name (some [])]
      | some a, some b => if a ≠ b then [Stmt.commentTable target.name (some b)] else []
    return base ++ comments
  | .postgresql =>
    let columns := target.columns.items.flatMap (fun c =>
      commentChange ((source.columns.get c.name).bind Column.description) c.description
        (Stmt.commentColumn target.name c.name))
    return base ++ columns
      ++ commentChange source.description target.description (Stmt.commentTable target.name)
  | _ => return base

/-- The dropped enumerations whose name a created table takes (288-294): one entry per pair. -/
def softPairs (source target : Namespace) : List (EnumType × Table) :=
  (source.enums.difference target.enums).flatMap (fun e =>
    ((target.tables.difference source.tables).filter (fun tb => e.name = tb.name)).map (fun tb => (e, tb)))

/-- `mutate_namespace_stmt` (264-338). -/
def mutateNamespace (d : Dialect) (opts : MutatorOptions) (source target : Namespace) : Except Err (List Stmt) := do
  if source.name ≠ target.name then throw .formation
  let enumCreate := target.enums.difference source.enums
  let structCreate := target.structs.difference source.structs
  let tableCreate := target.tables.difference source.tables
  let enumDrop := source.enums.difference target.enums
  let structDrop := source.structs.difference target.structs
  let tableDrop := source.tables.difference target.tables
  let soft := softPairs source target
  let creates ← tableCreate.mapM (fun tb => tb.createStmt d)
  let enumMutate ← (source.enums.intersection target.enums).mapM (fun p => mutateEnum p.1 p.2)
  let structMutate ← (source.structs.intersection target.structs).mapM (fun p => mutateStruct d p.1 p.2)
  let tableMutate ← (source.tables.intersection target.tables).mapM (fun p => mutateTable d p.1 p.2)
  return enumCreate.flatMap EnumType.createStmt
    ++ structCreate.flatMap (StructType.createStmt d)
    ++ soft.flatMap (fun p => p.1.softDropStmt)
    ++ creates.flatten
    ++ tableCreate.flatMap (Table.addConstraintsStmt d)
    ++ soft.flatMap (fun p => migrateEnum d p.1 p.2)
    ++ enumMutate.flatten
    ++ structMutate.flatten
    ++ tableMutate.flatten
    ++ (if opts.allowDropTable then tableDrop.flatMap Table.dropStmt else [])
    ++ (if opts.allowDropStruct then structDrop.flatMap StructType.dropStmt else [])
    ++ (if opts.allowDropEnum then enumDrop.flatMap (fun e =>
          if (soft.map Prod.fst).contains e then e.hardDropStmt else e.dropStmt) else [])

/-- `mutate_catalog_stmt` (340-374).  (The source and target are also left sorted; see C14.) -/
def mutateCatalog (topo : List (Text × List Text) → Except Err (List Text)) (d : Dialect) (opts : MutatorOptions)
    (source target : Catalog) : Except Err (List Stmt) := do
  let source ← source.sort topo
  let target ← target.sort topo
  let nsCreate := target.namespaces.difference source.namespaces
  let nsDrop := source.namespaces.difference target.namespaces
  let creates ← nsCreate.mapM (Namespace.createObjectsStmt d)
  let mutates ← (source.namespaces.intersection target.namespaces).mapM (fun p => mutateNamespace d opts p.1 p.2)
  return nsCreate.flatMap (Namespace.createSchemaStmt d)
    ++ creates.flatten
    ++ nsCreate.flatMap (Namespace.addConstraintsStmt d)
    ++ mutates.flatten
    ++ nsDrop.flatMap Namespace.dropConstraintsStmt
    ++ (if opts.allowDropNamespace then
          nsDrop.flatMap Namespace.dropObjectsStmt ++ nsDrop.flatMap (Namespace.dropSchemaStmt d)
        else [])

end PySqlSync
