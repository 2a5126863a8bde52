/-
Model of `DataclassConverter` (pysqlsync/formation/py_to_sql.py:344-361, 664-1204): from data-classes to a catalog.

Simplifications.  Documentation strings (descriptions) are left out.  The set of referenced types (`get_referenced_types`, external) is an
argument, as lists of classes and of enumerations in any order; abstract base classes have been removed.  The external topological sort
of struct types is an argument, too.  Sets of enumerations are taken in the order of their first occurrence before they are sorted.
All tables of a kind are made before those of the next kind, as in the code; if several of them are refused, the errors are the same but
for their texts.
-/
import Verif.Model.PyTypes
import Verif.Model.Objects

set_option autoImplicit false

namespace PySqlSync

/-- `list.sort(key=...)` and `sorted(..., key=...)`: a stable sort by a text. -/
def insertBy {α : Type} (f : α → Text) (a : α) : List α → List α
  | [] => [a]
  | b :: rest => if f a ≤ f b then a :: b :: rest else b :: insertBy f a rest
def sortBy {α : Type} (f : α → Text) : List α → List α
  | [] => []
  | a :: rest => insertBy f a (sortBy f rest)

/-- Python `str(n)`. -/
def intText (n : Int) : Text := if n < 0 then '-' :: natStr n.natAbs else natStr n.natAbs

namespace ConvOptions
variable (o : ConvOptions)

/-- `create_qualified_prefix` (344-349). -/
def namePrefix (name : PyName) : Except Err Text :=
  if o.uniqueNames then do pure (dotToUnderscore (← o.qualifiedId name).compactId) else pure name.2

end ConvOptions

/-- `create_foreign_key_name` (351-352). -/
def fkName (pre field : Text) : Text := t "fk_" ++ pre ++ t "_" ++ field
/-- `create_discriminated_key_name` (354-355). -/
def dkName (pre field : Text) : Text := t "dk_" ++ pre ++ t "_" ++ field
/-- `create_unique_key_name` (357-358). -/
def uqName (pre field : Text) : Text := t "uq_" ++ pre ++ t "_" ++ field
/-- `create_check_name` (360-361). -/
def chName (pre field : Text) : Text := t "ch_" ++ pre ++ t "_" ++ field

namespace ConvOptions
variable (o : ConvOptions) (defs : PyDefs) (depth : Nat)

/-- `member_to_column` (664-733); `auto_default` is off. -/
def memberColumn (f : FieldDecl) : Except Err Column := do
  let ty ← o.memberType defs depth f.ty
  pure { name := f.name, ty := ty, nullable := f.nullable, default := f.default, identity := f.identity }

/-- The columns of a table (743-750). -/
def tableColumns (c : ClassDecl) : Except Err (List Column) :=
  (c.fields.filter (fun f => (o.relationship defs f.ty).isNone)).mapM (o.memberColumn defs depth)

/-- A reference to the primary key of an entity (in 857-862, 880-885). -/
def keyRef (name : PyName) : Except Err Ref :=
  match (defs.cls name).bind ClassDecl.key with
  | some k => do pure ⟨← o.qualifiedId name, [k.name]⟩
  | none => .error .type

/-- The class that a type denotes. -/
def classOf : PyType → Except Err PyName
  | .cls name => .ok name
  | _ => .error .type

/-- The unique constraints of `dataclass_to_constraints` (839-847). -/
def uniqueConstraints (pre : Text) (c : ClassDecl) : List Constraint :=
  (c.fields.filter FieldDecl.unique).map (fun f => .unique (uqName pre f.name) [f.name])

/-- The foreign or discriminated key of a field (850-889). -/
def foreignConstraint (pre : Text) (f : FieldDecl) : Except Err (List Constraint) :=
  match f.ty with
  | .cls name =>
    if defs.isEntity (.cls name) then do pure [.foreign (fkName pre f.name) [f.name] (← o.keyRef defs name)]
    else pure []
  | .union ms =>
    if ms.toList.all defs.isEntity then do
      let refs ← ms.toList.mapM (fun m => do o.keyRef defs (← classOf m))
      pure [.discriminated (dkName pre f.name) [f.name] refs]
    else pure []
  | _ => pure []

/-- The foreign and discriminated keys (849-889). -/
def foreignKeys (pre : Text) (c : ClassDecl) : Except Err (List (List Constraint)) :=
  if o.foreignConstraints then c.fields.mapM (o.foreignConstraint defs pre) else pure []

/-- `dataclass_to_constraints` (832-891). -/
def dataclassConstraints (pre : Text) (c : ClassDecl) : Except Err (List Constraint) := do
  let fks ← o.foreignKeys defs pre c
  pure (uniqueConstraints pre c ++ fks.flatten)

/-- 752-755 -/
def keyConstraints (pre : Text) (c : ClassDecl) : Except Err (List Constraint) :=
  if o.foreignConstraints then o.dataclassConstraints defs pre c else pure []

/-- The foreign key of a field with an extensible enumeration (757-773). -/
def extensibleConstraint (pre : Text) (f : FieldDecl) : Except Err (List Constraint) :=
  if f.ty.isExtensible then do
    let e ← f.ty.extensibleEnum
    pure [.foreign (fkName pre f.name) [f.name] ⟨← o.qualifiedId e, [t "id"]⟩]
  else pure []

/-- The foreign key of a field with an enumeration (775-789). -/
def enumConstraint (pre : Text) (f : FieldDecl) : Except Err (List Constraint) :=
  match f.ty with
  | .enum e => do pure [.foreign (fkName pre f.name) [f.name] ⟨← o.qualifiedId e, [t "id"]⟩]
  | _ => pure []

/-- The check of a field with an enumeration (791-799). -/
def enumCheck (pre : Text) (f : FieldDecl) : Except Err (List Constraint) :=
  match f.ty with
  | .enum name =>
    match defs.enum name with
    | some e => pure [.check (chName pre f.name) ((LocalId.mk f.name).quoted ++ t " IN (" ++ joinWith (t ", ") e.constants ++ t ")")]
    | none => .error .key
  | _ => pure []

/-- 776-789 -/
def enumConstraints (pre : Text) (c : ClassDecl) : Except Err (List (List Constraint)) :=
  if o.enumMode = .relation then c.fields.mapM (o.enumConstraint pre) else pure []

/-- 791-799 -/
def enumChecks (pre : Text) (c : ClassDecl) : Except Err (List (List Constraint)) :=
  if o.checkConstraints = true ∧ o.enumMode = .check then c.fields.mapM (enumCheck defs pre) else pure []

/-- `create_check_constraint` (819-830). -/
def rangeConditions (c : Column) : List Text :=
  match c.ty with
  | .integer _ _ _ lo hi =>
    (match lo with | some n => [(LocalId.mk c.name).quoted ++ t " >= " ++ intText n] | none => []) ++
    (match hi with | some n => [(LocalId.mk c.name).quoted ++ t " <= " ++ intText n] | none => [])
  | _ => []

/-- The check of the range of a column (801-809). -/
def rangeCheck (pre : Text) (c : Column) : List Constraint :=
  match rangeConditions c with
  | [] => []
  | conds => [.check (chName pre c.name) (joinWith (t " AND ") (conds.map (fun s => t "(" ++ s ++ t ")")))]

/-- `dataclass_to_table` (735-817). -/
def dataclassTable (c : ClassDecl) : Except Err Table := do
  let columns ← o.tableColumns defs depth c
  let pre ← o.namePrefix c.name
  let keys ← o.keyConstraints defs pre c
  let ext ← c.fields.mapM (o.extensibleConstraint pre)
  let rel ← o.enumConstraints pre c
  let chk ← o.enumChecks defs pre c
  let name ← o.qualifiedId c.name
  match c.key with
  | none => .error .type
  | some k => pure {
      name := name
      columns := ODict.ofList columns
      primaryKey := [k.name]
      constraints := ODict.ofList (keys ++ ext.flatten ++ rel.flatten ++ chk.flatten ++ columns.flatMap (rangeCheck pre)) }

/-- `dataclass_to_struct` (893-928). -/
def dataclassStruct (c : ClassDecl) : Except Err StructType := do
  let members ← c.fields.mapM (fun f => do
    let ty ← o.memberType defs depth f.ty
    pure { name := f.name, ty := ty : StructMember })
  let name ← o.qualifiedId c.name
  pure { name := name, members := ODict.ofList members }

/-- The rows of an `EnumTable` (object_types.py:605-622): tuples and data-classes are in parentheses already. -/
def enumRows (e : EnumDecl) : List Text :=
  match e.kind with
  | .struct _ => e.constants
  | _ => e.constants.map (fun s => t "(" ++ s ++ t ")")

/-- `_enum_table` (930-993). -/
def enumTable (e : EnumDecl) : Except Err Table := do
  let name ← o.qualifiedId e.name
  let idColumn : Column := { name := t "id", ty := o.enumKeyType, nullable := false, identity := true }
  let values := if o.initializeTables then some (enumRows e) else none
  match e.kind with
  | .int | .str => do
    let label ← o.labelType
    pure {
      name := name
      columns := ODict.ofList [idColumn, { name := t "value", ty := label, nullable := false }]
      primaryKey := [t "id"]
      constraints := ODict.ofList [.unique (t "uq_" ++ e.name.2) [t "value"]]
      enumValues := values }
  | .struct fields => do
    let columns ← fields.mapM (o.memberColumn defs depth)
    pure { name := name, columns := ODict.ofList (idColumn :: columns), primaryKey := [t "id"], enumValues := values }
  | .empty => .error .key
  | .mixed | .other => .error .type

/-- The right side of a join table: the name of the item type, and the name and type of its key (1094-1111). -/
def joinItem (item : PyType) : Except Err (PyName × Text × SqlType) :=
  match item with
  | .cls name =>
    match (defs.cls name).bind ClassDecl.key with
    | some k => do pure (name, k.name, ← o.memberType defs depth k.ty)
    | none => .error .type
  | .enum name => if o.enumMode = .relation then .ok (name, t "id", o.enumKeyType) else .error .type
  | _ => .error .type

/-- The primary key, or a `TypeError` (inspection.py:125-146). -/
def _root_.PySqlSync.ClassDecl.keyField (c : ClassDecl) : Except Err FieldDecl :=
  match c.key with
  | some k => .ok k
  | none => .error .type

/-- A join table (1086-1179). -/
def joinTable (c : ClassDecl) (f : FieldDecl) (isList : Bool) (item : PyType) : Except Err Table := do
  let leftKey ← c.keyField
  let (itemName, rightKey, rightType) ← o.joinItem defs depth item
  let left := c.name.2 ++ t "_" ++ f.name
  let right := itemName.2 ++ t "_" ++ rightKey
  let leftType ← o.memberType defs depth leftKey.ty
  let joinLeft := (← o.namePrefix c.name) ++ t "_" ++ f.name
  let joinRight := joinLeft ++ t "_" ++ itemName.2
  let leftRef ← o.qualifiedId c.name
  let rightRef ← o.qualifiedId itemName
  let name ← o.qualifiedId (c.name.1, left ++ t "_" ++ itemName.2)
  pure {
    name := name
    columns := ODict.ofList [
      { name := t "uuid", ty := o.primType .uuid, nullable := false },
      { name := left, ty := leftType, nullable := false },
      { name := right, ty := rightType, nullable := false }]
    primaryKey := [t "uuid"]
    constraints := ODict.ofList ([
      .foreign (t "jk_" ++ joinLeft) [left] ⟨leftRef, [leftKey.name]⟩,
      .foreign (t "jk_" ++ joinRight) [right] ⟨rightRef, [rightKey]⟩] ++
      (if isList then [] else [.unique (t "uq_" ++ joinRight) [right]])) }

/-- The enumerations of the fields of an entity: `E`, `list[E]` and `set[E]` (1049-1067). -/
def regularEnum : PyType → Option PyName
  | .enum e | .list (.enum e) | .set (.enum e) => some e
  | _ => none

/-- An enumeration table, with its module (1069-1071, 1081-1083). -/
def enumEntry (name : PyName) : Except Err (Text × Table) :=
  match defs.enum name with
  | some e => do pure (name.1, ← o.enumTable defs depth e)
  | none => .error .key

/-- The join table of a field, if any, with its module (1086-1092, 1150-1151). -/
def joinEntry (c : ClassDecl) (f : FieldDecl) : Except Err (List (Text × Table)) :=
  match o.relationship defs f.ty with
  | some (isList, item) => do pure [(c.name.1, ← o.joinTable defs depth c f isList item)]
  | none => pure []

/-- The enumerations that need a table because of `EnumMode.RELATION` (1049-1067). -/
def regularEnums (fields : List FieldDecl) : List PyName :=
  if o.enumMode = .relation then (fields.filterMap (fun f => regularEnum f.ty)).eraseDups else []

/-- The table of an entity, with its module (1045-1047). -/
def entityEntry (c : ClassDecl) : Except Err (Text × Table) := do pure (c.name.1, ← o.dataclassTable defs depth c)

/-- The tables of all modules, in the order in which they are made, each with its module (1041-1179). -/
def allTables (refs : List ClassDecl) : Except Err (List (Text × Table)) := do
  let entities := sortBy (fun c => c.name.2) (refs.filter (fun c => c.key.isSome))
  let tables ← entities.mapM (o.entityEntry defs depth)
  let fields := entities.flatMap ClassDecl.fields
  let regularTables ← (sortBy Prod.snd (o.regularEnums fields)).mapM (o.enumEntry defs depth)
  let ext ← (fields.filter (fun f => f.ty.isExtensible)).mapM (fun f => f.ty.extensibleEnum)
  let extTables ← (sortBy Prod.snd ext.eraseDups).mapM (o.enumEntry defs depth)
  let joins ← entities.mapM (fun c => c.fields.mapM (o.joinEntry defs depth c))
  pure (tables ++ regularTables ++ extTables ++ joins.flatten.flatten)

/-- The enumeration types of all modules, each with its module (1009-1029). -/
def allEnums (enums : List EnumDecl) : Except Err (List (Text × EnumType)) :=
  if o.enumMode = .type then
    ((sortBy (fun e => e.name.2) enums).filter (fun e => 2 ≤ e.labels.length)).mapM (fun e => do
      pure (e.name.1, { name := .qualified (← o.mapping e.name.1) e.name.2, values := e.labels }))
  else pure []

/-- The struct types of all modules, each with its module (1031-1039). -/
def allStructs (topo : List ClassDecl → Except Err (List ClassDecl)) (refs : List ClassDecl) : Except Err (List (Text × StructType)) :=
  if o.structMode = .type then do
    let structs ← topo (sortBy (fun c => c.name.2) (refs.filter ClassDecl.isStruct))
    structs.mapM (fun c => do pure (c.name.1, ← o.dataclassStruct defs depth c))
  else pure []

end ConvOptions

/-- The entries of a module in a `dict[str, list]`. -/
def ofModule {α : Type} (m : Text) (entries : List (Text × α)) : List α := (entries.filter (fun e => e.1 = m)).map Prod.snd

/-- `[item for items in entries.values() for item in items]`: modules come in the order of their first occurrence. -/
def byModule {α : Type} (entries : List (Text × α)) : List α := (entries.map Prod.fst).eraseDups.flatMap (fun m => ofModule m entries)

/-- The namespace of a module (1182-1190). -/
def ConvOptions.moduleNamespace (o : ConvOptions) (enums : List (Text × EnumType)) (structs : List (Text × StructType))
    (tables : List (Text × Table)) (m : Text) : Except Err Namespace := do
  let schema ← o.mapping m
  pure {
    name := schema.getD []
    enums := ODict.ofList (ofModule m enums)
    structs := ODict.ofList (ofModule m structs)
    tables := ODict.ofList (ofModule m tables) }

/-- `dataclasses_to_catalog` (995-1204). -/
def ConvOptions.toCatalog (o : ConvOptions) (defs : PyDefs) (depth : Nat) (topo : List ClassDecl → Except Err (List ClassDecl))
    (refs : List ClassDecl) (enumRefs : List EnumDecl) : Except Err Catalog := do
  let enums ← o.allEnums enumRefs
  let structs ← o.allStructs defs depth topo refs
  let tables ← o.allTables defs depth refs
  if o.qualified then do
    let namespaces ← (tables.map Prod.fst).eraseDups.mapM (o.moduleNamespace enums structs tables)
    pure ⟨ODict.ofList namespaces⟩
  else
    pure ⟨ODict.ofList [{
      name := []
      enums := ODict.ofList (byModule enums)
      structs := ODict.ofList (byModule structs)
      tables := ODict.ofList (byModule tables) }]⟩

end PySqlSync
