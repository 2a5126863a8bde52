/-
Model of how Python types are mapped to SQL data types (pysqlsync/formation/py_to_sql.py:363-664, formation/inspection.py,
model/properties.py).

Simplifications.  A class is identified by its module and name.  A field is given by what `get_field_properties`
(model/properties.py:152-211) finds out about it; forward references are resolved, and `Literal` types have `str` values only.
`substitutions` are keyed by the types of `Prim`.
-/
import Verif.Model.Objects
import Verif.Model.Compatible
import Verif.Model.Registry

set_option autoImplicit false

namespace PySqlSync

/-- Module and name of a class. -/
abbrev PyName := Text × Text

/-- The types of `simple_type_to_sql_data_type` (py_to_sql.py:368-426) and `is_simple_type` (inspection.py:28-54). -/
inductive Prim where
  | bool | int | float | int8 | int16 | int32 | int64 | uint8 | uint16 | uint32 | uint64 | float32 | float64
  | str | decimal | datetime | date | time | timedelta | uuid | json | ipv4 | ipv6
deriving DecidableEq, Repr

/-- The annotations that `parse_meta` recognizes (model/data_types.py) and `MinLength`, which only data/generator.py does; `skipped` is one of
    `options.skip_annotations`. -/
inductive Meta where
  | integerRange (minimum maximum : Int)
  | signed (isSigned : Bool)
  | storage (bytes : Nat)
  | maxLength (value : Nat)
  | minLength (value : Nat)
  | precision (significant decimal : Nat)
  | timePrecision (digits : Nat)
  | skipped
  | other
deriving DecidableEq, Repr

mutual
/-- A type as it may appear in a field, without constraint annotations and `Optional`. -/
inductive PyType where
  | prim (p : Prim)
  | annotated (p : Prim) (metas : List Meta)
  | enum (name : PyName)
  | cls (name : PyName)
  | list (item : PyType)
  | set (item : PyType)
  | literal (values : List Text)
  | union (members : PyTypes)
  /-- any other class, e.g. `bytes` -/
  | other (name : PyName)
/-- A list of types. -/
inductive PyTypes where
  | nil
  | cons (ty : PyType) (rest : PyTypes)
end

deriving instance DecidableEq for PyType, PyTypes
deriving instance Repr for PyType, PyTypes
instance : Inhabited PyType := ⟨.prim .int⟩

def PyTypes.toList : PyTypes → List PyType
  | .nil => []
  | .cons ty rest => ty :: rest.toList

/-- A field of a data-class with its properties (model/properties.py:113-150). -/
structure FieldDecl where
  name : Text
  ty : PyType
  nullable : Bool := false
  primary : Bool := false
  identity : Bool := false
  unique : Bool := false
  /-- `constant(field.default)` if there is a default other than `None` (py_to_sql.py:673-674) -/
  default : Option Text := none
deriving DecidableEq, Repr

/-- A data-class. -/
structure ClassDecl where
  name : PyName
  fields : List FieldDecl
deriving DecidableEq, Repr

/-- What the members of an enumeration have in common (py_to_sql.py:121-128, 945-985). -/
inductive EnumKind where
  | int | str
  /-- instances of a data-class with these fields -/
  | struct (fields : List FieldDecl)
  /-- no members -/
  | empty
  /-- values of different types -/
  | mixed
  /-- another type -/
  | other
deriving DecidableEq, Repr

/-- An enumeration class; `labels` are the texts of `str(e.value)` and `constants` those of `constant(e.value)`. -/
structure EnumDecl where
  name : PyName
  kind : EnumKind
  labels : List Text
  constants : List Text
deriving DecidableEq, Repr

/-- All classes of the program. -/
structure PyDefs where
  classes : List ClassDecl
  enums : List EnumDecl
deriving DecidableEq, Repr

def PyDefs.cls (defs : PyDefs) (name : PyName) : Option ClassDecl := defs.classes.find? (fun c => c.name = name)
def PyDefs.enum (defs : PyDefs) (name : PyName) : Option EnumDecl := defs.enums.find? (fun e => e.name = name)

/-- `dataclass_has_primary_key` (inspection.py:116-122), `dataclass_primary_key_name` and `dataclass_primary_key_type` (125-146): the first
    field that is marked. -/
def ClassDecl.key (c : ClassDecl) : Option FieldDecl := c.fields.find? (fun f => f.primary)

/-- `is_entity_type` (inspection.py:57-63) of a type. -/
def PyDefs.isEntity (defs : PyDefs) : PyType → Bool
  | .cls name => match defs.cls name with
    | some c => c.key.isSome
    | none => false
  | _ => false

/-- `is_struct_type` (inspection.py:66-72) of a class. -/
def ClassDecl.isStruct (c : ClassDecl) : Bool := c.key.isNone

/-- `is_simple_type` (inspection.py:28-54). -/
def PyType.isSimple : PyType → Bool
  | .prim _ | .annotated .. | .enum _ => true
  | _ => false

inductive EnumMode where | type | inline | relation | check
deriving DecidableEq, Repr
inductive StructMode where | type | inline | json
deriving DecidableEq, Repr
inductive ArrayMode where | array | json | relation
deriving DecidableEq, Repr

/-- `DataclassConverterOptions` (py_to_sql.py:283-319).  `mapping` is `namespaces.get`.  `auto_default` is taken to be off, the `factory`
    has no part in the contents of the objects. -/
structure ConvOptions where
  enumMode : EnumMode := .type
  structMode : StructMode := .type
  arrayMode : ArrayMode := .array
  extraNumeric : Bool := false
  qualified : Bool := true
  uniqueNames : Bool := true
  mapping : Text → Except Err (Option Text)
  foreignConstraints : Bool := true
  checkConstraints : Bool := true
  initializeTables : Bool := false
  substitution : Prim → Option SqlType := fun _ => none

/-- `create_qualified_id` (py_to_sql.py:335-342). -/
def ConvOptions.qualifiedId (o : ConvOptions) (name : PyName) : Except Err QId := do
  let mapped ← o.mapping name.1
  pure (if o.qualified then .qualified mapped name.2 else .prefixed mapped name.2)

/-- `simple_type_to_sql_data_type` (py_to_sql.py:363-426) for a type without annotations. -/
def ConvOptions.primType (o : ConvOptions) (p : Prim) : SqlType :=
  match o.substitution p with
  | some ty => ty
  | none =>
    match p with
    | .bool => .boolean .base
    | .int => .integer .base 8 true none none
    | .float => .double .base
    | .int8 => if o.extraNumeric then .user (.global (t "int1")) else .integer .base 2 true none none
    | .int16 => .integer .base 2 true none none
    | .int32 => .integer .base 4 true none none
    | .int64 => .integer .base 8 true none none
    | .uint8 => if o.extraNumeric then .user (.global (t "uint1")) else .integer .base 2 true none none
    | .uint16 => if o.extraNumeric then .user (.global (t "uint2")) else .integer .base 2 true none none
    | .uint32 => if o.extraNumeric then .user (.global (t "uint4")) else .integer .base 4 true none none
    | .uint64 => if o.extraNumeric then .user (.global (t "uint8")) else .integer .base 8 true none none
    | .float32 => .real .base
    | .float64 => .double .base
    | .str => .varChar .base none
    | .decimal => .decimal none none
    | .datetime => .timestamp .base none false
    | .date => .date
    | .time => .time .base none false
    | .timedelta => .interval
    | .uuid => .uuid
    | .json => .json .base
    | .ipv4 | .ipv6 => .user (.global (t "inet"))

/-- `parse_meta` of the classes in model/data_types.py (69-72, 115-124, 145-149, 185-189, 211-215, 237-241, 260-264, 289-293). -/
def SqlType.parseMeta : SqlType → Meta → Except Err SqlType
  | .integer c w s _ _, .integerRange lo hi => .ok (.integer c w s (some lo) (some hi))
  | .integer c w _ lo hi, .signed b => .ok (.integer c w b lo hi)
  | .integer c _ s lo hi, .storage n => .ok (.integer c n s lo hi)
  | .float _, .precision sig _ => .ok (.float (some sig))
  | .decimal _ _, .precision sig dec => .ok (.decimal (some sig) (some dec))
  | .varBinary c _, .storage n => .ok (.varBinary c (some n))
  | .varChar c _, .maxLength n => .ok (.varChar c (some n))
  | .timestamp c _ z, .timePrecision n => .ok (.timestamp c (some n) z)
  | .time c _ z, .timePrecision n => .ok (.time c (some n) z)
  | _, _ => .error .type

/-- What an annotated type starts from (py_to_sql.py:430-447). -/
def ConvOptions.annotatedBase (o : ConvOptions) (p : Prim) : Option SqlType :=
  match o.substitution p with
  | some ty => some ty
  | none =>
    match p with
    | .int => some (.integer .base 8 true none none)
    | .str => some (.varChar .base none)
    | .float => some (.float none)
    | .decimal => some (.decimal none none)
    | .datetime => some (.timestamp .base none false)
    | .time => some (.time .base none false)
    | _ => none

/-- The loop over the annotations (py_to_sql.py:449-454). -/
def parseMetas : Option SqlType → List Meta → Except Err (Option SqlType)
  | ty, [] => .ok ty
  | ty, .skipped :: rest => parseMetas ty rest
  | none, _ :: _ => .error .type
  | some ty, m :: rest =>
    match ty.parseMeta m with
    | .ok ty' => parseMetas (some ty') rest
    | .error e => .error e

/-- `simple_type_to_sql_data_type` (py_to_sql.py:428-459, 486) for an annotated type that is not an enumeration. -/
def ConvOptions.annotatedType (o : ConvOptions) (p : Prim) (metas : List Meta) : Except Err SqlType :=
  match parseMetas (o.annotatedBase p) metas with
  | .ok (some ty) => .ok ty
  | .ok none => .error .type
  | .error e => .error e

/-- `_enumeration_key_type` (py_to_sql.py:488-491). -/
def ConvOptions.enumKeyType (o : ConvOptions) : SqlType := o.primType .int32

/-- `ENUM_LABEL_TYPE` (py_to_sql.py:115-118). -/
def ConvOptions.labelType (o : ConvOptions) : Except Err SqlType := o.annotatedType .str [.maxLength 64]

/-- `simple_type_to_sql_data_type` (py_to_sql.py:461-484) for an enumeration, with `enum_value_type` (121-128). -/
def ConvOptions.enumType (o : ConvOptions) (e : EnumDecl) : Except Err SqlType :=
  match e.kind with
  | .empty => .error .key
  | .mixed => .error .type
  | .int | .str =>
    match o.enumMode with
    | .type => do pure (.user (← o.qualifiedId e.name))
    | .inline => .ok (.enum e.labels)
    | .relation => .ok o.enumKeyType
    | .check => if e.kind = .int then .ok (o.primType .int) else o.labelType
  | _ => if o.enumMode = .relation then .ok o.enumKeyType else .error .type

/-- `simple_type_to_sql_data_type`. -/
def ConvOptions.simpleType (o : ConvOptions) (defs : PyDefs) : PyType → Except Err SqlType
  | .prim p => .ok (o.primType p)
  | .annotated p metas => o.annotatedType p metas
  | .enum name =>
    match defs.enum name with
    | some e => o.enumType e
    | none => .error .key
  | _ => .error .type

/-- `is_extensible_enum_type` (py_to_sql.py:147-167): a union of which each member is `str` or an enumeration. -/
def PyType.isExtensible : PyType → Bool
  | .union ms => ms.toList.all (fun m =>
      match m with
      | .prim .str => true
      | .annotated .str _ => true
      | .enum _ => true
      | _ => false)
  | _ => false

/-- `unwrap_extensible_enum_type` (py_to_sql.py:170-178): the first enumeration of a union. -/
def PyType.extensibleEnum : PyType → Except Err PyName
  | .union ms =>
    match ms.toList.findSome? (fun m => match m with | .enum n => some n | _ => none) with
    | some n => .ok n
    | none => .error .type
  | _ => .error .type

/-- `_get_relationship` (py_to_sql.py:493-538): whether it is a list, and the type of the items. -/
def ConvOptions.relationship (o : ConvOptions) (defs : PyDefs) : PyType → Option (Bool × PyType)
  | .list item => if o.arrayMode = .relation || defs.isEntity item then some (true, item) else none
  | .set item => if o.arrayMode = .relation || defs.isEntity item then some (false, item) else none
  | _ => none

/-- The types of the primary keys of the members of a union of entities. -/
def PyDefs.keyTypes (defs : PyDefs) (ms : List PyType) : List PyType :=
  ms.filterMap (fun m =>
    match m with
    | .cls name => (defs.cls name).bind (fun c => c.key.map FieldDecl.ty)
    | _ => none)

/-- An array type in `member_to_sql_data_type` (py_to_sql.py:593-634). -/
def ConvOptions.arrayType (o : ConvOptions) (defs : PyDefs) (item : PyType) : Except Err SqlType :=
  if item.isSimple then
    match o.arrayMode with
    | .array => do pure (.array (← o.simpleType defs item))
    | .json => .ok (o.primType .json)
    | .relation => .error .type
  else if defs.isEntity item then .error .type
  else match item with
    | .cls name | .other name =>
      match o.arrayMode with
      | .array => do pure (.array (.user (← o.qualifiedId name)))
      | .json => .ok (o.primType .json)
      | .relation => .error .type
    | _ => .error .type

/-- A list of fields as the fields of an `SqlStructType` (py_to_sql.py:565-577). -/
def structFields : List (Text × SqlType × Bool) → StructFields
  | [] => .nil
  | (name, ty, nullable) :: rest => .cons name ty nullable (structFields rest)

/-- `member_to_sql_data_type` (py_to_sql.py:540-664).  The first argument is the depth that is left for recursive calls; Python
    raises `RecursionError` (here `Err.value`) when there is none left. -/
def ConvOptions.memberType (o : ConvOptions) (defs : PyDefs) : Nat → PyType → Except Err SqlType
  | 0, _ => .error .value
  | fuel + 1, ty =>
    match ty with
    | .prim _ | .annotated .. | .enum _ => o.simpleType defs ty
    | .cls name =>
      match defs.cls name with
      | none => .error .key
      | some c =>
        match c.key with
        | some key => o.memberType defs fuel key.ty
        | none =>
          match o.structMode with
          | .type => do pure (.user (← o.qualifiedId name))
          | .inline => do
            let fields ← c.fields.mapM (fun f => do pure (f.name, ← o.memberType defs fuel f.ty, f.nullable))
            pure (.struct (structFields fields))
          | .json => .ok (o.primType .json)
    | .literal values => compatibleType (values.map (fun v => .fixedChar (some v.length)))
    | .list item => o.arrayType defs item
    | .set item => o.arrayType defs item
    | .union ms =>
      if ty.isExtensible then .ok o.enumKeyType
      else if ms.toList.all defs.isEntity then
        match (defs.keyTypes ms.toList).eraseDups with
        | [keyType] => o.memberType defs fuel keyType
        | _ => .error .type
      else do
        let types ← ms.toList.mapM (fun m => o.memberType defs fuel m)
        match compatibleType types with
        | .ok r => .ok r
        | .error _ => .error .type
    | .other name => do pure (.user (← o.qualifiedId name))

end PySqlSync
