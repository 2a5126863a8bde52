/-
Model of the annotations of fields: pysqlsync/model/key_types.py, model/properties.py (get_field_properties and the primary key),
formation/inspection.py 112-146, model/entity_types.py and util/dataclasses.py (flatten_dataclass).

What the library `typing` does when an annotation is written is modelled, too (`TyExp.annotate`, `TyExp.unite`): annotations of an annotated type are joined, a
union of unions is flat, has no member twice, and a union of one type is that type.  The functions of `strong_typing` (external) are modelled from
their documentation: `is_type_union` is false for `Union[T, None]`.  Simplification: two unions are the same type only if their members are listed in
the same order (this matters to a union that has two annotated unions as members).  Types other than unions and annotated types are opaque (`base`).
-/
import Verif.Model.Objects

set_option autoImplicit false

namespace PySqlSync

/-- What may annotate a type: the tags of key_types.py:6-24, or anything else, e.g. `MaxLength(64)`. -/
inductive Tag where
  | primaryKey | identity | unique
  | other (text : Text)
deriving DecidableEq, Repr

mutual
/-- A type as it is written for a field. -/
inductive TyExp where
  /-- `type(None)` -/
  | none
  /-- key_types.py:27-31 `DefaultTag` -/
  | default
  | base (name : Text)
  | annotated (ty : TyExp) (tags : List Tag)
  | union (members : TyExps)
inductive TyExps where
  | nil
  | cons (ty : TyExp) (rest : TyExps)
end

deriving instance DecidableEq for TyExp, TyExps
deriving instance Repr for TyExp, TyExps
instance : Inhabited TyExp := ⟨.none⟩

def TyExps.toList : TyExps → List TyExp
  | .nil => []
  | .cons ty rest => ty :: rest.toList
def TyExps.ofList : List TyExp → TyExps
  | [] => .nil
  | ty :: rest => .cons ty (ofList rest)

/-- `Annotated[ty, *tags]` -/
def TyExp.annotate (ty : TyExp) (tags : List Tag) : TyExp :=
  match ty with
  | .annotated ty' tags' => .annotated ty' (tags' ++ tags)
  | _ => .annotated ty tags

/-- `typing.get_args` of a union; any other type counts as one. -/
def TyExp.members : TyExp → List TyExp
  | .union ms => ms.toList
  | ty => [ty]

/-- A list without the repetitions of earlier members. -/
def dedupTypes {α : Type} [DecidableEq α] : List α → List α
  | [] => []
  | a :: rest => a :: (dedupTypes rest).filter (fun b => b ≠ a)

/-- The union of types that are no unions and that are all different. -/
def TyExp.unionOf : List TyExp → TyExp
  | [ty] => ty
  | l => .union (.ofList l)

/-- `Union[tuple(tys)]` -/
def TyExp.unite (tys : List TyExp) : TyExp := TyExp.unionOf (dedupTypes (tys.flatMap TyExp.members))

/-- `Optional[ty]` -/
def TyExp.optional (ty : TyExp) : TyExp := TyExp.unite [ty, .none]
/-- key_types.py:36 `PrimaryKey[ty]` -/
def TyExp.primaryKey (ty : TyExp) : TyExp := TyExp.annotate ty [.primaryKey]
/-- key_types.py:37 `Identity[ty]` -/
def TyExp.identity (ty : TyExp) : TyExp := TyExp.annotate (TyExp.unite [ty, .default]) [.identity]
/-- key_types.py:38 `Unique[ty]` -/
def TyExp.unique (ty : TyExp) : TyExp := TyExp.annotate ty [.unique]

/-- `unwrap_annotated_type` (strong_typing). -/
def TyExp.unwrap : TyExp → TyExp
  | .annotated ty _ => ty
  | ty => ty

/-- `_get_field_metadata` (properties.py:166-168). -/
def TyExp.tags : TyExp → List Tag
  | .annotated _ tags => tags
  | _ => []

/-- `is_type_union` (strong_typing) of a type that is not annotated. -/
def TyExp.isUnion : TyExp → Bool
  | .union ms => ms.toList.length > 2 || !ms.toList.contains .none
  | _ => false

/-- `is_type_optional` (strong_typing) of a type that is not annotated. -/
def TyExp.isOptional : TyExp → Bool
  | .union ms => ms.toList.contains .none
  | _ => false

/-- properties.py:123-142 `FieldProperties`. -/
structure FieldProps where
  plain : TyExp
  nullable : Bool
  metadata : List Tag
  primary : Bool
  identity : Bool
  unique : Bool
deriving DecidableEq, Repr

/-- properties.py:69-70 `is_constraint`. -/
def Tag.isConstraint : Tag → Bool
  | .primaryKey | .identity | .unique => true
  | .other _ => false

/-- properties.py:177-182: `DEFAULT` is taken out of a union. -/
def TyExp.withoutDefault (ty : TyExp) : TyExp :=
  if ty.isUnion && ty.members.contains .default then TyExp.unite (ty.members.erase .default) else ty

/-- properties.py:184-189 -/
def TyExp.withoutNone (ty : TyExp) : TyExp :=
  if ty.isOptional then TyExp.unite (ty.members.filter (fun m => m ≠ .none)) else ty

/-- `get_field_properties` (properties.py:171-224). -/
def fieldProps (ty : TyExp) : FieldProps :=
  let ty1 := TyExp.withoutDefault ty.unwrap
  let ty2 := TyExp.withoutNone ty1
  let tags := ty.tags ++ ty2.tags
  { plain := ty2.unwrap
    nullable := ty1.isOptional
    metadata := tags.filter (fun m => !m.isConstraint)
    primary := tags.any (fun m => m = .primaryKey)
    identity := tags.any (fun m => m = .identity)
    unique := tags.any (fun m => m = .unique) }

/-- properties.py:144-154 `field_type`. -/
def FieldProps.fieldType (p : FieldProps) : TyExp :=
  if p.metadata = [] then p.plain else TyExp.annotate p.plain p.metadata

/-- `is_primary_key_type` (properties.py:29-32): `get_annotation` looks at the annotations of the type itself only. -/
def isPrimaryKeyType (ty : TyExp) : Bool := ty.tags.any (fun m => m = .primaryKey)

/-- A field as it is written: `default` is the default value, `factory` is set if the default comes from a `default_factory`. -/
structure RawField where
  name : Text
  ty : TyExp
  default : Option Text := none
  factory : Option Text := none
deriving DecidableEq, Repr

/-- `dataclass_has_primary_key` (inspection.py:112-118), used by `is_entity_type`. -/
def hasPrimaryKey (fields : List RawField) : Bool := fields.any (fun f => isPrimaryKeyType f.ty)

/-- `dataclass_primary_key_name` (inspection.py:121-126), `get_primary_key_name` (properties.py:47-54). -/
def primaryKeyName (fields : List RawField) : Except Err Text :=
  match fields.find? (fun f => isPrimaryKeyType f.ty) with
  | some f => .ok f.name
  | none => .error .type

/-- `dataclass_primary_key_type` (inspection.py:129-142). -/
def primaryKeyType (fields : List RawField) : Except Err TyExp :=
  match fields.find? (fun f => (fieldProps f.ty).primary) with
  | some f => .ok (fieldProps f.ty).fieldType
  | none => .error .type

/-- `key_value_fields` (entity_types.py:10-34): among fields of the same name the last one counts as the key, as in the loop; names of the
    fields of a data-class are different. -/
def keyValueFields (fields : List RawField) (key : Text) : Except Err (RawField × List RawField) :=
  match (fields.filter (fun f => f.name = key)).getLast? with
  | some k => .ok (k, fields.filter (fun f => f.name ≠ key))
  | none => .error .value

/-- `@dataclass` refuses a field without default after one that has a default (`dataclasses`, Python library). -/
def acceptsFields : List RawField → Bool
  | [] => true
  | f :: rest => ((f.default.isNone && f.factory.isNone) || rest.all (fun g => g.default.isSome || g.factory.isSome)) && acceptsFields rest

/-- `make_entity` (entity_types.py:37-74): the fields of the new class.  Only `default` is passed on (48, 55). -/
def makeEntity (fields : List RawField) (key : Text) : Except Err (List RawField) := do
  let (k, values) ← keyValueFields fields key
  let target := { name := k.name, ty := k.ty.primaryKey, default := k.default } ::
    values.map (fun f => { name := f.name, ty := f.ty, default := f.default : RawField })
  if acceptsFields target then .ok target else .error .type

/-- `flatten_dataclass` (util/dataclasses.py:58-90) without the documentation: `fieldsOf` are the fields of a data-class without a key, or nothing
    if a type is not such a class (`is_struct_type`).  The fields that `dataclass_fields` (strong_typing) yields have a default, but no default factory. -/
def flattenFields (fieldsOf : TyExp → Option (List RawField)) (fields : List RawField) : List RawField :=
  fields.flatMap (fun f =>
    match fieldsOf (fieldProps f.ty).plain with
    | some nested => nested.map (fun g => { name := f.name ++ t "__" ++ g.name, ty := g.ty, default := g.default })
    | none => [{ name := f.name, ty := f.ty, default := f.default }])

end PySqlSync
