/-
Model of how the values of fields are turned into parameters of statements: `get_field_extractor` and `get_value_transformer`
(pysqlsync/base.py:500-524 and dialect/*/generator.py).

Simplifications.  A UUID and an address are given by their number, a time of day by its microseconds (no time zone, no scope).  The members of an
enumeration are those of a class that derives from `Enum` only.  Other values (numbers with a fraction, points in time, ...) are opaque.
-/
import Verif.Model.Engines

set_option autoImplicit false

namespace PySqlSync

mutual
/-- A Python value. -/
inductive PyVal where
  | none
  | bool (b : Bool)
  | int (n : Int)
  | str (s : Text)
  | bytes (b : List Nat)
  | uuid (n : Nat)
  | ipv4 (n : Nat)
  | ipv6 (n : Nat)
  | time (micros : Nat)
  | timedelta (micros : Int)
  /-- a member of an enumeration with its value -/
  | member (value : PyVal)
  | list (items : PyVals)
  | set (items : PyVals)
  /-- a dictionary whose keys are strings -/
  | dict (items : PyItems)
  | opaque (s : Text)
/-- A list of values. -/
inductive PyVals where
  | nil
  | cons (v : PyVal) (rest : PyVals)
/-- The items of a dictionary in order. -/
inductive PyItems where
  | nil
  | cons (key : Text) (v : PyVal) (rest : PyItems)
end

deriving instance DecidableEq for PyVal, PyVals, PyItems
instance : Inhabited PyVal := ⟨.none⟩

/-! ### Attributes -/

/-- `int.to_bytes(width, "big")`. -/
def toBytes : Nat → Nat → List Nat
  | 0, _ => []
  | w + 1, n => toBytes w (n / 256) ++ [n % 256]

/-- `.bytes` of a UUID; other values have no such attribute. -/
def PyVal.bytesAttr : PyVal → Except Err PyVal
  | .uuid n => .ok (.bytes (toBytes 16 n))
  | _ => .error .key

/-- `.packed` of an address. -/
def PyVal.packedAttr : PyVal → Except Err PyVal
  | .ipv4 n => .ok (.bytes (toBytes 4 n))
  | .ipv6 n => .ok (.bytes (toBytes 16 n))
  | _ => .error .key

/-- `.value` of a member of an enumeration. -/
def PyVal.valueAttr : PyVal → Except Err PyVal
  | .member v => .ok v
  | _ => .error .key

/-- `datetime.combine(date.min, field) - datetime.min` (oracle/generator.py:97-102, 115-118). -/
def PyVal.sinceMidnight : PyVal → Except Err PyVal
  | .time micros => .ok (.timedelta micros)
  | _ => .error .type

/-! ### JSON -/

/-- A hexadecimal digit in lower case. -/
def jsonHex (n : Nat) : Char := Char.ofNat (if n < 10 then 48 + n else 87 + n)

/-- `json.encoder.ESCAPE_DCT` for `ensure_ascii=False`. -/
def jsonChar (c : Char) : Text :=
  if c = '\\' then ['\\', '\\']
  else if c = '"' then ['\\', '"']
  else if c.toNat = 8 then ['\\', 'b']
  else if c.toNat = 12 then ['\\', 'f']
  else if c.toNat = 10 then ['\\', 'n']
  else if c.toNat = 13 then ['\\', 'r']
  else if c.toNat = 9 then ['\\', 't']
  else if c.toNat < 32 then ['\\', 'u', '0', '0', jsonHex (c.toNat / 16), jsonHex (c.toNat % 16)]
  else [c]

/-- `encode_basestring`. -/
def jsonString (s : Text) : Text := '"' :: (s.flatMap jsonChar ++ ['"'])

/-- `int.__repr__`. -/
def jsonInt (n : Int) : Text := if n < 0 then '-' :: natStr n.natAbs else natStr n.natAbs

mutual
/-- `_JSON_ENCODER.encode` (base.py:58-64): compact, non-ASCII characters as they are.  Simplification: numbers are integers. -/
def PyVal.encode : PyVal → Except Err Text
  | .none => .ok (t "null")
  | .bool true => .ok (t "true")
  | .bool false => .ok (t "false")
  | .int n => .ok (jsonInt n)
  | .str s => .ok (jsonString s)
  | .list items => do
    let s ← items.encode
    return '[' :: (s ++ [']'])
  | .dict items => do
    let s ← items.encode
    return '{' :: (s ++ ['}'])
  | _ => .error .type
/-- The items of a list, with commas between them. -/
def PyVals.encode : PyVals → Except Err Text
  | .nil => .ok []
  | .cons v .nil => v.encode
  | .cons v (.cons w rest) => do
    let a ← v.encode
    let b ← (PyVals.cons w rest).encode
    return a ++ ',' :: b
/-- The items of a dictionary, with commas between them. -/
def PyItems.encode : PyItems → Except Err Text
  | .nil => .ok []
  | .cons k v .nil => do
    let a ← v.encode
    return jsonString k ++ ':' :: a
  | .cons k v (.cons l w rest) => do
    let a ← v.encode
    let b ← (PyItems.cons l w rest).encode
    return jsonString k ++ ':' :: (a ++ ',' :: b)
end

/-! ### Objects -/

/-- The engines that keep UUIDs and addresses as bytes: those whose generators override the methods (mysql/generator.py:119-139,
    oracle/generator.py:88-120, mssql/generator.py:74-94, redshift/generator.py:66-86). -/
def Engine.packs : Engine → Bool
  | .mysql | .oracle | .mssql | .redshift => true
  | _ => false

/-- The annotation of the field is the type itself: neither `Optional[...]` nor `Annotated[...]` (`PrimaryKey`, `Identity` and `Unique` are
    annotations; model/key_types.py). -/
def FieldDecl.bare (f : FieldDecl) : Bool := !f.nullable && !f.primary && !f.identity && !f.unique

/-- `is_ip_address_type` (inspection.py:96-111) of the annotation of a field: `Optional` adds a third member to a union; an annotation of a
    union is taken off, that of an address is not. -/
def FieldDecl.isAddress (f : FieldDecl) : Bool :=
  match f.ty with
  | .prim .ipv4 | .prim .ipv6 => f.bare
  | .union ms => !f.nullable && (ms.toList == [.prim .ipv4, .prim .ipv6] || ms.toList == [.prim .ipv6, .prim .ipv4])
  | _ => false

/-- `get_field_extractor` of the base class (base.py:500-508); `is_type_enum` takes off annotations, but not `Optional`. -/
def baseExtract (f : FieldDecl) (v : PyVal) : Except Err PyVal :=
  match f.ty with
  | .enum _ => if f.nullable then .ok v else v.valueAttr
  | _ => .ok v

/-- `get_field_extractor`, applied to an object whose field has this value. -/
def Engine.extract (e : Engine) (f : FieldDecl) (v : PyVal) : Except Err PyVal :=
  if e.packs then
    if f.ty = .prim .uuid && f.bare then v.bytesAttr
    else if f.isAddress then v.packedAttr
    else if e = .oracle && (f.ty = .prim .time && f.bare) then v.sinceMidnight
    else baseExtract f v
  else baseExtract f v

/-! ### Rows -/

/-- The types that the caller gives for the fields of a record. -/
inductive RowType where
  | uuid | ipv4 | ipv6 | address | time | dict | list | set | enum | other
deriving DecidableEq, Repr

/-- `get_value_transformer` of the base class (base.py:510-524). -/
def baseTransformer (ty : SqlType) (rt : RowType) : Option (PyVal → Except Err PyVal) :=
  let json : Bool := match ty with
    | .json _ => true
    | .varChar .. => rt = .dict || rt = .list || rt = .set
    | _ => false
  if json then some (fun v => do return .str (← v.encode))
  else if rt = .enum then some PyVal.valueAttr
  else none

/-- `get_value_transformer`. -/
def Engine.transformer (e : Engine) (ty : SqlType) (rt : RowType) : Option (PyVal → Except Err PyVal) :=
  if e.packs then
    if rt = .uuid then some PyVal.bytesAttr
    else if rt = .ipv4 || rt = .ipv6 || rt = .address then some PyVal.packedAttr
    else if e = .oracle && rt = .time then some PyVal.sinceMidnight
    else baseTransformer ty rt
  else baseTransformer ty rt

/-- What is passed for a field of a record: `(fn(field) if field is not None else None) if fn is not None else field` (base.py:787-791, 821-825). -/
def Engine.bindField (e : Engine) (ty : SqlType) (rt : RowType) (v : PyVal) : Except Err PyVal :=
  match e.transformer ty rt with
  | some fn => if v = .none then .ok .none else fn v
  | none => .ok v

/-- What is passed for a key by `_delete_rows` (base.py:1294-1301). -/
def Engine.bindKey (e : Engine) (ty : SqlType) (rt : RowType) (v : PyVal) : Except Err PyVal :=
  match e.transformer ty rt with
  | some fn => fn v
  | none => .ok v

/-- What is passed for a key by `delete_data` (base.py:1027-1038): the key itself. -/
def Engine.bindDataKey (_e : Engine) (v : PyVal) : Except Err PyVal := .ok v

end PySqlSync
