/-
  The types with which columns of a file with tab-separated values are read: model/properties.py:72-128 `tsv_type`, data/exchange.py:79-103 `fields_to_types`; the header of `TextWriter` (exchange.py:54-69).

  Simplifications: the types are those of Model/PyTypes (no `dict[...]`; the values of `Literal` are texts).
-/
import Verif.Model.Random
import Verif.Model.Fields

set_option autoImplicit false

namespace PySqlSync

/-- The types a value may have when it is read; `ip` is the union of both kinds of IP addresses. -/
inductive TsvType where
  | bool | bytes | int | float | str | uuid | datetime | date | time | decimal | ipv4 | ipv6 | ip | list | set | dict
deriving DecidableEq, Repr

/-- properties.py:97-120; the types `int8` etc. are annotated (75). `JsonType` is a union with `None`, which is refused. -/
def Prim.tsv : Prim → Except Err TsvType
  | .bool => .ok .bool
  | .int | .int8 | .int16 | .int32 | .int64 | .uint8 | .uint16 | .uint32 | .uint64 => .ok .int
  | .float | .float32 | .float64 => .ok .float
  | .str => .ok .str
  | .uuid => .ok .uuid
  | .datetime => .ok .datetime
  | .date => .ok .date
  | .time => .ok .time
  | .decimal => .ok .decimal
  | .ipv4 => .ok .ipv4
  | .ipv6 => .ok .ipv6
  | .timedelta | .json => .error .type

/-- properties.py:85-94: the members of a union must agree, other than IP addresses. -/
def tsvUnion (ks : List TsvType) : Except Err TsvType :=
  match dedupTypes ks with
  | [k] => .ok k
  | [a, b] => if (a = .ipv4 ∧ b = .ipv6) ∨ (a = .ipv6 ∧ b = .ipv4) then .ok .ip else .error .type
  | _ => .error .type

mutual
/-- `tsv_type` (properties.py:72-128). -/
def PyType.tsv : PyType → Except Err TsvType
  | .prim p => p.tsv
  | .annotated p _ => p.tsv
  | .enum _ => .ok .str
  | .cls _ => .ok .dict
  | .list _ => .ok .list
  | .set _ => .ok .set
  | .literal vs => if vs = [] then .error .type else .ok .str
  | .union ms => do tsvUnion (← ms.tsv)
  | .other n => if n = (t "builtins", t "bytes") then .ok .bytes else .error .type
/-- The types of the members of a union. -/
def PyTypes.tsv : PyTypes → Except Err (List TsvType)
  | .nil => .ok []
  | .cons ty rest => do return (← ty.tsv) :: (← rest.tsv)
end

/-- A dictionary gets an item. -/
def dictPut {α : Type} (d : List (Text × α)) (k : Text) (v : α) : List (Text × α) :=
  if (d.map Prod.fst).contains k then d.map (fun p => if p.1 = k then (k, v) else p) else d ++ [(k, v)]

/-- The mapping that is used (exchange.py:54-57, 92-95). -/
def ClassDecl.mappingOr (c : ClassDecl) : Option (List (Text × Text)) → List (Text × Text)
  | none => c.fields.map (fun f => (f.name, f.name))
  | some m => m

/-- `fields_to_types` (exchange.py:79-103). -/
def PyDefs.fieldsToTypes (defs : PyDefs) (c : ClassDecl) (mapping : Option (List (Text × Text))) : Except Err (List (Text × TsvType)) :=
  c.fields.foldlM (fun d f =>
    match (c.mappingOr mapping).lookup f.name with
    | none => .error .key
    | some col => do return dictPut d col (← (defs.referenceToKey f.ty).tsv)) []

/-- The names in the header that `TextWriter` writes (exchange.py:54-69). -/
def ClassDecl.headerNames (c : ClassDecl) (mapping : Option (List (Text × Text))) : List Text := (c.mappingOr mapping).map Prod.snd

end PySqlSync
