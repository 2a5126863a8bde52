/-
Specification for C56: how the type of a field is written, and what is meant by it.
-/
import Verif.Model.Fields

set_option autoImplicit false

namespace PySqlSync.Spec

/-- What may be written around a type. -/
inductive Wrap where
  /-- `Optional[...]` -/
  | optional
  /-- `PrimaryKey[...]` -/
  | primaryKey
  /-- `Identity[...]` -/
  | identity
  /-- `Unique[...]` -/
  | unique
  /-- `Annotated[..., text]` -/
  | annotated (text : Text)
deriving DecidableEq, Repr

/-- One of them around a type. -/
def Wrap.around (w : Wrap) (ty : TyExp) : TyExp :=
  match w with
  | .optional => ty.optional
  | .primaryKey => ty.primaryKey
  | .identity => ty.identity
  | .unique => ty.unique
  | .annotated text => ty.annotate [.other text]

/-- A type with several of them around it, the outermost first. -/
def written (core : TyExp) : List Wrap → TyExp
  | [] => core
  | w :: rest => w.around (written core rest)

/-- A class, or a union of several classes. -/
def IsCore (core : TyExp) : Prop :=
  (∃ b, core = .base b) ∨ (∃ bs : List Text, bs.Nodup ∧ 2 ≤ bs.length ∧ core = .union (.ofList (bs.map .base)))

/-- The texts of the other annotations. -/
def texts : List Wrap → List Text
  | [] => []
  | .annotated text :: rest => text :: texts rest
  | _ :: rest => texts rest

/-- The properties of a field are those that were written. -/
structure Says (core : TyExp) (ws : List Wrap) (p : FieldProps) : Prop where
  plain : p.plain = core
  nullable : p.nullable = true ↔ .optional ∈ ws
  primary : p.primary = true ↔ .primaryKey ∈ ws
  identity : p.identity = true ↔ .identity ∈ ws
  unique : p.unique = true ↔ .unique ∈ ws
  metadata : p.metadata.Perm ((texts ws).map .other)

/-- A wrapper makes a union with `None` or `DEFAULT`. -/
def Wrap.isUnion : Wrap → Bool
  | .optional | .identity => true
  | _ => false

/-- A wrapper makes an annotation. -/
def Wrap.isTag : Wrap → Bool
  | .optional => false
  | _ => true

/-- `Identity` is not inside of `Optional` or `Identity`, and `Optional` is not inside of an annotation that is inside of `Optional` or `Identity`. -/
structure Readable (ws : List Wrap) : Prop where
  identity : ∀ u : Wrap, u.isUnion = true → ¬ [u, .identity].Sublist ws
  optional : ∀ u a : Wrap, u.isUnion = true → a.isTag = true → ¬ [u, a, .optional].Sublist ws

end PySqlSync.Spec
