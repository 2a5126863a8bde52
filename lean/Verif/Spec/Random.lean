/-
Specification for C42: what a value of a declared type is.
-/
import Verif.Model.Random
import Verif.Spec.Integers

set_option autoImplicit false

namespace PySqlSync.Spec

/-- A value of a type that is not a class, with these annotations. -/
def ValidSimple (p : Prim) (metas : List Meta) : RandValue → Prop
  | .bool _ => p = .bool
  | .int n => (p = .int ∨ (fixedRange p).isSome = true) ∧ (∀ r, fixedRange p = some r → r.1 ≤ n ∧ n ≤ r.2) ∧
      ∀ lo hi, Meta.integerRange lo hi ∈ metas → lo ≤ n ∧ n ≤ hi
  | .float _ => p = .float ∨ p = .float32 ∨ p = .float64
  | .datetime _ => p = .datetime
  | .date _ => p = .date
  | .time seconds => p = .time ∧ seconds < 24 * 60 * 60
  | .str s => p = .str ∧ (∀ n, Meta.maxLength n ∈ metas → s.length ≤ n) ∧ ∀ n, Meta.minLength n ∈ metas → n ≤ s.length
  | .decimal whole fraction => p = .decimal ∧ (whole ≠ [] ∨ fraction ≠ []) ∧ (∀ c, c ∈ whole ∨ c ∈ fraction → c.isDigit = true) ∧
      ∀ significant decimal, Meta.precision significant decimal ∈ metas → fraction.length ≤ decimal ∧ whole.length + fraction.length ≤ significant
  | .uuid _ => p = .uuid
  | .ipv4 bits => p = .ipv4 ∧ bits < 2 ^ 32
  | .ipv6 bits => p = .ipv6 ∧ bits < 2 ^ 128
  | _ => False

/-- A value of a type.  A reference to an entity is a value of its primary key. -/
inductive ValidValue (defs : PyDefs) : PyType → RandValue → Prop where
  | prim (p : Prim) (v : RandValue) (h : ValidSimple p [] v) : ValidValue defs (.prim p) v
  | annotated (p : Prim) (metas : List Meta) (v : RandValue) (h : ValidSimple p metas v) : ValidValue defs (.annotated p metas) v
  | enum (n : PyName) (e : EnumDecl) (label : Text) (he : defs.enum n = some e) (h : label ∈ e.labels) : ValidValue defs (.enum n) (.member label)
  | literal (values : List Text) (s : Text) (h : s ∈ values) : ValidValue defs (.literal values) (.str s)
  | union (ms : PyTypes) (m : PyType) (v : RandValue) (hm : m ∈ ms.toList) (h : ValidValue defs m v) : ValidValue defs (.union ms) v
  | reference (n : PyName) (c : ClassDecl) (k : FieldDecl) (v : RandValue) (hc : defs.cls n = some c) (hk : c.key = some k) (h : ValidValue defs k.ty v) :
      ValidValue defs (.cls n) v
  | struct (n : PyName) (c : ClassDecl) (fields : List (Text × RandValue)) (hc : defs.cls n = some c) (hk : c.key = none)
      (hn : fields.map Prod.fst = c.fields.map FieldDecl.name)
      (h : ∀ f v, (f, v) ∈ c.fields.zip (fields.map Prod.snd) → ValidValue defs f.ty v) : ValidValue defs (.cls n) (.object fields)
  | list (item : PyType) (items : List RandValue) (h : ∀ v, v ∈ items → ValidValue defs item v) : ValidValue defs (.list item) (.list items)
  | set (item : PyType) (items : List RandValue) (h : ∀ v, v ∈ items → ValidValue defs item v) (hd : ∀ n, item = .enum n → items.Nodup) :
      ValidValue defs (.set item) (.list items)

/-- The second type is part of the first. -/
inductive PartOf (defs : PyDefs) : PyType → PyType → Prop where
  | refl (ty : PyType) : PartOf defs ty ty
  | list (item ty : PyType) (h : PartOf defs item ty) : PartOf defs (.list item) ty
  | set (item ty : PyType) (h : PartOf defs item ty) : PartOf defs (.set item) ty
  | union (ms : PyTypes) (m ty : PyType) (hm : m ∈ ms.toList) (h : PartOf defs m ty) : PartOf defs (.union ms) ty
  | field (n : PyName) (c : ClassDecl) (f : FieldDecl) (ty : PyType) (hc : defs.cls n = some c) (hf : f ∈ c.fields) (h : PartOf defs f.ty ty) :
      PartOf defs (.cls n) ty

/-- At most one annotation of each kind, where a fixed-width integer type has a range already. -/
structure OneOfAKind (p : Prim) (metas : List Meta) : Prop where
  fixed : (fixedRange p).isSome = true → ∀ lo hi, Meta.integerRange lo hi ∉ metas
  range : ∀ lo hi lo' hi', Meta.integerRange lo hi ∈ metas → Meta.integerRange lo' hi' ∈ metas → lo = lo' ∧ hi = hi'
  maxLength : ∀ a b, Meta.maxLength a ∈ metas → Meta.maxLength b ∈ metas → a = b
  minLength : ∀ a b, Meta.minLength a ∈ metas → Meta.minLength b ∈ metas → a = b
  precision : ∀ a b a' b', Meta.precision a b ∈ metas → Meta.precision a' b' ∈ metas → a = a' ∧ b = b'
  /-- there are not more decimal digits than digits -/
  digits : ∀ a b, Meta.precision a b ∈ metas → b ≤ a

/-- Annotations are unambiguous, and members of enumerations differ. -/
structure Unambiguous (defs : PyDefs) (ty : PyType) : Prop where
  metas : ∀ p ms, PartOf defs ty (.annotated p ms) → OneOfAKind p ms
  labels : ∀ n e, PartOf defs ty (.enum n) → defs.enum n = some e → e.labels.Nodup

/-- The type of an integer key: an integer type, or an entity whose key is of such a type. -/
inductive IntegerKey (defs : PyDefs) : PyType → Prop where
  | prim (p : Prim) (h : p = .int ∨ (fixedRange p).isSome = true) : IntegerKey defs (.prim p)
  | annotated (p : Prim) (metas : List Meta) (h : p = .int ∨ (fixedRange p).isSome = true) : IntegerKey defs (.annotated p metas)
  | reference (n : PyName) (c : ClassDecl) (k : FieldDecl) (hc : defs.cls n = some c) (hk : c.key = some k) (h : IntegerKey defs k.ty) : IntegerKey defs (.cls n)

/-- The generator has values for a type that is not a class.  Text has at least one character unless declared otherwise, and no more than 255. -/
structure ProducibleSimple (p : Prim) (metas : List Meta) : Prop where
  known : p ≠ .timedelta ∧ p ≠ .json
  range : ∀ lo hi, Meta.integerRange lo hi ∈ metas → lo ≤ hi
  lengths : ∀ a b, Meta.minLength a ∈ metas → Meta.maxLength b ∈ metas → a ≤ b
  onlyMax : ∀ b, Meta.maxLength b ∈ metas → (∀ a, Meta.minLength a ∉ metas) → 1 ≤ b
  onlyMin : ∀ a, Meta.minLength a ∈ metas → (∀ b, Meta.maxLength b ∉ metas) → a ≤ 255
  precision : ∀ a b, Meta.precision a b ∈ metas → 0 < a ∨ 0 < b

/-- The generator has values for a type. -/
inductive Producible (defs : PyDefs) : PyType → Prop where
  | prim (p : Prim) (h : ProducibleSimple p []) : Producible defs (.prim p)
  | annotated (p : Prim) (metas : List Meta) (h : ProducibleSimple p metas) : Producible defs (.annotated p metas)
  | enum (n : PyName) (e : EnumDecl) (he : defs.enum n = some e) (h : e.labels ≠ []) : Producible defs (.enum n)
  | literal (values : List Text) (h : values ≠ []) : Producible defs (.literal values)
  | union (ms : PyTypes) (hne : ms.toList ≠ []) (h : ∀ m, m ∈ ms.toList → Producible defs m) : Producible defs (.union ms)
  | reference (n : PyName) (c : ClassDecl) (k : FieldDecl) (hc : defs.cls n = some c) (hk : c.key = some k) (hp : defs.isEntity k.ty = false)
      (h : Producible defs k.ty) : Producible defs (.cls n)
  | struct (n : PyName) (c : ClassDecl) (hc : defs.cls n = some c) (hk : c.key = none) (h : ∀ f, f ∈ c.fields → Producible defs f.ty) :
      Producible defs (.cls n)
  | list (item : PyType) (h : Producible defs item) : Producible defs (.list item)
  | set (item : PyType) (h : Producible defs item) : Producible defs (.set item)

end PySqlSync.Spec
