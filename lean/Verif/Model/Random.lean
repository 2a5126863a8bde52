/-
Model of the generator of synthetic data (pysqlsync/data/generator.py).

The module `random` of the standard library is modelled by a stream of natural numbers, each of which settles one choice: a number below `n` is
the next element of the stream modulo `n`.  Every sequence of choices comes from some stream.  `random.shuffle` draws the elements of the result
one by one.  What `object_to_json` makes of a generated object or list is not modelled.  Numbers of type `float`, UUIDs and IP addresses are
represented by the number that is drawn for them.

`create` asks `get_field_properties` twice (216-219); since the first call has removed `Optional`, the second never finds a nullable type, and lines
231-235 are dead code: a field is never `None`.  Forward references are resolved.
-/
import Verif.Model.PyTypes

set_option autoImplicit false

namespace PySqlSync

/-- A generated value. -/
inductive RandValue where
  | bool (b : Bool)
  | int (n : Int)
  | float (draw : Nat)
  /-- seconds since `datetime(1982, 10, 23, 2, 30)` -/
  | datetime (seconds : Nat)
  /-- days since `date(1982, 10, 23)` -/
  | date (days : Nat)
  /-- seconds since midnight -/
  | time (seconds : Nat)
  | str (s : Text)
  /-- digits before and after the decimal point -/
  | decimal (whole fraction : Text)
  | uuid (draw : Nat)
  | ipv4 (bits : Nat)
  | ipv6 (bits : Nat)
  /-- a member of an enumeration, by the text of its value -/
  | member (label : Text)
  | list (items : List RandValue)
  | object (fields : List (Text × RandValue))
deriving Repr

/-- The random choices that are still to come. -/
abbrev Draws := Nat → Nat

/-- A computation that makes random choices. -/
abbrev Gen (α : Type) := Draws → Except Err (α × Draws)

/-- `random.randrange(n)`, which raises `ValueError` for zero. -/
def below (n : Nat) : Gen Nat := fun s => if n = 0 then .error .value else .ok (s 0 % n, fun i => s (i + 1))

/-- `random.randint(lo, hi)`, which raises `ValueError` if `hi < lo`. -/
def randint (lo hi : Int) : Gen Int := fun s => do
  let (j, s) ← below (hi - lo + 1).toNat s
  pure (lo + j, s)

/-- `random.choice(items)`, which raises `IndexError` for an empty list. -/
def choice {α : Type} (items : List α) : Gen α := fun s => do
  let (j, s) ← below items.length s
  match items[j]? with
  | some a => pure (a, s)
  | none => .error .key

/-- `[generator() for _ in range(n)]` -/
def repeatGen {α : Type} : Nat → Gen α → Gen (List α)
  | 0, _, s => .ok ([], s)
  | n + 1, g, s => do
    let (a, s) ← g s
    let (l, s) ← repeatGen n g s
    pure (a :: l, s)

/-- `random.choices(items, k=k)`; as `k` copies of `None` are drawn, a negative `k` counts as zero. -/
def choices {α : Type} (items : List α) (k : Int) : Gen (List α) := repeatGen k.toNat (choice items)

/-- `random.shuffle` of a list of this length. -/
def shuffleLoop {α : Type} : Nat → List α → Gen (List α)
  | 0, _, s => .ok ([], s)
  | n + 1, items, s => do
    let (j, s) ← below items.length s
    match items[j]? with
    | none => .error .key
    | some a =>
      let (l, s) ← shuffleLoop n (items.eraseIdx j) s
      pure (a :: l, s)

/-- `shuffled` (generator.py:106-109) and `random.shuffle`. -/
def shuffled {α : Type} (items : List α) : Gen (List α) := shuffleLoop items.length items

/-- `string.digits` -/
def digitChars : Text := t "0123456789"
/-- `string.ascii_letters + string.digits` -/
def alphanumericChars : Text := t "abcdefghijklmnopqrstuvwxyzABCDEFGHIJKLMNOPQRSTUVWXYZ0123456789"

/-- `random_decimal` (generator.py:41-47); `Decimal(".")` is refused. -/
def randomDecimal (significant decimal : Int) : Gen RandValue := fun s => do
  let (a, s) ← choices digitChars (significant - decimal) s
  let (b, s) ← choices digitChars decimal s
  if a = [] ∧ b = [] then .error .value else pure (.decimal a b, s)

/-- `random_alphanumeric_str` (generator.py:158-170). -/
def randomStr (minLen maxLen : Nat) : Gen RandValue := fun s => do
  let (k, s) ← randint minLen maxLen s
  let (l, s) ← choices alphanumericChars k s
  pure (.str l, s)

/-- `random_enum_generator(enum_type, max_count=5)` (generator.py:112-133), as used in line 301. -/
def randomMembers (labels : List Text) : Gen RandValue := fun s => do
  let (l, s) ← shuffled labels s
  let (c, s) ← randint 0 5 s
  pure (.list ((l.take (min c.toNat labels.length)).map .member), s)

/-- A number that is drawn without restriction. -/
def anyDraw : Gen Nat := fun s => .ok (s 0, fun i => s (i + 1))

/-- `call_repeat` (generator.py:177-179) with `max_count` 5. -/
def callRepeat (g : Gen RandValue) : Gen RandValue := fun s => do
  let (c, s) ← randint 0 5 s
  let (l, s) ← repeatGen c.toNat g s
  pure (.list l, s)

/-- What a generator depends on besides random choices: the classes, the keys of line 196, and the present time. -/
structure GenContext where
  defs : PyDefs
  keys : List Nat
  /-- seconds since `datetime(1982, 10, 23, 2, 30)` -/
  seconds : Nat
  /-- days since `date(1982, 10, 23)` -/
  days : Nat

/-- `IntegerRange` of the fixed-width integer types of `strong_typing.auxiliary`. -/
def Prim.range : Prim → Option (Int × Int)
  | .int8 => some (-128, 127)
  | .int16 => some (-32768, 32767)
  | .int32 => some (-2147483648, 2147483647)
  | .int64 => some (-9223372036854775808, 9223372036854775807)
  | .uint8 => some (0, 255)
  | .uint16 => some (0, 65535)
  | .uint32 => some (0, 4294967295)
  | .uint64 => some (0, 18446744073709551615)
  | _ => none

/-- `get_annotation(field_type, ...)`: the first annotation of a kind. -/
def firstRange (metas : List Meta) : Option (Int × Int) :=
  metas.findSome? (fun | .integerRange lo hi => some (lo, hi) | _ => none)
def firstMin (metas : List Meta) : Option Nat := metas.findSome? (fun | .minLength n => some n | _ => none)
def firstMax (metas : List Meta) : Option Nat := metas.findSome? (fun | .maxLength n => some n | _ => none)
def firstPrecision (metas : List Meta) : Option (Nat × Nat) := metas.findSome? (fun | .precision a b => some (a, b) | _ => none)

/-- `plain_type is int` -/
def Prim.isInt : Prim → Bool
  | .int | .int8 | .int16 | .int32 | .int64 | .uint8 | .uint16 | .uint32 | .uint64 => true
  | _ => false

/-- The generator of an integer (generator.py:238-245); the annotations of a fixed-width type precede those that are added to it. -/
def randomInt (p : Prim) (metas : List Meta) : Gen RandValue := fun s => do
  let r := (match p.range with
    | some r => some r
    | none => firstRange metas).getD (0, 1000000)
  let (n, s) ← randint r.1 r.2 s
  pure (.int n, s)

/-- The generators of types that are not classes (generator.py:236-277); the others are refused (307). -/
def GenContext.simple (ctx : GenContext) (p : Prim) (metas : List Meta) : Except Err (Gen RandValue) :=
  match p with
  | .bool => .ok (fun s => do let (n, s) ← below 2 s; pure (.bool (n == 1), s))
  | .int | .int8 | .int16 | .int32 | .int64 | .uint8 | .uint16 | .uint32 | .uint64 => .ok (randomInt p metas)
  | .float | .float32 | .float64 => .ok (fun s => do let (n, s) ← anyDraw s; pure (.float n, s))
  | .datetime => .ok (fun s => do let (n, s) ← below ctx.seconds s; pure (.datetime n, s))
  | .date => .ok (fun s => do let (n, s) ← below ctx.days s; pure (.date n, s))
  | .time => .ok (fun s => do let (n, s) ← below 86399 s; pure (.time n, s))
  | .str => .ok (randomStr ((firstMin metas).getD 1) ((firstMax metas).getD 255))
  | .decimal => let pr := (firstPrecision metas).getD (10, 0); .ok (randomDecimal pr.1 pr.2)
  | .uuid => .ok (fun s => do let (n, s) ← anyDraw s; pure (.uuid n, s))
  | .ipv4 => .ok (fun s => do let (n, s) ← below (2 ^ 32) s; pure (.ipv4 n, s))
  | .ipv6 => .ok (fun s => do let (n, s) ← below (2 ^ 128) s; pure (.ipv6 n, s))
  | .timedelta | .json => .error .value

/-- `reference_to_key` (inspection.py:158-186): the type of the primary key of an entity, or of the first of several. -/
def PyDefs.referenceToKey (defs : PyDefs) (ty : PyType) : PyType :=
  match ty with
  | .cls n => match (defs.cls n).bind ClassDecl.key with
    | some k => k.ty
    | none => ty
  | .union (.cons (.cls n) rest) =>
    if rest.toList.all defs.isEntity then
      match (defs.cls n).bind ClassDecl.key with
      | some k => k.ty
      | none => ty
    else ty
  | _ => ty

/-- `isinstance(element_type, enum)` with the members of the enumeration. -/
def PyDefs.members (defs : PyDefs) (n : PyName) : List Text :=
  match defs.enum n with
  | some e => e.labels
  | none => []

/-- The generator of a primary key (generator.py:223-229). -/
def GenContext.primary (ctx : GenContext) (ty : PyType) : Except Err (Nat → Gen RandValue) :=
  let key : Nat → Gen RandValue := fun k s =>
    match ctx.keys[k]? with
    | some n => .ok (.int n, s)
    | none => .error .key
  let any : Nat → Gen RandValue := fun _ s => do let (n, s) ← anyDraw s; pure (.uuid n, s)
  match ty with
  | .prim p | .annotated p _ => if p.isInt then .ok key else if p = .uuid then .ok any else .error .value
  | _ => .error .value

/-- Runs the generators of the fields of an object one after the other (generator.py:203-205, 327-329). -/
def runFields : List (Text × (Nat → Gen RandValue)) → Nat → Gen (List (Text × RandValue))
  | [], _, s => .ok ([], s)
  | (name, g) :: rest, k, s => do
    let (v, s) ← g k s
    let (l, s) ← runFields rest k s
    pure ((name, v) :: l, s)

/-- The part of `RandomGenerator.create` that follows the resolution of references (generator.py:231-307), where `create` is the recursive call. -/
def GenContext.createPlain (ctx : GenContext) (create : PyType → Except Err (Nat → Gen RandValue)) (ty : PyType) : Except Err (Nat → Gen RandValue) :=
  match ty with
  | .prim p => do let g ← ctx.simple p []; pure (fun _ => g)
  | .annotated p metas => do let g ← ctx.simple p metas; pure (fun _ => g)
  | .enum n => pure (fun _ s => do let (l, s) ← choice (ctx.defs.members n) s; pure (.member l, s))
  | .literal values =>
    if 1 < values.length then pure (fun _ s => do let (l, s) ← choice values s; pure (.str l, s))
    else match values with
      | [] => .error .key
      | v :: _ => pure (fun _ s => .ok (.str v, s))
  | .union ms => do
    let gs ← ms.toList.mapM (create)
    pure (fun k s => do let (g, s) ← choice gs s; g k s)
  | .cls n =>
    match ctx.defs.cls n with
    | none => .error .value
    | some c =>
      if c.isStruct then do
        -- `create_json` (199-205); a struct has no primary key
        let gs ← c.fields.mapM (fun f => do let g ← create f.ty; pure (f.name, g))
        pure (fun k s => do let (l, s) ← runFields gs k s; pure (.object l, s))
      else .error .value
  | .list (.enum n) | .set (.enum n) => pure (fun _ => randomMembers (ctx.defs.members n))
  | .list item | .set item => do
    let g ← create item
    pure (fun k => callRepeat (g k))
  | .other _ => .error .value

/-- `RandomGenerator.create` (generator.py:207-307) for a type that has no properties; the natural number bounds the depth of the recursion. -/
def GenContext.create (ctx : GenContext) : Nat → PyType → Except Err (Nat → Gen RandValue)
  | 0, _ => .error .value
  | d + 1, ty => ctx.createPlain (ctx.create d) (ctx.defs.referenceToKey ty)

/-- `RandomGenerator.create` for a field of the class whose instances are generated. -/
def GenContext.field (ctx : GenContext) (depth : Nat) (f : FieldDecl) : Except Err (Nat → Gen RandValue) :=
  if f.primary then ctx.primary (ctx.defs.referenceToKey f.ty) else ctx.create depth f.ty

/-- The loop of `random_objects` (generator.py:325-332) over the remaining indices. -/
def runObjects (gs : List (Text × (Nat → Gen RandValue))) : List Nat → Gen (List (List (Text × RandValue)))
  | [], s => .ok ([], s)
  | k :: ks, s => do
    let (o, s) ← runFields gs k s
    let (l, s) ← runObjects gs ks s
    pure (o :: l, s)

/-- `random_objects` (generator.py:313-332) with `RandomGenerator.__init__` (189-197): each object is given by the values of its fields. -/
def randomObjects (defs : PyDefs) (seconds days depth : Nat) (c : ClassDecl) (count : Nat) (draws : Draws) : Except Err (List (List (Text × RandValue))) := do
  let (keys, s) ← shuffled (List.range count) draws
  let gs ← c.fields.mapM (fun f => do let g ← (GenContext.mk defs keys seconds days).field depth f; pure (f.name, g))
  let (l, _) ← runObjects gs (List.range count) s
  pure l

end PySqlSync
