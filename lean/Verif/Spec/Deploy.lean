/-
Specification for C47: what a program must satisfy to be deployed, and what the database looks like afterwards.
-/
import Verif.Spec.UserTypes
import Verif.Spec.Denote
import Verif.Spec.Joins

set_option autoImplicit false

namespace PySqlSync.Spec

variable (o : ConvOptions) (defs : PyDefs) (refs : List ClassDecl) (enumRefs : List EnumDecl)

/-- A field of a data-class of a module, or of the data-class of the members of an enumeration of the module that becomes a table. -/
def FieldIn (m : Text) (f : FieldDecl) : Prop :=
  (∃ c ∈ refs, c.name.1 = m ∧ f ∈ c.fields) ∨
  (∃ n e fields, Makes o defs refs (.enum n) ∧ n.1 = m ∧ defs.enum n = some e ∧ e.kind = .struct fields ∧ f ∈ fields)

mutual
/-- The enumerations and the data-classes without a key of which a type mentions a list or set. -/
def itemNames : PyType → List PyName
  | .list (.enum n) => [n]
  | .set (.enum n) => [n]
  | .list (.cls n) => if defs.isEntity (.cls n) then [] else [n]
  | .set (.cls n) => if defs.isEntity (.cls n) then [] else [n]
  | .union ms => itemsNames ms
  | _ => []
def itemsNames : PyTypes → List PyName
  | .nil => []
  | .cons ty rest => itemNames ty ++ itemsNames rest
end

/-- The enumerations and data-classes that become types of the database. -/
def BecomesType (n : PyName) : Prop :=
  (o.enumMode = .type ∧ ∃ e ∈ enumRefs, e.name = n ∧ 2 ≤ e.labels.length) ∨
  (o.structMode = .type ∧ ∃ c ∈ refs, c.name = n ∧ c.isStruct = true)

/-- The columns that the generated conditions are about. -/
structure ReadsConditions (condCols : Text → List Text) : Prop where
  members : ∀ n e, defs.enum n = some e → ∀ f,
    condCols ((LocalId.mk f).quoted ++ t " IN (" ++ joinWith (t ", ") e.constants ++ t ")") = [f]
  low : ∀ f n, condCols (t "(" ++ ((LocalId.mk f).quoted ++ t " >= " ++ intText n) ++ t ")") = [f]
  high : ∀ f n, condCols (t "(" ++ ((LocalId.mk f).quoted ++ t " <= " ++ intText n) ++ t ")") = [f]
  both : ∀ f n m, condCols (t "(" ++ ((LocalId.mk f).quoted ++ t " >= " ++ intText n) ++ t ")" ++ t " AND " ++
    (t "(" ++ ((LocalId.mk f).quoted ++ t " <= " ++ intText m) ++ t ")")) = [f, f]

/-- The state of a reader of conditions: outside of names and literals; in a literal; in a name; after a quotation mark in a name. -/
inductive Reading where
  | out
  | literal
  | name (sofar : Text)
  | quote (sofar : Text)

/-- The delimited names in a condition, in the order of their occurrence; names in literals do not count. -/
def namesFrom : Reading → Text → List Text
  | .quote a, [] => [a]
  | _, [] => []
  | .out, c :: rest => if c = '"' then namesFrom (.name []) rest else if c = '\'' then namesFrom .literal rest else namesFrom .out rest
  | .literal, c :: rest => if c = '\'' then namesFrom .out rest else namesFrom .literal rest
  | .name a, c :: rest => if c = '"' then namesFrom (.quote a) rest else namesFrom (.name (a ++ [c])) rest
  | .quote a, c :: rest => if c = '"' then namesFrom (.name (a ++ [c])) rest
    else a :: (if c = '\'' then namesFrom .literal rest else namesFrom .out rest)
def namesIn (condition : Text) : List Text := namesFrom .out condition

/-- What a program must satisfy to be deployed. -/
structure Deployable (d : Dialect) : Prop where
  wellFormed : WellFormed defs refs
  noClash : NoClash o defs refs
  noColumnClash : NoColumnClash o defs refs
  declared : TypesDeclared o defs refs enumRefs
  /-- no name has a dollar sign (as is true of all Python identifiers) -/
  classNames : ∀ c ∈ refs, '$' ∉ c.name.2
  enumNames : ∀ n e, defs.enum n = some e → '$' ∉ n.2
  fieldNames : ∀ m f, FieldIn o defs refs m f → '$' ∉ f.name
  schemaNames : ∀ m s, HasTable o defs refs m → o.mapping m = .ok (some s) → '$' ∉ s
  /-- a type has not the name of another type or of a table -/
  enumStruct : ∀ e ∈ enumRefs, ∀ c ∈ refs, c.isStruct = true → e.name ≠ c.name
  typeTable : ∀ n, BecomesType o refs enumRefs n → ∀ s, Makes o defs refs s → n ≠ s.pyName
  labels : ∀ e ∈ enumRefs, e.labels.Nodup
  /-- keys are scalars and have values -/
  keys : ∀ c ∈ refs, ∀ k, c.key = some k → k.ty.isSimple = true ∧ k.nullable = false
  /-- generated values are neither optional nor have a default; lists are not unique -/
  identity : ∀ m f, FieldIn o defs refs m f → f.identity = true → f.nullable = false ∧ f.default = none
  unique : ∀ m f, FieldIn o defs refs m f → f.unique = true → ∀ item, f.ty ≠ .list item ∧ f.ty ≠ .set item
  /-- Delta has no defaults, and Snowflake none that are points in time -/
  delta : d = .delta → ∀ m f, FieldIn o defs refs m f → f.default = none
  snowflake : d = .snowflake → ∀ m f, FieldIn o defs refs m f → ∀ e, f.default = some e → isTimestampLiteral e = false
  /-- lists are of types of the same module -/
  lists : ∀ m f, FieldIn o defs refs m f → ∀ n ∈ itemNames defs f.ty, n.1 = m
  /-- data-classes are not written into columns if there are types for enumerations -/
  inlined : o.structMode = .inline → o.enumMode ≠ .type
  /-- a module that has no schema is the only one -/
  schemas : ∀ n, BecomesType o refs enumRefs n → ∀ m, HasTable o defs refs m → m ≠ n.1 → o.mapping n.1 ≠ .ok none

/-- What is expected of the order of data-classes (the external `type_topological_sort`): all of them, each after those that its fields mention. -/
structure OrdersClasses (topo : List ClassDecl → Except Err (List ClassDecl)) : Prop where
  perm : ∀ l l', topo l = .ok l' → l'.Perm l
  order : ∀ l l', topo l = .ok l' → ∀ p a s, l' = p ++ a :: s → ∀ b ∈ a :: s, ∀ f ∈ a.fields, b.name ∉ typeClasses f.ty

/-- A column for a field. -/
structure IsColumn (d : Dialect) (depth : Nat) (f : FieldDecl) (cs : ColState) : Prop where
  ty : o.memberType defs depth f.ty = .ok cs.ty
  nullable : cs.nullable = f.nullable
  identity : cs.identity = f.identity
  default : cs.default = f.default.map (defaultExpr d cs.ty)

/-- A table that joins two others: a key of its own and a column for either side, none of which may be NULL, with references to the keys of the
    two sides.  For sets, no item occurs twice. -/
structure IsJoin (ts : TableState) (left right : Text) (owner item : Key × Text) (set : Prop) : Prop where
  columns : ∀ name, (ts.cols name).isSome = true ↔ name = t "uuid" ∨ name = left ∨ name = right
  apart : left ≠ right
  required : ∀ name cs, ts.cols name = some cs → cs.nullable = false
  key : ts.pk = [t "uuid"]
  owner : ∃ name, ts.cons name = some (.foreign [left] owner.1 [owner.2])
  item : ∃ name, ts.cons name = some (.foreign [right] item.1 [item.2])
  once : set → ∃ name, ts.cons name = some (.unique [right])

/-- The table of an enumeration: a generated number and the label, which is unique; or, if the members are objects, their fields. -/
structure IsLookupTable (d : Dialect) (depth : Nat) (e : EnumDecl) (ts : TableState) : Prop where
  key : ts.pk = [t "id"]
  id : ∃ cs, ts.cols (t "id") = some cs ∧ cs.ty = o.enumKeyType ∧ cs.nullable = false ∧ cs.identity = true ∧ cs.default = none
  labels : e.kind = .str ∨ e.kind = .int → (∀ name, (ts.cols name).isSome = true ↔ name = t "id" ∨ name = t "value") ∧
    (∃ cs, ts.cols (t "value") = some cs ∧ o.labelType = .ok cs.ty ∧ cs.nullable = false ∧ cs.identity = false ∧ cs.default = none) ∧
    ∃ name, ts.cons name = some (.unique [t "value"])
  fields : ∀ fields, e.kind = .struct fields → (∀ name, (ts.cols name).isSome = true ↔ name = t "id" ∨ ∃ f ∈ fields, f.name = name) ∧
    ∀ name cs, name ≠ t "id" → ts.cols name = some cs → ∃ f ∈ fields, f.name = name ∧ IsColumn o defs d depth f cs

/-- The database that a program describes. -/
structure Deployed (d : Dialect) (depth : Nat) (db : Db) : Prop where
  valid : Valid db
  /-- there are no other tables than those the program calls for -/
  tables : ∀ k ts, db.objs k = some (.table ts) → ∃ s q, Makes o defs refs s ∧ o.qualifiedId s.pyName = .ok q ∧ q.key = k
  /-- all of them exist -/
  made : ∀ s q, Makes o defs refs s → o.qualifiedId s.pyName = .ok q → ∃ ts, db.objs q.key = some (.table ts)
  /-- the key of the table of an entity is that of the entity -/
  key : ∀ c ∈ refs, ∀ k, c.key = some k → ∀ q, o.qualifiedId c.name = .ok q → ∀ ts, db.objs q.key = some (.table ts) → ts.pk = [k.name]
  /-- its columns are the fields, except for lists and sets that become tables -/
  columns : ∀ c ∈ refs, c.key.isSome = true → ∀ q, o.qualifiedId c.name = .ok q → ∀ ts, db.objs q.key = some (.table ts) → ∀ n cs,
    ts.cols n = some cs ↔ ∃ f ∈ c.fields, f.name = n ∧ o.relationship defs f.ty = none ∧ IsColumn o defs d depth f cs
  /-- references to entities are foreign keys -/
  foreign : o.foreignConstraints = true → ∀ c ∈ refs, c.key.isSome = true → ∀ q, o.qualifiedId c.name = .ok q → ∀ ts,
    db.objs q.key = some (.table ts) → ∀ f ∈ c.fields, ∀ n c' k' q', f.ty = .cls n → defs.cls n = some c' → c'.key = some k' →
    o.qualifiedId n = .ok q' → ∃ name, ts.cons name = some (.foreign [f.name] q'.key [k'.name])
  /-- unique fields are unique -/
  unique : o.foreignConstraints = true → ∀ c ∈ refs, c.key.isSome = true → ∀ q, o.qualifiedId c.name = .ok q → ∀ ts,
    db.objs q.key = some (.table ts) → ∀ f ∈ c.fields, f.unique = true → ∃ name, ts.cons name = some (.unique [f.name])
  /-- lists and sets of entities (or of anything, if arrays become relations) are tables that join owners and items -/
  joins : ∀ c ∈ refs, ∀ k, c.key = some k → ∀ f ∈ c.fields, ∀ item, (f.ty = .list item ∨ f.ty = .set item) → ∀ n key, ItemType o defs item n key →
    ∀ q qo qi, o.qualifiedId (c.name.1, c.name.2 ++ t "_" ++ f.name ++ t "_" ++ n.2) = .ok q → o.qualifiedId c.name = .ok qo → o.qualifiedId n = .ok qi →
    ∀ ts, db.objs q.key = some (.table ts) →
    IsJoin ts (c.name.2 ++ t "_" ++ f.name) (n.2 ++ t "_" ++ key) (qo.key, k.name) (qi.key, key) (f.ty = .set item)
  /-- enumerations that become tables have numbers and labels (C50 says which rows) -/
  lookups : ∀ n, Makes o defs refs (.enum n) → ∀ e q, defs.enum n = some e → o.qualifiedId n = .ok q → ∀ ts, db.objs q.key = some (.table ts) →
    IsLookupTable o defs d depth e ts
  /-- a column that refers to another has the type of the other -/
  types : ∀ k ts name a k' b ts' ca cb, db.objs k = some (.table ts) → ts.cons name = some (.foreign [a] k' [b]) → db.objs k' = some (.table ts') →
    ts.cols a = some ca → ts'.cols b = some cb → ca.ty = cb.ty
  /-- enumerations that become types have their labels -/
  enums : o.enumMode = .type → ∀ f, IsField o defs refs f → ∀ n ∈ typeEnums f.ty, ∀ e q, defs.enum n = some e → o.qualifiedId n = .ok q →
    ∃ vs, db.objs q.key = some (.enum vs) ∧ ∀ v, vs v = true ↔ v ∈ e.labels
  /-- data-classes that become types have their fields -/
  structs : o.structMode = .type → ∀ c ∈ refs, c.isStruct = true → ∀ q, o.qualifiedId c.name = .ok q →
    ∃ attrs, db.objs q.key = some (.struct attrs) ∧ ∀ n ty, attrs n = some ty ↔ ∃ f ∈ c.fields, f.name = n ∧ o.memberType defs depth f.ty = .ok ty

end PySqlSync.Spec
