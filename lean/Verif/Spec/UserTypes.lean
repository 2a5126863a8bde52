/-
Specification for C34: the user-defined types that a catalog refers to, and those that it creates.
-/
import Verif.Spec.Convert

set_option autoImplicit false

namespace PySqlSync.Spec

mutual
/-- The names of the user-defined types that a data type refers to, at any depth. -/
def userTypes : SqlType → List QId
  | .user q => [q]
  | .array ty => userTypes ty
  | .struct fields => structUserTypes fields
  | _ => []
def structUserTypes : StructFields → List QId
  | .nil => []
  | .cons _ ty _ rest => userTypes ty ++ structUserTypes rest
end

/-- The catalog creates an enumeration or struct type of this name, in the schema that the name tells. -/
def Creates (C : Catalog) (q : QId) : Prop :=
  ∃ n ∈ C.namespaces.items, n.name = q.key.1 ∧ ((∃ e ∈ n.enums.items, e.name = q) ∨ (∃ s ∈ n.structs.items, s.name = q))

/-- A type of the database or of an extension, which has a name without a schema, e.g. `inet`. -/
def Predefined (q : QId) : Prop := ∃ x, q = .global x

/-- Every type that a column of a table or a member of a struct type refers to is predefined or created. -/
structure TypesResolve (C : Catalog) : Prop where
  columns : ∀ s tb, InCatalog C s tb → ∀ col ∈ tb.columns.items, ∀ q ∈ userTypes col.ty, Predefined q ∨ Creates C q
  members : ∀ n ∈ C.namespaces.items, ∀ s ∈ n.structs.items, ∀ m ∈ s.members.items, ∀ q ∈ userTypes m.ty, Predefined q ∨ Creates C q

mutual
/-- The enumerations that a type mentions other than as `E | str`. -/
def typeEnums : PyType → List PyName
  | .enum n => [n]
  | .list item => typeEnums item
  | .set item => typeEnums item
  | .union ms => if (PyType.union ms).isExtensible then [] else typesEnums ms
  | _ => []
def typesEnums : PyTypes → List PyName
  | .nil => []
  | .cons ty rest => typeEnums ty ++ typesEnums rest
end

mutual
/-- The data-classes of which a type mentions a list or set. -/
def listClasses : PyType → List PyName
  | .list (.cls n) => [n]
  | .set (.cls n) => [n]
  | .union ms => listsClasses ms
  | _ => []
def listsClasses : PyTypes → List PyName
  | .nil => []
  | .cons ty rest => listClasses ty ++ listsClasses rest
end

mutual
/-- A class that is neither a data-class nor an enumeration nor one of the types with a counterpart, e.g. `bytes`. -/
def hasOther : PyType → Bool
  | .other _ => true
  | .list item => hasOther item
  | .set item => hasOther item
  | .union ms => someOther ms
  | _ => false
def someOther : PyTypes → Bool
  | .nil => false
  | .cons ty rest => hasOther ty || someOther rest
end

/-- The fields of the data-classes, and of the data-classes whose instances are the members of an enumeration that becomes a table. -/
def IsField (o : ConvOptions) (defs : PyDefs) (refs : List ClassDecl) (f : FieldDecl) : Prop :=
  (∃ c ∈ refs, f ∈ c.fields) ∨
  (∃ n e fields, Makes o defs refs (.enum n) ∧ defs.enum n = some e ∧ e.kind = .struct fields ∧ f ∈ fields)

/-- A module that has a table. -/
def HasTable (o : ConvOptions) (defs : PyDefs) (refs : List ClassDecl) (m : Text) : Prop := ∃ s, Makes o defs refs s ∧ s.pyName.1 = m

/-- What a program must satisfy for its types to be created:
    all classes and enumerations are given and known by their names; enumerations that become types have two members or more; the modules of types
    have a table (if modules become schemas); lists of structs do not become arrays unless structs become types; there are no other classes;
    and enumerations and structs become types only if names are qualified (no generator does otherwise, `C34_engines`). -/
structure TypesDeclared (o : ConvOptions) (defs : PyDefs) (refs : List ClassDecl) (enumRefs : List EnumDecl) : Prop where
  classes : ∀ f, IsField o defs refs f → ∀ n ∈ typeClasses f.ty, ∃ c ∈ refs, c.name = n
  known : ∀ e ∈ enumRefs, defs.enum e.name = some e
  enums : o.enumMode = .type → ∀ f, IsField o defs refs f → ∀ n ∈ typeEnums f.ty, ∃ e ∈ enumRefs, e.name = n ∧ 2 ≤ e.labels.length
  qualified : o.enumMode = .type ∨ o.structMode = .type → o.qualified = true
  enumModules : o.enumMode = .type → ∀ f, IsField o defs refs f → ∀ n ∈ typeEnums f.ty, HasTable o defs refs n.1
  structModules : o.structMode = .type → ∀ c ∈ refs, c.isStruct = true → HasTable o defs refs c.name.1
  arrays : o.arrayMode = .array → o.structMode ≠ .type → ∀ f, IsField o defs refs f → ∀ n ∈ listClasses f.ty, defs.isEntity (.cls n) = true
  others : ∀ f, IsField o defs refs f → hasOther f.ty = false

/-- What holds of every program and every generator: enumerations are known by their names, and enumerations and structs become types only if
    names are qualified (`C34_engines`). -/
structure TypesKnown (o : ConvOptions) (defs : PyDefs) (enumRefs : List EnumDecl) : Prop where
  known : ∀ e ∈ enumRefs, defs.enum e.name = some e
  qualified : o.enumMode = .type ∨ o.structMode = .type → o.qualified = true

/-- The fields of a class that describes the members of an enumeration have different names (as in every Python class). -/
def EnumFields (defs : PyDefs) : Prop := ∀ n e fields, defs.enum n = some e → e.kind = .struct fields → (fields.map FieldDecl.name).Nodup

/-- A field of this type calls for a user-defined type that is named like the enumeration or class `n`: the field has the enumeration (if
    enumerations become types), a data-class without a key (if structs become types), a class of another kind, a list or set of one of
    these that becomes an array (a list of structs always does), a data-class without a key that is inlined and has a member that calls for
    it, an entity whose key calls for it, or a union, other than `E | str`, of which a member calls for it. -/
inductive NeedsType (o : ConvOptions) (defs : PyDefs) : PyType → PyName → Prop where
  | enum (n : PyName) (hm : o.enumMode = .type) : NeedsType o defs (.enum n) n
  | other (n : PyName) : NeedsType o defs (.other n) n
  | struct (n : PyName) (c : ClassDecl) (hc : defs.cls n = some c) (hk : c.key = none) (hm : o.structMode = .type) : NeedsType o defs (.cls n) n
  | inline (n m : PyName) (c : ClassDecl) (f : FieldDecl) (hc : defs.cls n = some c) (hk : c.key = none) (hm : o.structMode = .inline)
      (hf : f ∈ c.fields) (h : NeedsType o defs f.ty m) : NeedsType o defs (.cls n) m
  | entity (n m : PyName) (c : ClassDecl) (k : FieldDecl) (hc : defs.cls n = some c) (hk : c.key = some k) (h : NeedsType o defs k.ty m) :
      NeedsType o defs (.cls n) m
  | enums (ty : PyType) (n : PyName) (ht : ty = .list (.enum n) ∨ ty = .set (.enum n)) (ha : o.arrayMode = .array) (hm : o.enumMode = .type) :
      NeedsType o defs ty n
  | structs (ty : PyType) (n : PyName) (ht : ty = .list (.cls n) ∨ ty = .set (.cls n)) (ha : o.arrayMode = .array)
      (he : defs.isEntity (.cls n) = false) : NeedsType o defs ty n
  | others (ty : PyType) (n : PyName) (ht : ty = .list (.other n) ∨ ty = .set (.other n)) (ha : o.arrayMode = .array) : NeedsType o defs ty n
  | union (ms : PyTypes) (m : PyType) (n : PyName) (hx : (PyType.union ms).isExtensible = false) (hm : m ∈ ms.toList) (h : NeedsType o defs m n) :
      NeedsType o defs (.union ms) n

/-- The fields that become columns of tables or members of struct types: the fields of entities other than those that become join tables, the
    fields of data-classes whose instances are the members of an enumeration that becomes a table, and, if structs become types, the fields of the
    data-classes without a key in modules that have a table. -/
def ColumnField (o : ConvOptions) (defs : PyDefs) (refs : List ClassDecl) (f : FieldDecl) : Prop :=
  (∃ c ∈ refs, c.key.isSome = true ∧ f ∈ c.fields ∧
    ¬ ∃ item, (f.ty = .list item ∨ f.ty = .set item) ∧ (o.arrayMode = .relation ∨ defs.isEntity item = true)) ∨
  (∃ n e fields, Makes o defs refs (.enum n) ∧ defs.enum n = some e ∧ e.kind = .struct fields ∧ f ∈ fields) ∨
  (o.structMode = .type ∧ ∃ c ∈ refs, c.key = none ∧ HasTable o defs refs c.name.1 ∧ f ∈ c.fields)

/-- The names of the types that are made: of the enumerations with two members or more and of the data-classes without a key, if these become
    types, in the modules that have a table. -/
def MakesType (o : ConvOptions) (defs : PyDefs) (refs : List ClassDecl) (enumRefs : List EnumDecl) (q : QId) : Prop :=
  (∃ e ∈ enumRefs, o.enumMode = .type ∧ 2 ≤ e.labels.length ∧ HasTable o defs refs e.name.1 ∧ o.qualifiedId e.name = .ok q) ∨
  (∃ c ∈ refs, c.key = none ∧ o.structMode = .type ∧ HasTable o defs refs c.name.1 ∧ o.qualifiedId c.name = .ok q)

end PySqlSync.Spec
