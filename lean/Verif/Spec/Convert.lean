/-
Specification for C32 to C35: which tables a set of data-classes calls for, and what it means that the references of a catalog resolve.
-/
import Verif.Model.Converter

set_option autoImplicit false

namespace PySqlSync.Spec

mutual
/-- The data-classes that a type mentions, at any depth. -/
def typeClasses : PyType → List PyName
  | .cls n => [n]
  | .list item => typeClasses item
  | .set item => typeClasses item
  | .union ms => typesClasses ms
  | _ => []
def typesClasses : PyTypes → List PyName
  | .nil => []
  | .cons ty rest => typeClasses ty ++ typesClasses rest
end

/-- A set of referenced data-classes: they are known by their names, the classes that their fields mention are among them
    (this is the contract of the external `get_referenced_types`), and fields have different names (as in every Python class). -/
structure WellFormed (defs : PyDefs) (refs : List ClassDecl) : Prop where
  known : ∀ c ∈ refs, defs.cls c.name = some c
  closed : ∀ c ∈ refs, ∀ f ∈ c.fields, ∀ n ∈ typeClasses f.ty, ∃ c' ∈ refs, c'.name = n
  fields : ∀ c ∈ refs, (c.fields.map FieldDecl.name).Nodup

/-- What a table is made of. -/
inductive TableSource where
  | entity (name : PyName)
  | enum (name : PyName)
  | join (owner : PyName) (field : Text) (item : PyName)
deriving DecidableEq, Repr

/-- The module of the table and its name. -/
def TableSource.pyName : TableSource → PyName
  | .entity n => n
  | .enum n => n
  | .join owner field item => (owner.1, owner.2 ++ t "_" ++ field ++ t "_" ++ item.2)

/-- The tables that a set of data-classes calls for: one for each entity; one for each enumeration that is the type of a field (or of the
    items of a list or set) if enumerations become relations, or of a field `E | str`; one for each field that is a list or a set of
    entities (or of anything, if arrays become relations). -/
inductive Makes (o : ConvOptions) (defs : PyDefs) (refs : List ClassDecl) : TableSource → Prop where
  | entity (c : ClassDecl) (hc : c ∈ refs) (hk : c.key.isSome = true) : Makes o defs refs (.entity c.name)
  | enumeration (c : ClassDecl) (hc : c ∈ refs) (hk : c.key.isSome = true) (f : FieldDecl) (hf : f ∈ c.fields) (e : PyName)
      (hm : o.enumMode = .relation) (h : f.ty = .enum e ∨ f.ty = .list (.enum e) ∨ f.ty = .set (.enum e)) : Makes o defs refs (.enum e)
  | extensible (c : ClassDecl) (hc : c ∈ refs) (hk : c.key.isSome = true) (f : FieldDecl) (hf : f ∈ c.fields) (e : PyName)
      (hx : f.ty.isExtensible = true) (h : f.ty.extensibleEnum = .ok e) : Makes o defs refs (.enum e)
  | join (c : ClassDecl) (hc : c ∈ refs) (hk : c.key.isSome = true) (f : FieldDecl) (hf : f ∈ c.fields) (item : PyType) (n : PyName)
      (h : f.ty = .list item ∨ f.ty = .set item) (hr : o.arrayMode = .relation ∨ defs.isEntity item = true)
      (hn : item = .cls n ∨ item = .enum n) : Makes o defs refs (.join c.name f.name n)

/-- Different tables have different names, and different modules different schemas (cf. C44). -/
structure NoClash (o : ConvOptions) (defs : PyDefs) (refs : List ClassDecl) : Prop where
  tables : ∀ s s', Makes o defs refs s → Makes o defs refs s' → ∀ q q', o.qualifiedId s.pyName = .ok q → o.qualifiedId s'.pyName = .ok q' →
    q.key = q'.key → s = s'
  schemas : o.qualified = true → ∀ s s', Makes o defs refs s → Makes o defs refs s' → ∀ a b, o.mapping s.pyName.1 = .ok a →
    o.mapping s'.pyName.1 = .ok b → a.getD [] = b.getD [] → s.pyName.1 = s'.pyName.1

/-- A table of a catalog, with the name of its schema. -/
def InCatalog (C : Catalog) (schema : Text) (tb : Table) : Prop := ∃ n ∈ C.namespaces.items, n.name = schema ∧ tb ∈ n.tables.items

/-- A table has a column of this name. -/
def HasColumn (tb : Table) (col : Text) : Prop := ∃ c ∈ tb.columns.items, c.name = col

/-- The columns and the references of a foreign key (several of them for a discriminated key). -/
def links : Constraint → List (List Text × Ref)
  | .foreign _ cols r => [(cols, r)]
  | .discriminated _ cols rs => rs.map (fun r => (cols, r))
  | _ => []

/-- A reference is to the primary key of a table of the catalog, which is found under the schema and the name of the reference. -/
def RefersTo (C : Catalog) (r : Ref) (tb : Table) : Prop :=
  InCatalog C r.table.key.1 tb ∧ tb.name = r.table ∧ r.columns = tb.primaryKey

/-- Keys exist and foreign keys resolve. -/
structure KeysResolve (C : Catalog) : Prop where
  key : ∀ s tb, InCatalog C s tb → tb.primaryKey ≠ [] ∧ ∀ col ∈ tb.primaryKey, HasColumn tb col
  own : ∀ s tb, InCatalog C s tb → ∀ c ∈ tb.constraints.items, ∀ l ∈ links c, l.1 ≠ [] ∧ ∀ col ∈ l.1, HasColumn tb col
  other : ∀ s tb, InCatalog C s tb → ∀ c ∈ tb.constraints.items, ∀ l ∈ links c, l.1.length = l.2.columns.length ∧ ∃ tb', RefersTo C l.2 tb'

/-- Columns that refer to a key have the data type of the key. -/
def SameTypes (C : Catalog) : Prop :=
  ∀ s tb, InCatalog C s tb → ∀ c ∈ tb.constraints.items, ∀ l ∈ links c, ∀ tb', RefersTo C l.2 tb' →
    ∀ col ∈ tb.columns.items, ∀ col' ∈ tb'.columns.items, l.1 = [col.name] → l.2.columns = [col'.name] → col.ty = col'.ty

/-- The two references of a join table have different column names, and a data-class that describes the members of an enumeration
    has no field `id`. -/
structure NoColumnClash (o : ConvOptions) (defs : PyDefs) (refs : List ClassDecl) : Prop where
  joins : ∀ c ∈ refs, ∀ f ∈ c.fields, ∀ item n key, (f.ty = .list item ∨ f.ty = .set item) →
    ((item = .cls n ∧ ∃ c' k, defs.cls n = some c' ∧ c'.key = some k ∧ key = k.name) ∨ (item = .enum n ∧ key = t "id")) →
    c.name.2 ++ t "_" ++ f.name ≠ n.2 ++ t "_" ++ key
  enums : ∀ n e fields, defs.enum n = some e → e.kind = .struct fields → ∀ f ∈ fields, f.name ≠ t "id"

end PySqlSync.Spec
