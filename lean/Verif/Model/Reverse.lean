/-
Model of pysqlsync/formation/sql_to_py.py: data-classes that are generated from tables.

Simplifications.  A generated class is given by its name, module, fields and documentation string.  `str.isidentifier` of Python is a parameter.  Names
of types and classes are texts (forward references of Python), which are taken to be expressions that Python accepts.
-/
import Verif.Model.PyTypes
import Verif.Model.Literal

set_option autoImplicit false

namespace PySqlSync

/-- `keyword.kwlist` of Python 3.11. -/
def pyKeywords : List Text :=
  [t "False", t "None", t "True", t "and", t "as", t "assert", t "async", t "await", t "break", t "class", t "continue", t "def", t "del", t "elif", t "else",
   t "except", t "finally", t "for", t "from", t "global", t "if", t "import", t "in", t "is", t "lambda", t "nonlocal", t "not", t "or", t "pass", t "raise",
   t "return", t "try", t "while", t "with", t "yield"]

/-- `safe_id` (sql_to_py.py:107-110). -/
def safeId (id : Text) : Text := if id ∈ pyKeywords then id ++ t "_" else id

/-- The types that `sql_type_to_python` returns. -/
inductive RevType where
  | prim (p : Prim)
  | annotated (p : Prim) (m : Meta)
  /-- `Annotated[str, Length(n)]` -/
  | fixed (n : Nat)
  /-- the name of a type -/
  | named (name : Text)
  | list (item : RevType)
deriving DecidableEq, Repr

/-- `sql_type_to_python` (sql_to_py.py:56-104). -/
def revType : SqlType → Except Err RevType
  | .boolean _ => .ok (.prim .bool)
  | .integer _ w _ _ _ =>
    if w = 2 then .ok (.prim .int16) else if w = 4 then .ok (.prim .int32) else if w = 8 then .ok (.prim .int64) else .ok (.prim .int)
  | .real _ => .ok (.prim .float32)
  | .double _ => .ok (.prim .float64)
  | .float (some p) => .ok (.annotated .float (.precision p 0))
  | .float none => .ok (.prim .float)
  | .decimal _ _ => .ok (.prim .decimal)
  | .timestamp _ (some p) _ => .ok (.annotated .datetime (.timePrecision p))
  | .timestamp _ none _ => .ok (.prim .datetime)
  | .date => .ok (.prim .date)
  | .time _ (some p) _ => .ok (.annotated .time (.timePrecision p))
  | .time _ none _ => .ok (.prim .time)
  | .fixedChar (some n) => .ok (.fixed n)
  | .fixedChar none => .ok (.prim .str)
  | .varChar _ (some n) => .ok (.annotated .str (.maxLength n))
  | .varChar _ none => .ok (.prim .str)
  | .uuid => .ok (.prim .uuid)
  | .json _ => .ok (.prim .json)
  | .user ref => .ok (.named ref.compactId)
  | .array elem => do return .list (← revType elem)
  | _ => .error .type

/-- The annotation of a field. -/
inductive RevAnn where
  | plain (ty : RevType)
  | optional (ty : RevType)
  /-- `PrimaryKey[...]` -/
  | primary (ty : RevType)
  /-- the name of a class -/
  | ref (cls : Text)
  /-- `Union[...]` of names of classes -/
  | refs (classes : List Text)
deriving DecidableEq, Repr

structure RevField where
  name : Text
  ann : RevAnn
  /-- a `str`, or `dataclasses.MISSING` -/
  default : Option Text
deriving DecidableEq, Repr

structure RevClass where
  name : Text
  module : Text
  fields : List RevField
  doc : Text
deriving DecidableEq, Repr

/-- `column.name == table.primary_key` (sql_to_py.py:142) compares a `LocalId` with a tuple: it is False. -/
def nameIsKey (_name : Text) (_primaryKey : List Text) : Bool := false

/-- `qual_to_module` (sql_to_py.py:124-125); `ns` are the names of the modules of `options.namespaces`. -/
def qualToModule (ns : Option Text → Option Text) (q : QId) : Except Err Text :=
  match ns q.scopeId with
  | some m => .ok (m ++ t "." ++ safeId q.localId)
  | none => .error .key

/-- The loop sql_to_py.py:147-158; `Union[()]` is a TypeError. -/
def refStep (ns : Option Text → Option Text) (column : Text) (ann : RevAnn) : Constraint → Except Err RevAnn
  | .foreign _ cs r => if column ∈ cs then do return .ref (← qualToModule ns r.table) else .ok ann
  | .discriminated _ cs rs =>
    if column ∈ cs then
      if rs.isEmpty then .error .type else do return .refs (← rs.mapM (fun r => qualToModule ns r.table))
    else .ok ann
  | _ => .ok ann

/-- 141-145. -/
def revAnn (tb : Table) (c : Column) (ty : RevType) : RevAnn :=
  if nameIsKey c.name tb.primaryKey then .primary ty else if c.nullable then .optional ty else .plain ty

/-- `column_to_field` (sql_to_py.py:127-163). -/
def columnField (ns : Option Text → Option Text) (tb : Table) (c : Column) : Except Err RevField := do
  let ty ← revType c.ty
  let ann ← tb.constraints.items.foldlM (refStep ns c.name) (revAnn tb c ty)
  return { name := safeId c.name, ann := ann, default := c.default }

/-- `list.sort` by a truth value (sql_to_py.py:178): it is stable. -/
def sortDefaults (fields : List RevField) : List RevField := fields.filter (fun f => f.default.isNone) ++ fields.filter (fun f => f.default.isSome)

/-- A field without default after one with a default. -/
def misplaced : List RevField → Bool
  | [] => false
  | f :: rest => (f.default.isSome && rest.any (fun g => g.default.isNone)) || misplaced rest

/-- `dataclasses.make_dataclass` (of Python): names are identifiers, no key words, and different; defaults come last. -/
def makeDataclass (isIdent : Text → Bool) (name module : Text) (fields : List RevField) : Except Err RevClass :=
  if fields.any (fun f => !isIdent f.name || decide (f.name ∈ pyKeywords)) then .error .type
  else if ¬ (fields.map RevField.name).Nodup then .error .type
  else if misplaced fields then .error .type
  else .ok { name := name, module := module, fields := fields, doc := [] }

/-- `table_to_dataclass` (sql_to_py.py:165-210).  No field has metadata, so only the description of the table is in the documentation string. -/
def tableToClass (isIdent : Text → Bool) (ns : Option Text → Option Text) (tb : Table) : Except Err RevClass := do
  let fields ← tb.columns.items.mapM (columnField ns tb)
  match ns tb.name.scopeId with
  | none => .error .key
  | some m =>
    let c ← makeDataclass isIdent (safeId tb.name.localId) m (sortDefaults fields)
    return { c with doc := tb.description.getD [] }

/-! ### Reading the class again -/

/-- A type as the converter of formation/py_to_sql.py sees it (`Length` is no annotation that it knows); `resolve` says what the names denote. -/
def RevType.py (resolve : Text → PyType) : RevType → PyType
  | .prim p => .prim p
  | .annotated p m => .annotated p [m]
  | .fixed _ => .annotated .str [.other]
  | .named name => resolve name
  | .list item => .list (item.py resolve)

def pyUnion : List PyType → PyTypes
  | [] => .nil
  | ty :: rest => .cons ty (pyUnion rest)

def RevAnn.py (resolve : Text → PyType) : RevAnn → PyType
  | .plain ty | .optional ty | .primary ty => ty.py resolve
  | .ref cls => resolve cls
  | .refs classes => .union (pyUnion (classes.map resolve))

/-- The properties of a field (model/properties.py:152-211); its default is a text of Python. -/
def RevField.decl (resolve : Text → PyType) (f : RevField) : FieldDecl where
  name := f.name
  ty := f.ann.py resolve
  nullable := match f.ann with
    | .optional _ => true
    | _ => false
  primary := match f.ann with
    | .primary _ => true
    | _ => false
  default := f.default.map (fun d => constant (.str d))

def RevClass.decl (resolve : Text → PyType) (c : RevClass) : ClassDecl where
  name := (c.module, c.name)
  fields := c.fields.map (RevField.decl resolve)

end PySqlSync
