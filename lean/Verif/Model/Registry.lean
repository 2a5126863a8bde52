/-
Model of the registry of dialects (pysqlsync/factory.py:24-60) and of the mapping from modules to schemas
(pysqlsync/formation/py_to_sql.py:209-237).  A Python dictionary is the list of its items.
-/
import Verif.Model.Objects

set_option autoImplicit false

namespace PySqlSync

/-- The dictionary `_engines` (factory.py:24). -/
abbrev Registry (E : Type) := List (Text × E)

/-- `_engines[name]`, if present. -/
def Registry.find {E : Type} (r : Registry E) (name : Text) : Option E := (r.find? (fun p => p.1 = name)).map Prod.snd

/-- `register_dialect` (factory.py:27-40). -/
def Registry.register {E : Type} (r : Registry E) (name : Text) (engine : E) : Except Err (Registry E) :=
  if r.any (fun p => p.1 = name) then .error .value else .ok (r ++ [(name, engine)])

/-- `unregister_dialect` (factory.py:43-50): `dict.pop` raises `KeyError` if the name is missing. -/
def Registry.unregister {E : Type} (r : Registry E) (name : Text) : Except Err (Registry E) :=
  if r.any (fun p => p.1 = name) then .ok (r.filter (fun p => p.1 ≠ name)) else .error .key

/-- `get_dialect` (factory.py:53-60). -/
def Registry.get {E : Type} (r : Registry E) (name : Text) : Except Err E :=
  match r.find name with
  | some e => .ok e
  | none => .error .value

/-- A call of the user. -/
inductive RegistryCall (E : Type) where
  | register (name : Text) (engine : E)
  | unregister (name : Text)

/-- The effect of a call; a call that raises leaves the registry as it was. -/
def Registry.call {E : Type} (r : Registry E) : RegistryCall E → Registry E
  | .register name e => match r.register name e with | .ok r' => r' | .error _ => r
  | .unregister name => match r.unregister name with | .ok r' => r' | .error _ => r

/-- A history of calls. -/
def Registry.calls {E : Type} (r : Registry E) (cs : List (RegistryCall E)) : Registry E := cs.foldl Registry.call r

/-- `NamespaceMapping.__init__` (py_to_sql.py:218-228): `len(set(dictionary.values())) != len(dictionary)` is refused.  `M` is the
    type of module objects. -/
def namespaceMapping {M : Type} (d : List (M × Option Text)) : Except Err (List (M × Option Text)) :=
  if (d.map Prod.snd).eraseDups.length ≠ d.length then .error .value else .ok d

/-- `NamespaceMapping.get` (py_to_sql.py:230-237); `modules` is `sys.modules`. -/
def mappedName {M : Type} [DecidableEq M] (modules : Text → Option M) (d : List (M × Option Text)) (name : Text) :
    Except Err (Option Text) :=
  match modules name with
  | none => .error .key
  | some m =>
    match d.find? (fun p => p.1 = m) with
    | some p => .ok p.2
    | none => .error .value

/-- The name of the schema in which the objects of a module go (py_to_sql.py:1184): `get(module) or ""`. -/
def schemaName (mapped : Option Text) : Text := mapped.getD []

end PySqlSync
