/-
  Python code for classes (python_types.py:23-198): `module_to_code`, `dataclass_to_code`, `enum_class_to_code`.

  Simplifications: the text of a type (`TypeFormatter.python_type_to_str`, external) is given with the field; lines of a documentation string that has several lines (72-87, parsed and wrapped by
  external code) are a parameter.
-/
import Verif.Model.Bind

set_option autoImplicit false

namespace PySqlSync

/-- A value whose `repr` is written into code: `None`, a boolean, an integer, a string; any other object, with its `repr`. -/
inductive CodeValue where
  | none
  | bool (b : Bool)
  | int (n : Int)
  | str (s : Text)
  | object (repr : Text)
deriving DecidableEq, Repr

/-- A member of an enumeration; `doc` is the documentation string of the member itself, if it has been set. -/
structure CodeMember where
  name : Text
  value : CodeValue
  doc : Option Text
deriving DecidableEq, Repr

/-- An enumeration class: what iterating over it yields, in order. -/
structure CodeEnum where
  name : Text
  doc : Option Text
  members : List CodeMember
deriving DecidableEq, Repr

/-- A field of a data class: its type, default value, and the `repr` of the default factory and of (non-empty) metadata. -/
structure CodeField where
  name : Text
  type : Text
  default : Option CodeValue
  factory : Option Text
  metadata : Option Text
deriving DecidableEq, Repr

/-- A data class; `doc` is its documentation string unless generated by `@dataclass`, `attrs` are the attributes of the class other than functions, sorted by name. -/
structure CodeClass where
  name : Text
  doc : Option Text
  attrs : List (Text × CodeValue)
  fields : List CodeField
deriving DecidableEq, Repr

/-- A class of a module. -/
inductive CodeDecl where
  | enum (e : CodeEnum)
  | data (c : CodeClass)
  | other (name : Text)
deriving DecidableEq, Repr

/-- The number with so many hexadecimal digits. -/
def hexDigits : Nat → Nat → Text
  | 0, _ => []
  | w + 1, n => hexDigits w (n / 16) ++ [jsonHex (n % 16)]

/-- A character in the `repr` of a string with this quote (CPython, `unicode_repr`). `printable` is `str.isprintable` for non-ASCII characters. -/
def reprChar (printable : Char → Bool) (q c : Char) : Text :=
  if c = q ∨ c = '\\' then ['\\', c]
  else if c = '\t' then ['\\', 't']
  else if c = '\n' then ['\\', 'n']
  else if c = '\r' then ['\\', 'r']
  else if c.toNat < 32 ∨ c.toNat = 127 then ['\\', 'x'] ++ hexDigits 2 c.toNat
  else if c.toNat < 127 ∨ printable c = true then [c]
  else if c.toNat < 256 then ['\\', 'x'] ++ hexDigits 2 c.toNat
  else if c.toNat < 65536 then ['\\', 'u'] ++ hexDigits 4 c.toNat
  else ['\\', 'U'] ++ hexDigits 8 c.toNat

/-- The quote that `repr` uses for a string. -/
def reprQuote (s : Text) : Char := if '\'' ∈ s ∧ '"' ∉ s then '"' else '\''

/-- `repr` of a string. -/
def reprStr (printable : Char → Bool) (s : Text) : Text := reprQuote s :: (s.flatMap (reprChar printable (reprQuote s)) ++ [reprQuote s])

/-- `repr`. -/
def CodeValue.repr (printable : Char → Bool) : CodeValue → Text
  | .none => t "None"
  | .bool true => t "True"
  | .bool false => t "False"
  | .int n => jsonInt n
  | .str s => reprStr printable s
  | .object r => r

/-- `e.__doc__`: of the member, else of the class. -/
def CodeEnum.docOf (e : CodeEnum) (m : CodeMember) : Option Text := match m.doc with
  | some d => some d
  | none => e.doc

/-- `enum_class_to_stream` (149-175). -/
def CodeEnum.lines (printable : Char → Bool) (e : CodeEnum) : List Text :=
  [t "@enum.unique", t "class " ++ e.name ++ t "(enum.Enum):"] ++
  (match e.doc with
    | some (c :: d) => [t "    " ++ reprStr printable (c :: d), []]
    | _ => []) ++
  e.members.map (fun m => t "    " ++ m.name ++ t " = " ++ m.value.repr printable) ++
  e.members.filterMap (fun m => match e.docOf m with
    | some (c :: d) =>
      if some (c :: d) = e.doc then none else some (e.name ++ t "." ++ m.name ++ t ".__doc__ = " ++ reprStr printable (c :: d))
    | _ => none)

/-- `re.match(r"^__.+__$", name)` (93). -/
def isDunder (name : Text) : Bool := name.take 2 == t "__" && name.reverse.take 2 == t "__" && decide (5 ≤ name.length)

/-- The class variables that are written (89-98). -/
def CodeClass.variables (c : CodeClass) : List (Text × CodeValue) :=
  c.attrs.filter (fun a => !isDunder a.1 && !(c.fields.map CodeField.name).contains a.1)

/-- The initializer of a field (106-126). -/
def CodeField.initializer (printable : Char → Bool) (f : CodeField) : Text :=
  match f.default, f.factory, f.metadata with
  | none, none, none => []
  | some d, none, none => t " = " ++ d.repr printable
  | d, fa, m =>
    let items := (match d with | some d => [t "default = " ++ d.repr printable] | none => []) ++
      (match fa with | some x => [t "default_factory = " ++ x] | none => []) ++
      (match m with | some x => [t "metadata = " ++ x] | none => [])
    t " = field(" ++ joinWith (t ", ") items ++ t ")"

/-- `dataclass_to_stream` (61-128). -/
def CodeClass.lines (printable : Char → Bool) (multiline : Text → List Text) (c : CodeClass) : List Text :=
  [t "@dataclasses.dataclass", t "class " ++ c.name ++ t ":"] ++
  (match c.doc with
    | some d => (if '\n' ∈ d then multiline d else [t "    " ++ reprStr printable d]) ++ [[]]
    | none => []) ++
  (if c.variables = [] then [] else c.variables.map (fun a => t "    " ++ a.1 ++ t " = " ++ a.2.repr printable) ++ [[]]) ++
  c.fields.map (fun f => t "    " ++ f.name ++ t ": " ++ f.type ++ f.initializer printable)

/-- The lines before the classes of a module (26-39). -/
def moduleHeader : List Text :=
  [t "from __future__ import annotations", t "import dataclasses", t "import enum", t "from datetime import datetime, date, time", t "from decimal import Decimal",
   t "from uuid import UUID", t "from typing import Annotated, Dict, List, Literal, Optional, Union",
   t "from strong_typing.auxiliary import int16, int32, int64, float32, float64, MaxLength, Precision, TimePrecision", []]

/-- The classes of a module (41-50), in the order of `get_module_classes`. -/
def CodeDecl.lines (printable : Char → Bool) (multiline : Text → List Text) : CodeDecl → Except Err (List Text)
  | .enum e => .ok (e.lines printable ++ [[]])
  | .data c => .ok (c.lines printable multiline ++ [[]])
  | .other _ => .error .notImplemented

/-- Each line is printed with a line feed. -/
def codeText (lines : List Text) : Text := lines.flatMap (fun l => l ++ ['\n'])

/-- `enum_class_to_code` (178-183). -/
def enumCode (printable : Char → Bool) (e : CodeEnum) : Text := codeText (e.lines printable)

/-- `dataclass_to_code` (131-146). -/
def dataclassCode (printable : Char → Bool) (multiline : Text → List Text) (c : CodeClass) : Text := codeText (c.lines printable multiline)

/-- `module_to_code` (23-58). -/
def moduleCode (printable : Char → Bool) (multiline : Text → List Text) (decls : List CodeDecl) : Except Err Text := do
  let ls ← decls.mapM (CodeDecl.lines printable multiline)
  return codeText (moduleHeader ++ ls.flatten)

end PySqlSync
