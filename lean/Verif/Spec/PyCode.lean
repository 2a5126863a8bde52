/-
  How Python reads code with classes, as far as needed: lines with imports, decorators, class headers, documentation strings, assignments and annotated names. (The Python language reference:
  2.1 line structure, 2.3 identifiers and keywords, 2.4 literals, 6.3.4 calls, 7.2.2 annotated assignments, 8.8 class definitions; the modules `enum` and `dataclasses`.)

  What is not specified here is refused with `unspecified`: other statements, other spacing, identifiers with non-ASCII characters, other expressions.
-/
import Verif.Model.PyCode
import Verif.Spec.Bind

set_option autoImplicit false

namespace PySqlSync
namespace Spec

/-- What may be wrong with code. -/
inductive PyFault where
  | syntax
  | name (n : Text)
  | unspecified
deriving DecidableEq, Repr

/-- A character of an identifier. -/
def isIdentChar (c : Char) : Bool := c.isAlphanum || c == '_'

/-- The keywords of Python 3. -/
def pyKeywords : List Text :=
  ["False", "None", "True", "and", "as", "assert", "async", "await", "break", "class", "continue", "def", "del", "elif", "else", "except", "finally", "for", "from", "global", "if", "import",
   "in", "is", "lambda", "nonlocal", "not", "or", "pass", "raise", "return", "try", "while", "with", "yield"].map t

/-- A name. -/
def isIdent (s : Text) : Bool :=
  match s with
  | [] => false
  | c :: _ => s.all isIdentChar && !c.isDigit && !pyKeywords.contains s

/-- The value of hexadecimal digits. -/
def hexNumber (s : Text) : Option Nat :=
  s.foldl (fun acc c => match acc, hexDigit? c with
    | some a, some v => some (a * 16 + v)
    | _, _ => none) (some 0)

/-- The character with this code. -/
def hexChar (s : Text) : Option Char :=
  match hexNumber s with
  | some n => if n < 55296 ∨ (57343 < n ∧ n < 1114112) then some (Char.ofNat n) else none
  | none => none

/-- A character in front of what follows in a string. -/
def addChar : Option Char → Option (Text × Text) → Option (Text × Text)
  | some c, some (s, rest) => some (c :: s, rest)
  | _, _ => none

/-- The escape sequences of one character. -/
def pyEscape (c : Char) : Option Char :=
  if c = '\\' ∨ c = '\'' ∨ c = '"' then some c
  else if c = 'n' then some '\n'
  else if c = 'r' then some '\r'
  else if c = 't' then some '\t'
  else none

/-- The string up to the closing quote, and what follows. -/
def readPyChars (q : Char) : Text → Option (Text × Text)
  | [] => none
  | c :: s =>
    if c = q then some ([], s)
    else if c = '\n' ∨ c = '\r' then none
    else if c = '\\' then
      match s with
      | [] => none
      | x :: s =>
        if x = 'x' then
          match s with
          | a :: b :: s => addChar (hexChar [a, b]) (readPyChars q s)
          | _ => none
        else if x = 'u' then
          match s with
          | a :: b :: c :: d :: s => addChar (hexChar [a, b, c, d]) (readPyChars q s)
          | _ => none
        else if x = 'U' then
          match s with
          | a :: b :: c :: d :: e :: f :: g :: h :: s => addChar (hexChar [a, b, c, d, e, f, g, h]) (readPyChars q s)
          | _ => none
        else addChar (pyEscape x) (readPyChars q s)
    else addChar (some c) (readPyChars q s)

/-- A text that is a string literal (not one with three quotes). -/
def readPyString (s : Text) : Option Text :=
  match s with
  | q :: rest =>
    if (q = '\'' ∨ q = '"') ∧ rest.take 2 ≠ [q, q] then
      match readPyChars q rest with
      | some (v, []) => some v
      | _ => none
    else none
  | [] => none

/-- A text that is an integer literal: no leading zeros. -/
def readPyNat (s : Text) : Option Nat :=
  if s ≠ [] ∧ s.all Char.isDigit = true ∧ (s.head? = some '0' → s = ['0']) then some (jsonDigits s) else none

/-- An expression: a constant, or a call of a name. -/
inductive PyExpr where
  | const (v : CodeValue)
  | call (fn : Text)
deriving DecidableEq, Repr

/-- Reads an expression. -/
def readPyExpr (s : Text) : Except PyFault PyExpr :=
  if s = t "None" then .ok (.const .none)
  else if s = t "True" then .ok (.const (.bool true))
  else if s = t "False" then .ok (.const (.bool false))
  else match s with
  | [] => .error .syntax
  | c :: r =>
    if c = '\'' ∨ c = '"' then
      match readPyString s with
      | some v => .ok (.const (.str v))
      | none => .error .unspecified
    else if c = '-' then
      match readPyNat r with
      | some n => .ok (.const (.int (-(n : Int))))
      | none => .error .unspecified
    else if c.isDigit = true then
      match readPyNat s with
      | some n => .ok (.const (.int n))
      | none => .error .unspecified
    else if c = '<' then .error .syntax
    else if isIdent (s.takeWhile isIdentChar) = true ∧ (s.dropWhile isIdentChar).head? = some '(' then .ok (.call (s.takeWhile isIdentChar))
    else .error .unspecified

/-- The position in an expression: open brackets, an open string. -/
structure Scan where
  depth : Nat
  quote : Option Char
  escaped : Bool
deriving DecidableEq, Repr

/-- The position after a character. -/
def Scan.next (st : Scan) (c : Char) : Scan :=
  match st.quote with
  | some q => if st.escaped then { st with escaped := false } else if c = '\\' then { st with escaped := true } else if c = q then { st with quote := none } else st
  | none =>
    if c = '\'' ∨ c = '"' then { st with quote := some c }
    else if c = '(' ∨ c = '[' ∨ c = '{' then { st with depth := st.depth + 1 }
    else if c = ')' ∨ c = ']' ∨ c = '}' then { st with depth := st.depth - 1 }
    else st

/-- No open brackets, no open string. -/
def Scan.start : Scan := ⟨0, none, false⟩

/-- What is before and after the first `=` outside brackets and strings. -/
def splitEq : Scan → Text → Text × Option Text
  | _, [] => ([], none)
  | st, c :: s => if st = Scan.start ∧ c = '=' then ([], some s) else (c :: (splitEq (st.next c) s).1, (splitEq (st.next c) s).2)

/-- A constant of the language. -/
def IsConst : CodeValue → Prop
  | .object _ => False
  | _ => True

/-- A text that is an annotation: brackets and strings are closed, and there is no `=` outside. -/
structure IsAnnotation (ty : Text) : Prop where
  ne : ty ≠ []
  line : '\n' ∉ ty ∧ '\r' ∉ ty
  noEq : splitEq Scan.start ty = (ty, none)
  closed : ty.foldl Scan.next Scan.start = Scan.start

/-- A line of code. -/
inductive PyLine where
  | blank
  | imports (names : List Text)
  | decorator (d : Text)
  | classDef (name : Text) (isEnum : Bool)
  | doc (s : Text)
  | assign (name : Text) (e : PyExpr)
  | field (name type : Text) (e : Option PyExpr)
  | memberDoc (cls member s : Text)
deriving DecidableEq, Repr

/-- Names separated by commas. -/
def splitNames (s : Text) : List Text :=
  match s with
  | [] => [[]]
  | c :: s => if c = ',' then [] :: splitNames s else if c = ' ' then splitNames s else match splitNames s with
    | x :: xs => (c :: x) :: xs
    | [] => [[c]]

/-- A line in the body of a class, without the indentation. -/
def readBodyLine (b : Text) : Except PyFault PyLine :=
  match b with
  | [] => .ok .blank
  | c :: _ =>
    if c = '\'' ∨ c = '"' then
      match readPyString b with
      | some v => .ok (.doc v)
      | none => .error .unspecified
    else
      let name := b.takeWhile isIdentChar
      if pyKeywords.contains name = true then .error .syntax
      else if isIdent name = false then .error .unspecified
      else match b.dropWhile isIdentChar with
      | ' ' :: '=' :: ' ' :: e => do return .assign name (← readPyExpr e)
      | ':' :: ' ' :: r =>
        match splitEq Scan.start r with
        | (ty, none) => if ty = [] then .error .syntax else .ok (.field name ty none)
        | (ty, some (' ' :: e)) =>
          if ty.getLast? = some ' ' ∧ ty.dropLast ≠ [] then do return .field name ty.dropLast (some (← readPyExpr e)) else .error .unspecified
        | _ => .error .unspecified
      | _ => .error .unspecified

/-- A line that is not indented, beginning with this word. -/
def readTopLine (w r : Text) : Except PyFault PyLine :=
  if w = t "class" then
    match r with
    | ' ' :: s =>
      if isIdent (s.takeWhile isIdentChar) = false then .error .syntax
      else if s.dropWhile isIdentChar = t ":" then .ok (.classDef (s.takeWhile isIdentChar) false)
      else if s.dropWhile isIdentChar = t "(enum.Enum):" then .ok (.classDef (s.takeWhile isIdentChar) true)
      else .error .unspecified
    | _ => .error .syntax
  else if w = t "import" then
    match r with
    | ' ' :: s => if isIdent s = true then .ok (.imports [s]) else .error .unspecified
    | _ => .error .syntax
  else if w = t "from" then
    -- the module, `import`, the names
    match r with
    | ' ' :: s =>
      if ((s.dropWhile (· != ' ')).take 8 == t " import ") = true then
        let names := splitNames ((s.dropWhile (· != ' ')).drop 8)
        if names.all isIdent = true then .ok (.imports names) else .error .unspecified
      else .error .unspecified
    | _ => .error .syntax
  else if isIdent w = false then .error .syntax
  else match r with
  | '.' :: s =>
    if isIdent (s.takeWhile isIdentChar) = false then .error .syntax
    else if ((s.dropWhile isIdentChar).take 11 == t ".__doc__ = ") = true then
      match readPyString ((s.dropWhile isIdentChar).drop 11) with
      | some v => .ok (.memberDoc w (s.takeWhile isIdentChar) v)
      | none => .error .unspecified
    else .error .unspecified
  | _ => .error .unspecified

/-- Reads a line. -/
def readPyLine (l : Text) : Except PyFault PyLine :=
  match l with
  | [] => .ok .blank
  | '@' :: d => .ok (.decorator d)
  | ' ' :: ' ' :: ' ' :: ' ' :: b => readBodyLine b
  | _ => readTopLine (l.takeWhile isIdentChar) (l.dropWhile isIdentChar)

/-- A class whose body is being read; `any` if it has a statement. -/
structure PyBody where
  isEnum : Bool
  name : Text
  doc : Option Text
  items : List (Text × CodeValue)
  fields : List CodeField
  any : Bool
deriving DecidableEq, Repr

/-- Values that are equal in Python: `True == 1`, `False == 0`. -/
def CodeValue.key : CodeValue → CodeValue
  | .bool true => .int 1
  | .bool false => .int 0
  | v => v

/-- A class body must not be empty. An enumeration: no two members have the same name or (`@enum.unique`) the same value. A data class: fields with a default value follow those without; an attribute
    with the name of a field would be its default value (not specified here). -/
def PyBody.decl (b : PyBody) : Except PyFault CodeDecl :=
  if b.any = false then .error .syntax
  else if b.isEnum then
    if (b.items.map Prod.fst).Nodup ∧ (b.items.map (fun i => CodeValue.key i.2)).Nodup then .ok (.enum ⟨b.name, b.doc, b.items.map (fun i => ⟨i.1, i.2, none⟩)⟩) else .error .unspecified
  else
    if (b.fields.map CodeField.name).Nodup ∧ b.fields.Pairwise (fun f g => f.default.isSome = true → g.default.isSome = true) ∧
        (∀ i ∈ b.items, i.1 ∉ b.fields.map CodeField.name) then .ok (.data ⟨b.name, b.doc, b.items, b.fields⟩)
    else .error .unspecified

/-- The state of the interpreter: the names that are bound, the classes defined, a decorator that has been read, the class whose body is being read. -/
structure PyState where
  scope : List Text
  done : List CodeDecl
  deco : Option Text
  cur : Option PyBody
deriving DecidableEq, Repr

/-- The body of a class ends. -/
def PyState.close (s : PyState) : Except PyFault PyState :=
  match s.cur with
  | none => .ok s
  | some b => do
    let d ← b.decl
    return { s with done := s.done ++ [d], cur := none }

/-- The value of an expression. -/
def PyState.eval (s : PyState) : PyExpr → Except PyFault CodeValue
  | .const v => .ok v
  | .call fn => if fn ∈ s.scope then .error .unspecified else .error (.name fn)

/-- A line is executed. -/
def PyState.step (s : PyState) : PyLine → Except PyFault PyState
  | .blank => .ok s
  | .imports names => do
    let s ← s.close
    if s.deco.isSome then throw .syntax
    return { s with scope := s.scope ++ names }
  | .decorator d => do
    let s ← s.close
    if s.deco.isSome then throw .unspecified
    return { s with deco := some d }
  | .classDef name isEnum => do
    let s ← s.close
    if s.deco = some (t "enum.unique") ∧ isEnum = true then
      if t "enum" ∈ s.scope then return { s with deco := none, cur := some ⟨true, name, none, [], [], false⟩ } else throw (.name (t "enum"))
    else if s.deco = some (t "dataclasses.dataclass") ∧ isEnum = false then
      if t "dataclasses" ∈ s.scope then return { s with deco := none, cur := some ⟨false, name, none, [], [], false⟩ } else throw (.name (t "dataclasses"))
    else throw .unspecified
  | .doc v =>
    match s.cur with
    | none => .error .syntax
    | some b => .ok { s with cur := some { b with doc := if b.any then b.doc else some v, any := true } }
  | .assign n e =>
    match s.cur with
    | none => .error .syntax
    | some b => do
      let v ← s.eval e
      return { s with cur := some { b with items := b.items ++ [(n, v)], any := true } }
  | .field n ty e =>
    match s.cur with
    | none => .error .syntax
    | some b => do
      if b.isEnum then throw .unspecified
      match e with
      | none => return { s with cur := some { b with fields := b.fields ++ [⟨n, ty, none, none, none⟩], any := true } }
      | some e =>
        let v ← s.eval e
        return { s with cur := some { b with fields := b.fields ++ [⟨n, ty, some v, none, none⟩], any := true } }
  | .memberDoc cls m v => do
    let s ← s.close
    match s.done.getLast? with
    | some (.enum e) =>
      if e.name = cls ∧ m ∈ e.members.map CodeMember.name then
        return { s with done := s.done.dropLast ++ [.enum { e with members := e.members.map (fun x => if x.name = m then { x with doc := some v } else x) }] }
      else throw .unspecified
    | _ => throw .unspecified

/-- The lines of a text. -/
def pyLines : Text → List Text
  | [] => [[]]
  | c :: s => if c = '\n' then [] :: pyLines s else match pyLines s with
    | l :: ls => (c :: l) :: ls
    | [] => [[c]]

/-- Lines are executed. -/
def pyRun (s : PyState) (lines : List Text) : Except PyFault PyState := lines.foldlM (fun s l => do s.step (← readPyLine l)) s

/-- The classes that code defines, if these names are bound. -/
def pyDefines (scope : List Text) (code : Text) : Except PyFault (List CodeDecl) := do
  let s ← pyRun ⟨scope, [], none, none⟩ (pyLines code)
  let s ← s.close
  if s.deco.isSome then throw .syntax
  return s.done

/-- No documentation is as good as an empty one. -/
def documented : Option Text → Option Text
  | some [] => none
  | d => d

/-- An enumeration as it may be defined in Python with names that can be written in code, and values that are constants. (Iterating over an enumeration yields no two members with the same value.) -/
structure EnumFits (e : CodeEnum) : Prop where
  name : isIdent e.name = true
  members : ∀ m ∈ e.members, isIdent m.name = true ∧ IsConst m.value ∧ m.doc ≠ some []
  names : (e.members.map CodeMember.name).Nodup
  values : (e.members.map (fun m => CodeValue.key m.value)).Nodup
  body : e.members ≠ [] ∨ documented e.doc ≠ none

/-- The same enumeration: name, documentation, members in the same order with their values and documentation. -/
structure SameCodeEnum (e e' : CodeEnum) : Prop where
  name : e'.name = e.name
  doc : documented e'.doc = documented e.doc
  members : e'.members.map (fun m => (m.name, m.value)) = e.members.map (fun m => (m.name, m.value))
  docs : e'.members.map (fun m => documented (e'.docOf m)) = e.members.map (fun m => documented (e.docOf m))

/-- A data class with names and types that can be written in code, a documentation string of one line, and default values that are constants. -/
structure ClassFits (c : CodeClass) : Prop where
  name : isIdent c.name = true
  doc : ∀ d, c.doc = some d → '\n' ∉ d
  attrs : ∀ a ∈ c.attrs, isDunder a.1 = false → a.1 ∉ c.fields.map CodeField.name → isIdent a.1 = true ∧ IsConst a.2
  fields : ∀ f ∈ c.fields, isIdent f.name = true ∧ IsAnnotation f.type ∧ (∀ v, f.default = some v → IsConst v) ∧ f.factory = none ∧ f.metadata = none
  names : (c.fields.map CodeField.name).Nodup
  order : c.fields.Pairwise (fun f g => f.default.isSome = true → g.default.isSome = true)
  body : c.doc ≠ none ∨ c.fields ≠ []

/-- A data class that can be written up to the fields that follow these first fields. -/
structure ClassStarts (c : CodeClass) (before : List CodeField) : Prop where
  name : isIdent c.name = true
  doc : ∀ d, c.doc = some d → '\n' ∉ d
  attrs : ∀ a ∈ c.attrs, isDunder a.1 = false → a.1 ∉ c.fields.map CodeField.name → isIdent a.1 = true ∧ IsConst a.2
  fields : ∀ f ∈ before, isIdent f.name = true ∧ IsAnnotation f.type ∧ (∀ v, f.default = some v → IsConst v) ∧ f.factory = none ∧ f.metadata = none

/-- The same data class: name, documentation, fields; the attributes other than those with names like `__x__` and those that are the default values of fields. -/
structure SameCodeClass (c c' : CodeClass) : Prop where
  name : c'.name = c.name
  doc : c'.doc = c.doc
  fields : c'.fields = c.fields
  attrs : ∀ a, a ∈ c'.attrs ↔ a ∈ c.attrs ∧ isDunder a.1 = false ∧ a.1 ∉ c.fields.map CodeField.name
  order : c'.attrs.Sublist c.attrs

/-- A class that can be written. -/
def DeclFits : CodeDecl → Prop
  | .enum e => EnumFits e
  | .data c => ClassFits c
  | .other _ => False

/-- The same class. -/
def SameCodeDecl : CodeDecl → CodeDecl → Prop
  | .enum e, .enum e' => SameCodeEnum e e'
  | .data c, .data c' => SameCodeClass c c'
  | _, _ => False

end Spec
end PySqlSync
