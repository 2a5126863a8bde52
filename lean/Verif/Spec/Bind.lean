/-
Specification for C54: what a column stores of a parameter, by the name of its data type, and how that represents a Python value.
-/
import Verif.Model.Bind
import Verif.Spec.Capacity
import Verif.Spec.Integers

set_option autoImplicit false

namespace PySqlSync.Spec

/-- The engines for which there is a driver through which data can be written. -/
def Connects (e : Engine) : Prop := e = .postgresql ∨ e = .redshift ∨ e = .mysql ∨ e = .oracle ∨ e = .mssql

/-- The number that bytes stand for, the most significant first. -/
def ofBytes (b : List Nat) : Nat := b.foldl (fun a x => a * 256 + x) 0

/-- The bytes that a binary column stores.  `binary(n)` of MySQL and SQL Server fills with zero bytes at the end; `varbinary(n)`, `raw(n)` of Oracle and
    `varbyte(n)` of Redshift do not.  `none` if there is no such type, or the bytes do not fit. -/
def storedBytes (e : Engine) (name : Text) (b : List Nat) : Option (List Nat) :=
  match typeParams name with
  | [n] =>
    if b.length ≤ n then
      match e with
      | .mysql | .mssql =>
        if typeBase name = t "binary" then some (b ++ List.replicate (n - b.length) 0)
        else if typeBase name = t "varbinary" then some b else none
      | .oracle => if typeBase name = t "raw" ∧ n ≤ 2000 then some b else none
      | .redshift => if typeBase name = t "varbyte" then some b else none
      | _ => none
    else none
  | _ => none

/-- The column stores these bytes for the parameter. -/
def StoresBytes (e : Engine) (name : Text) (bound : PyVal) (s : List Nat) : Prop :=
  ∃ b, bound = .bytes b ∧ (∀ x ∈ b, x < 256) ∧ storedBytes e name b = some s

/-- The driver accepts the parameter for a column of this type, and what is stored is the value: a UUID as such in PostgreSQL, otherwise as its 16 bytes; an address
    as such in PostgreSQL, otherwise as 4 or 16 bytes; a time of day as such or, in Oracle, as the interval since midnight. -/
def Carries (e : Engine) (name : Text) (value bound : PyVal) : Prop :=
  match value with
  | .uuid n => (e = .postgresql ∧ name = t "uuid" ∧ bound = value) ∨ (∃ s, StoresBytes e name bound s ∧ s.length = 16 ∧ ofBytes s = n)
  | .ipv4 n => (e = .postgresql ∧ name = t "inet" ∧ bound = value) ∨ (∃ s, StoresBytes e name bound s ∧ s.length = 4 ∧ ofBytes s = n)
  | .ipv6 n => (e = .postgresql ∧ name = t "inet" ∧ bound = value) ∨ (∃ s, StoresBytes e name bound s ∧ s.length = 16 ∧ ofBytes s = n)
  | .time m => (typeBase name = t "time" ∧ bound = value) ∨ (e = .oracle ∧ name = t "interval day to second" ∧ bound = .timedelta m)
  | _ => bound = value

/-- The values of a type. -/
def ValueOf : Prim → PyVal → Prop
  | .uuid, .uuid n => n < 2 ^ 128
  | .ipv4, .ipv4 n => n < 2 ^ 32
  | .ipv6, .ipv6 n => n < 2 ^ 128
  | .time, .time m => m < 86400000000
  | _, _ => False

/-- The column takes the values of this type as they are. -/
def Native (e : Engine) : Prim → Prop
  | .time => e ≠ .oracle
  | _ => e = .postgresql

/-! ### JSON (RFC 8259) -/

def isJsonSpace (c : Char) : Bool := c = ' ' || c.toNat = 9 || c.toNat = 10 || c.toNat = 13
def skipSpace (s : Text) : Text := s.dropWhile isJsonSpace

def hexDigit? (c : Char) : Option Nat :=
  if '0'.toNat ≤ c.toNat ∧ c.toNat ≤ '9'.toNat then some (c.toNat - 48)
  else if 'a'.toNat ≤ c.toNat ∧ c.toNat ≤ 'f'.toNat then some (c.toNat - 87)
  else if 'A'.toNat ≤ c.toNat ∧ c.toNat ≤ 'F'.toNat then some (c.toNat - 55)
  else none

/-- The character of `\uXXXX`; halves of surrogate pairs are not read. -/
def unicodeEscape (a b c d : Char) : Option Char :=
  match hexDigit? a, hexDigit? b, hexDigit? c, hexDigit? d with
  | some a, some b, some c, some d =>
    let n := ((a * 16 + b) * 16 + c) * 16 + d
    if 0xD800 ≤ n ∧ n ≤ 0xDFFF then none else some (Char.ofNat n)
  | _, _, _, _ => none

/-- The character of a short escape. -/
def shortEscape (c : Char) : Option Char :=
  if c = '"' then some '"'
  else if c = '\\' then some '\\'
  else if c = '/' then some '/'
  else if c = 'b' then some (Char.ofNat 8)
  else if c = 'f' then some (Char.ofNat 12)
  else if c = 'n' then some (Char.ofNat 10)
  else if c = 'r' then some (Char.ofNat 13)
  else if c = 't' then some (Char.ofNat 9)
  else none

/-- The rest of a string after the opening quote: its characters, and what follows the closing quote. -/
def readJsonString : Text → Option (Text × Text)
  | [] => none
  | c :: s =>
    if c = '"' then some ([], s)
    else if c = '\\' then
      match s with
      | [] => none
      | x :: s =>
        if x = 'u' then
          match s with
          | a :: b :: c :: d :: s =>
            match unicodeEscape a b c d, readJsonString s with
            | some ch, some (r, rest) => some (ch :: r, rest)
            | _, _ => none
          | _ => none
        else
          match shortEscape x, readJsonString s with
          | some ch, some (r, rest) => some (ch :: r, rest)
          | _, _ => none
    else if c.toNat < 32 then none
    else
      match readJsonString s with
      | some (r, rest) => some (c :: r, rest)
      | none => none

/-- The value of decimal digits. -/
def jsonDigits (s : Text) : Nat := s.foldl (fun a c => a * 10 + (c.toNat - 48)) 0

/-- An integer without a sign (leading zeros are tolerated); one with a fraction or an exponent is not read. -/
def readJsonNat (s : Text) : Option (Nat × Text) :=
  let ds := s.takeWhile Char.isDigit
  let rest := s.dropWhile Char.isDigit
  if ds = [] then none
  else match rest with
    | c :: _ => if c = '.' ∨ c = 'e' ∨ c = 'E' then none else some (jsonDigits ds, rest)
    | [] => some (jsonDigits ds, rest)

mutual
/-- A value at the start of the text, and what follows; the number limits the depth and length. -/
def readJson : Nat → Text → Option (PyVal × Text)
  | 0, _ => none
  | k + 1, s =>
    match skipSpace s with
    | [] => none
    | c :: s =>
      if c = 'n' then (if t "ull" <+: s then some (.none, s.drop 3) else none)
      else if c = 't' then (if t "rue" <+: s then some (.bool true, s.drop 3) else none)
      else if c = 'f' then (if t "alse" <+: s then some (.bool false, s.drop 4) else none)
      else if c = '"' then (readJsonString s).map (fun p => (.str p.1, p.2))
      else if c = '-' then (readJsonNat s).map (fun p => (.int (-(p.1 : Int)), p.2))
      else if c = '[' then
        match skipSpace s with
        | ']' :: rest => some (.list .nil, rest)
        | _ => (readJsonItems k s).map (fun p => (.list p.1, p.2))
      else if c = '{' then
        match skipSpace s with
        | '}' :: rest => some (.dict .nil, rest)
        | _ => (readJsonMembers k s).map (fun p => (.dict p.1, p.2))
      else (readJsonNat (c :: s)).map (fun p => (.int p.1, p.2))
/-- One or more values up to the closing bracket. -/
def readJsonItems : Nat → Text → Option (PyVals × Text)
  | 0, _ => none
  | k + 1, s =>
    match readJson k s with
    | none => none
    | some (v, rest) =>
      match skipSpace rest with
      | [] => none
      | c :: rest =>
        if c = ']' then some (.cons v .nil, rest)
        else if c = ',' then (readJsonItems k rest).map (fun p => (.cons v p.1, p.2))
        else none
/-- One or more members up to the closing brace. -/
def readJsonMembers : Nat → Text → Option (PyItems × Text)
  | 0, _ => none
  | k + 1, s =>
    match skipSpace s with
    | [] => none
    | q :: s =>
      if q = '"' then
        match readJsonString s with
        | none => none
        | some (key, rest) =>
          match skipSpace rest with
          | [] => none
          | c :: rest =>
            if c = ':' then
              match readJson k rest with
              | none => none
              | some (v, rest) =>
                match skipSpace rest with
                | [] => none
                | c :: rest =>
                  if c = '}' then some (.cons key v .nil, rest)
                  else if c = ',' then (readJsonMembers k rest).map (fun p => (.cons key v p.1, p.2))
                  else none
            else none
      else none
end

/-- The text is JSON for this value. -/
def IsJson (s : Text) (v : PyVal) : Prop := ∃ k rest, readJson k s = some (v, rest) ∧ skipSpace rest = []

mutual
/-- `None`, truth values, integers, strings, lists and dictionaries of these. -/
def Jsonable : PyVal → Prop
  | .none | .bool _ | .int _ | .str _ => True
  | .list items => JsonableAll items
  | .dict items => JsonableItems items
  | _ => False
def JsonableAll : PyVals → Prop
  | .nil => True
  | .cons v rest => Jsonable v ∧ JsonableAll rest
def JsonableItems : PyItems → Prop
  | .nil => True
  | .cons _ v rest => Jsonable v ∧ JsonableItems rest
end

mutual
/-- Some string of the value has a NUL character, which `jsonb` of PostgreSQL does not store. -/
def hasNul : PyVal → Bool
  | .str s => s.contains (Char.ofNat 0)
  | .list items => anyNul items
  | .dict items => itemsNul items
  | _ => false
def anyNul : PyVals → Bool
  | .nil => false
  | .cons v rest => hasNul v || anyNul rest
def itemsNul : PyItems → Bool
  | .nil => false
  | .cons k v rest => k.contains (Char.ofNat 0) || hasNul v || itemsNul rest
end

/-- A column for documents stores this one: a JSON column of PostgreSQL or MySQL, or a text column in which there is room. -/
def StoresDocument (e : Engine) (name s : Text) (v : PyVal) : Prop :=
  (e = .postgresql ∧ name = t "jsonb" ∧ hasNul v = false) ∨ (e = .mysql ∧ name = t "json") ∨
  (∃ l, textLimit e name = some l ∧ (∀ n, l.chars = some n → s.length ≤ n) ∧ (∀ n, l.bytes = some n → utf8Length s ≤ n))

/-- The parameter is the JSON text of the value, and the column stores it. -/
def CarriesJson (e : Engine) (name : Text) (value bound : PyVal) : Prop :=
  ∃ s, bound = .str s ∧ IsJson s value ∧ StoresDocument e name s value

/-- A column for an enumeration takes this value for a member: a string for an enumeration type (PostgreSQL), one of the labels for an enumeration in place (MySQL, which takes an
    integer for the position of the label), a string for a text with enough room, or an integer for an integer. -/
def TakesLabel (e : Engine) (ty : SqlType) (x : PyVal) : Prop :=
  match ty, x with
  | .user _, .str _ => e = .postgresql
  | .enum labels, .str s => e = .mysql ∧ s ∈ labels
  | .varChar .., .str s => HoldsText e ty s
  | .integer .., .int n => Accepts e ty n
  | _, _ => False

/-- The parameter is the value of the member, and the column takes it for that.  (With lookup tables the column has keys, which values are not.) -/
def CarriesLabel (e : Engine) (mode : EnumMode) (ty : SqlType) (value bound : PyVal) : Prop :=
  value = .member bound ∧ mode ≠ .relation ∧ TakesLabel e ty bound

/-- The value of a member of an enumeration of strings or of integers. -/
def MemberValue (d : EnumDecl) (x : PyVal) : Prop :=
  (d.kind = .str ∧ ∃ s, x = .str s ∧ s ∈ d.labels) ∨ (d.kind = .int ∧ ∃ n, x = .int n)

/-- A string that a column for strings of at most 64 characters holds: PostgreSQL and MySQL count characters, the others bytes. -/
def LabelRoom (e : Engine) (s : Text) : Prop :=
  if e = .postgresql ∨ e = .mysql then s.length ≤ 64 else utf8Length s ≤ 64

/-- An integer that a column for integers holds: those of 64 bits, or for Oracle those of 38 decimal digits. -/
def NumberFits (e : Engine) (n : Int) : Prop :=
  if e = .oracle then -(10 ^ 38 - 1) ≤ n ∧ n ≤ 10 ^ 38 - 1 else -2 ^ 63 ≤ n ∧ n ≤ 2 ^ 63 - 1

/-- The column of an enumeration takes the values of the members: strings, unless they are kept in a lookup table, and integers if they are kept as such. -/
def LabelsTaken (e : Engine) (mode : EnumMode) (x : PyVal) : Prop :=
  (∃ s, x = .str s ∧ mode ≠ .relation ∧ (mode = .check → LabelRoom e s)) ∨ (∃ n, x = .int n ∧ mode = .check ∧ NumberFits e n)

/-- The type with which a caller describes a field of records that has values of this type. -/
def RowTypeOf : Prim → RowType → Prop
  | .uuid, .uuid => True
  | .ipv4, .ipv4 | .ipv4, .address => True
  | .ipv6, .ipv6 | .ipv6, .address => True
  | .time, .time => True
  | _, _ => False

/-- A document that a JSON column holds: PostgreSQL does not take NUL characters; the texts in which Redshift and SQL Server keep documents are limited. -/
def DocumentFits (e : Engine) (s : Text) (v : PyVal) : Prop :=
  (e = .postgresql → hasNul v = false) ∧ (e = .redshift → utf8Length s ≤ 256) ∧ (e = .mssql → utf8Length s ≤ 2 ^ 31 - 1)

/-- The types with which a caller describes a field of records that has documents; engines with JSON columns do without. -/
def DocumentType (e : Engine) (rt : RowType) : Prop := rt = .dict ∨ rt = .list ∨ (rt = .other ∧ (e = .postgresql ∨ e = .mysql))

end PySqlSync.Spec
