/-
Model of how data types of columns are recognized (pysqlsync/formation/data_types.py) and of the substitutions of the explorers
(postgresql/discovery.py:106-113, mysql/discovery.py:36-52, mssql/discovery.py:23-37, oracle/discovery.py:60-73, trino/discovery.py:19; Redshift has the
explorer of PostgreSQL).

Simplifications: upper and lower case differ for ASCII letters only, `\d` stands for ASCII digits, and `\s` for ASCII white space.
-/
import Verif.Model.Engines
import Verif.Model.Connect

set_option autoImplicit false

namespace PySqlSync

/-- `str.lower` -/
def lowerText (s : Text) : Text := s.map Char.toLower

/-- Removes a prefix, as a pattern with `re.IGNORECASE` does; `kw` is in lower case. -/
def dropPrefixCI : Text → Text → Option Text
  | [], s => some s
  | _ :: _, [] => none
  | k :: ks, c :: s => if k = c.toLower then dropPrefixCI ks s else none

/-- `(\d+)` -/
def takeNumber (s : Text) : Option (Nat × Text) :=
  match digitsValue (s.takeWhile Char.isDigit) with
  | some n => if s.takeWhile Char.isDigit = [] then none else some (n, s.dropWhile Char.isDigit)
  | none => none

def isSpaceChar (c : Char) : Bool := c == ' ' || c == '\t' || c == '\n' || c == '\r' || c == '\x0b' || c == '\x0c'

/-- One of several words, followed by `[(](\d+)[)]` at the end of the text. -/
def oneArgument (words : List Text) (s : Text) : Option Nat := do
  let rest ← words.findSome? (fun w => dropPrefixCI (w ++ t "(") s)
  let (n, rest) ← takeNumber rest
  if rest = t ")" then some n else none

/-- Line 96. -/
def decimalArguments (s : Text) : Option (Nat × Nat) := do
  let rest ← [t "decimal", t "number", t "numeric"].findSome? (fun w => dropPrefixCI (w ++ t "(") s)
  let (p, rest) ← takeNumber rest
  let rest ← dropPrefixCI (t ",") rest
  let (q, rest) ← takeNumber (rest.dropWhile isSpaceChar)
  if rest = t ")" then some (p, q) else none

/-- Lines 102-110: the comparison with `with time zone` minds case. -/
def timestampArguments (s : Text) : Option (Nat × Bool) := do
  let rest ← dropPrefixCI (t "timestamp(") s
  let (p, rest) ← takeNumber rest
  let rest ← dropPrefixCI (t ")") rest
  let rest := rest.dropWhile isSpaceChar
  if rest = [] then some (p, false)
  else if lowerText rest = t "with time zone" ∨ lowerText rest = t "without time zone" then some (p, decide (rest = t "with time zone"))
  else none

/-- `((?:[^']+|'')*)'(?:,|$)` after the first quote (137): the text of a value, whose quotes remain doubled, and what follows. -/
def enumValue : Text → Option (Text × Text)
  | [] => none
  | [c] => if c = '\'' then some ([], []) else none
  | c :: d :: rest =>
    if c = '\'' then
      if d = '\'' then (enumValue rest).map (fun (v, r) => ('\'' :: '\'' :: v, r))
      else if d = ',' then some ([], rest)
      else none
    else (enumValue (d :: rest)).map (fun (v, r) => (c :: v, r))

/-- `re.findall` (137): the matches from left to right; the number bounds the search. -/
def enumValues : Nat → Text → List Text
  | 0, _ => []
  | _, [] => []
  | n + 1, c :: rest =>
    if c = '\'' then
      match enumValue rest with
      | some (v, rest) => v :: enumValues n rest
      | none => enumValues n rest
    else enumValues n rest

/-- Line 133: `enum[(](.+)[)]`, where the dot matches any character but a line break. -/
def enumArguments (s : Text) : Option Text := do
  let rest ← dropPrefixCI (t "enum(") s
  if rest.getLast? = some ')' ∧ rest.dropLast ≠ [] ∧ '\n' ∉ rest.dropLast then some rest.dropLast else none

/-- `sql_data_type_from_def` (94-141). -/
def typeFromDef (s : Text) : Option SqlType :=
  match decimalArguments s with
  | some (p, q) => some (.decimal (some p) (some q))
  | none =>
    match timestampArguments s with
    | some (p, z) => some (.timestamp .base (some p) z)
    | none =>
      match oneArgument [t "character", t "char"] s with
      | some n => some (.fixedChar (some n))
      | none =>
        match oneArgument [t "varchar", t "character varying"] s with
        | some n => some (.varChar .base (some n))
        | none =>
          match oneArgument [t "binary"] s with
          | some n => some (.fixedBinary .base (some n))
          | none =>
            match oneArgument [t "varbinary", t "binary varying"] s with
            | some n => some (.varBinary .base (some n))
            | none =>
              match enumArguments s with
              | some values => some (.enum (enumValues values.length values))
              | none => none

/-- The names of `sql_data_type_from_name` (45-87). -/
def namedType (name : Text) : Option SqlType :=
  if name ∈ [t "bool", t "boolean"] then some (.boolean .base)
  else if name ∈ [t "tinyint", t "tinyint(1)", t "int1"] then some (.integer .base 1 true none none)
  else if name ∈ [t "smallint", t "int2"] then some (.integer .base 2 true none none)
  else if name ∈ [t "integer", t "int", t "int4"] then some (.integer .base 4 true none none)
  else if name ∈ [t "bigint", t "int8"] then some (.integer .base 8 true none none)
  else if name ∈ [t "decimal", t "number", t "numeric"] then some (.decimal none none)
  else if name ∈ [t "real", t "float4"] then some (.real .base)
  else if name ∈ [t "double", t "double precision", t "float8"] then some (.double .base)
  else if name = t "float" then some (.float none)
  else if name ∈ [t "timestamp", t "timestamp without time zone"] then some (.timestamp .base none false)
  else if name = t "timestamp with time zone" then some (.timestamp .base none true)
  else if name = t "datetime" then some (.timestamp .base none false)
  else if name = t "date" then some .date
  else if name ∈ [t "time", t "time without time zone"] then some (.time .base none false)
  else if name = t "time with time zone" then some (.time .base none true)
  else if name ∈ [t "char", t "character"] then some (.fixedChar none)
  else if name ∈ [t "varchar", t "character varying", t "text"] then some (.varChar .base none)
  else if name = t "binary" then some (.fixedBinary .base none)
  else if name ∈ [t "varbinary", t "binary varying", t "bytea"] then some (.varBinary .base none)
  else if name ∈ [t "json", t "jsonb"] then some (.json .base)
  else if name = t "uuid" then some .uuid
  else none

/-- `sql_data_type_from_name` (40-92). -/
def typeFromName (name : Text) (schema : Option Text) : Option SqlType :=
  match namedType (lowerText name) with
  | some ty => some ty
  | none => schema.map (fun s => .user (.qualified (some s) name))

/-- What is known about the type of a column: the arguments of `sql_data_type_from_spec` (143-153). -/
structure TypeSpec where
  name : Text
  schema : Option Text := none
  definition : Option Text := none
  length : Option Int := none
  precision : Option Nat := none
  scale : Option Nat := none
  fraction : Option Nat := none
deriving DecidableEq, Repr

/-- `... if n is not None` -/
def orElseNat (new old : Option Nat) : Option Nat :=
  match new with
  | some n => some n
  | none => old

/-- `... if n is not None and n > 0` -/
def orElsePos (new : Option Int) (old : Option Nat) : Option Nat :=
  match new with
  | some n => if 0 < n then some n.toNat else old
  | none => old

/-- Lines 173-198. -/
def refineType (spec : TypeSpec) : SqlType → SqlType
  | .decimal p s => .decimal (orElseNat spec.precision p) (orElseNat spec.scale s)
  | .float p => .float (orElseNat spec.precision p)
  | .timestamp c p z => .timestamp c (orElsePos (spec.fraction.map Int.ofNat) p) z
  | .time c p z => .time c (orElsePos (spec.fraction.map Int.ofNat) p) z
  | .fixedChar l => .fixedChar (orElseNat (spec.length.map Int.toNat) l)
  | .varChar c l => .varChar c (orElsePos spec.length l)
  | .fixedBinary c l => .fixedBinary c (orElseNat (spec.length.map Int.toNat) l)
  | .varBinary c l => .varBinary c (orElsePos spec.length l)
  | ty => ty

/-- The substitution for a type, which counts in the system schemas only (156-158). -/
def substitutedType (subs : Text → Option SqlType) (spec : TypeSpec) : Option SqlType :=
  if spec.schema = none ∨ spec.schema = some (t "pg_catalog") ∨ spec.schema = some (t "SYS") then subs spec.name else none

/-- `sql_data_type_from_spec` (143-200). -/
def typeFromSpec (subs : Text → Option SqlType) (spec : TypeSpec) : Except Err SqlType :=
  let found := match substitutedType subs spec with
    | some ty => some ty
    | none =>
      match spec.definition.bind typeFromDef with
      | some ty => some ty
      | none => typeFromName spec.name spec.schema
  match found with
  | some ty => .ok (refineType spec ty)
  | none => .error .type

/-- The substitutions of the explorers. -/
def Engine.discovered : Engine → Text → Option SqlType
  | .postgresql, n | .redshift, n =>
    if n = t "jsonb" then some (.json .postgresql)
    else if n = t "inet" then some (.user (.global (t "inet")))
    else none
  | .mysql, n =>
    if n = t "datetime" then some (.timestamp .mysql none false)
    else if n = t "varchar" then some (.varChar .mysql none)
    else if n = t "tinytext" then some (.varChar .mysql (some 255))
    else if n = t "text" then some (.varChar .mysql (some 65535))
    else if n = t "mediumtext" then some (.varChar .mysql (some 16777215))
    else if n = t "longtext" then some (.varChar .mysql (some 4294967295))
    else if n = t "varbinary" then some (.varBinary .mysql none)
    else if n = t "tinyblob" then some (.varBinary .mysql (some 255))
    else if n = t "blob" then some (.varBinary .mysql (some 65535))
    else if n = t "mediumblob" then some (.varBinary .mysql (some 16777215))
    else if n = t "longblob" then some (.varBinary .mysql (some 4294967295))
    else none
  | .mssql, n =>
    if n = t "bit" then some (.boolean .mssql)
    else if n = t "datetime" ∨ n = t "datetime2" then some (.timestamp .mssql (some 7) false)
    else if n = t "nvarchar" ∨ n = t "varchar" ∨ n = t "text" then some (.varChar .mssql none)
    else none
  | .oracle, n =>
    if n = t "BLOB" ∨ n = t "RAW" then some (.varBinary .oracle none)
    else if n = t "CLOB" ∨ n = t "LONG" ∨ n = t "VARCHAR2" then some (.varChar .oracle none)
    else if n = t "INTERVAL DAY" then some (.time .oracle none false)
    else if n = t "NUMBER" then some (.integer .oracle 8 true none none)
    else if n = t "TIMESTAMP" then some (.timestamp .oracle none false)
    else none
  | _, _ => none

end PySqlSync
