/-
Specification for C48: which strings, points in time, decimal and floating-point numbers a column holds, by the name of its data type.
The limits are those of the manuals of the engines (trusted).
-/
import Verif.Model.Engines

set_option autoImplicit false

namespace PySqlSync.Spec

/-! ### Names of types with parameters -/

/-- The numbers that occur in a text, in decimal notation; `acc` is what has been read of a number. -/
def numbersFrom : Option Nat → Text → List Nat
  | none, [] => []
  | some n, [] => [n]
  | none, c :: rest => if c.isDigit then numbersFrom (some (c.toNat - 48)) rest else numbersFrom none rest
  | some n, c :: rest => if c.isDigit then numbersFrom (some (10 * n + (c.toNat - 48))) rest else n :: numbersFrom none rest
/-- The parameters of a type: the numbers that follow the parenthesis. -/
def typeParams (name : Text) : List Nat := numbersFrom none (name.dropWhile (· ≠ '('))
/-- The name of a type up to the parenthesis. -/
def typeBase (name : Text) : Text := name.takeWhile (· ≠ '(')

/-! ### Strings -/

/-- The greatest number of characters and of bytes (in UTF-8). -/
structure TextLimit where
  chars : Option Nat := none
  bytes : Option Nat := none

/-- The number of bytes of a string in UTF-8. -/
def utf8Length (s : Text) : Nat := (s.map Char.utf8Size).sum

def limitBy (cond : Bool) (l : TextLimit) : Option TextLimit := if cond then some l else none

/-- The capacity of a character column; `none` if the engine has no such type.
    PostgreSQL: `varchar(n)` counts characters, n ≤ 10485760, `text` holds 1 GB.  Redshift: `varchar(n)` counts bytes, n ≤ 65535, and `text` is `varchar(256)`.
    MySQL (utf8mb4): `varchar(n)` counts characters, a row has at most 65535 bytes; `mediumtext` and `longtext` count bytes.  Oracle: `varchar2(n)` counts
    bytes by default, n ≤ 4000; a `clob` has no limit of interest.  SQL Server: `varchar(n)` counts bytes, n ≤ 8000 (here with a UTF-8 collation; with others,
    characters outside of the code page are lost).  Delta: `string` has no limit.  Snowflake: `varchar(n)` counts characters, but has at most 16777216 bytes, and
    so has `text`.  Trino has `varchar(n)`, n ≤ 2147483646, but no `text`. -/
def textLimit (e : Engine) (name : Text) : Option TextLimit :=
  match e, typeBase name, typeParams name with
  | .postgresql, base, [n] => limitBy (base = t "varchar" && 1 ≤ n && n ≤ 10485760) { chars := some n }
  | .postgresql, base, [] => limitBy (base = t "text") { bytes := some (2 ^ 30 - 1) }
  | .redshift, base, [n] => limitBy (base = t "varchar" && 1 ≤ n && n ≤ 65535) { bytes := some n }
  | .redshift, base, [] => limitBy (base = t "text") { bytes := some 256 }
  | .mysql, base, [n] => limitBy (base = t "varchar" && n ≤ 16383) { chars := some n }
  | .mysql, base, [] => if base = t "mediumtext" then some { bytes := some 16777215 } else limitBy (base = t "longtext") { bytes := some 4294967295 }
  | .oracle, base, [n] => limitBy (base = t "varchar2" && 1 ≤ n && n ≤ 4000) { bytes := some n }
  | .oracle, base, [] => limitBy (base = t "clob") {}
  | .mssql, base, [n] => limitBy (base = t "varchar" && 1 ≤ n && n ≤ 8000) { bytes := some n }
  | .mssql, _, [] => limitBy (name = t "varchar(max)") { bytes := some (2 ^ 31 - 1) }
  | .delta, base, [] => limitBy (base = t "string") {}
  | .snowflake, base, [n] => limitBy (base = t "varchar" && 1 ≤ n && n ≤ 16777216) { chars := some n, bytes := some 16777216 }
  | .snowflake, base, [] => limitBy (base = t "text") { bytes := some 16777216 }
  | .trino, base, [n] => limitBy (base = t "varchar" && n ≤ 2147483646) { chars := some n }
  | _, _, _ => none

/-- A column with this type holds this string. -/
def HoldsText (e : Engine) (ty : SqlType) (s : Text) : Prop :=
  ∃ name l, ty.str = .ok name ∧ textLimit e name = some l ∧ (∀ n, l.chars = some n → s.length ≤ n) ∧ (∀ n, l.bytes = some n → utf8Length s ≤ n)

/-! ### Time -/

/-- The number of decimal digits of the seconds that a column keeps; `none` if the engine has no such type.
    By default: PostgreSQL and Redshift 6; MySQL 0; Oracle 6 (also for `interval day to second`); SQL Server 7; Snowflake 9; Delta 6, which has no `time`; Trino 3.
    Declared: up to 6 in PostgreSQL and MySQL, up to 9 in Oracle and Snowflake, 7 in SQL Server, 12 in Trino; Redshift does not accept a precision. -/
def timeDigits (e : Engine) (name : Text) : Option Nat :=
  match e, typeBase name, typeParams name with
  | .postgresql, base, [] => if base = t "timestamp" ∨ base = t "time" then some 6 else none
  | .postgresql, base, [n] => if (base = t "timestamp" ∨ base = t "time") ∧ n ≤ 6 then some n else none
  | .redshift, base, [] => if base = t "timestamp" ∨ base = t "time" then some 6 else none
  | .mysql, base, [] => if base = t "datetime" ∨ base = t "time" then some 0 else none
  | .mysql, base, [n] => if (base = t "datetime" ∨ base = t "time") ∧ n ≤ 6 then some n else none
  | .oracle, base, [] => if base = t "timestamp" ∨ base = t "interval day to second" then some 6 else none
  | .oracle, base, [n] => if base = t "timestamp" ∧ n ≤ 9 then some n else none
  | .mssql, base, [] => if base = t "datetime2" ∨ base = t "time" then some 7 else none
  | .mssql, base, [n] => if (base = t "datetime2" ∨ base = t "time") ∧ n ≤ 7 then some n else none
  | .snowflake, base, [] => if base = t "datetime" ∨ base = t "time" then some 9 else none
  | .snowflake, base, [n] => if (base = t "datetime" ∨ base = t "time") ∧ n ≤ 9 then some n else none
  | .delta, base, [] => if base = t "timestamp_ntz" then some 6 else none
  | .trino, base, [] => if base = t "timestamp" ∨ base = t "time" then some 3 else none
  | .trino, base, [n] => if (base = t "timestamp" ∨ base = t "time") ∧ n ≤ 12 then some n else none
  | _, _, _ => none

/-- A column with this type keeps a fraction of a second exactly, given in microseconds (as in Python). -/
def KeepsMicroseconds (e : Engine) (ty : SqlType) (micros : Nat) : Prop :=
  ∃ name digits, ty.str = .ok name ∧ timeDigits e name = some digits ∧ (micros * 10 ^ digits) % 10 ^ 6 = 0

/-! ### Decimal numbers -/

/-- The number of digits and of digits after the decimal point of a column; unlimited for PostgreSQL without parameters. -/
inductive DecimalShape where
  | unlimited
  | fixed (precision scale : Nat)

/-- By default: 10 digits in MySQL and Delta, 18 in SQL Server and Redshift, 38 in Oracle, Snowflake and Trino, none after the point.  At most 65 digits, 30 after
    the point, in MySQL; 1000 in PostgreSQL; 38 elsewhere (after the point 37 in Redshift and Snowflake). -/
def decimalShape (e : Engine) (name : Text) : Option DecimalShape :=
  if typeBase name = t "decimal" then
    match typeParams name with
    | [] => match e with
      | .postgresql => some .unlimited
      | .mysql | .delta => some (.fixed 10 0)
      | .mssql | .redshift => some (.fixed 18 0)
      | .oracle | .snowflake | .trino => some (.fixed 38 0)
    | [p, s] =>
      let ok : Bool := 1 ≤ p && s ≤ p && match e with
        | .postgresql => p ≤ 1000
        | .mysql => p ≤ 65 && s ≤ 30
        | .redshift | .snowflake => p ≤ 38 && s ≤ 37
        | _ => p ≤ 38
      if ok then some (.fixed p s) else none
    | _ => none
  else none

/-- A column with this type holds the number `m / 10 ^ k` exactly. -/
def HoldsDecimal (e : Engine) (ty : SqlType) (m : Int) (k : Nat) : Prop :=
  ∃ name shape, ty.str = .ok name ∧ decimalShape e name = some shape ∧
    match shape with
    | .unlimited => True
    | .fixed p s => ∃ n : Int, n * 10 ^ k = m * 10 ^ s ∧ n.natAbs < 10 ^ p

/-! ### Floating-point numbers -/

/-- The number of binary digits of the significand of a column.
    `float(p)` has 24 if p ≤ 24, otherwise 53 (PostgreSQL, Redshift, MySQL, SQL Server); in Oracle it has p, at most 126; Snowflake ignores p.
    `real` has 24, except for MySQL and Snowflake (53) and Oracle (63); `double precision` has 53, in Oracle 126.  Delta: `float` and `double`. -/
def floatBits (e : Engine) (name : Text) : Option Nat :=
  match e, typeParams name with
  | .delta, [] => if name = t "float" then some 24 else if name = t "double" then some 53 else none
  | .oracle, [] => if name = t "real" then some 63 else if name = t "double precision" then some 126 else none
  | .oracle, [p] => if typeBase name = t "float" ∧ 1 ≤ p ∧ p ≤ 126 then some p else none
  | .trino, [] => if name = t "real" then some 24 else if name = t "double precision" then some 53 else none
  | .trino, _ => none
  | .snowflake, [_] => if typeBase name = t "float" then some 53 else none
  | .mysql, [] | .snowflake, [] => if name = t "real" ∨ name = t "double precision" then some 53 else none
  | _, [] => if name = t "real" then some 24 else if name = t "double precision" then some 53 else none
  | .delta, _ => none
  | _, [p] => if typeBase name = t "float" ∧ 1 ≤ p ∧ p ≤ 53 then some (if p ≤ 24 then 24 else 53) else none
  | _, _ => none

/-- An integer is represented exactly with this number of binary digits (any exponent). -/
def Representable (bits : Nat) (n : Nat) : Prop := ∃ m k, n = m * 2 ^ k ∧ m < 2 ^ bits

/-- A column with this type holds this natural number exactly. -/
def HoldsFloat (e : Engine) (ty : SqlType) (n : Nat) : Prop :=
  ∃ name bits, ty.str = .ok name ∧ floatBits e name = some bits ∧ Representable bits n

/-! ### Declarations -/

def Meta.length? : Meta → Option Nat
  | .maxLength n => some n
  | _ => none
def Meta.timeDigits? : Meta → Option Nat
  | .timePrecision n => some n
  | _ => none
def Meta.precision? : Meta → Option (Nat × Nat)
  | .precision a b => some (a, b)
  | _ => none

/-- The declared greatest length of a string: the last `MaxLength` counts. -/
def declaredLength (ms : List Meta) : Option Nat := ms.reverse.findSome? Meta.length?
/-- The declared number of digits of the seconds: the last `TimePrecision` counts. -/
def declaredDigits (ms : List Meta) : Option Nat := ms.reverse.findSome? Meta.timeDigits?
/-- The declared number of digits in total and after the point: the last `Precision` counts. -/
def declaredPrecision (ms : List Meta) : Option (Nat × Nat) := ms.reverse.findSome? Meta.precision?

/-- Annotations that apply to strings, to points in time, to numbers. -/
def TextMeta : Meta → Prop
  | .maxLength _ | .skipped => True
  | _ => False
def TimeMeta : Meta → Prop
  | .timePrecision _ | .skipped => True
  | _ => False
def NumberMeta : Meta → Prop
  | .precision .. | .skipped => True
  | _ => False

/-- Engines whose columns for strings of at most `n` characters hold all of them. -/
def LongEnough (e : Engine) (n : Nat) : Prop :=
  match e with
  | .postgresql => n ≤ 10485760
  | .mysql => n ≤ 16383 ∨ (65536 ≤ n ∧ n ≤ 4194303) ∨ (16777216 ≤ n ∧ n ≤ 1073741823)
  | .oracle => 4000 < n
  | .delta => True
  | .snowflake => n ≤ 4194304
  | .trino => n ≤ 2147483646
  | .redshift | .mssql => False

/-- Engines whose columns for strings of at most `n` characters hold all those of one byte per character. -/
def LongEnoughAscii (e : Engine) (n : Nat) : Prop :=
  match e with
  | .postgresql => n ≤ 10485760
  | .redshift => n ≤ 65535
  | .mysql => n ≤ 16383 ∨ (65536 ≤ n ∧ n ≤ 4294967295)
  | .oracle | .delta => True
  | .mssql => n ≤ 8000 ∨ n = 2147483647
  | .snowflake => n ≤ 16777216
  | .trino => n ≤ 2147483646

end PySqlSync.Spec
