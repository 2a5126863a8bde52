/-
Specification (independent of pysqlsync): lexical rules of SQL that decide what a piece of emitted text means.

Sources: ISO/IEC 9075-2 §5.2-5.4 (delimited identifiers, character string literals: the delimiter inside is
written twice), §8.5 (LIKE); PostgreSQL 4.1.2.2 (C-style escapes E'...'); MySQL 11.1.1 (string literals with
backslash escapes, sql_mode without NO_BACKSLASH_ESCAPES); Databricks/Snowflake string literal rules.
-/
import Verif.Basic

namespace PySqlSync.Spec

/-- Contents of a quoted token whose opening delimiter `q` has been consumed: a doubled delimiter stands for
    one delimiter character, a single one ends the token.  Result: (contents, remaining text). -/
def readQuoted (q : Char) : Text → Option (Text × Text)
  | [] => none
  | c :: rest =>
    if c = q then
      match rest with
      | [] => some ([], [])
      | d :: rest' =>
        if d = q then (readQuoted q rest').map (fun p => (q :: p.1, p.2))
        else some ([], d :: rest')
    else (readQuoted q rest).map (fun p => (c :: p.1, p.2))

/-- A delimited identifier `"..."`. -/
def readIdent : Text → Option (Text × Text)
  | '"' :: rest => readQuoted '"' rest
  | _ => none

/-- A possibly schema-qualified delimited name: `"a"` or `"a"."b"`.  Result: (components, remaining text). -/
def readName (s : Text) : Option (List Text × Text) :=
  match readIdent s with
  | none => none
  | some (a, '.' :: rest) =>
    match readIdent rest with
    | some (b, rest') => some ([a, b], rest')
    | none => none
  | some (a, rest) => some ([a], rest)

/-- A standard character string literal `'...'` (backslash is an ordinary character). -/
def readString : Text → Option (Text × Text)
  | '\'' :: rest => readQuoted '\'' rest
  | _ => none

/-- A literal in a dialect with backslash escapes.  `esc c` is what `\c` denotes (`none`: not specified here).
    A doubled quote also denotes a quote. -/
def readEscaped (esc : Char → Option Text) : Text → Option (Text × Text)
  | [] => none
  | c :: rest =>
    if c = '\\' then
      match rest with
      | [] => none
      | d :: rest' =>
        match esc d with
        | none => none
        | some e => (readEscaped esc rest').map (fun p => (e ++ p.1, p.2))
    else if c = '\'' then
      match rest with
      | [] => some ([], [])
      | d :: rest' =>
        if d = '\'' then (readEscaped esc rest').map (fun p => ('\'' :: p.1, p.2))
        else some ([], d :: rest')
    else (readEscaped esc rest).map (fun p => (c :: p.1, p.2))

/-- MySQL: `\n`, `\t`, ... are control characters, `\%` and `\_` are left as two characters, any other escaped character is itself. -/
def mysqlEsc (c : Char) : Option Text :=
  if c = '0' then some ['\x00']
  else if c = 'b' then some ['\x08']
  else if c = 'n' then some ['\n']
  else if c = 'r' then some ['\r']
  else if c = 't' then some ['\t']
  else if c = 'Z' then some ['\x1a']
  else if c = '%' || c = '_' then some ['\\', c]
  else some [c]

/-- A MySQL string literal `'...'` under an sql_mode without NO_BACKSLASH_ESCAPES. -/
def readMySQL : Text → Option (Text × Text)
  | '\'' :: rest => readEscaped mysqlEsc rest
  | _ => none

/-- Every backslash of the text is followed by `%` or `_` (MySQL leaves `\%` and `\_` alone). -/
def NoActiveBackslash (s : Text) : Prop :=
  ∀ a b, s = a ++ '\\' :: b → b.head? = some '%' ∨ b.head? = some '_'

/-- PostgreSQL C-style escapes; octal, hexadecimal and Unicode escapes are not specified here. -/
def pgEsc (c : Char) : Option Text :=
  if c = 'b' then some ['\x08']
  else if c = 'f' then some ['\x0c']
  else if c = 'n' then some ['\n']
  else if c = 'r' then some ['\r']
  else if c = 't' then some ['\t']
  else if c.isDigit || c = 'x' || c = 'u' || c = 'U' then none
  else some [c]

/-- A PostgreSQL string literal: `'...'` (standard_conforming_strings on) or `E'...'`. -/
def readPostgres : Text → Option (Text × Text)
  | '\'' :: rest => readQuoted '\'' rest
  | 'E' :: '\'' :: rest => readEscaped pgEsc rest
  | _ => none

/-- An octal digit and its value. -/
def octDigit (c : Char) : Option Nat :=
  if '0' ≤ c ∧ c ≤ '7' then some (c.toNat - 48) else none

/-- The character denoted by three octal digits after a backslash, if the next three characters are such. -/
def octal3 : Text → Option Char
  | a :: b :: c :: _ =>
    match octDigit a, octDigit b, octDigit c with
    | some x, some y, some z => some (Char.ofNat (64 * x + 8 * y + z))
    | _, _, _ => none
  | _ => none

/-- As `readEscaped`, in a dialect where `\ooo` (three octal digits) also denotes a character.
    `n` characters are skipped first (the digits of an octal escape already read). -/
def readEscapedOct (esc : Char → Option Text) : Nat → Text → Option (Text × Text)
  | _, [] => none
  | n + 1, _ :: rest => readEscapedOct esc n rest
  | 0, c :: rest =>
    if c = '\\' then
      match octal3 rest with
      | some e => (readEscapedOct esc 3 rest).map (fun p => (e :: p.1, p.2))
      | none =>
        match rest with
        | [] => none
        | d :: rest' =>
          match esc d with
          | none => none
          | some e => (readEscapedOct esc 0 rest').map (fun p => (e ++ p.1, p.2))
    else if c = '\'' then
      match rest with
      | [] => some ([], [])
      | d :: rest' =>
        if d = '\'' then (readEscapedOct esc 0 rest').map (fun p => ('\'' :: p.1, p.2))
        else some ([], d :: rest')
    else (readEscapedOct esc 0 rest).map (fun p => (c :: p.1, p.2))

/-- Databricks (Spark) SQL escapes; Unicode escapes are not specified here. -/
def deltaEsc (c : Char) : Option Text :=
  if c = '0' then some ['\x00']
  else if c = 'b' then some ['\x08']
  else if c = 'n' then some ['\n']
  else if c = 'r' then some ['\r']
  else if c = 't' then some ['\t']
  else if c = 'Z' then some ['\x1a']
  else if c = '%' || c = '_' then some ['\\', c]
  else if c = 'u' || c = 'U' then none
  else some [c]

def readDelta : Text → Option (Text × Text)
  | '\'' :: rest => readEscapedOct deltaEsc 0 rest
  | _ => none

/-- Snowflake single-quoted string constants; hexadecimal and Unicode escapes are not specified here. -/
def snowflakeEsc (c : Char) : Option Text :=
  if c = '0' then some ['\x00']
  else if c = 'b' then some ['\x08']
  else if c = 'f' then some ['\x0c']
  else if c = 'n' then some ['\n']
  else if c = 'r' then some ['\r']
  else if c = 't' then some ['\t']
  else if c = 'x' || c = 'u' then none
  else some [c]

def readSnowflake : Text → Option (Text × Text)
  | '\'' :: rest => readEscapedOct snowflakeEsc 0 rest
  | _ => none

/-- An octal digit. -/
def isOct (c : Char) : Prop := (octDigit c).isSome = true

instance (c : Char) : Decidable (isOct c) := by unfold isOct; infer_instance

/-- No NUL character is followed by two octal digits. -/
def NoOctalNul (s : Text) : Prop := ∀ a x y b, s = a ++ '\x00' :: x :: y :: b → ¬ (isOct x ∧ isOct y)

/-- `LikeMatch e pattern subject`: the predicate `subject LIKE pattern ESCAPE e`.  `%` matches any sequence,
    `_` any one character, `e` makes the next pattern character literal, any other character matches itself. -/
inductive LikeMatch (e : Char) : Text → Text → Prop
  | nil : LikeMatch e [] []
  | lit (p : Char) (ps xs : Text) : p ≠ e → p ≠ '%' → p ≠ '_' →
      LikeMatch e ps xs → LikeMatch e (p :: ps) (p :: xs)
  | one (x : Char) (ps xs : Text) : '_' ≠ e → LikeMatch e ps xs → LikeMatch e ('_' :: ps) (x :: xs)
  | many (ps skipped xs : Text) : '%' ≠ e → LikeMatch e ps xs → LikeMatch e ('%' :: ps) (skipped ++ xs)
  | esc (q : Char) (ps xs : Text) : LikeMatch e ps xs → LikeMatch e (e :: q :: ps) (q :: xs)

end PySqlSync.Spec
