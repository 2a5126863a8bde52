/-
  How a connection string is read (Microsoft ODBC, SQLDriverConnect): attributes `keyword=value` separated by semicolons; a value that begins with a brace ends at the closing brace, where `}}` stands for a brace; keywords are
  compared without case; the first of several attributes with the same keyword counts.
-/
import Verif.Model.Odbc

set_option autoImplicit false

namespace PySqlSync
namespace Spec

/-- A value up to the next semicolon, and what follows. -/
def odbcPlain : Text → Text × Text
  | [] => ([], [])
  | c :: s => if c = ';' then ([], s) else (c :: (odbcPlain s).1, (odbcPlain s).2)

/-- A value up to the closing brace, and what follows the semicolon after it. -/
def odbcBraced : Text → Option (Text × Text)
  | [] => none
  | c :: s =>
    if c = '}' then
      match s with
      | [] => some ([], [])
      | d :: s => if d = '}' then (odbcBraced s).map (fun r => ('}' :: r.1, r.2)) else if d = ';' then some ([], s) else none
    else (odbcBraced s).map (fun r => (c :: r.1, r.2))

/-- A value. -/
def odbcValue (s : Text) : Option (Text × Text) :=
  match s with
  | c :: r => if c = '{' then odbcBraced r else some (odbcPlain s)
  | [] => some ([], [])

/-- Attributes, at most so many. -/
def odbcAttrs : Nat → Text → Option (List (Text × Text))
  | _, [] => some []
  | 0, _ :: _ => none
  | n + 1, c :: s =>
    match (c :: s).dropWhile (fun x => x != '=') with
    | [] => none
    | _ :: r =>
      if c = '=' then none
      else match odbcValue r with
      | none => none
      | some (v, rest) => (odbcAttrs n rest).map (fun l => ((c :: s).takeWhile (fun x => x != '='), v) :: l)

/-- The attributes of a connection string. -/
def odbcRead (s : Text) : Option (List (Text × Text)) := odbcAttrs s.length s

/-- The value of an attribute: of the first one with this keyword. -/
def odbcGet (attrs : List (Text × Text)) (key : Text) : Option Text :=
  (attrs.find? (fun a => a.1.map Char.toLower == key.map Char.toLower)).map Prod.snd

/-- How SQL Server is addressed: the host, and the port after a comma. (A port without a host is of no use; the host is then called `None`.) -/
def odbcAddress (p : ConnParams) : Option Text :=
  match p.host, p.port with
  | some h, some n => some (h ++ [','] ++ natStr n)
  | some h, none => some h
  | none, some n => some (t "None" ++ [','] ++ natStr n)
  | none, none => none

/-- A value that may be written as it is. -/
def OdbcPlain (v : Text) : Prop := ';' ∉ v ∧ v.head? ≠ some '{'

/-- All values that are given may be written as they are. -/
def OdbcFits (p : ConnParams) : Prop := ∀ v, (p.host = some v ∨ p.username = some v ∨ p.password = some v ∨ p.database = some v) → OdbcPlain v

end Spec
end PySqlSync
