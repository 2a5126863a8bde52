/-
Specification for C55: how `COPY ... FROM STDIN` of Redshift reads its stream without options.
-/
import Verif.Model.Copy

set_option autoImplicit false

namespace PySqlSync.Spec

/-- The pieces of a text between separators. -/
def pieces (sep : Char) : Text → List Text
  | [] => [[]]
  | c :: rest =>
    if c = sep then [] :: pieces sep rest
    else match pieces sep rest with
      | [] => [[c]]
      | p :: ps => (c :: p) :: ps

/-- A field: `\N` is NULL (`NULL AS '\N'`); without `ESCAPE` a backslash is an ordinary character. -/
def copyField (s : Text) : Option Text := if s = ['\\', 'N'] then none else some s

/-- The lines; the text after the last newline is one, too, unless it is empty. -/
def copyLines (s : Text) : List Text :=
  match (pieces '\n' s).reverse with
  | [] :: rest => rest.reverse
  | ls => ls.reverse

/-- The rows: each line has the fields of a row, separated by `|`. -/
def copyRows (s : Text) : List (List (Option Text)) := (copyLines s).map (fun l => (pieces '|' l).map copyField)

/-- `None`, truth values, integers and strings. -/
def PlainValue : PyVal → Prop
  | .none | .bool _ | .int _ | .str _ => True
  | _ => False

/-- The field that the column needs to get: NULL for `None`, the characters of a string, the decimal digits of an integer, a word for a truth value. -/
def needed : PyVal → Option Text
  | .none => none
  | .bool b => some (if b then t "True" else t "False")
  | .int n => some (jsonInt n)
  | .str s => some s
  | _ => none

/-- Text for bytes in `COPY` (`VARBYTE` is read as hexadecimal digits by default). -/
def IsHex (s : Text) : Prop := ∀ c ∈ s, ('0' ≤ c ∧ c ≤ '9') ∨ ('a' ≤ c ∧ c ≤ 'f') ∨ ('A' ≤ c ∧ c ≤ 'F')

end PySqlSync.Spec
