/-
Model of the stream with which rows are inserted in Redshift (pysqlsync/dialect/redshift/connection.py:148-168).

Simplifications.  Characters instead of their bytes in UTF-8 (the separators are ASCII).  The text `str(value)` of values other than `None`, truth values, integers, strings
and bytes is a parameter.
-/
import Verif.Model.Bind

set_option autoImplicit false

namespace PySqlSync

/-- A byte in `repr(bytes)`. -/
def byteRepr (quote : Char) (b : Nat) : Text :=
  if b = 9 then ['\\', 't']
  else if b = 10 then ['\\', 'n']
  else if b = 13 then ['\\', 'r']
  else if b = 92 then ['\\', '\\']
  else if b = quote.toNat then ['\\', quote]
  else if 32 ≤ b ∧ b < 127 then [Char.ofNat b]
  else ['\\', 'x', jsonHex (b / 16), jsonHex (b % 16)]

/-- `repr(bytes)`: in double quotes if there are single quotes but no double ones. -/
def bytesRepr (b : List Nat) : Text :=
  let quote : Char := if b.contains 39 && !b.contains 34 then '"' else '\''
  'b' :: quote :: (b.flatMap (byteRepr quote) ++ [quote])

/-- `str(value)`. -/
def PyVal.pyStr (other : PyVal → Text) : PyVal → Text
  | .none => t "None"
  | .bool true => t "True"
  | .bool false => t "False"
  | .int n => jsonInt n
  | .str s => s
  | .bytes b => bytesRepr b
  | v => other v

/-- `b"|".join(str(value).encode("utf-8") for value in record)` and the newline (157-160). -/
def copyLine (other : PyVal → Text) (record : List PyVal) : Text := joinWith ['|'] (record.map (PyVal.pyStr other)) ++ ['\n']

/-- The stream of `_insert_copy_stream` (157-161). -/
def copyStream (other : PyVal → Text) (records : List (List PyVal)) : Text := records.flatMap (copyLine other)

end PySqlSync
