/-
Model of the statement splitting in oracle/connection.py:70-81 and redshift/connection.py:69-79.
-/
import Verif.Basic

namespace PySqlSync

/-- The characters of `rstrip("\r\n\t\v ;")`. -/
def isStripChar (c : Char) : Bool :=
  c = '\r' || c = '\n' || c = '\t' || c = '\x0b' || c = ' ' || c = ';'

/-- `str.rstrip(chars)`. -/
def rstripWith (p : Char → Bool) (s : Text) : Text := (s.reverse.dropWhile p).reverse

/-- `re.split(r";$", statement, flags=re.MULTILINE)`: cuts at each semicolon that is followed by a newline or by
    the end of the text; the semicolon is removed, the newline stays at the start of the next piece. -/
def splitLineEnd : Text → List Text
  | [] => [[]]
  | c :: rest =>
    if c = ';' ∧ (rest = [] ∨ rest.head? = some '\n') then [] :: splitLineEnd rest
    else match splitLineEnd rest with
      | [] => [[c]]
      | p :: ps => (c :: p) :: ps

/-- redshift/connection.py:74-77: the texts passed to `cursor.execute`, one by one. -/
def redshiftPieces (script : Text) : List Text := splitLineEnd (rstripWith isStripChar script)

/-- oracle/connection.py:73-79: a script that starts with `BEGIN` is executed as it is. -/
def oraclePieces (script : Text) : List Text :=
  if (t "BEGIN").isPrefixOf script then [script] else redshiftPieces script

end PySqlSync
