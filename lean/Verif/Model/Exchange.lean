/-
Model of pysqlsync/data/exchange.py.  A stream is a list of bytes.  The codec of the external library `tsv` is a parameter: how it
writes a record and how it parses a line; `tsvGenerate`/`tsvParse` model it for texts and NULL.
-/
import Verif.Model.Connect

set_option autoImplicit false

namespace PySqlSync

/-- `b"\n"` -/
def newline : Nat := 10
/-- `b"\t"` -/
def tabulator : Nat := 9

/-- `sep.join(items)` for bytes. -/
def joinBytes (sep : Nat) : List (List Nat) → List Nat
  | [] => []
  | [x] => x
  | x :: y :: rest => x ++ sep :: joinBytes sep (y :: rest)

/-- `items.split(sep)` for bytes. -/
def splitBytes (sep : Nat) : List Nat → List (List Nat)
  | [] => [[]]
  | b :: bs =>
    if b = sep then [] :: splitBytes sep bs
    else match splitBytes sep bs with
      | [] => [[b]]
      | p :: ps => (b :: p) :: ps

/-- `TextWriter.__init__` (exchange.py:43-72): the header. -/
def writeHeader (names : List Text) : List Nat := joinBytes tabulator (names.map encodeUtf8) ++ [newline]

/-- `TextWriter.write_objects` (exchange.py:74-81), for the tuples of the values of the objects. -/
def writeObjects {R : Type} (generate : R → List Nat) (records : List R) : List Nat :=
  records.flatMap (fun r => generate r ++ [newline])

/-- `stream.readline()`: up to and with the next newline, or all that is left; and the rest of the stream. -/
def readline : List Nat → List Nat × List Nat
  | [] => ([], [])
  | b :: bs => if b = newline then ([b], bs) else let r := readline bs; (b :: r.1, r.2)

/-- `line.rstrip(b"\n")`. -/
def rstripNewline (line : List Nat) : List Nat := (line.reverse.dropWhile (fun b => b = newline)).reverse

theorem readline_length (s : List Nat) : (readline s).2.length ≤ s.length ∧ (s ≠ [] → (readline s).2.length < s.length) := by
  induction s with
  | nil => simp [readline]
  | cons b bs ih =>
    unfold readline
    split
    · simp
    · simp only [List.length_cons]
      exact ⟨by omega, fun _ => by omega⟩

/-- `TextReader.read_records`, `TextReader.records` and their asynchronous counterparts (exchange.py:144-164, 203-226): lines are
    read until one is empty.  `parse` may refuse a line. -/
def readRecords {R : Type} (parse : List Nat → Except Err R) (stream : List Nat) : Except Err (List R) :=
  if rstripNewline (readline stream).1 = [] then .ok []
  else if h : stream = [] then .ok []
  else do
    let r ← parse (rstripNewline (readline stream).1)
    let rest ← readRecords parse (readline stream).2
    pure (r :: rest)
termination_by stream.length
decreasing_by exact (readline_length stream).2 h

/-- `TextReader.__init__` (exchange.py:124-140): the columns in the header, and the rest of the stream. -/
def readHeader (stream : List Nat) : List Text × List Nat :=
  ((splitBytes tabulator (rstripNewline (readline stream).1)).map decodeUtf8, (readline stream).2)

/-- The escape sequences of the library: NUL, backspace, tabulator, newline, vertical tabulator, form feed, carriage return and
    backslash. -/
def escapeByte (b : Nat) : List Nat :=
  if b = 0 then [92, 48] else if b = 8 then [92, 98] else if b = 9 then [92, 116] else if b = 10 then [92, 110]
  else if b = 11 then [92, 118] else if b = 12 then [92, 102] else if b = 13 then [92, 114] else if b = 92 then [92, 92]
  else [b]

/-- The character that follows a backslash, decoded. -/
def unescapeByte (b : Nat) : Except Err Nat :=
  if b = 48 then .ok 0 else if b = 98 then .ok 8 else if b = 116 then .ok 9 else if b = 110 then .ok 10
  else if b = 118 then .ok 11 else if b = 102 then .ok 12 else if b = 114 then .ok 13 else if b = 92 then .ok 92
  else .error .value

/-- Undoes `escapeByte`. -/
def unescapeBytes : List Nat → Except Err (List Nat)
  | [] => .ok []
  | [b] => if b = 92 then .error .value else .ok [b]
  | b :: c :: rest =>
    if b = 92 then do pure ((← unescapeByte c) :: (← unescapeBytes rest))
    else do pure (b :: (← unescapeBytes (c :: rest)))

/-- A value as the library writes it: NULL is `\N`. -/
def tsvField : Option Text → List Nat
  | none => [92, 78]
  | some s => (encodeUtf8 s).flatMap escapeByte

/-- `Generator.generate_line` for texts and NULL. -/
def tsvGenerate (record : List (Option Text)) : List Nat := joinBytes tabulator (record.map tsvField)

/-- A value as the library reads it. -/
def tsvValue (field : List Nat) : Except Err (Option Text) :=
  if field = [92, 78] then .ok none else do pure (some (decodeUtf8 (← unescapeBytes field)))

/-- `parse_line` for texts and NULL. -/
def tsvParse (line : List Nat) : Except Err (List (Option Text)) := (splitBytes tabulator line).mapM tsvValue

end PySqlSync
