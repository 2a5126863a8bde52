/-
Model of the text of the statements that insert, update and delete rows (which statements these are is in Model/Dml.lean).
-/
import Verif.Model.Dml
import Verif.Model.Engines
import Verif.Model.Render

set_option autoImplicit false

namespace PySqlSync

/-- Which implementation a generator has: postgresql/generator.py and mysql/generator.py override it, the others do not. -/
def Engine.writer : Engine → Writer
  | .postgresql => .postgresql
  | .mysql => .mysql
  | _ => .base

/-- `placeholder` (postgresql/generator.py:55-57, mysql/generator.py:68-70, mssql/generator.py:70-72, oracle/generator.py:84-86,
    redshift/generator.py:62-64, delta/generator.py:72-74, snowflake/generator.py:62-64, trino/generator.py:29-31). -/
def Engine.placeholder : Engine → Nat → Except Err Text
  | .postgresql, i => .ok (t "$" ++ natStr i)
  | .mysql, _ => .ok (t "%s")
  | .mssql, _ => .ok (t "?")
  | .oracle, i | .redshift, i | .delta, i | .snowflake, i => .ok (t ":" ++ natStr i)
  | .trino, _ => .error .notImplemented

/-- `self.placeholder(index) for index, _ in enumerate(columns, start=1)` (base.py:345-347, 359-361, postgresql/generator.py:67-69; MySQL writes
    `%s` for each column, mysql/generator.py:79, 92, 144). -/
def Engine.placeholders (e : Engine) (n : Nat) : Except Err (List Text) := (List.range n).mapM (fun i => e.placeholder (i + 1))

/-- `f"({column_list}) VALUES ({value_list})"` after the line with the table (base.py:341-348, postgresql/generator.py:64-70, mysql/generator.py:77-80). -/
def valuesText (table : QId) (cols : List Text) (phs : List Text) : Text :=
  t "INSERT INTO " ++ table.quoted ++ t "\n(" ++ idListText cols ++ t ") VALUES (" ++ joinWith (t ", ") phs ++ t ")"

/-- `f"target.{column.name} = source.{column.name}"` (base.py:367, 414). -/
def pairText (c : Text) : Text := t "target." ++ idText c ++ t " = source." ++ idText c

/-- The text of a statement; `phs` are the placeholders.  `always`: the clause for new rows is written even if there are no columns
    (`get_table_merge_stmt`, base.py:383-386, as opposed to `get_table_upsert_stmt`, 417). -/
def Dml.text (always : Bool) (phs : List Text) : Dml → Text
  /- base.py:341-350, postgresql/generator.py:63-72, mysql/generator.py:76-83 -/
  | .insert q cols => valuesText q cols phs ++ t "\n;"
  /- postgresql/generator.py:78-88 -/
  | .insertOrNothing q cols => valuesText q cols phs ++ t "\nON CONFLICT DO NOTHING\n;"
  /- postgresql/generator.py:94-103, 110-113 -/
  | .insertOrNothingOn q cols keys => valuesText q cols phs ++ t "\nON CONFLICT (" ++ idListText keys ++ t ") DO NOTHING\n;"
  /- postgresql/generator.py:94-109, 112-113 -/
  | .insertOrUpdateOn q cols keys updates =>
    valuesText q cols phs ++ t "\nON CONFLICT (" ++ idListText keys ++ t ") DO UPDATE SET\n" ++
      joinWith (t ",\n") (updates.map (fun c => idText c ++ t " = EXCLUDED." ++ idText c)) ++ t "\n;"
  /- mysql/generator.py:89-99 -/
  | .insertOrSelf q cols keys =>
    valuesText q cols phs ++ t "\nON DUPLICATE KEY UPDATE\n" ++ joinWith (t ",\n") (keys.map (fun c => idText c ++ t " = " ++ idText c)) ++ t "\n;"
  /- mysql/generator.py:105-117, 142-159 -/
  | .insertOrUpdate q cols updates =>
    valuesText q cols phs ++ t "\nON DUPLICATE KEY UPDATE\n" ++
      joinWith (t ",\n") (updates.map (fun c => idText c ++ t " = VALUES(" ++ idText c ++ t ")")) ++ t "\n;"
  /- base.py:352-372, 383-392, 407-426 -/
  | .merge q cols on updates inserts =>
    t "MERGE INTO " ++ q.quoted ++ t " target\nUSING (VALUES (" ++ joinWith (t ", ") phs ++ t ")) source(" ++ idListText cols ++ t ")" ++
      (if on = [] then [] else t "\nON (" ++ joinWith (t " OR ") (on.map pairText) ++ t ")") ++
      (if updates = [] then [] else t "\nWHEN MATCHED THEN\nUPDATE SET " ++ joinWith (t ", ") (updates.map pairText)) ++
      (if inserts = [] ∧ always = false then [] else
        t "\nWHEN NOT MATCHED THEN\nINSERT (" ++ idListText inserts ++ t ") VALUES (" ++
          joinWith (t ", ") (inserts.map (fun c => t "source." ++ idText c)) ++ t ")") ++ t "\n;"
  /- base.py:428-431 -/
  | .delete q key => t "DELETE FROM " ++ q.quoted ++ t " WHERE " ++ idText key ++ t " = " ++ joinWith (t ", ") phs

/-- The text of a statement with the placeholders of an engine. -/
def Dml.textFor (e : Engine) (always : Bool) (s : Dml) : Except Err Text := do
  return s.text always (← e.placeholders s.params.length)

/-- `get_table_insert_stmt` (base.py:332-350, postgresql/generator.py:59-72, mysql/generator.py:72-83). -/
def Engine.insertText (e : Engine) (tb : Table) (order : Option (List Text)) : Except Err Text := do (← insertStmt e.writer tb order).textFor e false
/-- `get_table_merge_stmt` (base.py:374-392, postgresql/generator.py:74-88, mysql/generator.py:85-99). -/
def Engine.mergeText (e : Engine) (tb : Table) (order : Option (List Text)) : Except Err Text := do (← mergeStmt e.writer tb order).textFor e true
/-- `get_table_upsert_stmt` (base.py:394-426, postgresql/generator.py:90-113, mysql/generator.py:101-117). -/
def Engine.upsertText (e : Engine) (tb : Table) (order : Option (List Text)) : Except Err Text := do (← upsertStmt e.writer tb order).textFor e false
/-- `get_table_delete_stmt` (base.py:428-431). -/
def Engine.deleteText (e : Engine) (tb : Table) : Except Err Text := do (← deleteStmt tb).textFor e false

end PySqlSync
