/-
Model of the text of the statements: how the functions of pysqlsync/formation/object_types.py, pysqlsync/formation/mutation.py and
of the dialects' object_types.py and mutation.py write the statements of Spec/Stmt.lean (which statements are written is in
Model/Objects.lean and Model/Mutation.lean).

The f-strings of the code are transcribed piece by piece.  Writing a data type may raise an exception (`SqlType.str`).
-/
import Verif.Model.Objects

set_option autoImplicit false

namespace PySqlSync

/-- `str(LocalId(name))` (id_types.py:94-97). -/
def idText (name : Text) : Text := (LocalId.mk name).quoted

/-- `", ".join(str(column) for column in columns)` (object_types.py:291, 321-322, 541, 610). -/
def idListText (names : List Text) : Text := joinWith (t ", ") (names.map idText)

/-- A comment as a literal: postgresql/object_types.py:26-32, mysql/object_types.py:36 and 74 (`quote`), delta/object_types.py:22-25,
    snowflake/object_types.py:23-28.  The other dialects write no comments. -/
def commentLiteral (d : Dialect) (s : Text) : Text :=
  match d with
  | .postgresql => pgQuotedString s
  | .delta => deltaQuotedString s
  | .snowflake => snowflakeQuotedString s
  | _ => quote s

/-- `" NOT NULL" if ... else ""` -/
def notNullText (b : Bool) : Text := if b then t " NOT NULL" else []

/-- `f" DEFAULT {...}" if self.default is not None else ""` (object_types.py:212, mysql/object_types.py:53, oracle/object_types.py:26,
    snowflake/object_types.py:68); mssql/object_types.py:26-30 names the constraint. -/
def defaultText (s : ColSpec) : Text :=
  match s.default with
  | none => []
  | some e =>
    match s.defaultName with
    | some n => t " CONSTRAINT " ++ idText n ++ t " DEFAULT " ++ e
    | none => t " DEFAULT " ++ e

/-- object_types.py:213, mysql/object_types.py:54, oracle/object_types.py:28, mssql/object_types.py:31, delta/object_types.py:50,
    snowflake/object_types.py:69. -/
def identityText (d : Dialect) (b : Bool) : Text :=
  if b then
    match d with
    | .mysql => t " AUTO_INCREMENT"
    | .mssql | .snowflake => t " IDENTITY"
    | _ => t " GENERATED BY DEFAULT AS IDENTITY"
  else []

/-- `f" COMMENT {self.comment}" if self.description is not None else ""` (mysql/object_types.py:55, delta/object_types.py:51,
    snowflake/object_types.py:70). -/
def specCommentText (d : Dialect) (s : ColSpec) : Text :=
  match s.comment with
  | some c => t " COMMENT " ++ commentLiteral d c
  | none => []

/-- mysql/object_types.py:47-51. -/
def charsetText (d : Dialect) (ty : SqlType) : Text :=
  if d == .mysql && ty.isEnum then t " CHARACTER SET ascii COLLATE ascii_bin" else []

/-- Oracle writes the default first (oracle/object_types.py:29). -/
def nullAndDefaultText (d : Dialect) (s : ColSpec) : Text :=
  match d with
  | .oracle => defaultText s ++ notNullText s.notNull
  | _ => notNullText s.notNull ++ defaultText s

/-- `data_spec`: object_types.py:209-214; mysql/object_types.py:45-56; oracle/object_types.py:24-29; mssql/object_types.py:22-32;
    delta/object_types.py:47-56; snowflake/object_types.py:65-71. -/
def ColSpec.text (d : Dialect) (s : ColSpec) : Except Err Text := do
  let ty ← s.ty.str
  return ty ++ charsetText d s.ty ++ nullAndDefaultText d s ++ identityText d s.identity ++ specCommentText d s

/-- `f"{self.name} {self.data_spec}"` (object_types.py:205-207). -/
def columnText (d : Dialect) (name : Text) (s : ColSpec) : Except Err Text := do
  return idText name ++ t " " ++ (← s.text d)

/-- `Constraint.spec` (object_types.py:289-292, 320-323, 356-358). -/
def ConSpec.text (name : Text) : ConSpec → Text
  | .unique cols => idText name ++ t " UNIQUE (" ++ idListText cols ++ t ")"
  | .foreign cols table refCols =>
    idText name ++ t " FOREIGN KEY (" ++ idListText cols ++ t ") REFERENCES " ++ table.quoted ++ t " (" ++ idListText refCols ++ t ")"
  | .check cond => idText name ++ t " CHECK (" ++ cond ++ t ")"

/-- The list `changes` of oracle/mutation.py:17-34. -/
def modifyParts (ty : Option Text) (def_ : Option (Option Text)) (nullable identity : Option Bool) : List Text :=
  ty.toList ++
    (match def_ with
     | some (some e) => [t "DEFAULT " ++ e]
     | some none => [t "DEFAULT NULL"]
     | none => []) ++
    (match nullable with
     | some true => [t "NULL"]
     | some false => [t "NOT NULL"]
     | none => []) ++
    (match identity with
     | some true => [t "GENERATED BY DEFAULT AS IDENTITY"]
     | some false => [t "DROP IDENTITY"]
     | none => [])

/-- `str` of an optional data type. -/
def optType : Option SqlType → Except Err (Option Text)
  | some ty => do return some (← ty.str)
  | none => .ok none

/-- The text of one item of the list given to `alter_table_stmt`. -/
def Action.text (d : Dialect) : Action → Except Err Text
  /- object_types.py:216-219, mssql/object_types.py:34-36 -/
  | .addColumn n s => do
    return (if d == .mssql then t "ADD " else t "ADD COLUMN ") ++ (← columnText d n s)
  /- object_types.py:221-224, 231-234, mssql/object_types.py:44 -/
  | .dropColumn n => .ok (t "DROP COLUMN " ++ idText n)
  /- mssql/object_types.py:40-42 -/
  | .dropDefaultAndColumn con n => .ok (t "DROP CONSTRAINT " ++ idText con ++ t ", COLUMN " ++ idText n)
  /- object_types.py:236-237, mysql/object_types.py:78-79 -/
  | .renameColumn old new s =>
    match d with
    | .mysql => do return t "CHANGE " ++ idText old ++ t " " ++ idText new ++ t " " ++ (← s.text d)
    | _ => .ok (t "RENAME COLUMN " ++ idText old ++ t " TO " ++ idText new)
  /- mutation.py:132-159 -/
  | .setDataType n ty => do return t "ALTER COLUMN " ++ idText n ++ t " SET DATA TYPE " ++ (← ty.str)
  | .setNotNull n => .ok (t "ALTER COLUMN " ++ idText n ++ t " SET NOT NULL")
  | .dropNotNull n => .ok (t "ALTER COLUMN " ++ idText n ++ t " DROP NOT NULL")
  | .setDefault n e => .ok (t "ALTER COLUMN " ++ idText n ++ t " SET DEFAULT " ++ e)
  | .dropDefault n => .ok (t "ALTER COLUMN " ++ idText n ++ t " DROP DEFAULT")
  | .addIdentity n => .ok (t "ALTER COLUMN " ++ idText n ++ t " ADD GENERATED BY DEFAULT AS IDENTITY")
  | .dropIdentity n => .ok (t "ALTER COLUMN " ++ idText n ++ t " DROP IDENTITY")
  /- mysql/mutation.py:82 -/
  | .redefine n s => do return t "MODIFY COLUMN " ++ (← columnText d n s)
  /- oracle/mutation.py:36-37 -/
  | .modify n ty def_ nullable identity => do
    return t "MODIFY " ++ idText n ++ t " " ++ joinWith (t " ") (modifyParts (← optType ty) def_ nullable identity)
  /- mssql/mutation.py:25-26 -/
  | .retype n ty notNull => do return t "ALTER COLUMN " ++ idText n ++ t " " ++ (← ty.str) ++ notNullText notNull
  /- mssql/mutation.py:46-48 -/
  | .addDefault con e n => .ok (t "ADD CONSTRAINT " ++ idText con ++ t " DEFAULT " ++ e ++ t " FOR " ++ idText n)
  /- mutation.py:251-256, object_types.py:562-564 -/
  | .addConstraint n s => .ok (t "ADD CONSTRAINT " ++ s.text n)
  /- mutation.py:236-240, mssql/mutation.py:44, object_types.py:572-574 -/
  | .dropConstraint n => .ok (t "DROP CONSTRAINT " ++ idText n)

/-- The text of one item of the list in `mutate_struct_stmt` (mutation.py:85-98). -/
def AttrAction.text : AttrAction → Except Err Text
  | .drop n => .ok (t "DROP ATTRIBUTE " ++ idText n)
  | .setDataType n ty => do return t "ALTER ATTRIBUTE " ++ idText n ++ t " SET DATA TYPE " ++ (← ty.str)
  | .add n ty => do return t "ADD ATTRIBUTE " ++ idText n ++ t " " ++ (← ty.str)

/-- The constraint an action adds, and the one an action drops. -/
def Action.added : Action → Option (Text × ConSpec)
  | .addConstraint n s => some (n, s)
  | _ => none
def Action.dropped : Action → Option Text
  | .dropConstraint n => some n
  | _ => none

/-- Several actions in one statement.
    `alter_table_stmt` (object_types.py:557-558; oracle/object_types.py:33-36 and mssql/object_types.py:48-51 write one statement for each item,
    which is accounted for in Model/Objects.lean), and `add_constraints_stmt`/`drop_constraints_stmt` (object_types.py:560-578,
    mssql/object_types.py:53-72).
    Simplification: these differ in white space when there is just one action (a line break before the semicolon or after `ADD`, `DROP`); the
    text here is that of `alter_table_stmt` then. -/
def alterText (d : Dialect) (name : QId) (actions : List Action) : Except Err Text :=
  match d, actions with
  | .mssql, [a] => do return t "ALTER TABLE " ++ name.quoted ++ t " " ++ (← a.text d) ++ t ";"
  | .oracle, [a] => do return t "ALTER TABLE " ++ name.quoted ++ t " " ++ (← a.text d) ++ t ";"
  /- not written by the code -/
  | .mssql, [] => .error .notImplemented
  | .mssql, _ =>
    match actions.mapM Action.added, actions.mapM Action.dropped with
    | some cons, _ =>
      .ok (t "ALTER TABLE " ++ name.quoted ++ t " ADD\n" ++ joinWith (t ",\n") (cons.map (fun c => t "CONSTRAINT " ++ c.2.text c.1)) ++ t ";")
    | none, some names =>
      .ok (t "ALTER TABLE " ++ name.quoted ++ t " DROP\n" ++ joinWith (t ",\n") (names.map (fun n => t "CONSTRAINT " ++ idText n)) ++ t "\n;")
    /- not written by the code -/
    | none, none => .error .notImplemented
  | _, _ => do
    let parts ← actions.mapM (Action.text d)
    let ending := if (actions.mapM Action.dropped).isSome && 1 < actions.length then t "\n;" else t ";"
    return t "ALTER TABLE " ++ name.quoted ++ t "\n" ++ joinWith (t ",\n") parts ++ ending

/-- `CREATE TABLE` (object_types.py:540-549; mysql/object_types.py:34-40, delta/object_types.py:34-39, snowflake/object_types.py:37-42). -/
def tableCommentText (d : Dialect) : Option Text → Text
  | none => []
  | some c =>
    match d with
    | .delta => t "\nCOMMENT " ++ commentLiteral d c
    | _ => t "\nCOMMENT = " ++ commentLiteral d c

/-- `NULL` or the comment as a literal. -/
def commentOrNull (d : Dialect) : Option Text → Text
  | some c => commentLiteral d c
  | none => t "NULL"

/-- `", ".join(f"({quote(v)})" for v in values)` (mutation.py:57, postgresql/mutation.py:35, mysql/mutation.py:25). -/
def labelRowsText (labels : List Text) : Text := joinWith (t ", ") (labels.map (fun v => t "(" ++ quote v ++ t ")"))

/-- object_types.py:138-139 `StructMember.__str__`. -/
def memberText (m : Text × SqlType) : Except Err Text := do return idText m.1 ++ t " " ++ (← m.2.str)

/-- The text of a statement. -/
def Stmt.text (d : Dialect) : Stmt → Except Err Text
  /- object_types.py:692, postgresql/object_types.py:82, delta/object_types.py:69, mssql/object_types.py:79-85 -/
  | .createSchema n ifNotExists =>
    match d with
    | .mssql => .ok (mssqlCreateSchema n)
    | _ => .ok (t "CREATE SCHEMA " ++ (if ifNotExists then t "IF NOT EXISTS " else []) ++ idText n ++ t ";")
  /- object_types.py:698, postgresql/object_types.py:88, delta/object_types.py:75 -/
  | .dropSchema n cascade =>
    .ok (if cascade then t "DROP SCHEMA IF EXISTS " ++ idText n ++ t " CASCADE;" else t "DROP SCHEMA " ++ idText n ++ t ";")
  /- object_types.py:99-101 -/
  | .createEnum q vs => .ok (t "CREATE TYPE " ++ q.quoted ++ t " AS ENUM (" ++ joinWith (t ", ") (vs.map quote) ++ t ");")
  /- object_types.py:171-173 -/
  | .createStruct q attrs => do
    let ms ← attrs.mapM memberText
    return t "CREATE TYPE " ++ q.quoted ++ t " AS (\n" ++ joinWith (t ",\n") ms ++ t "\n);"
  /- object_types.py:540-549, mysql/object_types.py:26-40, delta/object_types.py:29-39, snowflake/object_types.py:32-42 -/
  | .createTable q cols keyName pk comment => do
    let defs ← cols.mapM (fun c => columnText d c.1 c.2)
    let key := t "CONSTRAINT " ++ idText keyName ++ t " PRIMARY KEY (" ++ idListText pk ++ t ")"
    return t "CREATE TABLE " ++ q.quoted ++ t " (\n" ++ joinWith (t ",\n") (defs ++ [key]) ++ t "\n)" ++ tableCommentText d comment ++ t ";"
  | .alterTable q actions => alterText d q actions
  /- mutation.py:73-76 -/
  | .addValue q v => .ok (t "ALTER TYPE " ++ q.quoted ++ t " ADD VALUE " ++ quote v ++ t ";")
  /- mutation.py:99-100 -/
  | .alterStruct q actions => do
    let parts ← actions.mapM AttrAction.text
    return t "ALTER TYPE " ++ q.quoted ++ t "\n" ++ joinWith (t ",\n") parts ++ t ";\n"
  /- object_types.py:116-117 -/
  | .renameType q new => .ok (t "ALTER TYPE " ++ q.quoted ++ t " RENAME TO " ++ idText new ++ t ";")
  /- object_types.py:103-104, 114, 175-176 -/
  | .dropType q => .ok (t "DROP TYPE " ++ q.quoted ++ t ";")
  /- object_types.py:551-552 -/
  | .dropTable q => .ok (t "DROP TABLE " ++ q.quoted ++ t ";")
  /- postgresql/object_types.py:43, postgresql/mutation.py:72-79; mysql/mutation.py:54-65 -/
  | .commentTable q c =>
    match d with
    | .mysql => .ok (t "ALTER TABLE " ++ q.quoted ++ t " COMMENT = " ++ commentOrNull d c ++ t ";")
    | _ => .ok (t "COMMENT ON TABLE " ++ q.quoted ++ t " IS " ++ commentOrNull d c ++ t ";")
  /- postgresql/object_types.py:68, postgresql/mutation.py:89-96 -/
  | .commentType q c => .ok (t "COMMENT ON TYPE " ++ q.quoted ++ t " IS " ++ commentOrNull d c ++ t ";")
  /- postgresql/object_types.py:48, 73, postgresql/mutation.py:61-70 -/
  | .commentColumn q col c => .ok (t "COMMENT ON COLUMN " ++ q.quoted ++ t "." ++ idText col ++ t " IS " ++ commentOrNull d c ++ t ";")
  /- object_types.py:610-621 -/
  | .insertRows q cols rows =>
    .ok (t "INSERT INTO " ++ q.quoted ++ t " (" ++ idListText cols ++ t ") VALUES " ++ joinWith (t ", ") rows ++ t ";")
  /- mutation.py:56-58; postgresql/mutation.py:34-36; mysql/mutation.py:25-29 -/
  | .insertLabels q labels ignore =>
    .ok (t "INSERT INTO " ++ q.quoted ++ t " (\"value\") VALUES " ++ labelRowsText labels ++
      (if ignore then
        match d with
        | .mysql => t "\nON DUPLICATE KEY UPDATE \"value\" = \"value\""
        | _ => t " ON CONFLICT (\"value\") DO NOTHING"
       else []) ++ t ";")
  /- mysql/mutation.py:31-33 -/
  | .insertDistinct q col data =>
    .ok (t "INSERT INTO " ++ q.quoted ++ t " (\"value\") SELECT DISTINCT " ++ idText col ++ t " FROM " ++ data.quoted
      ++ t "\nON DUPLICATE KEY UPDATE \"value\" = \"value\";")
  /- postgresql/mutation.py:42-47; mysql/mutation.py:35-39 -/
  | .updateKeys data target source lookup =>
    match d with
    | .mysql =>
      .ok (t "UPDATE " ++ data.quoted ++ t " data_table\nJOIN " ++ lookup.quoted ++ t " enum_table ON data_table." ++ idText source
        ++ t " = enum_table.\"value\"\nSET data_table." ++ idText target ++ t " = enum_table.\"id\";")
    | _ =>
      .ok (t "UPDATE " ++ data.quoted ++ t " data_table\nSET " ++ idText target ++ t " = enum_table.\"id\"\nFROM " ++ lookup.quoted
        ++ t " enum_table\nWHERE data_table." ++ idText source ++ t "::VARCHAR = enum_table.\"value\";")

/-- The text of a script: object_types.py:33-34 `join`.  (Statements are joined group by group; since a group without statements is skipped,
    and no statement is empty, the result is the same as joining all statements at once.) -/
def scriptText (d : Dialect) (script : List Stmt) : Except Err Text := do
  let parts ← script.mapM (Stmt.text d)
  return joinWith (t "\n") parts

end PySqlSync
