/-
Model of how a schema is explored: pysqlsync/dialect/postgresql/discovery.py (PostgreSQL and Redshift).

The queries themselves are texts that a server answers; modelled is what is made of the answers.  An answer is a list of rows in the order in which they
arrive.  (How a row becomes an instance of a data-class is in Model/ResultSet.lean: here rows are such instances.)
-/
import Verif.Model.Literal
import Verif.Model.TypeDiscovery
import Verif.Model.Factories

set_option autoImplicit false

namespace PySqlSync

/-! ### Default expressions -/

/-- The value of a sequence of digits. -/
def digitsNat (s : Text) : Nat := s.foldl (fun n c => 10 * n + (c.toNat - 48)) 0

/-- The number of days in a month, as the `datetime` module of Python counts. -/
def daysInMonth (year month : Nat) : Nat :=
  if month = 2 then (if year % 4 = 0 ∧ (year % 100 ≠ 0 ∨ year % 400 = 0) then 29 else 28)
  else if month ∈ [4, 6, 9, 11] then 30 else 31

/-- Whether `datetime.datetime(year, month, day, hour, minute, second)` accepts its arguments. -/
def validDateTime (year month day hour minute second : Nat) : Bool :=
  decide (1 ≤ year ∧ 1 ≤ month ∧ month ≤ 12 ∧ 1 ≤ day ∧ day ≤ daysInMonth year month ∧ hour < 24 ∧ minute < 60 ∧ second < 60)

/-- `int(m.group(...))` for each of the six groups of a literal `'YYYY-MM-DD hh:mm:ss'` (postgresql/discovery.py:37-45). -/
def validLiteral (s : Text) : Bool :=
  validDateTime (digitsNat ((s.drop 1).take 4)) (digitsNat ((s.drop 6).take 2)) (digitsNat ((s.drop 9).take 2))
    (digitsNat ((s.drop 12).take 2)) (digitsNat ((s.drop 15).take 2)) (digitsNat ((s.drop 18).take 2))

/-- postgresql/discovery.py:26-48 `to_default_expr`.  `isoformat(sep=" ")` writes the digits that were read, so that the literal is the one that was found.
    Simplification: `\d` is an ASCII digit, and `$` the end of the text. -/
def pgDefaultExpr : Option Text → Except Err (Option Text)
  | none => .ok none
  | some expr =>
    if isTimestampLiteral (expr.take 21) ∧ expr.drop 21 = t "::timestamp without time zone" then
      if validLiteral (expr.take 21) then .ok (some (expr.take 21)) else .error .value
    else .ok (some expr)

/-- `x or None` for a text. -/
def textOrNone (s : Option Text) : Option Text := s.filter (fun x => !x.isEmpty)

/-! ### Rows -/

/-- postgresql/discovery.py:56-62 `PostgreSQLMemberMeta` (`type_name`, `type_schema` and `type_def` are in `spec`). -/
structure PgMemberRow where
  name : Text
  spec : TypeSpec
  description : Option Text
deriving DecidableEq, Repr

/-- postgresql/discovery.py:70-80 `PostgreSQLColumnMeta`. -/
structure PgColumnRow where
  name : Text
  spec : TypeSpec
  nullable : Bool
  isArray : Bool
  identity : Bool
  default : Option Text
  description : Option Text
deriving DecidableEq, Repr

/-- postgresql/discovery.py:83-90 `PostgreSQLConstraintMeta`. -/
structure PgConstraintRow where
  kind : Char
  name : Text
  source : Text
  targetNamespace : Option Text
  targetTable : Text
  targetColumn : Text
deriving DecidableEq, Repr

/-- What a server answers: to the queries of `get_namespace` (350-361, 372-378, 385-391) for a schema, and to those of `get_struct` (180-208) and
    `get_table` (232-264, 286-313) for an object of a schema. -/
structure PgServer where
  enums : Text → List (Text × Text)
  structs : Text → List Text
  tables : Text → List Text
  structInfo : Text → Text → List (Option Text)
  members : Text → Text → List PgMemberRow
  tableInfo : Text → Text → List (Option Text)
  columns : Text → Text → List PgColumnRow
  constraints : Text → Text → List PgConstraintRow

/-! ### Objects -/

/-- `query_one` (base.py:914-918): `rows[0]`. -/
def firstRow {α : Type} : List α → Except Err α
  | a :: _ => .ok a
  | [] => .error .key

/-- The loop 210-223 of `get_struct`: arrays are not told from their elements. -/
def pgReadMember (r : PgMemberRow) : Except Err StructMember := do
  return { name := r.name, ty := ← typeFromSpec Engine.postgresql.discovered r.spec, description := textOrNone r.description }

/-- 173-229 `get_struct`. -/
def pgReadStruct (s : PgServer) (ns id : Text) : Except Err StructType := do
  let description ← firstRow (s.structInfo ns id)
  let members ← (s.members ns id).mapM pgReadMember
  return { name := .qualified (some ns) id, members := .ofList members, description := description }

/-- The loop 266-284 of `get_table`. -/
def pgReadColumn (r : PgColumnRow) : Except Err Column := do
  let ty ← typeFromSpec Engine.postgresql.discovered r.spec
  let default ← pgDefaultExpr r.default
  return { name := r.name, ty := if r.isArray then .array ty else ty, nullable := r.nullable, identity := r.identity, default := default
           description := textOrNone r.description }

/-- A row about a foreign key (324-329). -/
def PgConstraintRow.foreign (r : PgConstraintRow) : ForeignRow :=
  ⟨r.name, r.source, .qualified r.targetNamespace r.targetTable, r.targetColumn⟩

/-- The loop 315-333 of `get_table`.  Simplification: the three kinds of rows are taken one after the other; they do not affect each other. -/
def pgReadConstraints (rows : List PgConstraintRow) : Except Err (List Text × List Constraint) := do
  let primary := (rows.filter (fun r => r.kind = 'p')).map PgConstraintRow.source
  let unique := uniqueAddAll ((rows.filter (fun r => r.kind = 'u')).map (fun r => (r.name, r.source)))
  let foreign ← foreignAddAll [] ((rows.filter (fun r => r.kind = 'f')).map PgConstraintRow.foreign)
  return (primary, uniqueFetch unique ++ foreignFetch foreign)

/-- 231-341 `get_table`. -/
def pgReadTable (s : PgServer) (ns id : Text) : Except Err Table := do
  let description ← firstRow (s.tableInfo ns id)
  let columns ← (s.columns ns id).mapM pgReadColumn
  let (primary, constraints) ← pgReadConstraints (s.constraints ns id)
  return { name := .qualified (some ns) id, columns := .ofList columns, primaryKey := primary, constraints := .ofList constraints
           description := description }

/-- `groupby` (364): adjacent rows with the same name. -/
def groupRows : List (Text × Text) → List (Text × List Text)
  | [] => []
  | (name, value) :: rest =>
    match groupRows rest with
    | (name', values) :: groups => if name = name' then (name, value :: values) :: groups else (name, [value]) :: (name', values) :: groups
    | [] => [(name, [value])]

/-- 363-370. -/
def pgReadEnums (s : PgServer) (ns : Text) : List EnumType :=
  (groupRows (s.enums ns)).map (fun g => ⟨.qualified (some ns) g.1, g.2⟩)

/-- 349-403 `get_namespace`. -/
def pgReadNamespace (s : PgServer) (ns : Text) : Except Err Namespace := do
  let enums := pgReadEnums s ns
  let structs ← (s.structs ns).mapM (pgReadStruct s ns)
  let tables ← (s.tables ns).mapM (pgReadTable s ns)
  return if enums.isEmpty && structs.isEmpty && tables.isEmpty then {}
    else { name := ns, enums := .ofList enums, structs := .ofList structs, tables := .ofList tables }

end PySqlSync
