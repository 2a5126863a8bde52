/-
Specification: what the system catalogs of PostgreSQL report about a schema, according to the manual (trusted), and which descriptions of a schema are
expected to be read from them as they are.
-/
import Verif.Model.Discovery
import Verif.Spec.Same
import Verif.Spec.ServerTypes

set_option autoImplicit false

namespace PySqlSync.Spec
open PySqlSync

/-! ### Points in time -/

def digit (n : Nat) : Char := Char.ofNat (48 + n % 10)
def two (n : Nat) : Text := [digit (n / 10), digit n]
def four (n : Nat) : Text := two (n / 100) ++ two n

/-- A point in time in the proleptic Gregorian calendar. -/
structure Moment where
  (year month day hour minute second : Nat)
  valid : 1 ≤ year ∧ year ≤ 9999 ∧ 1 ≤ month ∧ month ≤ 12 ∧ 1 ≤ day ∧
    day ≤ (if month = 2 then (if year % 4 = 0 ∧ (year % 100 ≠ 0 ∨ year % 400 = 0) then 29 else 28)
      else if month = 4 ∨ month = 6 ∨ month = 9 ∨ month = 11 then 30 else 31) ∧
    hour < 24 ∧ minute < 60 ∧ second < 60

/-- `'2024-02-29 12:34:56'`, quotes included. -/
def Moment.literal (m : Moment) : Text :=
  t "'" ++ four m.year ++ t "-" ++ two m.month ++ t "-" ++ two m.day ++ t " " ++ two m.hour ++ t ":" ++ two m.minute ++ t ":" ++ two m.second ++ t "'"

namespace Pg

/-- How PostgreSQL writes a literal of the type `timestamp`. -/
def stamped (d : Text) : Text := d ++ t "::timestamp without time zone"

/-- A text that has the form of such a literal, whether or not there is such a point in time. -/
def StampLike (e : Text) : Prop := ∃ l, isTimestampLiteral l = true ∧ e = stamped l

/-- A default `d` that PostgreSQL reports as `e` is the same default. -/
def DefaultKept (e d : Text) : Prop := (e = d ∧ ¬ StampLike d) ∨ ∃ m : Moment, d = m.literal ∧ e = stamped d

/-- `COMMENT ... IS ''` removes a comment. -/
def remark : Option Text → Option Text
  | some [] => none
  | r => r

/-- The row of the system catalog about a column; `expr` is how an expression in a default is reported (`pg_get_expr`). -/
def columnRow (expr : SqlType → Text → Text) (c : Column) : Option PgColumnRow :=
  (row c.ty).map (fun r =>
    { name := c.name, spec := r.2.spec, nullable := c.nullable, isArray := r.2.isArray, identity := c.identity
      default := c.default.map (expr c.ty), description := remark c.description })

def memberRow (m : StructMember) : Option PgMemberRow :=
  (row m.ty).map (fun r => { name := m.name, spec := r.2.spec, description := remark m.description })

/-- The rows of the system catalog about a constraint, one for each of its columns; the query does not ask for conditions, and the library does not
    tell the database about discriminated keys. -/
def constraintRows : Constraint → List PgConstraintRow
  | .unique n cs => cs.map (fun c => ⟨'u', n, c, none, [], []⟩)
  | .foreign n cs r => (cs.zip r.columns).map (fun p => ⟨'f', n, p.1, some r.table.key.1, r.table.key.2, p.2⟩)
  | .discriminated .. => []
  | .check .. => []

/-- A server whose schema `n.name` has what `n` describes, and nothing else. -/
structure Holds (expr : SqlType → Text → Text) (s : PgServer) (n : Namespace) : Prop where
  /-- the labels of each enumeration in their order, the enumerations one after the other in some order -/
  enums : ∃ es, List.Perm es n.enums.items ∧ s.enums n.name = es.flatMap (fun e => e.values.map (fun v => (e.name.localId, v)))
  structs : (s.structs n.name).Perm (n.structs.items.map (fun x => x.name.localId))
  tables : (s.tables n.name).Perm (n.tables.items.map (fun x => x.name.localId))
  structInfo : ∀ x ∈ n.structs.items, s.structInfo n.name x.name.localId = [remark x.description]
  members : ∀ x ∈ n.structs.items, x.members.items.map memberRow = (s.members n.name x.name.localId).map some
  tableInfo : ∀ x ∈ n.tables.items, s.tableInfo n.name x.name.localId = [remark x.description]
  columns : ∀ x ∈ n.tables.items, x.columns.items.map (columnRow expr) = (s.columns n.name x.name.localId).map some
  /-- the columns of the primary key, in the order of the key; the rows about different constraints may come in any order -/
  primary : ∀ x ∈ n.tables.items, ((s.constraints n.name x.name.localId).filter (fun r => r.kind = 'p')).map PgConstraintRow.source = x.primaryKey
  constraints : ∀ x ∈ n.tables.items, ∀ c ∈ x.constraints.items,
    (s.constraints n.name x.name.localId).filter (fun r => r.kind ≠ 'p' ∧ r.name = c.name) = constraintRows c
  noOther : ∀ x ∈ n.tables.items, ∀ r ∈ s.constraints n.name x.name.localId, r.kind = 'p' ∨ ∃ c ∈ x.constraints.items, r ∈ constraintRows c

/-! ### What is read as it is -/

structure ReadableColumn (expr : SqlType → Text → Text) (c : Column) : Prop where
  ty : Kept c.ty
  default : ∀ d, c.default = some d → DefaultKept (expr c.ty d) d
  description : c.description ≠ some []

/-- Arrays that are members of a composite type are taken for their elements. -/
structure ReadableMember (m : StructMember) : Prop where
  ty : Kept m.ty
  noArray : ∀ e, m.ty ≠ .array e
  description : m.description ≠ some []

/-- Uniqueness and foreign keys are read, conditions are not. -/
def ReadableConstraint : Constraint → Prop
  | .unique _ cs => cs ≠ []
  | .foreign _ cs r => cs ≠ [] ∧ cs.length = r.columns.length ∧ ∃ ns id, r.table = .qualified (some ns) id
  | .discriminated .. => False
  | .check .. => False

structure ReadableTable (expr : SqlType → Text → Text) (ns : Text) (tb : Table) : Prop where
  name : ∃ id, tb.name = .qualified (some ns) id
  columns : ∀ c ∈ tb.columns.items, ReadableColumn expr c
  constraints : ∀ c ∈ tb.constraints.items, ReadableConstraint c
  description : tb.description ≠ some []

structure ReadableStruct (ns : Text) (s : StructType) : Prop where
  name : ∃ id, s.name = .qualified (some ns) id
  members : ∀ m ∈ s.members.items, ReadableMember m
  description : s.description ≠ some []

structure ReadableEnum (ns : Text) (e : EnumType) : Prop where
  name : ∃ id, e.name = .qualified (some ns) id
  values : e.values ≠ []

/-- A schema that is read as what it is. -/
structure Readable (expr : SqlType → Text → Text) (n : Namespace) : Prop where
  enums : ∀ e ∈ n.enums.items, ReadableEnum n.name e
  structs : ∀ s ∈ n.structs.items, ReadableStruct n.name s
  tables : ∀ tb ∈ n.tables.items, ReadableTable expr n.name tb
  /-- a schema without objects is not seen -/
  inhabited : n.name ≠ [] → n.enums.items ≠ [] ∨ n.structs.items ≠ [] ∨ n.tables.items ≠ []

/-! ### Constants -/

/-- Defaults as classes have them: truth values, numbers, texts, points in time; `type` is the type that PostgreSQL adds when it reports a constant. -/
inductive Const where
  | bool (b : Bool)
  | nat (n : Nat)
  | negative (n : Nat) (type : Text)
  | text (s : Text) (type : Text)
  | datetime (iso : Text)

/-- The Python value. -/
def Const.python : Const → PyConst
  | .bool b => .bool b
  | .nat n => .num (natStr n)
  | .negative n _ => .num ('-' :: natStr (n + 1))
  | .text s _ => .str s
  | .datetime iso => .datetime iso

/-- How PostgreSQL reports it (`pg_get_expr`): `true`, `5`, `'-5'::integer`, `'abc'::text`, `'2024-02-29 12:34:56'::timestamp without time zone`. -/
def Const.reported : Const → Text
  | .bool b => if b then t "true" else t "false"
  | .nat n => natStr n
  | .negative n type => quote ('-' :: natStr (n + 1)) ++ t "::" ++ type
  | .text s type => quote s ++ t "::" ++ type
  | .datetime iso => stamped (quote iso)

/-- A default that is the same when it is read: a number without a sign, or a point in time without fractions of a second. -/
def Const.Plain : Const → Prop
  | .nat _ => True
  | .datetime iso => ∃ m : Moment, quote iso = m.literal
  | _ => False

/-- The types of texts are not those of points in time. -/
def Const.Proper : Const → Prop
  | .text _ type => type ≠ t "timestamp without time zone"
  | _ => True

/-! ### What is not asked for -/

/-- The query about constraints (287-313) asks for keys, uniqueness and foreign keys; the server knows no discriminated keys. -/
def visible : Constraint → Bool
  | .unique .. => true
  | .foreign .. => true
  | .discriminated .. => false
  | .check .. => false

/-- PostgreSQL knows integers of 2, 4 and 8 bytes, with a sign; a range is known through a condition only. -/
def forget : SqlType → SqlType
  | .integer c w _ _ _ => .integer c w true none none
  | ty => ty

/-- A schema without the ranges of integers and the constraints that are not asked for. -/
def bareColumn (c : Column) : Column := { c with ty := forget c.ty }
def bareTable (tb : Table) : Table :=
  { tb with columns := ⟨tb.columns.items.map bareColumn⟩, constraints := ⟨tb.constraints.items.filter visible⟩ }
def bare (n : Namespace) : Namespace := { n with tables := ⟨n.tables.items.map bareTable⟩ }

/-- A schema with a table that has a condition (`CHECK`). -/
def Conditioned (n : Namespace) : Prop := ∃ tb ∈ n.tables.items, ∃ name cond, Constraint.check name cond ∈ tb.constraints.items

/-- A schema with a column of integers that has a range, or no sign. -/
def Ranged (n : Namespace) : Prop := ∃ tb ∈ n.tables.items, ∃ c ∈ tb.columns.items, forget c.ty ≠ c.ty

/-- Expressions are reported without regard to ranges. -/
def RangeFree (expr : SqlType → Text → Text) : Prop := ∀ ty d, expr (forget ty) d = expr ty d

end Pg
end PySqlSync.Spec
