/-
Specification for C61: what a declared parameter admits, by the manuals of ODBC and of python-oracledb (trusted).
-/
import Verif.Model.Params
import Verif.Spec.Capacity
import Verif.Spec.Integers

set_option autoImplicit false

namespace PySqlSync.Spec

/-- There is one declaration for each parameter of the statement, and it is the one for the data type of the column that the parameter is for. -/
def DeclaredFor {P : Type} (declare : SqlType → P) (tb : Table) (params : List Text) (declared : List P) : Prop :=
  declared.length = params.length ∧
  ∀ (i : Nat) (name : Text) (p : P), params[i]? = some name → declared[i]? = some p → ∃ c ∈ tb.columns.items, c.name = name ∧ p = declare c.ty

/-- The columns that records have values for: those that the labels name, or all columns of the table. -/
def Addressed (tb : Table) (names : Option (List Text)) (c : Column) : Prop :=
  c ∈ tb.columns.items ∧ ∀ labels, names = some labels → labels = [] ∨ (c.name ≠ [] ∧ c.name ∈ labels)

/-! ### ODBC (SQL Server) -/

/-- The integers of a type code: `SQL_TINYINT` is unsigned for SQL Server. -/
def odbcRange : OdbcType → Option (Int × Int)
  | .tinyint => some (0, 255)
  | .smallint => some (-2 ^ 15, 2 ^ 15 - 1)
  | .integer => some (-2 ^ 31, 2 ^ 31 - 1)
  | .bigint => some (-2 ^ 63, 2 ^ 63 - 1)
  | _ => none

def OdbcAdmitsInt (p : OdbcParam) (n : Int) : Prop := ∃ r, odbcRange p.type = some r ∧ r.1 ≤ n ∧ n ≤ r.2
/-- A string: the column size is the greatest number of bytes, 0 stands for `varchar(max)`. -/
def OdbcAdmitsText (p : OdbcParam) (s : Text) : Prop := (p.type = .char ∨ p.type = .varchar) ∧ (p.size = 0 ∨ utf8Length s ≤ p.size)
/-- Bytes, likewise. -/
def OdbcAdmitsBytes (p : OdbcParam) (length : Nat) : Prop := (p.type = .binary ∨ p.type = .varbinary) ∧ (p.size = 0 ∨ length ≤ p.size)
/-- The number `m / 10 ^ k`: the column size is the number of digits, the decimal digits are those that follow the point. -/
def OdbcAdmitsDecimal (p : OdbcParam) (m : Int) (k : Nat) : Prop :=
  p.type = .decimal ∧ ∃ n : Int, n * 10 ^ k = m * 10 ^ p.digits ∧ n.natAbs < 10 ^ p.size
/-- A fraction of a second, in microseconds: it must not have more digits than the declared decimal digits ("Datetime field overflow. Fractional
    second precision exceeds the scale specified in the parameter binding"). -/
def OdbcAdmitsMicroseconds (p : OdbcParam) (micros : Nat) : Prop :=
  (p.type = .timestamp ∨ p.type = .time) ∧ (micros * 10 ^ p.digits) % 10 ^ 6 = 0

/-! ### Oracle -/

/-- `NUMBER` has 38 decimal digits, `BINARY_INTEGER` (the same as `PLS_INTEGER`) is a signed integer of 32 bits. -/
def oracleRange : OracleDbType → Option (Int × Int)
  | .number => some (-(10 ^ 38 - 1), 10 ^ 38 - 1)
  | .binaryInteger => some (-2 ^ 31, 2 ^ 31 - 1)
  | _ => none

def OracleAdmitsInt (v : OracleVar) (n : Int) : Prop := ∃ r, oracleRange v.type = some r ∧ r.1 ≤ n ∧ n ≤ r.2
/-- A string: the size of a variable is in characters. -/
def OracleAdmitsText (v : OracleVar) (s : Text) : Prop :=
  v.type = .clob ∨ ((v.type = .char ∨ v.type = .varchar) ∧ ∃ n, v.size = some n ∧ s.length ≤ n)
def OracleAdmitsDecimal (v : OracleVar) (m : Int) (k : Nat) : Prop := v.type = .number ∧ ∃ n : Int, ∃ s, n * 10 ^ k = m * 10 ^ s ∧ n.natAbs < 10 ^ 38
/-- Both have fractions of a second of 6 and more digits. -/
def OracleAdmitsMicroseconds (v : OracleVar) (_micros : Nat) : Prop := v.type = .timestamp ∨ v.type = .intervalDS

end PySqlSync.Spec
