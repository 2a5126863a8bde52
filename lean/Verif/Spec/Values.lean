/-
Specification: which values a data type can represent (used by C29 and C31).
-/
import Verif.Model.SqlType

set_option autoImplicit false

namespace PySqlSync.Spec

/-- Values, up to the data types for which `compatible_type` finds a common type other than the type itself. -/
inductive Value where
  | int (n : Int)
  /-- `mantissa * 2 ^ exponent` -/
  | float (mantissa exponent : Int)
  | text (s : Text)
  | bytes (bs : List Nat)
  /-- any other value, by a name -/
  | other (x : Nat)

/-- `w` bytes, two's complement or unsigned. -/
def FitsBytes (w : Nat) (signed : Bool) (n : Int) : Prop :=
  if signed then -((2 ^ (8 * w - 1) : Nat) : Int) ≤ n ∧ n < ((2 ^ (8 * w - 1) : Nat) : Int) else 0 ≤ n ∧ n < ((2 ^ (8 * w) : Nat) : Int)

/-- Within optional bounds. -/
def Within (lo hi : Option Int) (n : Int) : Prop := (∀ m, lo = some m → m ≤ n) ∧ (∀ m, hi = some m → n ≤ m)

/-- What a column of variable length holds without a declared limit. MySQL: `mediumtext`, `mediumblob`; SQL Server: `varchar(max)`. -/
def unlimited : Cls → Option Nat
  | .mysql => some 16777215
  | .mssql => some 2147483647
  | _ => none

/-- The greatest length of a value of a type of variable length: its limit, if it has one.  The types of Delta do not have a limit. -/
def capacity (c : Cls) (limit : Option Nat) : Option Nat :=
  if c = .delta then none
  else match limit with
    | some n => some n
    | none => unlimited c

def AtMost (k : Nat) (limit : Option Nat) : Prop := ∀ n, limit = some n → k ≤ n

/-- Whether a data type represents a value.  `rest` says which values the data types represent of which nothing is assumed.
    `char` and `binary` without a length are those of length 1, as in standard SQL (`binary` of Delta has no limit). -/
def Holds (rest : SqlType → Value → Prop) (ty : SqlType) (v : Value) : Prop :=
  match ty, v with
  | .integer _ w signed lo hi, .int n => FitsBytes w signed n ∧ Within lo hi n
  | .real _, .float m e => m.natAbs < 2 ^ 24 ∧ -149 ≤ e ∧ e ≤ 104
  | .double _, .float m e => m.natAbs < 2 ^ 53 ∧ -1074 ≤ e ∧ e ≤ 971
  | .fixedChar l, .text s => s.length ≤ l.getD 1
  | .varChar c l, .text s => AtMost s.length (capacity c l)
  | .fixedBinary c l, .bytes b => if c = .delta then True else b.length ≤ l.getD 1
  | .varBinary c l, .bytes b => AtMost b.length (capacity c l)
  | .integer .., _ | .real _, _ | .double _, _ | .fixedChar _, _ | .varChar .., _ | .fixedBinary .., _ | .varBinary .., _ => False
  | ty, v => rest ty v

/-- Two data types of the same kind: there is a type that includes both. -/
def SameKind : SqlType → SqlType → Prop
  | .integer .., .integer .. => True
  | .real _, .real _ | .real _, .double _ | .double _, .real _ | .double _, .double _ => True
  | .fixedChar _, .fixedChar _ | .fixedChar _, .varChar .. | .varChar .., .fixedChar _ | .varChar .., .varChar .. => True
  | .fixedBinary .., .fixedBinary .. | .fixedBinary .., .varBinary .. | .varBinary .., .fixedBinary .. | .varBinary .., .varBinary .. => True
  | a, b => a = b

/-! ### When the common type of several loses nothing (C29) -/

/-- The declared length of a type for strings or bytes, where the length counts: the types of Delta do not have one, except `char`. -/
def declaredLimit : SqlType → Option (Option Nat)
  | .fixedChar l => some l
  | .varChar c l | .fixedBinary c l | .varBinary c l => if c = .delta then none else some l
  | _ => none

/-- A type of variable length. -/
def Varying : SqlType → Bool
  | .varChar .. | .varBinary .. => true
  | _ => false

/-- What the common type holds if one of the types has no declared length: one character if all have a fixed length, otherwise what the
    dialect gives to a type without a limit. -/
def bareLimit (c : Cls) (ts : List SqlType) : Option Nat := if ts.any Varying then unlimited c else some 1

/-- Nothing is lost by the common type of data types of a dialect: if the types differ, the unsigned integers of the greatest width have no
    value that needs the highest bit, and if one type has no declared length, then the lengths of the others do not exceed what such a
    type holds. -/
def Lossless (c : Cls) (ts : List SqlType) : Prop :=
  (∀ c' w lo hi, SqlType.integer c' w false lo hi ∈ ts → (∃ ty ∈ ts, ty ≠ .integer c' w false lo hi) →
    (∀ c₂ w₂ s₂ lo₂ hi₂, SqlType.integer c₂ w₂ s₂ lo₂ hi₂ ∈ ts → w₂ ≤ w) →
    ∀ n, FitsBytes w false n → Within lo hi n → n < ((2 ^ (8 * w - 1) : Nat) : Int)) ∧
  (∀ a ∈ ts, declaredLimit a = some none → ∀ b ∈ ts, ∀ n, declaredLimit b = some (some n) → AtMost n (bareLimit c ts))

end PySqlSync.Spec
