/-
Specification for data-classes generated from tables: which types Python can express, and which come back as what they were when the class is converted
into a table again.
-/
import Verif.Model.Reverse
import Verif.Model.Engines

set_option autoImplicit false

namespace PySqlSync.Spec
open PySqlSync

/-- A type of Python stands for the column type. -/
def Expressible : SqlType → Prop
  | .array elem => Expressible elem
  | .fixedBinary .. | .varBinary .. | .interval | .enum _ | .struct _ => False
  | _ => True

/-- A constraint that makes a field refer to other classes. -/
def RefersFrom (column : Text) : Constraint → Prop
  | .foreign _ cs _ | .discriminated _ cs _ => column ∈ cs
  | _ => False

/-- The tables that a constraint refers to. -/
def targets : Constraint → List QId
  | .foreign _ _ r => [r.table]
  | .discriminated _ _ rs => rs.map Ref.table
  | _ => []

/-- What a table must be like for a class to be generated. -/
structure Classable (isIdent : Text → Bool) (ns : Option Text → Option Text) (tb : Table) : Prop where
  types : ∀ c ∈ tb.columns.items, Expressible c.ty
  names : ∀ c ∈ tb.columns.items, isIdent (safeId c.name) = true
  distinct : (tb.columns.items.map (fun c => safeId c.name)).Nodup
  module : ns tb.name.scopeId ≠ none
  references : ∀ c ∈ tb.columns.items, ∀ k ∈ tb.constraints.items, RefersFrom c.name k → targets k ≠ [] ∧ ∀ q ∈ targets k, ns q.scopeId ≠ none

/-- The class of a table: module and name. -/
def IsClass (ns : Option Text → Option Text) (q : QId) (name : Text) : Prop := ∃ m, ns q.scopeId = some m ∧ name = m ++ t "." ++ safeId q.localId

/-- What a field says about a column: without references its type and whether it may be `None`; else the classes that the last constraint refers to. -/
structure Describes (ns : Option Text → Option Text) (tb : Table) (c : Column) (f : RevField) : Prop where
  name : f.name = safeId c.name
  default : f.default = c.default
  plain : (∀ k ∈ tb.constraints.items, ¬ RefersFrom c.name k) → ∃ ty, revType c.ty = .ok ty ∧ f.ann = if c.nullable then .optional ty else .plain ty
  reference : ∀ before n cs r after, tb.constraints.items = before ++ .foreign n cs r :: after → c.name ∈ cs → (∀ k ∈ after, ¬ RefersFrom c.name k) →
    ∃ name, IsClass ns r.table name ∧ f.ann = .ref name
  references : ∀ before n cs rs after, tb.constraints.items = before ++ .discriminated n cs rs :: after → c.name ∈ cs → (∀ k ∈ after, ¬ RefersFrom c.name k) →
    ∃ names, names.length = rs.length ∧ (∀ p ∈ rs.zip names, IsClass ns p.1.table p.2) ∧ f.ann = .refs names

/-! ### The types that an engine has for the types of Python -/

/-- Texts without limit. -/
def textType : Engine → SqlType
  | .mysql => .varChar .mysql (some 16777215)
  | .oracle => .varChar .oracle none
  | .mssql => .varChar .mssql none
  | .delta => .varChar .delta none
  | _ => .varChar .base none

/-- Texts with a limit. -/
def limitedText (n : Nat) : Engine → SqlType
  | .mysql => .varChar .mysql (some n)
  | .oracle => .varChar .oracle (some n)
  | .mssql => .varChar .mssql (some n)
  | .delta => .varChar .delta (some n)
  | _ => .varChar .base (some n)

/-- Points in time. -/
def stampType (p : Option Nat) : Engine → SqlType
  | .mysql => .timestamp .mysql p false
  | .oracle => .timestamp .oracle p false
  | .mssql => .timestamp .mssql (some (p.getD 7)) false
  | .delta => .timestamp .delta (some (p.getD 9)) false
  | .snowflake => .timestamp .snowflake (some (p.getD 9)) false
  | _ => .timestamp .base p false

/-- Column types that are what they were after a table was made from the class that was made from the table. -/
def Reversible (e : Engine) : SqlType → Prop
  | .boolean c => e ≠ .mysql ∧ c = if e = .mssql then .mssql else .base
  | .integer c w signed lo hi => signed = true ∧ lo = none ∧ hi = none ∧ if e = .oracle then c = .oracle ∧ w = 8 else c = .base ∧ (w = 2 ∨ w = 4 ∨ w = 8)
  | .real c | .double c => c = if e = .delta then .delta else .base
  | .float p => p ≠ none ∧ e ≠ .delta
  | .decimal p s => p = none ∧ s = none
  | .timestamp c p z => SqlType.timestamp c p z = stampType p e
  | .date => True
  | .time c _ z => z = false ∧ c = if e = .oracle then .oracle else .base
  | .varChar c l => SqlType.varChar c l = textType e ∨ ∃ n, SqlType.varChar c l = limitedText n e
  | .uuid => e = .postgresql ∨ e = .trino
  | .json c => (e = .postgresql ∧ c = .postgresql) ∨ ((e = .mysql ∨ e = .trino) ∧ c = .base) ∨ (e = .snowflake ∧ c = .snowflake)
  | _ => False

/-- Arrays are kept where there are arrays. -/
def ReversibleColumn (e : Engine) (mode : ArrayMode) : SqlType → Prop
  | .array elem => mode = .array ∧ Reversible e elem
  | ty => Reversible e ty

/-- A type without names of other types. -/
def NoNames : SqlType → Prop
  | .array elem => NoNames elem
  | .user _ => False
  | _ => True

end PySqlSync.Spec
