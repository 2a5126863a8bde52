/-
Model of the constructors of the generators: which converter options each database engine uses.
-/
import Verif.Model.PyTypes
import Verif.Model.Objects

set_option autoImplicit false

namespace PySqlSync

/-- The engines that have a generator (pysqlsync/dialect). -/
inductive Engine where
  | postgresql | redshift | mysql | oracle | mssql | delta | snowflake | trino
deriving DecidableEq, Repr

/-- The object and mutator classes that a generator uses (postgresql/generator.py:28-32, redshift/generator.py:32-36, mysql/generator.py:34-36,
    oracle/generator.py:42-44, mssql/generator.py:35-37, delta/generator.py:37-41, snowflake/generator.py:30-34; trino/generator.py:15 leaves the
    base classes). -/
def Engine.dialect : Engine → Dialect
  | .postgresql | .redshift => .postgresql
  | .mysql => .mysql
  | .oracle => .oracle
  | .mssql => .mssql
  | .delta => .delta
  | .snowflake => .snowflake
  | .trino => .ansi

/-- `GeneratorOptions` (base.py:131-158), as far as they concern the converter. -/
structure GenOptions where
  enumMode : Option EnumMode := none
  structMode : Option StructMode := none
  arrayMode : Option ArrayMode := none
  mapping : Text → Except Err (Option Text)
  foreignConstraints : Bool := true
  initializeTables : Bool := false

/-- The `substitutions` (postgresql/generator.py:46-48, redshift/generator.py:50-55, mysql/generator.py:51-58, oracle/generator.py:59-73,
    mssql/generator.py:51-59, delta/generator.py:55-65, snowflake/generator.py:49-55; Trino has none). -/
def Engine.substitution : Engine → Prim → Option SqlType
  | .postgresql, .json => some (.json .postgresql)
  | .redshift, .uuid => some (.varBinary .redshift (some 16))
  | .redshift, .json => some (.varChar .base none)
  | .redshift, .ipv4 => some (.varBinary .redshift (some 4))
  | .redshift, .ipv6 => some (.varBinary .redshift (some 16))
  | .mysql, .bool => some (.integer .base 1 true none none)
  | .mysql, .datetime => some (.timestamp .mysql none false)
  | .mysql, .uuid => some (.fixedBinary .base (some 16))
  | .mysql, .str => some (.varChar .mysql (some 16777215))
  | .mysql, .ipv4 => some (.fixedBinary .base (some 4))
  | .mysql, .ipv6 => some (.fixedBinary .base (some 16))
  | .oracle, .time => some (.time .oracle none false)
  | .oracle, .datetime => some (.timestamp .oracle none false)
  | .oracle, .int => some (.integer .oracle 8 true none none)
  | .oracle, .int8 => some (.integer .oracle 8 true none none)
  | .oracle, .int16 => some (.integer .oracle 8 true none none)
  | .oracle, .int32 => some (.integer .oracle 8 true none none)
  | .oracle, .int64 => some (.integer .oracle 8 true none none)
  | .oracle, .str => some (.varChar .oracle none)
  | .oracle, .uuid => some (.varBinary .oracle (some 16))
  | .oracle, .json => some (.varChar .oracle none)
  | .oracle, .ipv4 => some (.varBinary .oracle (some 4))
  | .oracle, .ipv6 => some (.varBinary .oracle (some 16))
  | .mssql, .bool => some (.boolean .mssql)
  | .mssql, .datetime => some (.timestamp .mssql (some 7) false)
  | .mssql, .str => some (.varChar .mssql none)
  | .mssql, .uuid => some (.fixedBinary .base (some 16))
  | .mssql, .json => some (.varChar .mssql none)
  | .mssql, .ipv4 => some (.fixedBinary .base (some 4))
  | .mssql, .ipv6 => some (.fixedBinary .base (some 16))
  | .delta, .datetime => some (.timestamp .delta (some 9) false)
  | .delta, .float => some (.double .delta)
  | .delta, .float32 => some (.real .delta)
  | .delta, .float64 => some (.double .delta)
  | .delta, .str => some (.varChar .delta none)
  | .delta, .uuid => some (.fixedBinary .delta (some 16))
  | .delta, .json => some (.varChar .base none)
  | .delta, .ipv4 => some (.fixedBinary .delta (some 4))
  | .delta, .ipv6 => some (.fixedBinary .delta (some 16))
  | .snowflake, .datetime => some (.timestamp .snowflake (some 9) false)
  | .snowflake, .uuid => some (.fixedBinary .base (some 16))
  | .snowflake, .json => some (.json .snowflake)
  | .snowflake, .ipv4 => some (.fixedBinary .base (some 4))
  | .snowflake, .ipv6 => some (.fixedBinary .base (some 16))
  | _, _ => none

/-- `_check_mode` (base.py:189-214): a mode that is not given is always accepted. -/
def checkMode {α : Type} (mode : Option α) (ok : α → Bool) : Bool :=
  match mode with
  | none => true
  | some m => ok m

/-- `check_enum_mode`, `check_struct_mode` and `check_array_mode` as called by the constructors (postgresql/generator.py:34-35,
    redshift/generator.py:38-40, mysql/generator.py:38-40, oracle/generator.py:46-48, mssql/generator.py:39-41, delta/generator.py:43-44,
    snowflake/generator.py:36-38; Trino does not check). -/
def Engine.modesOk (e : Engine) (g : GenOptions) : Bool :=
  match e with
  | .postgresql => checkMode g.enumMode (· != .inline) && checkMode g.structMode (· != .inline)
  | .redshift => checkMode g.enumMode (· == .check) && checkMode g.structMode (· == .json) && checkMode g.arrayMode (· != .array)
  | .mysql => checkMode g.enumMode (· != .type) && checkMode g.structMode (· == .json) && checkMode g.arrayMode (· != .array)
  | .oracle | .mssql => checkMode g.enumMode (fun m => m != .type && m != .inline) && checkMode g.structMode (· == .json)
      && checkMode g.arrayMode (· != .array)
  | .delta => checkMode g.enumMode (· == .check) && checkMode g.structMode (· != .type)
  | .snowflake => checkMode g.enumMode (· == .check) && checkMode g.structMode (· == .json) && checkMode g.arrayMode (· != .array)
  | .trino => true

/-- The converter options with which a generator is constructed (postgresql/generator.py:37-53, redshift/generator.py:42-60,
    mysql/generator.py:42-62, oracle/generator.py:50-78, mssql/generator.py:43-64, delta/generator.py:46-70, snowflake/generator.py:40-60,
    trino/generator.py:16-27). -/
def Engine.options (e : Engine) (g : GenOptions) : Except Err ConvOptions :=
  if e.modesOk g then
    .ok {
      enumMode := g.enumMode.getD (match e with
        | .postgresql => .type
        | .mysql => .inline
        | .redshift | .oracle | .mssql => .relation
        | .delta | .snowflake | .trino => .check)
      structMode := g.structMode.getD (match e with
        | .postgresql => .type
        | .delta => .inline
        | _ => .json)
      arrayMode := g.arrayMode.getD (match e with
        | .postgresql | .delta => .array
        | _ => .json)
      extraNumeric := false
      qualified := !(e == .mysql || e == .oracle)
      uniqueNames := !(e == .postgresql)
      mapping := g.mapping
      foreignConstraints := if e = .redshift ∨ e = .delta ∨ e = .snowflake then false else g.foreignConstraints
      checkConstraints := !(e == .delta || e == .snowflake)
      initializeTables := g.initializeTables
      substitution := e.substitution }
  else .error .formation

end PySqlSync
