/-
Model of `auto_default` (pysqlsync/formation/py_to_sql.py:673-721, `constant` in model/data_types.py:26-54).
-/
import Verif.Model.Converter
import Verif.Model.Engines

set_option autoImplicit false

namespace PySqlSync

/-- `constant(plain_type())`, and `constant(datetime.datetime.min)` etc. (707-719); `annotated` if the type is `Annotated[...]`, which `plain_type is datetime.datetime`
    does not see.  `constant` knows no dates, times and intervals; `UUID()` and `IPv4Address()` lack an argument. -/
def Prim.start (annotated : Bool) : Prim → Except Err Text
  | .bool => .ok (t "FALSE")
  | .int | .int8 | .int16 | .int32 | .int64 | .uint8 | .uint16 | .uint32 | .uint64 => .ok (t "0")
  | .float | .float32 | .float64 => .ok (t "0.0")
  | .str => .ok (t "''")
  | .decimal => .ok (t "0")
  | .datetime => if annotated then .error .type else .ok (t "'0001-01-01 00:00:00'")
  | .date | .time => .error (if annotated then .type else .notImplemented)
  | .timedelta => .error .notImplemented
  | .uuid | .json | .ipv4 | .ipv6 => .error .type

/-- 707-719 for a member of a union or for the type of a key. -/
def PyType.start (defs : PyDefs) : PyType → Except Err Text
  | .prim p => p.start false
  | .annotated p _ => p.start true
  | .enum n =>
    match (defs.enum n).bind (fun e => e.constants.head?) with
    | some c => .ok c
    | none => .error .value
  | _ => .error .type

/-- The key type of an entity (`reference_to_key`, inspection.py:155-186). -/
def PyDefs.keyTypeOf (defs : PyDefs) : PyType → Except Err PyType
  | .cls n =>
    match (defs.cls n).bind ClassDecl.key with
    | some k => .ok k.ty
    | none => .error .type
  | _ => .error .type

/-- The default value of a column if `auto_default` is set (673-723). -/
def FieldDecl.autoDefault (defs : PyDefs) (f : FieldDecl) : Except Err (Option Text) :=
  match f.default with
  | some d => .ok (some d)
  | none =>
    if f.nullable || f.primary || f.identity then .ok none
    else match f.ty with
      | .prim p | .annotated p _ => do pure (some (← p.start false))
      | .enum n => do pure (some (← (PyType.enum n).start defs))
      | .cls n => if defs.isEntity (.cls n) then do pure (some (← (← defs.keyTypeOf (.cls n)).start defs)) else pure none
      | .union ms =>
        if ms.toList.all defs.isEntity then
          match ms.toList with
          | m :: _ => do pure (some (← (← defs.keyTypeOf m).start defs))
          | [] => .error .type
        else match ms.toList.find? PyType.isSimple with
          | some m => do pure (some (← m.start defs))
          | none => pure none
      | .list _ | .set _ => pure none
      | .literal _ | .other _ => .error .type

/-- `member_to_column` (664-733). -/
def ConvOptions.memberColumnAuto (o : ConvOptions) (defs : PyDefs) (depth : Nat) (f : FieldDecl) : Except Err Column := do
  let ty ← o.memberType defs depth f.ty
  let default ← f.autoDefault defs
  pure { name := f.name, ty := ty, nullable := f.nullable, default := default, identity := f.identity }

/-- Whether the generator of an engine passes `auto_default` on to the converter (postgresql/generator.py:51, redshift/generator.py:58, mssql/generator.py:62,
    oracle/generator.py:76, delta/generator.py:68, snowflake/generator.py:58, trino/generator.py:25; mysql/generator.py:42-61 does not). -/
def Engine.autoDefault (e : Engine) (auto : Bool) : Bool :=
  match e with
  | .mysql => false
  | _ => auto

/-- `member_to_column` of the converter of an engine. -/
def Engine.memberColumn (e : Engine) (auto : Bool) (o : ConvOptions) (defs : PyDefs) (depth : Nat) (f : FieldDecl) : Except Err Column :=
  if e.autoDefault auto then o.memberColumnAuto defs depth f else o.memberColumn defs depth f

end PySqlSync
