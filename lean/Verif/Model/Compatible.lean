/-
Model of `compatible_type` (pysqlsync/model/data_types.py:345-407).
-/
import Verif.Model.SqlType

set_option autoImplicit false

namespace PySqlSync

/-- `max_or_none` (data_types.py:355-359) -/
def maxOrNone : Option Nat → Option Nat → Option Nat
  | some l, some r => some (max l r)
  | _, _ => none

/-- `_compatible_type` (data_types.py:362-407).  `type(left)(width=...)` raises `TypeError` for `OracleIntegerType`, whose constructor has
    no parameters (oracle/data_types.py:19-21). -/
def compatible2 (left right : SqlType) : Except Err SqlType :=
  if left = right then .ok left
  else match left, right with
    | .integer c wl _ _ _, .integer _ wr _ _ _ =>
      if c = .oracle then .error .type else .ok (.integer c (max wl wr) true none none)
    | .real c, .real _ => .ok (.real c)
    | .real _, .double c => .ok (.double c)
    | .double c, .real _ => .ok (.double c)
    | .double c, .double _ => .ok (.double c)
    | .fixedChar l, .fixedChar r => .ok (.fixedChar (maxOrNone l r))
    | .fixedChar l, .varChar c r => .ok (.varChar c (maxOrNone l r))
    | .varChar c l, .fixedChar r => .ok (.varChar c (maxOrNone l r))
    | .varChar c l, .varChar _ r => .ok (.varChar c (maxOrNone l r))
    | .fixedBinary c l, .fixedBinary _ r => .ok (.fixedBinary c (maxOrNone l r))
    | .fixedBinary _ l, .varBinary c r => .ok (.varBinary c (maxOrNone l r))
    | .varBinary c l, .fixedBinary _ r => .ok (.varBinary c (maxOrNone l r))
    | .varBinary c l, .varBinary _ r => .ok (.varBinary c (maxOrNone l r))
    | _, _ => .error .compatibility

/-- `compatible_type` (data_types.py:349-352): `functools.reduce` without an initial value, which raises `TypeError` for an empty
    list. -/
def compatibleType : List SqlType → Except Err SqlType
  | [] => .error .type
  | ty :: rest => rest.foldlM compatible2 ty

end PySqlSync
