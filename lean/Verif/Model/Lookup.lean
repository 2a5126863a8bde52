/-
Model of how labels of an enumeration are replaced by keys of a lookup table (pysqlsync/base.py:597-684, 770-829).
The effect of a statement on the lookup table is that of Spec/Dml.lean.
-/
import Verif.Spec.Dml

set_option autoImplicit false

namespace PySqlSync
open Spec

/-- A field of a record: `None`, a single value, or a list (set) of values and `None`. -/
inductive Field (V : Type) where
  | null
  | one (v : V)
  | many (items : List (Option V))
deriving DecidableEq, Repr

/-- A value of a result set as a field. -/
def Field.ofOption {V : Type} : Option V → Field V
  | none => .null
  | some v => .one v

/-- object_types.py:481-494 `is_lookup_table`; `is_primary_column` raises if the key is not a single column. -/
def Table.isLookupTable (tb : Table) : Except Err Bool := do
  if tb.columns.items.length ≠ 2 then return false
  tb.checkPrimary
  return tb.columns.items.all (fun c => tb.primaryKey.contains c.name || tb.isUniqueColumn c)

/-- The transformers that `_get_transformer` (1209-1255) returns: a function or none (`ScalarTransformer`, 597-610),
    `EnumTransformer` (653-667) and `EnumListTransformer` (670-684), with the lookup table. -/
inductive FieldTransformer (V : Type) where
  | scalar (fn : Option (Field V → Field V))
  | enum (tb : Table)
  | enumList (tb : Table)

/-- The labels in a field.  `EnumTransformer` (662-664) adds the field itself to a set, a list is not hashable;
    `EnumListTransformer` (679-681) adds the items of the field, `None` has none.
    Simplification: a string where a list is expected, whose items are its characters, is refused. -/
def FieldTransformer.labels {V : Type} : FieldTransformer V → Field V → Except Err (List V)
  | .scalar _, _ => .ok []
  | .enum _, .null => .ok []
  | .enum _, .one v => .ok [v]
  | .enum _, .many _ => .error .value
  | .enumList _, .null => .error .value
  | .enumList _, .one _ => .error .value
  | .enumList _, .many items => .ok (items.filterMap id)

/-- `record[index]`. -/
def fieldAt {V : Type} (index : Nat) (record : List (Field V)) : Except Err (Field V) :=
  match record[index]? with
  | some f => .ok f
  | none => .error .key

/-- The labels in a batch. -/
def batchLabels {V : Type} (tr : FieldTransformer V) (index : Nat) (batch : List (List (Field V))) : Except Err (List V) := do
  let l ← batch.mapM (fun record => do tr.labels (← fieldAt index record))
  return l.flatten

/-- `dict(results)[key]`: a later pair replaces an earlier one. -/
def dictGet {K X : Type} [DecidableEq K] (dict : List (K × X)) (key : K) : Except Err X :=
  match dict.reverse.lookup key with
  | some x => .ok x
  | none => .error .key

/-- `get_enum_transformer` (526-529). -/
def enumFn {V : Type} [DecidableEq V] (dict : List (Option V × Option V)) : Field V → Except Err (Field V)
  | .null => return Field.ofOption (← dictGet dict none)
  | .one v => return Field.ofOption (← dictGet dict (some v))
  | .many _ => .error .value

/-- `get_enum_list_transformer` (531-536). -/
def enumListFn {V : Type} [DecidableEq V] (dict : List (Option V × Option V)) : Field V → Except Err (Field V)
  | .many items => return .many (← items.mapM (fun item => dictGet dict item))
  | _ => .error .value

/-- The lookup tables of a database. -/
abbrev Lookups (V : Type) := QId → List (DataRow V)

/-- `_merge_lookup_table` (632-650): the labels, in the order of a Python set, are inserted unless they are there; then the
    whole table is read, in whatever order. -/
inductive MergeLookup {V : Type} [DecidableEq V] (w : Writer) (dflt : QId → DataRow V) (tb : Table) :
    Lookups V → List V → Lookups V → List (Option V × Option V) → Prop where
  | none (db : Lookups V) : MergeLookup w dflt tb db [] db []
  | some {db : Lookups V} {labels : List V} {s : Dml} {rows selected : List (DataRow V)} {value key : Column} :
      labels ≠ [] →
      mergeStmt w tb none = .ok s →
      ExecAll tb (dflt tb.name) s (db tb.name) (labels.map (fun v => [some v])) rows →
      tb.valueColumns.head? = some value →
      tb.primaryColumn = .ok key →
      selected.Perm rows →
      MergeLookup w dflt tb db labels (fun q => if q = tb.name then rows else db q)
        (selected.map (fun r => (r value.name, r key.name)))

/-- `RecordTransformer.get` for a batch: the function that is applied to the field if it is not `None`. -/
inductive GetFn {V : Type} [DecidableEq V] (w : Writer) (dflt : QId → DataRow V) (batch : List (List (Field V))) :
    Lookups V → Nat × FieldTransformer V → Lookups V → (Field V → Except Err (Field V)) → Prop where
  | scalar (db : Lookups V) (index : Nat) (fn : Option (Field V → Field V)) :
      GetFn w dflt batch db (index, .scalar fn) db (fun f => .ok (match fn with | some g => g f | none => f))
  | enum {db db' : Lookups V} {index : Nat} {tb : Table} {found labels : List V} {dict : List (Option V × Option V)} :
      batchLabels (.enum tb) index batch = .ok found → labels.Nodup → (∀ v, v ∈ labels ↔ v ∈ found) →
      MergeLookup w dflt tb db labels db' dict →
      GetFn w dflt batch db (index, .enum tb) db' (enumFn dict)
  | enumList {db db' : Lookups V} {index : Nat} {tb : Table} {found labels : List V} {dict : List (Option V × Option V)} :
      batchLabels (.enumList tb) index batch = .ok found → labels.Nodup → (∀ v, v ∈ labels ↔ v ∈ found) →
      MergeLookup w dflt tb db labels db' dict →
      GetFn w dflt batch db (index, .enumList tb) db' (enumListFn dict)

/-- The loop over the transformers (782-784, 815-817). -/
inductive GetFns {V : Type} [DecidableEq V] (w : Writer) (dflt : QId → DataRow V) (batch : List (List (Field V))) :
    Lookups V → List (Nat × FieldTransformer V) → Lookups V → List (Field V → Except Err (Field V)) → Prop where
  | nil (db : Lookups V) : GetFns w dflt batch db [] db []
  | cons {db db1 db2 : Lookups V} {tr : Nat × FieldTransformer V} {trs : List (Nat × FieldTransformer V)}
      {fn : Field V → Except Err (Field V)} {fns : List (Field V → Except Err (Field V))} :
      GetFn w dflt batch db tr db1 fn → GetFns w dflt batch db1 trs db2 fns → GetFns w dflt batch db (tr :: trs) db2 (fn :: fns)

/-- `fn(field) if field is not None else None` (787-791, 821-825). -/
def applyField {V : Type} (fn : Field V → Except Err (Field V)) : Field V → Except Err (Field V)
  | .null => .ok .null
  | f => fn f

/-- The record that is yielded for a record (818-828): the selected fields, transformed.  (`TransformerDataSource`, 785-794,
    is the case in which all fields are selected.) -/
def applyFns {V : Type} : List (Nat × (Field V → Except Err (Field V))) → List (Field V) → Except Err (List (Field V))
  | [], _ => .ok []
  | (index, fn) :: rest, record => do
    let f ← fieldAt index record
    let x ← applyField fn f
    let xs ← applyFns rest record
    return x :: xs

/-- `SelectorTransformerDataSource.batches` (812-829) until the source has no more batches. -/
inductive Transforms {V : Type} [DecidableEq V] (w : Writer) (dflt : QId → DataRow V) (trs : List (Nat × FieldTransformer V)) :
    Lookups V → List (List (List (Field V))) → Lookups V → List (List (List (Field V))) → Prop where
  | nil (db : Lookups V) : Transforms w dflt trs db [] db []
  | cons {db db1 db2 : Lookups V} {batch out : List (List (Field V))} {batches outs : List (List (List (Field V)))}
      {fns : List (Field V → Except Err (Field V))} :
      GetFns w dflt batch db trs db1 fns →
      batch.mapM (applyFns ((trs.map Prod.fst).zip fns)) = .ok out →
      Transforms w dflt trs db1 batches db2 outs →
      Transforms w dflt trs db (batch :: batches) db2 (out :: outs)

end PySqlSync
