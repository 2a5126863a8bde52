/-
Model of how records travel from the caller to the driver (pysqlsync/base.py): the data sources (687-841) and
`_generate_records` (1153-1207).

A data source that is iterated once is modelled by the list of its batches.  Python's `None` is `none`.
-/
import Verif.Basic
import Verif.Model.Objects

set_option autoImplicit false

namespace PySqlSync

/-- base.py:67 -/
def BATCH_SIZE : Nat := 100000

/-- The loop of `IterableDataSource.batches` (710-718) and `AsyncIterableDataSource.batches` (733-741): `rows` is the
    list being filled. -/
def batchLoop {α : Type} (size : Nat) : List α → List α → List (List α)
  | rows, [] => if rows.isEmpty then [] else [rows]
  | rows, record :: rest =>
    if (rows ++ [record]).length ≥ size then (rows ++ [record]) :: batchLoop size [] rest
    else batchLoop size (rows ++ [record]) rest

/-- `to_data_source(records).batches()` (832-840). -/
def toBatches {α : Type} (records : List α) : List (List α) := batchLoop BATCH_SIZE [] records

/-- A record; `none` is Python's `None`, a database NULL. -/
abbrev Record (V : Type) := List (Option V)

/-- `fn(field) if field is not None else None` if there is a function, otherwise the field (787-791, 821-825). -/
def applyFn {V : Type} (fn : Option (V → V)) (field : Option V) : Option V :=
  match fn with
  | some f => field.map f
  | none => field

/-- What a `RecordTransformer` returns for a batch (`get`, 583-595). -/
abbrev Transformer (V : Type) := List (Record V) → Option (V → V)

/-- `SelectorDataSource.batches` (762-765): a tuple of the selected fields; a missing index raises. -/
def selectFields {V : Type} (indices : List Nat) (record : Record V) : Except Err (Record V) :=
  indices.mapM (fun i => match record[i]? with | some x => .ok x | none => .error .key)

/-- `TransformerDataSource.batches` (779-794), for one record: `zip` stops at the shorter one. -/
def transformFields {V : Type} (fns : List (Option (V → V))) (record : Record V) : Record V :=
  List.zipWith applyFn fns record

/-- The type given for a field: `types.NoneType`, `str`, `list` or `set`, or another one. -/
inductive FieldType where
  | omitted | str | list | other (id : Nat)
deriving DecidableEq, Repr

/-- The loop 1183-1194: the indices that are kept, each with its transformer.  `make` is `_get_transformer`
    (1209-1258), which may raise. -/
def keptFields {V : Type} (make : Nat → FieldType → Text → Except Err (Transformer V)) :
    Nat → List FieldType → List Text → Except Err (List (Nat × Transformer V))
  | _, [], _ => .ok []
  | _, _ :: _, [] => .ok []
  | i, ty :: types, name :: names =>
    if ty = .omitted || name = [] then keptFields make (i + 1) types names
    else do
      let tr ← make i ty name
      let rest ← keptFields make (i + 1) types names
      return (i, tr) :: rest

/-- `_generate_records` (1153-1207): the batches that the driver is given for the batches of the source.
    `_get_transformer` never returns `None`, hence `all(... is None)` (1196) holds only if no field is kept. -/
def generateRecords {V : Type} (columns : List Text)
    (make : Nat → FieldType → Text → Except Err (Transformer V)) (types : List FieldType) (names : Option (List Text))
    (batches : List (List (Record V))) : Except Err (List (List (Record V))) := do
  let kept ← keptFields make 0 types (names.getD columns)
  let indices := kept.map Prod.fst
  let transformers := kept.map Prod.snd
  if kept.isEmpty then
    if indices.length = types.length then return batches
    else batches.mapM (fun batch => batch.mapM (selectFields indices))
  else if indices.length = types.length then
    return batches.map (fun batch => batch.map (transformFields (transformers.map (fun tr => tr batch))))
  else
    batches.mapM (fun batch => batch.mapM (fun record => do
      return transformFields (transformers.map (fun tr => tr batch)) (← selectFields indices record)))

end PySqlSync
