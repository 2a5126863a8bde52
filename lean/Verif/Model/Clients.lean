/-
  Several clients that write records with enumeration columns at the same time: each of them runs `SelectorTransformerDataSource.batches` (base.py:812-829, with 632-650, 653-684), and
  their statements reach the database in any order.

  Model/Lookup has a single client, whose statements are executed without interruption.

  Simplifications: a statement with one record is atomic, and seen by all clients once it is executed. (SQL Server and Oracle commit the labels of a batch together, before the client
  reads the table, and let other clients wait: fewer interleavings than here. If the connection is lost before, labels that no other client has seen are not there after all.)
-/
import Verif.Model.Lookup

set_option autoImplicit false

namespace PySqlSync
open Spec

/-- Batches of records. -/
abbrev RecordBatch (V : Type) := List (List (Field V))

/-- What a client is about to do.
    * `next`: to take the next of the remaining batches (812-814);
    * `collect batch fns trs batches`: in the loop over the transformers (815-817); `fns` are the functions got so far, `trs` the transformers left;
    * `merging batch fns tr tb labels left trs batches`: in `_merge_lookup_table` (632-650) for transformer `tr`; `left` are the labels that have not been sent yet;
    * `failed`: an error was raised. -/
inductive Phase (V : Type) where
  | next (batches : List (RecordBatch V))
  | collect (batch : RecordBatch V) (fns : List (Field V → Except Err (Field V))) (trs : List (Nat × FieldTransformer V)) (batches : List (RecordBatch V))
  | merging (batch : RecordBatch V) (fns : List (Field V → Except Err (Field V))) (tr : Nat × FieldTransformer V) (tb : Table) (labels left : List V)
      (trs : List (Nat × FieldTransformer V)) (batches : List (RecordBatch V))
  | failed

/-- The database, the clients, and the batches that each client has written to its own table so far: as they were supplied and as they were sent. -/
structure Clients (V : Type) where
  db : Lookups V
  phase : Nat → Phase V
  sent : Nat → List (RecordBatch V × RecordBatch V)

/-- `get_enum_transformer`, `get_enum_list_transformer` (526-536) of a dictionary. -/
def FieldTransformer.lookupFn {V : Type} [DecidableEq V] (dict : List (Option V × Option V)) : FieldTransformer V → Field V → Except Err (Field V)
  | .scalar fn => fun f => .ok (match fn with | some g => g f | none => f)
  | .enum _ => enumFn dict
  | .enumList _ => enumListFn dict

/-- The client goes on. -/
def Clients.move {V : Type} (s : Clients V) (i : Nat) (p : Phase V) : Clients V := { s with phase := fun j => if j = i then p else s.phase j }

/-- One step of one client, or of another program. `trs i` are the transformers of client `i`, `tabs` the lookup tables; `gen rows g` says whether the engine may generate the values `g` for a
    table with these rows. -/
inductive ClientStep {V : Type} [DecidableEq V] (w : Writer) (dflt : QId → DataRow V) (gen : List (DataRow V) → (Text → V) → Prop) (tabs : List Table)
    (trs : Nat → List (Nat × FieldTransformer V)) : Clients V → Clients V → Prop where
  /-- The next batch (812-815). -/
  | take {s : Clients V} {i : Nat} {batch : RecordBatch V} {batches : List (RecordBatch V)} :
      s.phase i = .next (batch :: batches) → ClientStep w dflt gen tabs trs s (s.move i (.collect batch [] (trs i) batches))
  /-- `ScalarTransformer.get` (607-610). -/
  | scalar {s : Clients V} {i : Nat} {batch : RecordBatch V} {fns : List (Field V → Except Err (Field V))} {ix : Nat} {fn : Option (Field V → Field V)}
      {rest : List (Nat × FieldTransformer V)} {batches : List (RecordBatch V)} :
      s.phase i = .collect batch fns ((ix, .scalar fn) :: rest) batches →
      ClientStep w dflt gen tabs trs s (s.move i (.collect batch (fns ++ [FieldTransformer.lookupFn [] (.scalar fn)]) rest batches))
  /-- `EnumTransformer.get`, `EnumListTransformer.get` (656-667, 673-684): the labels of the batch, as a set. -/
  | begin {s : Clients V} {i : Nat} {batch : RecordBatch V} {fns : List (Field V → Except Err (Field V))} {ix : Nat} {tr : FieldTransformer V} {tb : Table}
      {rest : List (Nat × FieldTransformer V)} {batches : List (RecordBatch V)} {found labels : List V} :
      s.phase i = .collect batch fns ((ix, tr) :: rest) batches → tr = .enum tb ∨ tr = .enumList tb →
      batchLabels tr ix batch = .ok found → labels.Nodup → (∀ v, v ∈ labels ↔ v ∈ found) →
      ClientStep w dflt gen tabs trs s (s.move i (.merging batch fns (ix, tr) tb labels labels rest batches))
  /-- A label is inserted unless it is there (638-641). -/
  | label {s : Clients V} {i : Nat} {batch : RecordBatch V} {fns : List (Field V → Except Err (Field V))} {tr : Nat × FieldTransformer V} {tb : Table}
      {labels : List V} {v : V} {left : List V} {rest : List (Nat × FieldTransformer V)} {batches : List (RecordBatch V)} {stmt : Dml} {g : Text → V}
      {rows : List (DataRow V)} :
      s.phase i = .merging batch fns tr tb labels (v :: left) rest batches → mergeStmt w tb none = .ok stmt → gen (s.db tb.name) g →
      exec tb (dflt tb.name) g (s.db tb.name) stmt [some v] = some rows →
      ClientStep w dflt gen tabs trs s
        { s.move i (.merging batch fns tr tb labels left rest batches) with db := fun q => if q = tb.name then rows else s.db q }
  /-- The table is read (643-650), unless there are no labels (635-636). -/
  | read {s : Clients V} {i : Nat} {batch : RecordBatch V} {fns : List (Field V → Except Err (Field V))} {ix : Nat} {tr : FieldTransformer V} {tb : Table}
      {labels : List V} {rest : List (Nat × FieldTransformer V)} {batches : List (RecordBatch V)} {selected : List (DataRow V)} {value key : Column} :
      s.phase i = .merging batch fns (ix, tr) tb labels [] rest batches → tb.valueColumns.head? = some value → tb.primaryColumn = .ok key →
      selected.Perm (s.db tb.name) →
      ClientStep w dflt gen tabs trs s
        (s.move i (.collect batch (fns ++ [tr.lookupFn (if labels = [] then [] else selected.map (fun r => (r value.name, r key.name)))]) rest batches))
  /-- The records of the batch are transformed and sent (818-829). -/
  | send {s : Clients V} {i : Nat} {batch out : RecordBatch V} {fns : List (Field V → Except Err (Field V))} {batches : List (RecordBatch V)} :
      s.phase i = .collect batch fns [] batches → batch.mapM (applyFns (((trs i).map Prod.fst).zip fns)) = .ok out →
      ClientStep w dflt gen tabs trs s
        { s.move i (.next batches) with sent := fun j => if j = i then s.sent i ++ [(batch, out)] else s.sent j }
  /-- An error, a lost connection, the end of a process. -/
  | fail {s : Clients V} (i : Nat) : ClientStep w dflt gen tabs trs s (s.move i .failed)
  /-- Another program adds labels (not necessarily with pysqlsync). -/
  | outside {s : Clients V} {db : Lookups V} : (∀ q, s.db q <+: db q) → (∀ tb ∈ tabs, consistent tb (db tb.name) = true) →
      ClientStep w dflt gen tabs trs s { s with db := db }

/-- Several steps. -/
inductive ClientSteps {V : Type} [DecidableEq V] (w : Writer) (dflt : QId → DataRow V) (gen : List (DataRow V) → (Text → V) → Prop) (tabs : List Table)
    (trs : Nat → List (Nat × FieldTransformer V)) : Clients V → Clients V → Prop where
  | refl (s : Clients V) : ClientSteps w dflt gen tabs trs s s
  | step {s s' s'' : Clients V} : ClientStep w dflt gen tabs trs s s' → ClientSteps w dflt gen tabs trs s' s'' → ClientSteps w dflt gen tabs trs s s''

/-- The states that are reached: clients with these batches, in any order of their steps. -/
inductive Reached {V : Type} [DecidableEq V] (w : Writer) (dflt : QId → DataRow V) (gen : List (DataRow V) → (Text → V) → Prop) (tabs : List Table)
    (trs : Nat → List (Nat × FieldTransformer V)) (db0 : Lookups V) (batches : Nat → List (RecordBatch V)) : Clients V → Prop where
  | init : Reached w dflt gen tabs trs db0 batches ⟨db0, fun i => .next (batches i), fun _ => []⟩
  | step {s s' : Clients V} : Reached w dflt gen tabs trs db0 batches s → ClientStep w dflt gen tabs trs s s' → Reached w dflt gen tabs trs db0 batches s'

end PySqlSync
