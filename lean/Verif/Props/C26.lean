/-
C26 — Delete removes exactly the given keys; insert-or-ignore never alters an existing row.
-/
import Verif.Lemmas.Dml
import Verif.Examples.Shop

set_option autoImplicit false

namespace PySqlSync
open Spec

variable {V : Type} [DecidableEq V]

/-- The key that is looked up for a value the caller gave (base.py:1296-1302). -/
def storedKey (transformer : Option (V → V)) (k : V) : V :=
  match transformer with
  | some f => f k
  | none => k

namespace C26

theorem toBatches_flatten {α : Type} (l : List α) : (toBatches l).flatten = l := (C21_batches l).all

theorem primaryColumn_name {tb : Table} {c : Column} (h : tb.primaryColumn = .ok c) : tb.primaryKey = [c.name] := by
  unfold Table.primaryColumn Table.checkPrimary at h
  simp only [bind, Except.bind, pure, Except.pure] at h
  split at h
  · cases h
  · rename_i e
    split at e
    · rename_i hl
      split at h
      · rename_i c' hf
        cases h
        have hf := List.find?_some hf
        rw [List.length_eq_one_iff] at hl
        obtain ⟨k, hk⟩ := hl
        simp only [hk, List.contains_cons, List.contains_nil, Bool.or_false, beq_iff_eq] at hf
        rw [hk, hf]
      · cases h
    · cases e

theorem agree_key {key : Text} {k : V} {r : DataRow V} :
    agreeOn [key] (fun c => (supplied [key] [some k] c).getD none) r = decide (r key = some k) := by
  simp only [agreeOn, supplied, List.zip_cons_cons, List.zip_nil_left, List.all_cons, List.all_nil, Bool.and_true]
  simp only [List.lookup_cons, beq_self_eq_true, Option.getD_some, Option.isSome_some, Bool.true_and]
  by_cases e : r key = some k <;> simp [e]
  intro e'; exact e e'.symm

theorem delete_all {tb : Table} {q : QId} {key : Text} {dflt : DataRow V} : ∀ {keys : List V} {rows rows' : List (DataRow V)},
    ExecAll tb dflt (.delete q key) rows (keys.map (fun k => [some k])) rows' →
    rows' = rows.filter (fun r => !keys.any (fun k => decide (r key = some k))) := by
  intro keys
  induction keys with
  | nil =>
    intro rows rows' h
    cases h
    symm; rw [List.filter_eq_self]; intro r _; simp
  | cons k keys ih =>
    intro rows rows' h
    rw [List.map_cons] at h
    cases h with
    | cons gen he hr =>
      simp only [exec, Dml.params, List.length_singleton, ne_eq, not_true_eq_false, if_false, Option.some.injEq] at he
      rw [ih hr, ← he, List.filter_filter]
      congr 1
      funext r
      rw [agree_key]
      simp only [List.any_cons, Bool.not_or]
      rw [Bool.and_comm]

theorem delete_runs {tb : Table} {q : QId} {key : Text} {dflt : DataRow V} (gen : Text → V) :
    ∀ (keys : List V) (rows : List (DataRow V)),
    ∃ rows', ExecAll tb dflt (.delete q key) rows (keys.map (fun k => [some k])) rows' := by
  intro keys
  induction keys with
  | nil => intro rows; exact ⟨rows, .nil _⟩
  | cons k keys ih =>
    intro rows
    obtain ⟨rows', h⟩ := ih (rows.filter (fun m => !agreeOn [key] (fun c => (supplied [key] [some k] c).getD none) m))
    exact ⟨rows', .cons gen (by simp [exec, Dml.params]) h⟩

omit [DecidableEq V] in
theorem deleteRows_eq {tb : Table} {transformer : Option (V → V)} {keys : List V} {s : Dml} {batches : List (List (Record V))}
    (h : deleteRows tb transformer keys = .ok (s, batches)) :
    ∃ c, tb.primaryColumn = .ok c ∧ s = .delete tb.name c.name ∧
      batches.flatten = (keys.map (storedKey transformer)).map (fun k => [some k]) := by
  unfold deleteRows deleteStmt at h
  simp only [bind, Except.bind, pure, Except.pure] at h
  split at h
  · cases h
  · rename_i v e
    split at e
    · cases e
    · rename_i c hp
      cases e
      cases h
      refine ⟨c, hp, rfl, ?_⟩
      rw [toBatches_flatten, List.map_map]
      refine List.map_congr_left ?_
      intro k _
      cases transformer <;> rfl

end C26

/-- **C26.**  `delete_rows` sends a statement for the single column that is the primary key.  If it is executed with the
    parameters sent, in the order they are sent, the rows left are those whose primary key is not listed, in the same
    order and unchanged. -/
theorem C26_delete {tb : Table} {transformer : Option (V → V)} {keys : List V} {s : Dml} {batches : List (List (Record V))}
    (h : deleteRows tb transformer keys = .ok (s, batches)) {dflt : DataRow V} {rows rows' : List (DataRow V)}
    (hx : ExecAll tb dflt s rows batches.flatten rows') :
    ∃ key, tb.primaryKey = [key] ∧ s = .delete tb.name key ∧
      rows' = rows.filter (fun r => !keys.any (fun k => decide (r key = some (storedKey transformer k)))) := by
  obtain ⟨c, hp, rfl, hb⟩ := C26.deleteRows_eq h
  refine ⟨c.name, C26.primaryColumn_name hp, rfl, ?_⟩
  rw [hb] at hx
  rw [C26.delete_all hx]
  congr 1
  funext r
  rw [List.any_map]
  rfl

/-- **C26.**  The deletion is never refused (foreign keys of other tables aside), whatever the keys and the rows. -/
theorem C26_delete_accepted {tb : Table} {transformer : Option (V → V)} {keys : List V} {s : Dml}
    {batches : List (List (Record V))} (h : deleteRows tb transformer keys = .ok (s, batches)) {dflt : DataRow V}
    (gen : Text → V) (rows : List (DataRow V)) : ∃ rows', ExecAll tb dflt s rows batches.flatten rows' := by
  obtain ⟨c, hp, rfl, hb⟩ := C26.deleteRows_eq h
  rw [hb]
  exact C26.delete_runs gen _ _

omit [DecidableEq V] in
/-- **C26.**  A table whose primary key is not a single column of it is refused. -/
theorem C26_composite_key_refused {tb : Table} (transformer : Option (V → V)) (keys : List V)
    (h : tb.primaryKey.length ≠ 1) : ∃ e, deleteRows tb transformer keys = .error e := by
  refine ⟨.key, ?_⟩
  simp [deleteRows, deleteStmt, Table.primaryColumn, Table.checkPrimary, h, bind, Except.bind]

/-- **C26.**  The insert-or-ignore statement of every dialect only adds rows: the rows of the table are, unchanged and
    in the same order, the first rows of the table afterwards. -/
theorem C26_insert_or_ignore {w : Writer} {tb : Table} {order : Option (List Text)} {s : Dml}
    (hs : mergeStmt w tb order = .ok s) {dflt : DataRow V} {rows rows' : List (DataRow V)} {records : List (Record V)}
    (h : ExecAll tb dflt s rows records rows') : rows <+: rows' :=
  merge_prefix_all hs h

namespace C26
open Example

/-- A table of cities with an integer key. -/
def tb : Table :=
  { name := q "geo" "city"
    columns := ⟨[col "id" int8 false, col "name" text true]⟩
    primaryKey := [t "id"], constraints := ⟨[]⟩, description := none }

def row (id : Nat) (name : Option Nat) : DataRow Nat :=
  fun c => if c = t "id" then some id else if c = t "name" then name else none

/-- Two of three rows are deleted. -/
example : ∃ s batches, deleteRows (V := Nat) tb none [3, 1, 7] = .ok (s, batches) ∧
    ExecAll tb (fun _ => none) s [row 1 none, row 2 (some 5), row 3 (some 5)] batches.flatten [row 2 (some 5)] := by
  refine ⟨.delete tb.name (t "id"), [[[some 3], [some 1], [some 7]]], by rfl, ?_⟩
  refine .cons (fun _ => 0) (by rfl) (.cons (fun _ => 0) (by rfl) (.cons (fun _ => 0) (by rfl) (.nil _)))

/-- Insert-or-ignore keeps the row that is there. -/
example : mergeStmt .base tb none = .ok (.merge tb.name [t "id", t "name"] [t "id"] [] [t "id", t "name"]) ∧
    ExecAll tb (fun _ => none) (.merge tb.name [t "id", t "name"] [t "id"] [] [t "id", t "name"])
      [row 1 none] [[some 1, some 9]] [row 1 none] :=
  ⟨by rfl, .cons (fun _ => 0) (by rfl) (.nil _)⟩

end C26
end PySqlSync
