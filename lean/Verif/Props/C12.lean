/-
C12 — Statements are issued in dependency order.
-/
import Verif.Props.C01
import Verif.Props.C01Fails

set_option autoImplicit false

namespace PySqlSync
open Spec

variable {topo : List (Text × List Text) → Except Err (List Text)}

/-- Wherever execution of the script is cut off, the statements so far have been accepted and the database is
    consistent: every table, type, schema and column that something refers to exists (nothing was dropped while
    something depended on it), and the next statement is accepted too.
    Partial: see C01. -/
theorem C12_every_prefix_consistent_if_stable (ht : Sorts topo) (d : Dialect) (condCols : Text → List Text)
    {S T : Catalog} {stmts : List Stmt} (wS : CatWF d S) (wT : CatWF d T)
    (vS : Valid (Catalog.db d (engine d condCols) S)) (vT : Valid (Catalog.db d (engine d condCols) T))
    (st : CatStable d (engine d condCols) S T) (h : mutateCatalog topo d {} S T = .ok stmts) (i : Nat) :
    ∃ db, Runs (engine d condCols) (Catalog.db d (engine d condCols) S) (stmts.take i) db ∧ Valid db
      ∧ ∀ s, stmts[i]? = some s → ∃ db', step (engine d condCols) db s = some db' ∧ Valid db' := by
  have hr := C01_synchronize_if_stable ht d condCols wS wT vS vT st h
  obtain ⟨db, h1, v, h2⟩ := runs_take hr vS i
  refine ⟨db, h1, v, ?_⟩
  intro s hs
  have : stmts.drop i = s :: stmts.drop (i + 1) := by
    obtain ⟨hi, hx⟩ := List.getElem?_eq_some_iff.1 hs
    rw [← hx]; exact List.drop_eq_getElem_cons hi
  rw [this] at h2
  cases h2 with
  | cons a b c => exact ⟨_, a, b⟩

/-- In particular for creation from nothing. -/
theorem C12_create_every_prefix_consistent_if_direct (ht : Sorts topo) (d : Dialect) (condCols : Text → List Text)
    {T : Catalog} {stmts : List Stmt} (wT : CatWF d T) (vT : Valid (Catalog.db d (engine d condCols) T))
    (direct : ∀ n ∈ T.namespaces.items, ∀ k, MentionsType n k → k.1 ≠ n.name → MentionsDirectly n k)
    (order : ∀ n ∈ T.namespaces.items, StructsInOrder n.structs.items)
    (h : mutateCatalog topo d {} ⟨⟨[]⟩⟩ T = .ok stmts) (i : Nat) :
    ∃ db, Runs (engine d condCols) (Catalog.db d (engine d condCols) ⟨⟨[]⟩⟩) (stmts.take i) db ∧ Valid db := by
  have hr := C01_create_if_direct ht d condCols wT vT direct order h
  obtain ⟨db, h1, v, _⟩ := runs_take hr ⟨fun k o ho => (by cases ho), fun k o ho => (by cases ho)⟩ i
  exact ⟨db, h1, v⟩

/-- An array of values of a type of another schema is not noticed when the schemas are ordered: with the schemas listed
    in the wrong order the table is created before the type. -/
theorem C12_array_of_foreign_type_fails : Fails.Fails .postgresql ⟨⟨[]⟩⟩
    ⟨⟨[Fails.one "a" [Fails.table "a" "y" [Example.key0 "id",
        Example.col "x" (.array (.user (Example.q "b" "e")))] ["id"]],
      Fails.one "b" [] [⟨Example.q "b" "e", [t "v"]⟩]]⟩⟩ :=
  Fails.fails_of_broken 3 (t "a", t "y") (t "x") (by decide +kernel) (by decide +kernel) (by decide +kernel)

end PySqlSync
