/-
C46: comments after scripts that the database executes.
-/
import Verif.Props.C46
import Verif.Props.C01Exact

set_option autoImplicit false

namespace PySqlSync
open Spec

variable {topo : List (Text × List Text) → Except Err (List Text)}

/-- In scripts that turn the source into the target, names keep their kinds. -/
theorem C46.kinds_kept (ht : Sorts topo) (d : Dialect) (condCols : Text → List Text) {S T : Catalog} {stmts : List Stmt}
    (wS : CatWF d S) (wT : CatWF d T) (vS : Valid (Catalog.db d (engine d condCols) S)) (h : mutateCatalog topo d {} S T = .ok stmts)
    (run : Runs (engine d condCols) (Catalog.db d (engine d condCols) S) stmts (Catalog.db d (engine d condCols) T)) :
    ∀ a ∈ S.namespaces.items, ∀ b ∈ T.namespaces.items, a.name = b.name → KindsKept a b ∧ StructKindsKept a b := by
  obtain ⟨S', T', h1, h2, _⟩ := mutateCatalog_sorted h
  have hs := (C01_exact_criterion ht d condCols wS wT vS h1 h2 h).1 run
  intro a ha b hb hab
  have ha' := ((sort_mem ht wS.names h1).2.1 a).2 ha
  have hb' := ((sort_mem ht wT.names h2).2.1 b).2 hb
  have hsafe := hs.safe (a, b) (Rem.mem_inter_intro (sort_mem ht wT.names h2).1 ha' hb' hab)
  exact ⟨⟨hsafe.tableKind, hsafe.lookup⟩, hsafe.structKind⟩

/-- **C46.** Tables and columns, for every script that turns the source into the target, on PostgreSQL and MySQL: if the comments in the database
    are the descriptions of the source, then afterwards they are the descriptions of all tables and columns of the target, if and only if (on
    PostgreSQL) each converted column gets another description, or has none. -/
theorem C46_executed_criterion {d : Dialect} (hd : d = .postgresql ∨ d = .mysql) (ht : Sorts topo) (condCols : Text → List Text) {S T : Catalog}
    {stmts : List Stmt} (wS : CatWF d S) (wT : CatWF d T) (vS : Valid (Catalog.db d (engine d condCols) S))
    (h : mutateCatalog topo d {} S T = .ok stmts)
    (run : Runs (engine d condCols) (Catalog.db d (engine d condCols) S) stmts (Catalog.db d (engine d condCols) T))
    (c : Key → Remarks) (before : ∀ a, IsTable S a → Described d a (c a.name.key)) :
    (∀ b, IsTable T b → Described d b (remarks d c stmts b.name.key)) ↔
      ∀ a b, IsTable S a → IsTable T b → a.name.key = b.name.key → ConvertedChange d a b :=
  C46_exact_criterion hd ht wS wT h (fun a ha b hb e => (C46.kinds_kept ht d condCols wS wT vS h run a ha b hb e).1) c before

/-- Composite types, for every script that turns the source into the target, on PostgreSQL. -/
theorem C46_executed_types (ht : Sorts topo) (condCols : Text → List Text) {S T : Catalog}
    {stmts : List Stmt} (wS : CatWF .postgresql S) (wT : CatWF .postgresql T) (vS : Valid (Catalog.db .postgresql (engine .postgresql condCols) S))
    (h : mutateCatalog topo .postgresql {} S T = .ok stmts)
    (run : Runs (engine .postgresql condCols) (Catalog.db .postgresql (engine .postgresql condCols) S) stmts
      (Catalog.db .postgresql (engine .postgresql condCols) T))
    (c : Key → Remarks) (before : ∀ s, IsStruct S s → (c s.name.key).own = stored s.description) :
    ∀ s, IsStruct T s → (remarks .postgresql c stmts s.name.key).own = stored s.description :=
  C46_type_descriptions_in_sync ht wS wT h (C46.kinds_kept ht .postgresql condCols wS wT vS h run) c before

open Example in
/-- The hypotheses are met by the example of a change. -/
example : ∃ stmts, Example.script = .ok stmts ∧
    Runs E (Catalog.db .postgresql E source) stmts (Catalog.db .postgresql E target) ∧
    ((∀ b, IsTable target b → Described .postgresql b (remarks .postgresql (C46.remarksOf .postgresql source) stmts b.name.key)) ↔
      ∀ a b, IsTable source a → IsTable target b → a.name.key = b.name.key → ConvertedChange .postgresql a b) := by
  obtain ⟨stmts, h, _⟩ := script_ok
  have v : Valid (Catalog.db .postgresql E source) := catValidB_ok (by decide +kernel)
  have run := (C01_exact_criterion topo_sorts .postgresql _ source_wf target_wf v source_sort target_sort h).2 safe
  exact ⟨stmts, h, run, C46_executed_criterion (.inl rfl) topo_sorts _ source_wf target_wf v h run _ (C46.described source source_wf)⟩

end PySqlSync
