/-
C01 — Schema synchronization reaches the desired state.
-/
import Verif.Lemmas.CatSort
import Verif.Lemmas.CatStable
import Verif.Examples.Shop

set_option autoImplicit false

namespace PySqlSync
open Spec

variable {topo : List (Text × List Text) → Except Err (List Text)}

/-- The script for the change from one catalog to another, run on the database described by the first, is accepted
    statement by statement and leaves the database described by the second.
    `CatSafe` excludes the changes that the library attempts but gets wrong, and no others (Props/C01Exact.lean). -/
theorem C01_synchronize_if_safe (ht : Sorts topo) (d : Dialect) (condCols : Text → List Text)
    {S T S' T' : Catalog} {stmts : List Stmt} (wS : CatWF d S) (wT : CatWF d T)
    (hS : S.sort topo = .ok S') (hT : T.sort topo = .ok T')
    (safe : CatSafe d (engine d condCols) S' T')
    (h : mutateCatalog topo d {} S T = .ok stmts) :
    Runs (engine d condCols) (Catalog.db d (engine d condCols) S) stmts (Catalog.db d (engine d condCols) T) := by
  obtain ⟨S1, T1, e1, e2, hm⟩ := mutateCatalog_sorted h
  rw [hS] at e1; rw [hT] at e2
  cases e1; cases e2
  have := run_mutateSorted (E := engine d condCols) (by intro e; subst e; rfl) (wf_sort ht wS hS) (wf_sort ht wT hT)
    safe hm
  rw [db_sort ht wS.names hS, db_sort ht wT.names hT] at this
  exact this

/-- With a single schema (or none, in prefix mode) that both catalogs have, nothing more is asked than that both
    describe consistent databases and that the schema's change is a permitted one. -/
theorem C01_synchronize_one_namespace_if_safe (d : Dialect) (condCols : Text → List Text)
    {a b : Namespace} {stmts : List Stmt} (hn : a.name = b.name) (wS : NsWF d a) (wT : NsWF d b)
    (vS : Valid (Catalog.db d (engine d condCols) ⟨⟨[a]⟩⟩)) (vT : Valid (Catalog.db d (engine d condCols) ⟨⟨[b]⟩⟩))
    (safe : NsSafe d (engine d condCols) a b)
    (h : mutateNamespace d {} a b = .ok stmts) :
    Runs (engine d condCols) (Catalog.db d (engine d condCols) ⟨⟨[a]⟩⟩) stmts
      (Catalog.db d (engine d condCols) ⟨⟨[b]⟩⟩) := by
  have w1 : CatWF d ⟨⟨[a]⟩⟩ := ⟨by simp [Distinct], by simpa using wS⟩
  have w2 : CatWF d ⟨⟨[b]⟩⟩ := ⟨by simp [Distinct], by simpa using wT⟩
  have d1 : ODict.difference (⟨[b]⟩ : ODict Namespace) ⟨[a]⟩ = [] := by simp [ODict.difference, ODict.contains, key, hn]
  have d2 : ODict.difference (⟨[a]⟩ : ODict Namespace) ⟨[b]⟩ = [] := by simp [ODict.difference, ODict.contains, key, hn]
  have d3 : ODict.intersection (⟨[a]⟩ : ODict Namespace) ⟨[b]⟩ = [(a, b)] := by
    simp [ODict.intersection, ODict.get, key, hn]
  have hs : CatSafe d (engine d condCols) ⟨⟨[a]⟩⟩ ⟨⟨[b]⟩⟩ := by
    constructor
    · intro p s e
      simp only [d1] at e
      have : p = [] := (List.append_eq_nil_iff.1 e.symm).1
      subst this
      exact vS
    · simp only [d1]; exact vS
    · simp [d1]
    · intro p s e
      simp only [d1, d2, d3] at e ⊢
      cases p with
      | nil => simp at e; subst e; exact vS
      | cons x p =>
        simp at e
        obtain ⟨rfl, rfl, rfl⟩ := e
        exact vT
    · intro x hx
      simp only [d3, List.mem_singleton] at hx
      subst hx; exact safe
    · intro p s e
      simp only [d2] at e
      have : s = [] := (List.append_eq_nil_iff.1 e.symm).2
      subst this
      exact vT
    · simp [d2]
  refine run_mutateSorted (S := ⟨⟨[a]⟩⟩) (T := ⟨⟨[b]⟩⟩) (by intro e; subst e; rfl) w1 w2 hs ?_
  simp [mutateSorted, d1, d2, d3, h, bind, Except.bind, pure, Except.pure]

/-- The same, with conditions on the two catalogs alone: both describe consistent databases, references across schemas
    are to things that stay, and each schema's change is a permitted one.  (`CatStable` is in Spec/Stable.lean.) -/
theorem C01_synchronize_if_stable (ht : Sorts topo) (d : Dialect) (condCols : Text → List Text)
    {S T : Catalog} {stmts : List Stmt} (wS : CatWF d S) (wT : CatWF d T)
    (vS : Valid (Catalog.db d (engine d condCols) S)) (vT : Valid (Catalog.db d (engine d condCols) T))
    (st : CatStable d (engine d condCols) S T)
    (h : mutateCatalog topo d {} S T = .ok stmts) :
    Runs (engine d condCols) (Catalog.db d (engine d condCols) S) stmts (Catalog.db d (engine d condCols) T) := by
  obtain ⟨S', T', hS, hT, _⟩ := mutateCatalog_sorted h
  exact C01_synchronize_if_safe ht d condCols wS wT hS hT (safe_of_stable ht wS wT hS hT vS vT st) h

/-- From an empty database: creation.  The schemas are created in an order that suits, if what one uses of another is
    used as the type of a column or attribute (`MentionsDirectly`; Props/C39.lean has the converse). -/
theorem C01_create_if_direct (ht : Sorts topo) (d : Dialect) (condCols : Text → List Text)
    {T : Catalog} {stmts : List Stmt} (wT : CatWF d T)
    (vT : Valid (Catalog.db d (engine d condCols) T))
    (direct : ∀ n ∈ T.namespaces.items, ∀ k, MentionsType n k → k.1 ≠ n.name → MentionsDirectly n k)
    (order : ∀ n ∈ T.namespaces.items, StructsInOrder n.structs.items)
    (h : mutateCatalog topo d {} ⟨⟨[]⟩⟩ T = .ok stmts) :
    Runs (engine d condCols) (Catalog.db d (engine d condCols) ⟨⟨[]⟩⟩) stmts
      (Catalog.db d (engine d condCols) T) := by
  have w0 : CatWF d ⟨⟨[]⟩⟩ := ⟨by simp [Distinct], by simp⟩
  have v0 : Valid (Catalog.db d (engine d condCols) ⟨⟨[]⟩⟩) :=
    ⟨fun k o ho => (by cases ho), fun k o ho => (by cases ho)⟩
  refine C01_synchronize_if_stable ht d condCols w0 wT v0 vT ?_ h
  constructor
  · rintro n _ k _ _ ⟨x, hx, _⟩; cases hx
  · intro n hn _ k hk hne _; exact direct n hn k hk hne
  · intro n hn; cases hn
  · intro n hn _; exact order n hn
  · intro n hn; cases hn
  · intro a ha; cases ha

/-- To an empty database: removal, if no schema uses a type of another one. -/
theorem C01_drop_if_apart (ht : Sorts topo) (d : Dialect) (condCols : Text → List Text)
    {S : Catalog} {stmts : List Stmt} (wS : CatWF d S)
    (vS : Valid (Catalog.db d (engine d condCols) S))
    (apart : ∀ n ∈ S.namespaces.items, ∀ k, MentionsType n k → k.1 = n.name)
    (order : ∀ n ∈ S.namespaces.items, StructsInOrder n.structs.items)
    (h : mutateCatalog topo d {} S ⟨⟨[]⟩⟩ = .ok stmts) :
    Runs (engine d condCols) (Catalog.db d (engine d condCols) S) stmts
      (Catalog.db d (engine d condCols) ⟨⟨[]⟩⟩) := by
  have w0 : CatWF d ⟨⟨[]⟩⟩ := ⟨by simp [Distinct], by simp⟩
  have v0 : Valid (Catalog.db d (engine d condCols) ⟨⟨[]⟩⟩) :=
    ⟨fun k o ho => (by cases ho), fun k o ho => (by cases ho)⟩
  refine C01_synchronize_if_stable ht d condCols wS w0 vS v0 ?_ h
  constructor
  · rintro n _ k _ _ _ ⟨x, hx, _⟩; cases hx
  · intro n hn; cases hn
  · intro n hn _ k hk hne; exact absurd (apart n hn k hk) hne
  · intro n hn; cases hn
  · intro n hn _; exact order n hn
  · intro a _ b hb; cases hb

/-- The hypotheses are met by the example, whose script has 21 statements. -/
example : ∃ stmts, Example.script = .ok stmts ∧ stmts.length = 21 ∧
    Runs Example.E (Catalog.db .postgresql Example.E Example.source) stmts
      (Catalog.db .postgresql Example.E Example.target) := by
  obtain ⟨stmts, h, hl⟩ := Example.script_ok
  exact ⟨stmts, h, hl, C01_synchronize_if_safe Example.topo_sorts .postgresql _ Example.source_wf Example.target_wf
    Example.source_sort Example.target_sort Example.safe h⟩

end PySqlSync
