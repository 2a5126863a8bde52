/-
Sorting a catalog changes only the order of its namespaces.
-/
import Verif.Spec.Order
import Verif.Lemmas.CatMutate

set_option autoImplicit false

namespace PySqlSync
open Spec

variable {topo : List (Text × List Text) → Except Err (List Text)}

theorem mapM_get_mem {α : Type} [Named α] {x : ODict α} :
    ∀ {order : List Text} {l : List α}, order.mapM (fun k => x.get k) = some l →
      l.map key = order ∧ (∀ a ∈ l, a ∈ x.items) := by
  intro order
  induction order with
  | nil => intro l h; simp at h; subst h; simp
  | cons k ks ih =>
    intro l h
    rw [List.mapM_cons] at h
    cases hk : x.get k with
    | none => simp [hk] at h
    | some a =>
      cases hr : ks.mapM (fun k => x.get k) with
      | none => simp [hk, hr] at h
      | some r =>
        simp [hk, hr] at h
        subst h
        have ⟨h1, h2⟩ := ih hr
        have ha := ODict.get_some_mem hk
        refine ⟨by simp [ha.2, h1], ?_⟩
        intro b hb
        rcases List.mem_cons.1 hb with rfl | hb
        · exact ha.1
        · exact h2 b hb

/-- Sorting lists the same namespaces in another order. -/
theorem sort_mem (ht : Sorts topo) {c c' : Catalog} (hd : Distinct c.namespaces) (h : c.sort topo = .ok c') :
    Distinct c'.namespaces ∧ (∀ n, n ∈ c'.namespaces.items ↔ n ∈ c.namespaces.items)
      ∧ topo c.graph = .ok (c'.namespaces.items.map key) := by
  unfold Catalog.sort at h
  cases ho : topo c.graph with
  | error e => simp [ho, bind, Except.bind] at h
  | ok order =>
    simp only [ho, bind, Except.bind] at h
    have gk : c.graph.map Prod.fst = c.namespaces.items.map key := by
      simp [Catalog.graph, List.map_map, Function.comp_def, key]
    have hp := ht.perm _ _ (by rw [gk]; exact hd) ho
    rw [gk] at hp
    have hnd : order.Nodup := hp.nodup_iff.2 hd
    cases hr : c.namespaces.reorder order with
    | none => simp [hr] at h
    | some ns =>
      simp only [hr, pure, Except.pure, Except.ok.injEq] at h
      subst h
      unfold ODict.reorder at hr
      cases hm : order.mapM (fun k => c.namespaces.get k) with
      | none => simp [hm] at hr
      | some l =>
        simp only [hm, Option.map_some, Option.some.injEq] at hr
        subst hr
        have ⟨h1, h2⟩ := mapM_get_mem hm
        have hl : (ODict.ofList l).items = l := ODict.ofList_of_nodup l (by rw [h1]; exact hnd)
        refine ⟨?_, ?_, by simp [hl, h1]⟩
        · show ((ODict.ofList l).items.map key).Nodup
          rw [hl, h1]; exact hnd
        · intro n
          show n ∈ (ODict.ofList l).items ↔ _
          rw [hl]
          refine ⟨h2 n, fun hn => ?_⟩
          have : key n ∈ l.map key := by rw [h1]; exact hp.mem_iff.2 (List.mem_map_of_mem hn)
          obtain ⟨m, hm', e⟩ := List.mem_map.1 this
          have hmm := h2 m hm'
          have e1 := ODict.get_eq_of_mem (d := c.namespaces) hd hmm
          have e2 := ODict.get_eq_of_mem (d := c.namespaces) hd hn
          rw [e, e2] at e1
          cases e1; exact hm'

theorem db_sort (ht : Sorts topo) {d : Dialect} {E : Engine} {c c' : Catalog} (hd : Distinct c.namespaces)
    (h : c.sort topo = .ok c') : Spec.Catalog.db d E c' = Spec.Catalog.db d E c := by
  have ⟨h1, h2, _⟩ := sort_mem ht hd h
  exact dbOf_congr (l1 := c'.namespaces.items) (l2 := c.namespaces.items) (nsGet_ext h1 hd h2)

theorem wf_sort (ht : Sorts topo) {d : Dialect} {c c' : Catalog} (w : CatWF d c) (h : c.sort topo = .ok c') :
    CatWF d c' := by
  have ⟨h1, h2, _⟩ := sort_mem ht w.names h
  exact ⟨h1, fun n hn => w.wf n ((h2 n).1 hn)⟩

theorem mutateCatalog_sorted {d : Dialect} {o : MutatorOptions} {S T : Catalog} {stmts : List Stmt}
    (h : mutateCatalog topo d o S T = .ok stmts) :
    ∃ S' T', S.sort topo = .ok S' ∧ T.sort topo = .ok T' ∧ mutateSorted d o S' T' = .ok stmts := by
  unfold mutateCatalog at h
  cases hS : S.sort topo with
  | error e => simp [hS, bind, Except.bind] at h
  | ok S' =>
    cases hT : T.sort topo with
    | error e => simp [hS, hT, bind, Except.bind] at h
    | ok T' =>
      simp only [hS, hT, bind, Except.bind] at h
      exact ⟨S', T', rfl, rfl, h⟩

end PySqlSync
