/-
C13 — Create followed by drop restores the database.
-/
import Verif.Props.C01
import Verif.Props.C01Fails

set_option autoImplicit false

namespace PySqlSync
open Spec

variable {topo : List (Text × List Text) → Except Err (List Text)}

/-- The empty database. -/
def emptyDb : Db := { schemas := fun n => n = [], objs := fun _ => none }

/-- `generator.create` followed by `generator.drop` (base.py:250-318: the first script leads from no objects to the
    objects of the catalog, the second back from these to none), executed on an empty database, succeed, and the
    database is empty again.
    Partial: no schema may use a type of another one (`C13_two_schemas_fails`), and composite types must be listed in
    order of reference. -/
theorem C13_create_drop_if_apart (ht : Sorts topo) (d : Dialect) (condCols : Text → List Text)
    {C : Catalog} {create drop : List Stmt} (w : CatWF d C) (v : Valid (Catalog.db d (engine d condCols) C))
    (apart : ∀ n ∈ C.namespaces.items, ∀ k, MentionsType n k → k.1 = n.name)
    (order : ∀ n ∈ C.namespaces.items, StructsInOrder n.structs.items)
    (h1 : mutateCatalog topo d {} ⟨⟨[]⟩⟩ C = .ok create) (h2 : mutateCatalog topo d {} C ⟨⟨[]⟩⟩ = .ok drop) :
    Runs (engine d condCols) emptyDb (create ++ drop) emptyDb := by
  have e : ∀ E : Engine, Catalog.db d E ⟨⟨[]⟩⟩ = emptyDb := by
    intro E
    unfold emptyDb Catalog.db
    simp [ODict.contains, ODict.get]
  have r1 := C01_create_if_direct ht d condCols w v (fun n hn k hk hne => absurd (apart n hn k hk) hne) order h1
  have r2 := C01_drop_if_apart ht d condCols w v apart order h2
  rw [e] at r1 r2
  exact runs_append r1 r2

/-- Foreign keys between schemas, in both directions even, are no obstacle; the example has one. -/
example : ∃ create drop, mutateCatalog Example.topo .postgresql {} ⟨⟨[]⟩⟩ Example.source = .ok create
    ∧ mutateCatalog Example.topo .postgresql {} Example.source ⟨⟨[]⟩⟩ = .ok drop
    ∧ create.length + drop.length = 25
    ∧ Runs Example.E emptyDb (create ++ drop) emptyDb := by
  have h1 : (mutateCatalog Example.topo .postgresql {} ⟨⟨[]⟩⟩ Example.source).toOption.isSome = true := by decide +kernel
  have h2 : (mutateCatalog Example.topo .postgresql {} Example.source ⟨⟨[]⟩⟩).toOption.isSome = true := by decide +kernel
  have h3 : ((mutateCatalog Example.topo .postgresql {} ⟨⟨[]⟩⟩ Example.source).toOption.getD []).length
      + ((mutateCatalog Example.topo .postgresql {} Example.source ⟨⟨[]⟩⟩).toOption.getD []).length = 25 := by
    decide +kernel
  have e1 := Fails.script_ok h1
  have e2 := Fails.script_ok h2
  refine ⟨_, _, e1, e2, h3, C13_create_drop_if_apart Example.topo_sorts .postgresql _ Example.source_wf
    (catValidB_ok (by decide +kernel)) ?_ ?_ e1 e2⟩
  · intro n hn k hk
    simp only [Example.source, List.mem_cons, List.not_mem_nil, or_false] at hn
    rcases hn with rfl | rfl
    all_goals
      rcases hk with ⟨s, hs, m, hm, hk⟩ | ⟨tb, htb, c, hc, hk⟩
    · simp [Example.legacy0] at hs
    · simp only [Example.legacy0, List.mem_cons, List.not_mem_nil, or_false] at htb
      subst htb
      simp only [List.mem_cons, List.not_mem_nil, or_false] at hc
      rcases hc with rfl | rfl | rfl <;>
        simp [Example.key0, Example.col, Example.int8, SqlType.refs, Example.q, QId.key, QId.scopeId] at hk
      rw [hk.2]; rfl
    · simp only [Example.shop0, List.mem_cons, List.not_mem_nil, or_false] at hs
      subst hs
      simp only [List.mem_cons, List.not_mem_nil, or_false] at hm
      rcases hm with rfl | rfl <;> simp [Example.text, Example.int4, SqlType.refs] at hk
    · simp only [Example.shop0, List.mem_cons, List.not_mem_nil, or_false] at htb
      rcases htb with rfl | rfl
      · simp only [Example.customer0, List.mem_cons, List.not_mem_nil, or_false] at hc
        rcases hc with rfl | rfl | rfl | rfl <;>
          simp [Example.key0, Example.col, Example.int8, Example.text, SqlType.refs, Example.q, QId.key, QId.scopeId] at hk
        rw [hk.2]; rfl
      · simp only [Example.order0, List.mem_cons, List.not_mem_nil, or_false] at hc
        rcases hc with rfl | rfl | rfl | rfl <;>
          simp [Example.key0, Example.col, Example.int8, Example.int4, SqlType.refs, Example.q, QId.key, QId.scopeId] at hk
        rw [hk.2]; rfl
  · intro n hn
    simp only [Example.source, List.mem_cons, List.not_mem_nil, or_false] at hn
    rcases hn with rfl | rfl
    all_goals exact structsInOrderB_ok (by decide +kernel)

/-- Two schemas, of which the second uses a type of the first: created, they cannot be dropped again, as the type goes
    first. -/
theorem C13_two_schemas_fails :
    let c : Catalog := ⟨⟨[Fails.one "a" [] [⟨Example.q "a" "e", [t "v"]⟩],
      Fails.one "b" [Fails.table "b" "y" [Example.key0 "id", Example.col "x" (.user (Example.q "a" "e"))] ["id"]]]⟩⟩
    Fails.Fails .postgresql c ⟨⟨[]⟩⟩ := C01_drop_namespace_order_fails

end PySqlSync
