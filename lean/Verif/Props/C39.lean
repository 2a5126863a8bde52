/-
C39 — Schemas are created in reference order.
-/
import Verif.Spec.Stable
import Verif.Lemmas.CatSort
import Verif.Examples.Shop

set_option autoImplicit false

namespace PySqlSync
open Spec

variable {topo : List (Text × List Text) → Except Err (List Text)}

/-- The schema `n` refers to the schema `m`: a column or an attribute is of one of its types, or a foreign key (also
    one that is only declared, of several tables) is to one of its tables. -/
inductive RefersTo (n : Namespace) (m : Text) : Prop where
  | column {tb : Table} {c : Column} {q : QId} : tb ∈ n.tables.items → c ∈ tb.columns.items → c.ty = .user q →
      q.scopeId = some m → RefersTo n m
  | member {s : StructType} {a : StructMember} {q : QId} : s ∈ n.structs.items → a ∈ s.members.items →
      a.ty = .user q → q.scopeId = some m → RefersTo n m
  | foreign {tb : Table} {name : Text} {cols : List Text} {r : Ref} : tb ∈ n.tables.items →
      Constraint.foreign name cols r ∈ tb.constraints.items → r.table.scopeId = some m → RefersTo n m
  | discriminated {tb : Table} {name : Text} {cols : List Text} {rs : List Ref} {r : Ref} : tb ∈ n.tables.items →
      Constraint.discriminated name cols rs ∈ tb.constraints.items → r ∈ rs → r.table.scopeId = some m → RefersTo n m

namespace C39

theorem refersTo_iff {n : Namespace} {m : Text} : m ∈ n.referencedNamespaces ↔ RefersTo n m := by
  constructor
  · intro h
    simp only [Namespace.referencedNamespaces, List.mem_filterMap, List.mem_append, List.mem_flatMap] at h
    obtain ⟨q, hq, hm⟩ := h
    rcases hq with ⟨s, hs, hq⟩ | ⟨tb, htb, hq | hq⟩
    · simp only [StructType.referencedTypes, List.mem_filterMap] at hq
      obtain ⟨a, ha, hd⟩ := hq
      cases ht : a.ty <;> simp [ht, directRef] at hd
      subst hd
      exact .member hs ha ht hm
    · simp only [Table.referencedTypes, List.mem_filterMap] at hq
      obtain ⟨a, ha, hd⟩ := hq
      cases ht : a.ty <;> simp [ht, directRef] at hd
      subst hd
      exact .column htb ha ht hm
    · simp only [Table.referencedTables, List.mem_flatMap] at hq
      obtain ⟨c, hc, hq⟩ := hq
      cases c with
      | unique => cases hq
      | check => cases hq
      | foreign name cols r =>
        rw [List.mem_singleton] at hq
        subst hq
        exact .foreign htb hc hm
      | discriminated name cols rs =>
        obtain ⟨r, hr, rfl⟩ := List.mem_map.1 hq
        exact .discriminated htb hc hr hm
  · intro h
    simp only [Namespace.referencedNamespaces, List.mem_filterMap, List.mem_append, List.mem_flatMap]
    cases h with
    | column htb hc ht hm =>
      exact ⟨_, .inr ⟨_, htb, .inl (List.mem_filterMap.2 ⟨_, hc, by rw [ht]; rfl⟩)⟩, hm⟩
    | member hs ha ht hm =>
      exact ⟨_, .inl ⟨_, hs, List.mem_filterMap.2 ⟨_, ha, by rw [ht]; rfl⟩⟩, hm⟩
    | foreign htb hc hm =>
      exact ⟨_, .inr ⟨_, htb, .inr (List.mem_flatMap.2 ⟨_, hc, List.mem_singleton.2 rfl⟩)⟩, hm⟩
    | discriminated htb hc hr hm =>
      exact ⟨_, .inr ⟨_, htb, .inr (List.mem_flatMap.2 ⟨_, hc, List.mem_map_of_mem hr⟩)⟩, hm⟩

theorem nodup_of_map {α β : Type} {f : α → β} : ∀ {l : List α}, (l.map f).Nodup → l.Nodup
  | [], _ => List.nodup_nil
  | a :: l, h => by
    simp only [List.map_cons, List.nodup_cons] at h
    exact List.nodup_cons.2 ⟨fun ha => h.1 (List.mem_map_of_mem ha), nodup_of_map h.2⟩

theorem not_before_both {l : List Text} (h : l.Nodup) {a b : Text} (h1 : Before l a b) (h2 : Before l b a) : False := by
  obtain ⟨p1, m1, s1, e1⟩ := h1
  obtain ⟨p2, m2, s2, e2⟩ := h2
  have idx : ∀ {x y : Text} {p m s : List Text}, l = p ++ x :: (m ++ y :: s) → l.idxOf x < l.idxOf y := by
    intro x y p m s e
    rw [e] at h ⊢
    have hx : x ∉ p := fun hp => (List.nodup_append.1 h).2.2 x hp x (by simp) rfl
    have hy : y ∉ p := fun hp => (List.nodup_append.1 h).2.2 y hp y (by simp) rfl
    have hne : x ≠ y := by
      intro e; subst e
      have := (List.nodup_append.1 h).2.1
      simp at this
    rw [List.idxOf_append, List.idxOf_append, if_neg hx, if_neg hy]
    simp only [List.idxOf_cons, beq_self_eq_true, cond_true, beq_eq_false_iff_ne.2 hne, cond_false]
    omega
  exact absurd (idx e1) (by have := idx e2; omega)

end C39
open C39

/-- **C39.**  Sorting loses no schema and adds none. -/
theorem C39_no_namespace_lost (ht : Sorts topo) {c c' : Catalog} (hd : Distinct c.namespaces)
    (h : c.sort topo = .ok c') : c'.namespaces.items.Perm c.namespaces.items := by
  have ⟨h1, h2, _⟩ := sort_mem ht hd h
  have n1 : c'.namespaces.items.Nodup := nodup_of_map h1
  have n2 : c.namespaces.items.Nodup := nodup_of_map hd
  exact (List.perm_ext_iff_of_nodup n1 n2).2 (fun x => h2 x)

/-- **C39.**  After sorting, each schema comes after the schemas it refers to.
    (Arrays of values of a type of another schema are no such references: `C39_array_not_noticed`.) -/
theorem C39_references_first (ht : Sorts topo) {c c' : Catalog} (hd : Distinct c.namespaces)
    (h : c.sort topo = .ok c') {n m : Namespace} (hn : n ∈ c.namespaces.items) (hm : m ∈ c.namespaces.items)
    (hne : m.name ≠ n.name) (hr : RefersTo n m.name) :
    Before (c'.namespaces.items.map Namespace.name) m.name n.name := by
  have ⟨_, _, h3⟩ := sort_mem ht hd h
  have gk : c.graph.map Prod.fst = c.namespaces.items.map key := by
    simp [Catalog.graph, List.map_map, Function.comp_def, key]
  have hin : (n.name, n.referencedNamespaces.filter (fun r => c.namespaces.contains r)) ∈ c.graph :=
    List.mem_map.2 ⟨n, hn, rfl⟩
  have closed : ∀ p ∈ c.graph, ∀ x ∈ p.2, x ∈ c.graph.map Prod.fst := by
    intro p hp x hx
    obtain ⟨n', _, rfl⟩ := List.mem_map.1 hp
    rw [gk]
    exact (ODict.contains_iff _ _).1 (List.mem_filter.1 hx).2
  refine ht.order c.graph _ (by rw [gk]; exact hd) closed h3 _ hin m.name ?_ hne
  refine List.mem_filter.2 ⟨refersTo_iff.2 hr, (ODict.contains_iff _ _).2 (List.mem_map_of_mem hm)⟩

/-- **C39.**  Schemas that refer to each other are refused: such a catalog cannot be sorted, hence not be created,
    compared or removed. -/
theorem C39_mutual_references_refused (ht : Sorts topo) {c c' : Catalog} (hd : Distinct c.namespaces) {n m : Namespace}
    (hn : n ∈ c.namespaces.items) (hm : m ∈ c.namespaces.items) (hne : m.name ≠ n.name) (h1 : RefersTo n m.name)
    (h2 : RefersTo m n.name) : c.sort topo ≠ .ok c' := by
  intro h
  exact not_before_both (sort_mem ht hd h).1 (C39_references_first ht hd h hn hm hne h1)
    (C39_references_first ht hd h hm hn (Ne.symm hne) h2)

/-- The example: `legacy` is listed first and refers to `shop`. -/
example : Before (Example.source'.namespaces.items.map Namespace.name) (t "shop") (t "legacy") :=
  C39_references_first Example.topo_sorts Example.source_wf.names Example.source_sort
    (n := Example.legacy0) (m := Example.shop0) (by simp [Example.source]) (by simp [Example.source]) (by decide +kernel)
    (.foreign (tb := _) (name := _) (cols := _) (r := _) List.mem_cons_self List.mem_cons_self rfl)

/-- A finding: an array of values of a type of another schema does not count as a reference. -/
theorem C39_array_not_noticed : ∃ c : Catalog, ∃ n ∈ c.namespaces.items, ∃ m ∈ c.namespaces.items,
    CatWF .postgresql c ∧ MentionsType n (m.name, t "e") ∧ c.sort Example.topo = .ok c
    ∧ Before (c.namespaces.items.map Namespace.name) n.name m.name := by
  let a : Namespace := { name := t "a", tables := ⟨[{
    name := Example.q "a" "x", columns := ⟨[Example.key0 "id", Example.col "x" (.array (.user (Example.q "b" "e")))]⟩,
    primaryKey := [t "id"] }]⟩ }
  let b : Namespace := { name := t "b", enums := ⟨[⟨Example.q "b" "e", [t "v"]⟩]⟩ }
  refine ⟨⟨⟨[a, b]⟩⟩, a, by simp, b, by simp, catWFB_ok (by decide +kernel), .inr ?_,
    Example.ok_of_toOption (by decide +kernel), [], [], [], rfl⟩
  exact ⟨_, List.mem_cons_self, Example.col "x" (.array (.user (Example.q "b" "e"))), by simp, by decide +kernel⟩

end PySqlSync
