/-
C02 — Synchronizing an up-to-date database does nothing.
-/
import Verif.Spec.Same
import Verif.Lemmas.CatSort
import Verif.Examples.Shop

set_option autoImplicit false

namespace PySqlSync
open Spec

variable {topo : List (Text × List Text) → Except Err (List Text)}

section
variable {α : Type} [Named α]

theorem optRel_contains {R : α → α → Prop} {a b : ODict α} (h : ∀ k, OptRel R (a.get k) (b.get k)) (k : Text) :
    a.contains k = b.contains k := by
  have := h k
  rw [Bool.eq_iff_iff, ODict.contains_iff, ODict.contains_iff, ← ODict.get_isSome_iff, ← ODict.get_isSome_iff]
  cases h1 : a.get k <;> cases h2 : b.get k <;> simp_all [OptRel]

theorem diff_nil_of_contains {a b : ODict α} (h : ∀ k, a.contains k = b.contains k) : a.difference b = [] := by
  simp only [ODict.difference, List.filter_eq_nil_iff]
  intro x hx
  have : a.contains (key x) = true := (ODict.contains_iff a _).2 (List.mem_map_of_mem hx)
  simp [← h, this]

theorem inter_rel {R : α → α → Prop} {a b : ODict α} (ha : Distinct a) (h : ∀ k, OptRel R (a.get k) (b.get k))
    {p : α × α} (hp : p ∈ a.intersection b) : R p.1 p.2 ∧ p.1 ∈ a.items ∧ p.2 ∈ b.items := by
  simp only [ODict.intersection, List.mem_filterMap, Option.map_eq_some_iff] at hp
  obtain ⟨x, hx, y, hy, rfl⟩ := hp
  have := h (key x)
  rw [ODict.get_eq_of_mem (d := a) ha hx, hy] at this
  exact ⟨this, hx, (ODict.get_some_mem hy).1⟩

theorem perm_get {a b : ODict α} (ha : Distinct a) (hb : Distinct b) (h : a.items.Perm b.items) (k : Text) :
    OptRel Eq (a.get k) (b.get k) := by
  cases h1 : a.get k with
  | some x =>
    have := ODict.get_some_mem h1
    rw [(ODict.get_eq_some_iff (d := b) hb).2 ⟨h.mem_iff.1 this.1, this.2⟩]
    rfl
  | none =>
    cases h2 : b.get k with
    | none => trivial
    | some y =>
      have := ODict.get_some_mem h2
      rw [(ODict.get_eq_some_iff (d := a) ha).2 ⟨h.mem_iff.2 this.1, this.2⟩] at h1
      cases h1
end

theorem mapM_nil {α β : Type} {f : α → Except Err (List β)} {l : List α} (h : ∀ a ∈ l, f a = .ok []) :
    ∃ r, l.mapM f = .ok r ∧ r.flatten = [] := by
  induction l with
  | nil => exact ⟨[], rfl, rfl⟩
  | cons a l ih =>
    obtain ⟨r, hr, he⟩ := ih (fun x hx => h x (by simp [hx]))
    refine ⟨[] :: r, ?_, by simpa using he⟩
    rw [List.mapM_cons, h a (by simp), hr]; rfl

theorem mutateEnum_same {a b : EnumType} (h : SameEnum a b) : mutateEnum a b = .ok [] := by
  have h1 : a.values.filter (fun v => !b.values.contains v) = [] := by
    rw [List.filter_eq_nil_iff]; intro v hv; simp [h.values.mem_iff.1 hv]
  have h2 : b.values.filter (fun v => !a.values.contains v) = [] := by
    rw [List.filter_eq_nil_iff]; intro v hv; simp [h.values.mem_iff.2 hv]
  unfold mutateEnum
  rw [h1, h2, h.name]
  simp [checkIdentity, bind, Except.bind, pure, Except.pure]

theorem commentChange_same (a : Option Text) (mk : Option Text → Stmt) : commentChange a a mk = [] := by
  cases a <;> simp [commentChange]

theorem mutateStruct_same {d : Dialect} {a b : StructType} (ha : Distinct a.members) (hb : Distinct b.members)
    (h : SameStruct a b) : mutateStruct d a b = .ok [] := by
  have hg := perm_get ha hb h.members
  have hc := optRel_contains hg
  have h1 := diff_nil_of_contains hc
  have h2 := diff_nil_of_contains (fun k => (hc k).symm)
  have h3 : structActions a b = [] := by
    simp only [structActions, h1, h2, List.map_nil, List.nil_append, List.append_nil, List.filterMap_eq_nil_iff]
    intro p hp
    have := (inter_rel ha hg hp).1
    simp [this]
  unfold mutateStruct
  rw [h3, h.name, h.description]
  cases d <;> simp [checkIdentity, bind, Except.bind, pure, Except.pure, commentChange_same]

theorem comment_ok {d : Dialect} {c : Column}
    (h : d = .mysql → ∀ s, c.description = some s → (s.takeWhile (· ≠ '\n')).length ≤ 1024) :
    ∃ x, c.comment d = .ok x := by
  unfold Column.comment
  split
  · rename_i s hs
    have := h rfl s hs
    rw [if_neg]
    · exact ⟨_, rfl⟩
    · simpa [firstLine, Nat.not_lt] using this
  all_goals exact ⟨_, rfl⟩

theorem mutateColumn_same {d : Dialect} {c : Column}
    (h : d = .mysql → ∀ s, c.description = some s → (s.takeWhile (· ≠ '\n')).length ≤ 1024) :
    mutateColumn d c c = .ok [] := by
  obtain ⟨x, hx⟩ := comment_ok h
  cases d <;> simp [mutateColumn, hx, bind, Except.bind, pure, Except.pure]

theorem mutateTable_same {d : Dialect} {a b : Table} (wa : TableWF d a) (wb : TableWF d b) (h : SameTable a b)
    (hc : d = .mysql → ∀ c ∈ a.columns.items, ∀ s, c.description = some s →
      (s.takeWhile (· ≠ '\n')).length ≤ 1024) : mutateTable d a b = .ok [] := by
  have g1 := perm_get wa.columns wb.columns h.columns
  have g2 := perm_get wa.constraints wb.constraints h.constraints
  have c1 := optRel_contains g1
  have c2 := optRel_contains g2
  have d1 := diff_nil_of_contains c1
  have d1' := diff_nil_of_contains (fun k => (c1 k).symm)
  have d2 := diff_nil_of_contains c2
  have d2' := diff_nil_of_contains (fun k => (c2 k).symm)
  have hm : migratedPairs d a b = [] := by
    simp only [migratedPairs, List.filter_eq_nil_iff]
    intro p hp
    have := (inter_rel wa.columns g1 hp).1
    simp [isColumnMigrated, this]
  obtain ⟨r, hr, hrf⟩ := mapM_nil (f := fun p : Column × Column => mutateColumn d p.1 p.2)
    (l := a.columns.intersection b.columns) (by
      intro p hp
      have k := inter_rel wa.columns g1 hp
      rw [← k.1]
      exact mutateColumn_same (fun e => hc e p.1 k.2.1))
  have hcon : (a.constraints.intersection b.constraints).any (fun p => p.1 ≠ p.2) = false := by
    rw [List.any_eq_false]
    intro p hp
    have := (inter_rel wa.constraints g2 hp).1
    simp [this]
  have halter : alterActions a b d = .ok [] := by
    unfold alterActions
    rw [hm, hr, d1, d2, d2', hcon]
    simp [wrapColumn, bind, Except.bind, pure, Except.pure, hrf]
  have hbase : mutateTableBase d a b = .ok [] := by
    unfold mutateTableBase
    rw [hm, d1', halter, h.name]
    simp [checkIdentity, wrapColumn, bind, Except.bind, pure, Except.pure]
  have hdef : mssqlDefaults a b = [] := by
    simp only [mssqlDefaults, List.flatMap_eq_nil_iff]
    intro p hp
    have := (inter_rel wa.columns g1 hp).1
    simp [mssqlDefault, this]
  have hcom : (b.columns.items.flatMap (fun c => commentChange ((a.columns.get c.name).bind Column.description)
      c.description (Stmt.commentColumn b.name c.name))) = [] := by
    rw [List.flatMap_eq_nil_iff]
    intro c hcm
    have : a.columns.get c.name = some c :=
      (ODict.get_eq_some_iff (d := a.columns) wa.columns).2 ⟨h.columns.mem_iff.2 hcm, rfl⟩
    rw [this]
    exact commentChange_same _ _
  unfold mutateTable
  rw [hbase]
  cases d with
  | mssql => simp [bind, Except.bind, pure, Except.pure, hdef]
  | mysql =>
    simp only [bind, Except.bind, pure, Except.pure, Table.shortDescription, h.description]
    cases b.description <;> simp
  | postgresql => simp [bind, Except.bind, pure, Except.pure, hcom, h.description, commentChange_same]
  | _ => simp [bind, Except.bind, pure, Except.pure]

theorem mutateNamespace_same {d : Dialect} {o : MutatorOptions} {a b : Namespace} (wa : NsWF d a) (wb : NsWF d b)
    (h : SameNs a b)
    (hc : d = .mysql → ∀ tb ∈ a.tables.items, ∀ c ∈ tb.columns.items, ∀ s, c.description = some s →
      (s.takeWhile (· ≠ '\n')).length ≤ 1024) : mutateNamespace d o a b = .ok [] := by
  have ce := optRel_contains h.enums
  have cs := optRel_contains h.structs
  have ct := optRel_contains h.tables
  have e1 := diff_nil_of_contains ce
  have e2 := diff_nil_of_contains (fun k => (ce k).symm)
  have s1 := diff_nil_of_contains cs
  have s2 := diff_nil_of_contains (fun k => (cs k).symm)
  have t1 := diff_nil_of_contains ct
  have t2 := diff_nil_of_contains (fun k => (ct k).symm)
  obtain ⟨r1, h1, f1⟩ := mapM_nil (f := fun p : EnumType × EnumType => mutateEnum p.1 p.2)
    (l := a.enums.intersection b.enums) (fun p hp => mutateEnum_same (inter_rel wa.enums h.enums hp).1)
  obtain ⟨r2, h2, f2⟩ := mapM_nil (f := fun p : StructType × StructType => mutateStruct d p.1 p.2)
    (l := a.structs.intersection b.structs) (fun p hp => by
      have k := inter_rel wa.structs h.structs hp
      exact mutateStruct_same (wa.members _ k.2.1) (wb.members _ k.2.2) k.1)
  obtain ⟨r3, h3, f3⟩ := mapM_nil (f := fun p : Table × Table => mutateTable d p.1 p.2)
    (l := a.tables.intersection b.tables) (fun p hp => by
      have k := inter_rel wa.tables h.tables hp
      exact mutateTable_same (wa.wf _ k.2.1) (wb.wf _ k.2.2) k.1 (fun e => hc e p.1 k.2.1))
  unfold mutateNamespace
  simp [h.name, e1, e2, s1, s2, t1, t2, h1, h2, h3, f1, f2, f3, softPairs, bind, Except.bind, pure, Except.pure]

/-- If the source and the target are the same up to the order in which things are listed, the script is empty: nothing
    is executed. (The two sorts are the library's own; they fail only if schemas refer to each other in a cycle.) -/
theorem C02_nothing_to_do (ht : Sorts topo) (d : Dialect) (o : MutatorOptions) {S T S' T' : Catalog}
    (wS : CatWF d S) (wT : CatWF d T) (hS : S.sort topo = .ok S') (hT : T.sort topo = .ok T')
    (h : SameCat S T) (hc : CommentsFit d S) : mutateCatalog topo d o S T = .ok [] := by
  have kS := sort_mem ht wS.names hS
  have kT := sort_mem ht wT.names hT
  have gS : ∀ k, S'.namespaces.get k = S.namespaces.get k := fun k => nsGet_ext kS.1 wS.names kS.2.1 k
  have gT : ∀ k, T'.namespaces.get k = T.namespaces.get k := fun k => nsGet_ext kT.1 wT.names kT.2.1 k
  have h' : ∀ k, OptRel SameNs (S'.namespaces.get k) (T'.namespaces.get k) := by
    intro k; rw [gS, gT]; exact h k
  have c1 := optRel_contains h'
  have d1 := diff_nil_of_contains c1
  have d2 := diff_nil_of_contains (fun k => (c1 k).symm)
  obtain ⟨r, hr, hf⟩ := mapM_nil (f := fun p : Namespace × Namespace => mutateNamespace d o p.1 p.2)
    (l := S'.namespaces.intersection T'.namespaces) (fun p hp => by
      have k := inter_rel kS.1 h' hp
      exact mutateNamespace_same (wS.wf _ ((kS.2.1 _).1 k.2.1)) (wT.wf _ ((kT.2.1 _).1 k.2.2)) k.1
        (fun e => hc e p.1 ((kS.2.1 _).1 k.2.1)))
  unfold mutateCatalog
  simp [hS, hT, d1, d2, hr, hf, bind, Except.bind, pure, Except.pure]

/-- The example's target and the same catalog listed differently. -/
def Example.target2 : Catalog := ⟨⟨[
  { Example.shop1 with tables := ⟨[Example.status1, { Example.order1 with
      columns := ⟨Example.order1.columns.items.reverse⟩
      constraints := ⟨Example.order1.constraints.items.reverse⟩ }, Example.customer1]⟩ }, Example.audit1]⟩⟩

/-- Its script has no statements. -/
example : mutateCatalog Example.topo .postgresql {} Example.target Example.target2 = .ok [] := by
  have ht2 : Example.target2.sort Example.topo = .ok Example.target2 := Example.ok_of_toOption (by decide +kernel)
  refine C02_nothing_to_do Example.topo_sorts _ _ Example.target_wf (catWFB_ok (by decide +kernel)) Example.target_sort ht2
    ?_ (by intro h; cases h)
  intro k
  have cases2 : ∀ (x y : Namespace), ODict.get (⟨[x, y]⟩ : ODict Namespace) k =
      if x.name = k then some x else if y.name = k then some y else none := by
    intro x y; simp [ODict.get, List.find?, key]; split <;> split <;> simp_all
  have same : ∀ n, SameNs n n := by
    intro n
    refine ⟨rfl, ?_, ?_, ?_⟩ <;> intro k
    · cases n.enums.get k <;> simp [OptRel]; exact ⟨rfl, .refl _⟩
    · cases n.structs.get k <;> simp [OptRel]; exact ⟨rfl, .refl _, rfl⟩
    · cases n.tables.get k <;> simp [OptRel]; exact ⟨rfl, .refl _, rfl, .refl _, rfl⟩
  have tsame : ∀ x : Table, SameTable x x := fun x => ⟨rfl, .refl _, rfl, .refl _, rfl⟩
  have shop : SameNs Example.shop1 { Example.shop1 with tables := ⟨[Example.status1, { Example.order1 with
      columns := ⟨Example.order1.columns.items.reverse⟩
      constraints := ⟨Example.order1.constraints.items.reverse⟩ }, Example.customer1]⟩ } := by
    have s := same Example.shop1
    refine ⟨rfl, s.enums, s.structs, ?_⟩
    intro k
    have ks : key Example.status1 = t "status" := rfl
    have ko : key Example.order1 = t "order" := rfl
    have kc : key Example.customer1 = t "customer" := rfl
    by_cases e1 : t "status" = k
    · subst e1
      have a1 : Example.shop1.tables.get (t "status") = some Example.status1 := by decide +kernel
      rw [a1]; simp [ODict.get, List.find?, ks, OptRel, tsame]
    · by_cases e2 : t "order" = k
      · subst e2
        have a1 : Example.shop1.tables.get (t "order") = some Example.order1 := by decide +kernel
        rw [a1]
        refine (?_ : SameTable _ _)
        exact ⟨rfl, (List.reverse_perm _).symm, rfl, (List.reverse_perm _).symm, rfl⟩
      · by_cases e3 : t "customer" = k
        · subst e3
          have a1 : Example.shop1.tables.get (t "customer") = some Example.customer1 := by decide +kernel
          rw [a1]
          exact tsame _
        · have n1 : Example.shop1.tables.get k = none := by
            rw [ODict.get_none_iff]
            simp [Example.shop1, ks, ko, kc, Ne.symm e1, Ne.symm e2, Ne.symm e3]
          rw [n1]
          have n2 : ODict.get (⟨[Example.status1, { Example.order1 with
              columns := ⟨Example.order1.columns.items.reverse⟩
              constraints := ⟨Example.order1.constraints.items.reverse⟩ }, Example.customer1]⟩ : ODict Table) k = none := by
            rw [ODict.get_none_iff]
            intro hmem
            simp only [List.map_cons, List.map_nil, List.mem_cons, List.not_mem_nil, or_false] at hmem
            rcases hmem with h | h | h
            · exact e1 h.symm
            · exact e2 h.symm
            · exact e3 h.symm
          show OptRel SameTable none (ODict.get _ k)
          rw [n2]; trivial
  unfold Example.target Example.target2
  rw [cases2, cases2]
  by_cases e1 : Example.audit1.name = k
  · subst e1; simp [OptRel, same, show Example.shop1.name ≠ Example.audit1.name by decide]
  · by_cases e2 : Example.shop1.name = k
    · subst e2
      simp only [if_neg e1, if_true]
      exact shop
    · simp [e1, e2, OptRel]

end PySqlSync
