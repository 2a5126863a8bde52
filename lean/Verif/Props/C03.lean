/-
C03 — Synchronization never drops what both states share.
-/
import Verif.Spec.Foot
import Verif.Lemmas.Mem
import Verif.Examples.Shop

set_option autoImplicit false

namespace PySqlSync
open Spec

variable {topo : List (Text × List Text) → Except Err (List Text)} {d : Dialect} {o : MutatorOptions}

theorem eq_of_key {α : Type} [Named α] {x : ODict α} (h : Distinct x) {a b : α} (ha : a ∈ x.items) (hb : b ∈ x.items)
    (e : key a = key b) : a = b := by
  have e1 := ODict.get_eq_of_mem (d := x) h ha
  have e2 := ODict.get_eq_of_mem (d := x) h hb
  rw [e, e2] at e1
  exact (Option.some.inj e1).symm

/-- Tables with the same key are in the same namespace of a catalog, and are the same. -/
theorem table_unique {c : Catalog} (w : CatWF d c) {n m : Namespace} (hn : n ∈ c.namespaces.items)
    (hm : m ∈ c.namespaces.items) {a b : Table} (ha : a ∈ n.tables.items) (hb : b ∈ m.tables.items)
    (e : a.name.key = b.name.key) : n = m ∧ a = b := by
  have e1 : n.name = m.name := by
    rw [← (w.wf n hn).tableScope a ha, ← (w.wf m hm).tableScope b hb, e]
  have e2 : n = m := eq_of_key w.names hn hm e1
  subst e2
  exact ⟨rfl, eq_of_key (w.wf n hn).tables ha hb (congrArg Prod.snd e)⟩

theorem mem_inter {α : Type} [Named α] {a b : ODict α} {x y : α} (h : (x, y) ∈ a.intersection b) :
    x ∈ a.items ∧ y ∈ b.items ∧ key x = key y := by
  simp only [ODict.intersection, List.mem_filterMap, Option.map_eq_some_iff] at h
  obtain ⟨u, hu, v, hv, e⟩ := h
  cases e
  have := ODict.get_some_mem hv
  exact ⟨hu, this.1, this.2.symm⟩

theorem mem_diff {α : Type} [Named α] {a b : ODict α} {x : α} (h : x ∈ a.difference b) :
    x ∈ a.items ∧ ∀ y ∈ b.items, key x ≠ key y := by
  simp only [ODict.difference, List.mem_filter, Bool.not_eq_true'] at h
  refine ⟨h.1, fun y hy e => ?_⟩
  exact (ODict.contains_false_iff b _).1 h.2 (e ▸ List.mem_map_of_mem hy)

theorem table_create_mem {tb : Table} {l : List Stmt} (h : tb.createStmt d = .ok l) {s : Stmt} (hs : s ∈ l) :
    (∃ c k p m, s = .createTable tb.name c k p m) ∨ (∃ x, s = .commentTable tb.name x)
      ∨ (∃ n x, s = .commentColumn tb.name n x) ∨ ∃ c r, s = .insertRows tb.name c r := by
  unfold Table.createStmt at h
  simp only [bind, Except.bind] at h
  split at h
  · cases h
  · simp only [pure, Except.pure, Except.ok.injEq] at h
    subst h
    rcases List.mem_cons.1 hs with rfl | hs
    · exact .inl ⟨_, _, _, _, rfl⟩
    · rcases List.mem_append.1 hs with hs | hs
      · split at hs
        · rcases List.mem_append.1 hs with hs | hs
          · split at hs
            · exact .inr (.inl ⟨_, List.mem_singleton.1 hs⟩)
            · simp at hs
          · obtain ⟨c, _, hs⟩ := List.mem_flatMap.1 hs
            split at hs
            · exact .inr (.inr (.inl ⟨_, _, List.mem_singleton.1 hs⟩))
            · simp at hs
        · simp at hs
      · split at hs
        · exact .inr (.inr (.inr ⟨_, _, List.mem_singleton.1 hs⟩))
        · simp at hs

theorem addConstraints_mem {tb : Table} {s : Stmt} (hs : s ∈ tb.addConstraintsStmt d) :
    ∃ l, s = .alterTable tb.name l ∧ ∀ x ∈ l, ∃ n c, x = .addConstraint n c := by
  unfold Table.addConstraintsStmt at hs
  split at hs
  · simp at hs
  · have hx : ∀ x ∈ tb.tableConstraints.map (fun c => Action.addConstraint c.1 c.2), ∃ n c, x = .addConstraint n c := by
      intro x hx
      obtain ⟨c, _, rfl⟩ := List.mem_map.1 hx
      exact ⟨_, _, rfl⟩
    dsimp only at hs
    split at hs
    · exact ⟨_, List.mem_singleton.1 hs, hx⟩
    · obtain ⟨l, e, hl⟩ := mem_alterStmt hs
      exact ⟨l, e, fun x hx' => hx x (hl x hx')⟩

theorem dropConstraints_mem {tb : Table} {s : Stmt} (hs : s ∈ tb.dropConstraintsStmt) :
    ∃ l, s = .alterTable tb.name l ∧ ∀ x ∈ l, ∃ n, x = .dropConstraint n := by
  unfold Table.dropConstraintsStmt at hs
  split at hs
  · simp at hs
  · refine ⟨_, List.mem_singleton.1 hs, ?_⟩
    intro x hx
    obtain ⟨c, _, rfl⟩ := List.mem_map.1 hx
    exact ⟨_, rfl⟩

theorem createObjects_mem {n : Namespace} {l : List Stmt} (h : n.createObjectsStmt d = .ok l) {s : Stmt} (hs : s ∈ l) :
    (∃ e ∈ n.enums.items, s ∈ e.createStmt) ∨ (∃ e ∈ n.structs.items, s ∈ e.createStmt d)
      ∨ ∃ tb ∈ n.tables.items, ∃ x, tb.createStmt d = .ok x ∧ s ∈ x := by
  unfold Namespace.createObjectsStmt at h
  simp only [bind, Except.bind] at h
  split at h
  · cases h
  · rename_i ts hts
    simp only [pure, Except.pure, Except.ok.injEq] at h
    subst h
    simp only [List.mem_append] at hs
    rcases hs with (hs | hs) | hs
    · exact .inl (by simpa using List.mem_flatMap.1 hs)
    · exact .inr (.inl (by simpa using List.mem_flatMap.1 hs))
    · exact .inr (.inr (mem_of_mapM hts hs))

theorem dropObjects_mem {n : Namespace} {s : Stmt} (hs : s ∈ n.dropObjectsStmt) :
    (∃ tb ∈ n.tables.items, s = .dropTable tb.name) ∨ (∃ e ∈ n.structs.items, s = .dropType e.name)
      ∨ ∃ e ∈ n.enums.items, s = .dropType e.name := by
  unfold Namespace.dropObjectsStmt at hs
  simp only [List.mem_append, List.mem_flatMap, List.mem_reverse] at hs
  rcases hs with (⟨tb, h, hs⟩ | ⟨tb, h, hs⟩) | ⟨tb, h, hs⟩
  · exact .inl ⟨tb, h, List.mem_singleton.1 hs⟩
  · exact .inr (.inl ⟨tb, h, List.mem_singleton.1 hs⟩)
  · exact .inr (.inr ⟨tb, h, List.mem_singleton.1 hs⟩)

theorem createSchema_mem {n : Namespace} {s : Stmt} (hs : s ∈ n.createSchemaStmt d) :
    ∃ b, s = .createSchema n.name b := by
  unfold Namespace.createSchemaStmt at hs
  split at hs
  · simp at hs
  · split at hs <;> exact ⟨_, List.mem_singleton.1 hs⟩

theorem dropSchema_mem {n : Namespace} {s : Stmt} (hs : s ∈ n.dropSchemaStmt d) :
    ∃ b, s = .dropSchema n.name b := by
  unfold Namespace.dropSchemaStmt at hs
  split at hs
  · simp at hs
  · split at hs <;> exact ⟨_, List.mem_singleton.1 hs⟩

theorem structCreate_mem {e : StructType} {s : Stmt} (hs : s ∈ e.createStmt d) :
    (∃ a, s = .createStruct e.name a) ∨ (∃ x, s = .commentType e.name x) ∨ ∃ n x, s = .commentColumn e.name n x := by
  unfold StructType.createStmt at hs
  rcases List.mem_cons.1 hs with rfl | hs
  · exact .inl ⟨_, rfl⟩
  · split at hs
    · rcases List.mem_append.1 hs with hs | hs
      · split at hs
        · exact .inr (.inl ⟨_, List.mem_singleton.1 hs⟩)
        · simp at hs
      · obtain ⟨c, _, hs⟩ := List.mem_flatMap.1 hs
        split at hs
        · exact .inr (.inr ⟨_, _, List.mem_singleton.1 hs⟩)
        · simp at hs
    · simp at hs

theorem mutateEnum_mem {a b : EnumType} {l : List Stmt} (h : mutateEnum a b = .ok l) {s : Stmt} (hs : s ∈ l) :
    ∃ v, s = .addValue a.name v := by
  unfold mutateEnum at h
  simp only [bind, Except.bind] at h
  split at h
  · cases h
  · split at h
    · cases h
    · simp only [pure, Except.pure, Except.ok.injEq] at h
      subst h
      obtain ⟨v, _, rfl⟩ := List.mem_map.1 hs
      exact ⟨v, rfl⟩

theorem commentChange_mem {s : Stmt} {x y : Option Text} {mk : Option Text → Stmt} (hm : s ∈ commentChange x y mk) :
    ∃ z, s = mk z := by
  unfold commentChange at hm
  split at hm <;> split at hm
  all_goals first | exact ⟨_, List.mem_singleton.1 hm⟩ | simp at hm

theorem mutateStruct_mem {a b : StructType} {l : List Stmt} (h : mutateStruct d a b = .ok l) {s : Stmt} (hs : s ∈ l) :
    (∃ x, s = .alterStruct a.name x) ∨ ∃ x, s = .commentType b.name x := by
  unfold mutateStruct at h
  simp only [bind, Except.bind] at h
  split at h
  · cases h
  · simp only [pure, Except.pure, Except.ok.injEq] at h
    subst h
    rcases List.mem_append.1 hs with hs | hs
    · split at hs
      · simp at hs
      · exact .inl ⟨_, List.mem_singleton.1 hs⟩
    · split at hs
      · obtain ⟨z, e⟩ := commentChange_mem hs
        exact .inr ⟨z, e⟩
      · simp at hs

theorem migrateColumn_mem {a b : Table} {x y : Column} {l : List Stmt} (h : migrateColumn d a x b y = .ok l) {s : Stmt}
    (hs : s ∈ l) : ∃ r, b.getConstraint y.name = .ok r ∧
      ((∃ v i, s = .insertLabels r.table v i) ∨ (∃ c, s = .insertDistinct r.table c a.name)
        ∨ ∃ u v, s = .updateKeys a.name u v r.table) := by
  unfold migrateColumn at h
  split at h
  · simp only [bind, Except.bind] at h
    split at h
    · cases h
    · rename_i r hr
      simp only [pure, Except.pure, Except.ok.injEq] at h
      subst h
      exact ⟨r, hr, .inr (.inr ⟨_, _, List.mem_singleton.1 hs⟩)⟩
  · simp only [bind, Except.bind] at h
    split at h
    · cases h
    · rename_i r hr
      simp only [pure, Except.pure, Except.ok.injEq] at h
      subst h
      refine ⟨r, hr, ?_⟩
      rcases List.mem_append.1 hs with hs | hs
      · split at hs
        · exact .inl ⟨_, _, List.mem_singleton.1 hs⟩
        · exact .inr (.inl ⟨_, List.mem_singleton.1 hs⟩)
        · simp at hs
      · exact .inr (.inr ⟨_, _, List.mem_singleton.1 hs⟩)
  · cases h; simp at hs

/-- A table that both catalogs have is never dropped. -/
theorem C03_shared_table_is_not_dropped (ht : Sorts topo) {S T : Catalog} (wS : CatWF d S) (wT : CatWF d T)
    {stmts : List Stmt} (h : mutateCatalog topo d o S T = .ok stmts) {a b : Table} (ha : IsTable S a) (hb : IsTable T b)
    (hab : a.name.key = b.name.key) (q : QId) (hq : q.key = a.name.key) : Stmt.dropTable q ∉ stmts := by
  intro hs
  obtain ⟨n, hn, han⟩ := ha
  obtain ⟨m, hm, hbm⟩ := hb
  have hnm : n.name = m.name := by
    rw [← (wS.wf n hn).tableScope a han, ← (wT.wf m hm).tableScope b hbm, hab]
  cases origin ht wS.names wT.names h hs with
  | created n' _ _ h' =>
    rcases h' with h' | ⟨l, hl, h'⟩ | h'
    · obtain ⟨b, e⟩ := createSchema_mem h'; cases e
    · rcases createObjects_mem hl h' with ⟨e, _, he⟩ | ⟨e, _, he⟩ | ⟨tb, _, x, hx, he⟩
      · simp [PySqlSync.EnumType.createStmt] at he
      · rcases structCreate_mem he with ⟨_, e⟩ | ⟨_, e⟩ | ⟨_, _, e⟩ <;> cases e
      · rcases table_create_mem hx he with ⟨_, _, _, _, e⟩ | ⟨_, e⟩ | ⟨_, _, e⟩ | ⟨_, _, e⟩ <;> cases e
    · obtain ⟨tb, _, h'⟩ := List.mem_flatMap.1 h'
      obtain ⟨l, e, _⟩ := addConstraints_mem h'; cases e
  | changed a' b' ha' hb' hn' l hl hs' =>
    cases nsOrigin hl hs' with
    | enumCreate e _ he => simp [PySqlSync.EnumType.createStmt] at he
    | structCreate e _ he => rcases structCreate_mem he with ⟨_, e⟩ | ⟨_, e⟩ | ⟨_, _, e⟩ <;> cases e
    | enumSoft p _ he => simp [PySqlSync.EnumType.softDropStmt] at he
    | tableCreate tb _ x hx he =>
      rcases table_create_mem hx he with ⟨_, _, _, _, e⟩ | ⟨_, e⟩ | ⟨_, _, e⟩ | ⟨_, _, e⟩ <;> cases e
    | tableConstraints tb _ he => obtain ⟨l, e, _⟩ := addConstraints_mem he; cases e
    | enumMigrate p _ he => simp [migrateEnum] at he
    | enumMutate x y _ l hl he => obtain ⟨v, e⟩ := mutateEnum_mem hl he; cases e
    | structMutate x y _ l hl he => rcases mutateStruct_mem hl he with ⟨_, e⟩ | ⟨_, e⟩ <;> cases e
    | tableMutate x y _ l hl he =>
      cases tabOrigin hl he with
      | defaults h => obtain ⟨_, e, _⟩ := mem_alterStmt h; cases e
      | rename p _ r _ h => obtain ⟨_, e, _⟩ := mem_alterStmt h; cases e
      | add acts _ h => obtain ⟨_, e, _⟩ := mem_alterStmt h; cases e
      | migrate p _ l hl h =>
        obtain ⟨r, _, h⟩ := migrateColumn_mem hl h
        rcases h with ⟨_, _, e⟩ | ⟨_, e⟩ | ⟨_, _, e⟩ <;> cases e
      | alter acts _ h => obtain ⟨_, e, _⟩ := mem_alterStmt h; cases e
      | comment h => rcases h with ⟨_, e⟩ | ⟨_, _, e⟩ <;> cases e
    | tableDrop tb _ htb he =>
      have e : q = tb.name := by
        have := List.mem_singleton.1 (show _ ∈ [_] from he)
        injection this
      subst e
      have ⟨k1, k2⟩ := mem_diff htb
      have ⟨e1, e2⟩ := table_unique wS ha' hn k1 han hq
      subst e1 e2
      have e3 : b' = m := eq_of_key wT.names hb' hm (hn'.symm.trans hnm)
      subst e3
      exact k2 b hbm (congrArg Prod.snd hab)
    | structDrop e _ _ he => simp [PySqlSync.StructType.dropStmt] at he
    | enumDrop e _ _ he =>
      rcases he with ⟨he, _⟩ | ⟨he, _⟩
      · simp [PySqlSync.EnumType.dropStmt] at he
      · simp [PySqlSync.EnumType.hardDropStmt] at he
  | released n' _ _ h' =>
    obtain ⟨tb, _, h'⟩ := List.mem_flatMap.1 h'
    obtain ⟨l, e, _⟩ := dropConstraints_mem h'; cases e
  | removed n' hn' hT' _ h' =>
    rcases h' with h' | h'
    · rcases dropObjects_mem h' with ⟨tb, htb, e⟩ | ⟨_, _, e⟩ | ⟨_, _, e⟩
      · cases e
        have ⟨e1, _⟩ := table_unique wS hn' hn htb han hq
        subst e1
        exact hT' m hm hnm.symm
      · cases e
      · cases e
    · obtain ⟨b, e⟩ := dropSchema_mem h'; cases e

/-- A schema that both catalogs have is never dropped. -/
theorem C03_shared_schema_is_not_dropped (ht : Sorts topo) {S T : Catalog} (wS : CatWF d S) (wT : CatWF d T)
    {stmts : List Stmt} (h : mutateCatalog topo d o S T = .ok stmts) {m : Namespace} (hm : m ∈ T.namespaces.items)
    (cascade : Bool) : Stmt.dropSchema m.name cascade ∉ stmts := by
  intro hs
  cases origin ht wS.names wT.names h hs with
  | created n' _ _ h' =>
    rcases h' with h' | ⟨l, hl, h'⟩ | h'
    · obtain ⟨b, e⟩ := createSchema_mem h'; cases e
    · rcases createObjects_mem hl h' with ⟨e, _, he⟩ | ⟨e, _, he⟩ | ⟨tb, _, x, hx, he⟩
      · simp [PySqlSync.EnumType.createStmt] at he
      · rcases structCreate_mem he with ⟨_, e⟩ | ⟨_, e⟩ | ⟨_, _, e⟩ <;> cases e
      · rcases table_create_mem hx he with ⟨_, _, _, _, e⟩ | ⟨_, e⟩ | ⟨_, _, e⟩ | ⟨_, _, e⟩ <;> cases e
    · obtain ⟨tb, _, h'⟩ := List.mem_flatMap.1 h'
      obtain ⟨l, e, _⟩ := addConstraints_mem h'; cases e
  | changed a' b' ha' hb' hn' l hl hs' =>
    cases nsOrigin hl hs' with
    | enumCreate e _ he => simp [PySqlSync.EnumType.createStmt] at he
    | structCreate e _ he => rcases structCreate_mem he with ⟨_, e⟩ | ⟨_, e⟩ | ⟨_, _, e⟩ <;> cases e
    | enumSoft p _ he => simp [PySqlSync.EnumType.softDropStmt] at he
    | tableCreate tb _ x hx he =>
      rcases table_create_mem hx he with ⟨_, _, _, _, e⟩ | ⟨_, e⟩ | ⟨_, _, e⟩ | ⟨_, _, e⟩ <;> cases e
    | tableConstraints tb _ he => obtain ⟨l, e, _⟩ := addConstraints_mem he; cases e
    | enumMigrate p _ he => simp [migrateEnum] at he
    | enumMutate x y _ l hl he => obtain ⟨v, e⟩ := mutateEnum_mem hl he; cases e
    | structMutate x y _ l hl he => rcases mutateStruct_mem hl he with ⟨_, e⟩ | ⟨_, e⟩ <;> cases e
    | tableMutate x y _ l hl he =>
      cases tabOrigin hl he with
      | defaults h => obtain ⟨_, e, _⟩ := mem_alterStmt h; cases e
      | rename p _ r _ h => obtain ⟨_, e, _⟩ := mem_alterStmt h; cases e
      | add acts _ h => obtain ⟨_, e, _⟩ := mem_alterStmt h; cases e
      | migrate p _ l hl h =>
        obtain ⟨r, _, h⟩ := migrateColumn_mem hl h
        rcases h with ⟨_, _, e⟩ | ⟨_, e⟩ | ⟨_, _, e⟩ <;> cases e
      | alter acts _ h => obtain ⟨_, e, _⟩ := mem_alterStmt h; cases e
      | comment h => rcases h with ⟨_, e⟩ | ⟨_, _, e⟩ <;> cases e
    | tableDrop tb _ htb he => simp [PySqlSync.Table.dropStmt] at he
    | structDrop e _ _ he => simp [PySqlSync.StructType.dropStmt] at he
    | enumDrop e _ _ he =>
      rcases he with ⟨he, _⟩ | ⟨he, _⟩
      · simp [PySqlSync.EnumType.dropStmt] at he
      · simp [PySqlSync.EnumType.hardDropStmt] at he
  | released n' _ _ h' =>
    obtain ⟨tb, _, h'⟩ := List.mem_flatMap.1 h'
    obtain ⟨l, e, _⟩ := dropConstraints_mem h'; cases e
  | removed n' hn' hT' _ h' =>
    rcases h' with h' | h'
    · rcases dropObjects_mem h' with ⟨tb, htb, e⟩ | ⟨_, _, e⟩ | ⟨_, _, e⟩ <;> cases e
    · obtain ⟨b, e⟩ := dropSchema_mem h'
      injection e with e1 e2
      exact hT' m hm e1

theorem mutateColumn_keeps {s u : Column} {acts : List Action} (h : mutateColumn d s u = .ok acts) :
    ∀ x ∈ acts, ∀ m, ¬ Removes x m := by
  intro x hx m
  unfold mutateColumn at h
  split at h
  · simp only [bind, Except.bind] at h
    split at h
    · split at h
      · cases h
      · cases h; rw [List.mem_singleton.1 hx]; exact id
    · split at h
      · cases h
      · split at h
        · cases h
        · split at h
          · split at h
            · cases h
            · cases h; rw [List.mem_singleton.1 hx]; exact id
          · cases h; simp at hx
  · dsimp only at h
    generalize (if s.ty ≠ u.ty then some u.ty else none) = ty at h
    generalize (if s.default ≠ u.default then some (u.default.map (defaultExpr Dialect.oracle u.ty)) else none) = df at h
    generalize (if s.nullable ≠ u.nullable then some u.nullable else none) = nl at h
    generalize (if s.identity ≠ u.identity then some u.identity else none) = idn at h
    split at h
    · cases h; rw [List.mem_singleton.1 hx]; exact id
    · cases h; simp at hx
  · split at h
    · cases h
    · split at h
      · cases h; rw [List.mem_singleton.1 hx]; exact id
      · cases h; simp at hx
  · split at h
    · cases h; simp at hx
    · cases h
      simp only [List.mem_append] at hx
      rcases hx with ((hx | hx) | hx) | hx
      · split at hx
        · rw [List.mem_singleton.1 hx]; exact id
        · simp at hx
      · split at hx
        · rw [List.mem_singleton.1 hx]; exact id
        · split at hx
          · rw [List.mem_singleton.1 hx]; exact id
          · simp at hx
      · split at hx
        · rw [List.mem_singleton.1 hx]; exact id
        · split at hx
          · rw [List.mem_singleton.1 hx]; exact id
          · simp at hx
        · simp at hx
      · split at hx
        · rw [List.mem_singleton.1 hx]; exact id
        · split at hx
          · rw [List.mem_singleton.1 hx]; exact id
          · simp at hx

/-- Actions of the last group that make a column disappear. -/
theorem alterActions_removes {a b : Table} {acts : List Action} (h : alterActions a b d = .ok acts) {x : Action}
    (hx : x ∈ acts) {m : Text} (hr : Removes x m) :
    (∃ p ∈ migratedPairs d a b, m = deletedName p.1.name) ∨ ∃ c ∈ a.columns.difference b.columns, m = c.name := by
  unfold alterActions at h
  simp only [bind, Except.bind] at h
  split at h
  · cases h
  · rename_i ch hch
    have hch := wrapColumn_ok' hch
    split at h
    · cases h
    · simp only [pure, Except.pure, Except.ok.injEq] at h
      subst h
      simp only [List.mem_append] at hx
      rcases hx with (((hx | hx) | hx) | hx) | hx
      · obtain ⟨p, hp, rfl⟩ := List.mem_map.1 hx
        exact .inl ⟨p, hp, hr.symm⟩
      · obtain ⟨p, hp, y, hy, hm⟩ := mem_of_mapM hch hx
        exact absurd hr (mutateColumn_keeps hy x hm m)
      · obtain ⟨c, hc, rfl⟩ := List.mem_map.1 hx
        refine .inr ⟨c, hc, ?_⟩
        unfold Column.dropStmt at hr
        split at hr <;> exact hr.symm
      · obtain ⟨c, _, hc⟩ := List.mem_filterMap.1 hx
        rw [Option.map_eq_some_iff] at hc
        obtain ⟨_, _, rfl⟩ := hc
        exact absurd hr id
      · obtain ⟨c, _, hc⟩ := List.mem_filterMap.1 hx
        rw [Option.map_eq_some_iff] at hc
        obtain ⟨_, _, rfl⟩ := hc
        exact absurd hr id

theorem renameStmt_removes {c : Column} {n : Text} {r : Action} (h : c.renameStmt d n = .ok r) {m : Text}
    (hr : Removes r m) : m = c.name := by
  unfold Column.renameStmt at h
  split at h
  · simp only [bind, Except.bind] at h
    split at h
    · cases h
    · cases h; exact hr.symm
  · cases h; exact hr.symm

/-- A column that both versions of a table have, and whose data is not converted to a lookup key, is never dropped or
    renamed by any statement on that table. -/
theorem C03_shared_column_is_kept (ht : Sorts topo) {S T : Catalog} (wS : CatWF d S) (wT : CatWF d T)
    {stmts : List Stmt} (h : mutateCatalog topo d o S T = .ok stmts) {a b : Table} (ha : IsTable S a) (hb : IsTable T b)
    (hab : a.name.key = b.name.key) {s u : Column} (hs : s ∈ a.columns.items) (hu : u ∈ b.columns.items)
    (hsu : s.name = u.name) (hconv : ¬ Converted d s u) {q : QId} {acts : List Action} (hq : q.key = a.name.key)
    (hst : Stmt.alterTable q acts ∈ stmts) {x : Action} (hx : x ∈ acts) : ¬ Removes x s.name := by
  obtain ⟨n, hn, han⟩ := ha
  obtain ⟨m, hm, hbm⟩ := hb
  have hnm : n.name = m.name := by
    rw [← (wS.wf n hn).tableScope a han, ← (wT.wf m hm).tableScope b hbm, hab]
  intro hr
  cases origin ht wS.names wT.names h hst with
  | created n' _ _ h' =>
    rcases h' with h' | ⟨l, hl, h'⟩ | h'
    · obtain ⟨b, e⟩ := createSchema_mem h'; cases e
    · rcases createObjects_mem hl h' with ⟨e, _, he⟩ | ⟨e, _, he⟩ | ⟨tb, _, x, hx, he⟩
      · simp [PySqlSync.EnumType.createStmt] at he
      · rcases structCreate_mem he with ⟨_, e⟩ | ⟨_, e⟩ | ⟨_, _, e⟩ <;> cases e
      · rcases table_create_mem hx he with ⟨_, _, _, _, e⟩ | ⟨_, e⟩ | ⟨_, _, e⟩ | ⟨_, _, e⟩ <;> cases e
    · obtain ⟨tb, _, h'⟩ := List.mem_flatMap.1 h'
      obtain ⟨l, e, k⟩ := addConstraints_mem h'
      cases e
      obtain ⟨_, _, rfl⟩ := k x hx
      exact hr
  | changed a' b' ha' hb' hn' l hl hs' =>
    cases nsOrigin hl hs' with
    | enumCreate e _ he => simp [PySqlSync.EnumType.createStmt] at he
    | structCreate e _ he => rcases structCreate_mem he with ⟨_, e⟩ | ⟨_, e⟩ | ⟨_, _, e⟩ <;> cases e
    | enumSoft p _ he => simp [PySqlSync.EnumType.softDropStmt] at he
    | tableCreate tb _ x hx he =>
      rcases table_create_mem hx he with ⟨_, _, _, _, e⟩ | ⟨_, e⟩ | ⟨_, _, e⟩ | ⟨_, _, e⟩ <;> cases e
    | tableConstraints tb _ he =>
      obtain ⟨l, e, k⟩ := addConstraints_mem he
      cases e
      obtain ⟨_, _, rfl⟩ := k x hx
      exact hr
    | enumMigrate p _ he => simp [migrateEnum] at he
    | enumMutate x y _ l hl he => obtain ⟨v, e⟩ := mutateEnum_mem hl he; cases e
    | structMutate x y _ l hl he => rcases mutateStruct_mem hl he with ⟨_, e⟩ | ⟨_, e⟩ <;> cases e
    | tableMutate v w hvw l hl he =>
      have ⟨k1, k2, k3⟩ := mem_inter hvw
      have whole : ∀ q', (Stmt.alterTable q acts = .alterTable v.name q') → v = a ∧ w = b := by
        intro q' e
        injection e with e1 e2
        have ⟨e3, e4⟩ := table_unique wS ha' hn k1 han (by rw [← e1, hq])
        subst e3 e4
        have e5 : b' = m := eq_of_key wT.names hb' hm (hn'.symm.trans hnm)
        subst e5
        exact ⟨rfl, eq_of_key (wT.wf _ hb').tables k2 hbm (k3.symm.trans (congrArg Prod.snd hab))⟩
      have colPair : ∀ p ∈ a.columns.intersection b.columns, p.1.name = s.name → p = (s, u) := by
        intro p hp e
        have ⟨c1, c2, c3⟩ := mem_inter (x := p.1) (y := p.2) hp
        have e1 : p.1 = s := eq_of_key ((wS.wf n hn).wf a han).columns c1 hs e
        have e2 : p.2 = u := eq_of_key ((wT.wf m hm).wf b hbm).columns c2 hu
          (c3.symm.trans (e.trans hsu))
        rw [← e1, ← e2]
      have conv : ∀ p ∈ migratedPairs d a b, p.1.name ≠ s.name := by
        intro p hp e
        have hp' := List.mem_filter.1 hp
        have := colPair p hp'.1 e
        rw [this] at hp'
        apply hconv
        have h2 := hp'.2
        simp only [isColumnMigrated] at h2
        split at h2
        · cases h2
        · rename_i hne
          split at h2
          · rename_i hi
            simp only [Bool.or_eq_true, decide_eq_true_eq, not_or] at hne
            refine ⟨hne.2, hi, ?_⟩
            simpa [Bool.or_eq_true, or_assoc] using h2
          · cases h2
      cases tabOrigin hl he with
      | defaults h =>
        obtain ⟨_, e, k⟩ := mem_alterStmt h
        cases e
        have hx' := k x hx
        simp only [mssqlDefaults, mssqlDefault, List.mem_flatMap] at hx'
        obtain ⟨p, _, hp⟩ := hx'
        split at hp
        · simp at hp
        · rcases List.mem_append.1 hp with hp | hp
          · split at hp
            · rw [List.mem_singleton.1 hp] at hr; exact hr
            · simp at hp
          · split at hp
            · rw [List.mem_singleton.1 hp] at hr; exact hr
            · simp at hp
      | rename p hp r hrn h =>
        obtain ⟨_, e, k⟩ := mem_alterStmt h
        obtain ⟨rfl, rfl⟩ := whole _ e
        cases e
        rw [List.mem_singleton.1 (k x hx)] at hr
        exact conv p hp (renameStmt_removes hrn hr).symm
      | add acts' hadd h =>
        obtain ⟨_, e, k⟩ := mem_alterStmt h
        cases e
        obtain ⟨_, _, rfl⟩ := hadd x (k x hx)
        exact hr
      | migrate p _ l hl h =>
        obtain ⟨r, _, h⟩ := migrateColumn_mem hl h
        rcases h with ⟨_, _, e⟩ | ⟨_, e⟩ | ⟨_, _, e⟩ <;> cases e
      | alter acts' hal h =>
        obtain ⟨_, e, k⟩ := mem_alterStmt h
        obtain ⟨rfl, rfl⟩ := whole _ e
        cases e
        rcases alterActions_removes hal (k x hx) hr with ⟨p, hp, e⟩ | ⟨c, hc, e⟩
        · exact ((wS.wf n hn).wf v han).names s hs p.1.name e
        · have ⟨c1, c2⟩ := mem_diff hc
          exact c2 u hu (e.symm.trans hsu)
      | comment h => rcases h with ⟨_, e⟩ | ⟨_, _, e⟩ <;> cases e
    | tableDrop tb _ htb he => simp [PySqlSync.Table.dropStmt] at he
    | structDrop e _ _ he => simp [PySqlSync.StructType.dropStmt] at he
    | enumDrop e _ _ he =>
      rcases he with ⟨he, _⟩ | ⟨he, _⟩
      · simp [PySqlSync.EnumType.dropStmt] at he
      · simp [PySqlSync.EnumType.hardDropStmt] at he
  | released n' _ _ h' =>
    obtain ⟨tb, _, h'⟩ := List.mem_flatMap.1 h'
    obtain ⟨l, e, k⟩ := dropConstraints_mem h'
    cases e
    obtain ⟨_, rfl⟩ := k x hx
    exact hr
  | removed n' hn' hT' _ h' =>
    rcases h' with h' | h'
    · rcases dropObjects_mem h' with ⟨tb, htb, e⟩ | ⟨_, _, e⟩ | ⟨_, _, e⟩ <;> cases e
    · obtain ⟨b, e⟩ := dropSchema_mem h'; cases e

/-- A statement that touches a table touches one of the source or the target, or the lookup table that a foreign key
    of the target refers to. -/
theorem C03_no_other_table_is_touched (ht : Sorts topo) {S T : Catalog} (wS : CatWF d S) (wT : CatWF d T)
    {stmts : List Stmt} (h : mutateCatalog topo d o S T = .ok stmts) {s : Stmt} (hs : s ∈ stmts) {q : QId}
    (hq : Touches s q) :
    (∃ tb, IsTable S tb ∧ tb.name = q) ∨ (∃ tb, IsTable T tb ∧ tb.name = q)
      ∨ ∃ tb n cols r, IsTable T tb ∧ Constraint.foreign n cols r ∈ tb.constraints.items ∧ r.table = q := by
  cases origin ht wS.names wT.names h hs with
  | created n' hn' _ h' =>
    rcases h' with h' | ⟨l, hl, h'⟩ | h'
    · obtain ⟨b, rfl⟩ := createSchema_mem h'; exact absurd hq id
    · rcases createObjects_mem hl h' with ⟨e, _, he⟩ | ⟨e, _, he⟩ | ⟨tb, htb, x, hx, he⟩
      · rw [List.mem_singleton.1 (show s ∈ [_] from he)] at hq; exact absurd hq id
      · rcases structCreate_mem he with ⟨_, rfl⟩ | ⟨_, rfl⟩ | ⟨_, _, rfl⟩ <;> exact absurd hq id
      · refine .inr (.inl ⟨tb, ⟨n', hn', htb⟩, ?_⟩)
        rcases table_create_mem hx he with ⟨_, _, _, _, rfl⟩ | ⟨_, rfl⟩ | ⟨_, _, rfl⟩ | ⟨_, _, rfl⟩
        all_goals first | exact hq | exact absurd hq id
    · obtain ⟨tb, htb, h'⟩ := List.mem_flatMap.1 h'
      obtain ⟨l, rfl, _⟩ := addConstraints_mem h'
      exact .inr (.inl ⟨tb, ⟨n', hn', htb⟩, hq⟩)
  | changed a' b' ha' hb' hn' l hl hs' =>
    cases nsOrigin hl hs' with
    | enumCreate e _ he => rw [List.mem_singleton.1 (show s ∈ [_] from he)] at hq; exact absurd hq id
    | structCreate e _ he => rcases structCreate_mem he with ⟨_, rfl⟩ | ⟨_, rfl⟩ | ⟨_, _, rfl⟩ <;> exact absurd hq id
    | enumSoft p _ he => rw [List.mem_singleton.1 (show s ∈ [_] from he)] at hq; exact absurd hq id
    | tableCreate tb htb x hx he =>
      refine .inr (.inl ⟨tb, ⟨b', hb', (mem_diff htb).1⟩, ?_⟩)
      rcases table_create_mem hx he with ⟨_, _, _, _, rfl⟩ | ⟨_, rfl⟩ | ⟨_, _, rfl⟩ | ⟨_, _, rfl⟩
      all_goals first | exact hq | exact absurd hq id
    | tableConstraints tb htb he =>
      obtain ⟨l, rfl, _⟩ := addConstraints_mem he
      exact .inr (.inl ⟨tb, ⟨b', hb', (mem_diff htb).1⟩, hq⟩)
    | enumMigrate p hp he =>
      rw [List.mem_singleton.1 (show s ∈ [_] from he)] at hq
      simp only [softPairs, List.mem_flatMap, List.mem_map, List.mem_filter] at hp
      obtain ⟨e, _, tb, ⟨htb, _⟩, rfl⟩ := hp
      exact .inr (.inl ⟨tb, ⟨b', hb', (mem_diff htb).1⟩, hq⟩)
    | enumMutate x y _ l hl he => obtain ⟨v, rfl⟩ := mutateEnum_mem hl he; exact absurd hq id
    | structMutate x y _ l hl he => rcases mutateStruct_mem hl he with ⟨_, rfl⟩ | ⟨_, rfl⟩ <;> exact absurd hq id
    | tableMutate v w hvw l hl he =>
      have ⟨k1, k2, k3⟩ := mem_inter hvw
      cases tabOrigin hl he with
      | defaults h => obtain ⟨_, rfl, _⟩ := mem_alterStmt h; exact .inl ⟨v, ⟨a', ha', k1⟩, hq⟩
      | rename p _ r _ h => obtain ⟨_, rfl, _⟩ := mem_alterStmt h; exact .inl ⟨v, ⟨a', ha', k1⟩, hq⟩
      | add acts _ h => obtain ⟨_, rfl, _⟩ := mem_alterStmt h; exact .inl ⟨v, ⟨a', ha', k1⟩, hq⟩
      | alter acts _ h => obtain ⟨_, rfl, _⟩ := mem_alterStmt h; exact .inl ⟨v, ⟨a', ha', k1⟩, hq⟩
      | comment h =>
        rcases h with ⟨_, rfl⟩ | ⟨_, _, rfl⟩
        · exact .inr (.inl ⟨w, ⟨b', hb', k2⟩, hq⟩)
        · exact absurd hq id
      | migrate p _ l hl h =>
        obtain ⟨r, hr, h⟩ := migrateColumn_mem hl h
        have hf : ∃ n cols, Constraint.foreign n cols r ∈ w.constraints.items := by
          unfold Table.getConstraint at hr
          split at hr
          · rename_i r' hr'
            cases hr
            obtain ⟨c, hc, he⟩ := List.exists_of_findSome?_eq_some hr'
            split at he
            · split at he
              · cases he
              · split at he
                · cases he; exact ⟨_, _, hc⟩
                · cases he
            · cases he
          · cases hr
        obtain ⟨n, cols, hf⟩ := hf
        rcases h with ⟨_, _, rfl⟩ | ⟨_, rfl⟩ | ⟨_, _, rfl⟩
        · exact .inr (.inr ⟨w, n, cols, r, ⟨b', hb', k2⟩, hf, hq⟩)
        · exact .inr (.inr ⟨w, n, cols, r, ⟨b', hb', k2⟩, hf, hq⟩)
        · exact .inl ⟨v, ⟨a', ha', k1⟩, hq⟩
    | tableDrop tb _ htb he =>
      rw [List.mem_singleton.1 (show s ∈ [_] from he)] at hq
      exact .inl ⟨tb, ⟨a', ha', (mem_diff htb).1⟩, hq⟩
    | structDrop e _ _ he => rw [List.mem_singleton.1 (show s ∈ [_] from he)] at hq; exact absurd hq id
    | enumDrop e _ _ he =>
      rcases he with ⟨he, _⟩ | ⟨he, _⟩
      · rw [List.mem_singleton.1 (show s ∈ [_] from he)] at hq; exact absurd hq id
      · rw [List.mem_singleton.1 (show s ∈ [_] from he)] at hq; exact absurd hq id
  | released n' hn' _ h' =>
    obtain ⟨tb, htb, h'⟩ := List.mem_flatMap.1 h'
    obtain ⟨l, rfl, _⟩ := dropConstraints_mem h'
    exact .inl ⟨tb, ⟨n', hn', htb⟩, hq⟩
  | removed n' hn' hT' _ h' =>
    rcases h' with h' | h'
    · rcases dropObjects_mem h' with ⟨tb, htb, rfl⟩ | ⟨_, _, rfl⟩ | ⟨_, _, rfl⟩
      · exact .inl ⟨tb, ⟨n', hn', htb⟩, hq⟩
      · exact absurd hq id
      · exact absurd hq id
    · obtain ⟨b, rfl⟩ := dropSchema_mem h'; exact absurd hq id

/-- In the example, `order` and its column `customer` are shared. -/
example : ∃ stmts, Example.script = .ok stmts ∧ stmts.length = 21
    ∧ Stmt.dropTable (Example.q "shop" "order") ∉ stmts
    ∧ ∀ acts, Stmt.alterTable (Example.q "shop" "order") acts ∈ stmts → ∀ x ∈ acts, ¬ Removes x (t "customer") := by
  obtain ⟨stmts, h, hl⟩ := Example.script_ok
  have hS : IsTable Example.source Example.order0 := ⟨Example.shop0, by simp [Example.source], by simp [Example.shop0]⟩
  have hT : IsTable Example.target Example.order1 := ⟨Example.shop1, by simp [Example.target], by simp [Example.shop1]⟩
  refine ⟨stmts, h, hl, C03_shared_table_is_not_dropped Example.topo_sorts Example.source_wf Example.target_wf h hS hT rfl
    _ rfl, ?_⟩
  intro acts ha x hx
  exact C03_shared_column_is_kept Example.topo_sorts Example.source_wf Example.target_wf h hS hT rfl
    (s := Example.col "customer" Example.int8 false) (u := Example.col "customer" Example.int8 false)
    (by simp [Example.order0]) (by simp [Example.order1]) rfl (fun hc => hc.1 rfl) rfl ha hx

end PySqlSync
