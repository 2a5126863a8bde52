/-
Where the statements of a script come from.
-/
import Verif.Lemmas.CatSort

set_option autoImplicit false

namespace PySqlSync
open Spec

variable {topo : List (Text × List Text) → Except Err (List Text)} {d : Dialect} {o : MutatorOptions}

theorem mem_of_mapM {α β : Type} {f : α → Except Err (List β)} : ∀ {l : List α} {r : List (List β)},
    l.mapM f = .ok r → ∀ {s : β}, s ∈ r.flatten → ∃ a ∈ l, ∃ x, f a = .ok x ∧ s ∈ x := by
  intro l
  induction l with
  | nil => intro r h s hs; simp [pure, Except.pure] at h; subst h; simp at hs
  | cons a l ih =>
    intro r h s hs
    rw [List.mapM_cons] at h
    cases ha : f a with
    | error e => simp [ha, bind, Except.bind] at h
    | ok x =>
      cases hl : l.mapM f with
      | error e => simp [ha, hl, bind, Except.bind] at h
      | ok xs =>
        simp [ha, hl, bind, Except.bind, pure, Except.pure] at h
        subst h
        rw [List.flatten_cons, List.mem_append] at hs
        rcases hs with hs | hs
        · exact ⟨a, by simp, x, ha, hs⟩
        · obtain ⟨b, hb, y, hy, hm⟩ := ih hl hs
          exact ⟨b, by simp [hb], y, hy, hm⟩

/-- The origins of a statement of a catalog's script. -/
inductive Origin (d : Dialect) (o : MutatorOptions) (S T : Catalog) (s : Stmt) : Prop where
  | created (n : Namespace) (hT : n ∈ T.namespaces.items) (hS : ∀ m ∈ S.namespaces.items, m.name ≠ n.name)
      (h : s ∈ n.createSchemaStmt d ∨ (∃ l, n.createObjectsStmt d = .ok l ∧ s ∈ l) ∨ s ∈ n.addConstraintsStmt d)
  | changed (a b : Namespace) (ha : a ∈ S.namespaces.items) (hb : b ∈ T.namespaces.items) (hn : a.name = b.name)
      (l : List Stmt) (h : mutateNamespace d o a b = .ok l) (hs : s ∈ l)
  | released (n : Namespace) (hS : n ∈ S.namespaces.items) (hT : ∀ m ∈ T.namespaces.items, m.name ≠ n.name)
      (h : s ∈ n.dropConstraintsStmt)
  | removed (n : Namespace) (hS : n ∈ S.namespaces.items) (hT : ∀ m ∈ T.namespaces.items, m.name ≠ n.name)
      (ho : o.allowDropNamespace = true) (h : s ∈ n.dropObjectsStmt ∨ s ∈ n.dropSchemaStmt d)

theorem not_contains {x : ODict Namespace} {k : Text} (h : x.contains k = false) : ∀ m ∈ x.items, m.name ≠ k := by
  intro m hm e
  exact (ODict.contains_false_iff x k).1 h (e ▸ List.mem_map_of_mem (f := key) hm)

theorem origin (ht : Sorts topo) {S T : Catalog} (hS : Distinct S.namespaces) (hT : Distinct T.namespaces)
    {stmts : List Stmt} (h : mutateCatalog topo d o S T = .ok stmts) {s : Stmt} (hs : s ∈ stmts) :
    Origin d o S T s := by
  obtain ⟨S', T', h1, h2, h3⟩ := mutateCatalog_sorted h
  have kS := sort_mem ht hS h1
  have kT := sort_mem ht hT h2
  unfold mutateSorted at h3
  simp only [bind, Except.bind] at h3
  split at h3
  · cases h3
  · rename_i cr hcr
    split at h3
    · cases h3
    · rename_i mu hmu
      simp only [pure, Except.pure, Except.ok.injEq] at h3
      subst h3
      have mc : ∀ n, n ∈ T'.namespaces.difference S'.namespaces →
          n ∈ T.namespaces.items ∧ ∀ m ∈ S.namespaces.items, m.name ≠ n.name := by
        intro n hn
        simp only [ODict.difference, List.mem_filter, Bool.not_eq_true'] at hn
        exact ⟨(kT.2.1 n).1 hn.1, fun m hm => not_contains hn.2 m ((kS.2.1 m).2 hm)⟩
      have md : ∀ n, n ∈ S'.namespaces.difference T'.namespaces →
          n ∈ S.namespaces.items ∧ ∀ m ∈ T.namespaces.items, m.name ≠ n.name := by
        intro n hn
        simp only [ODict.difference, List.mem_filter, Bool.not_eq_true'] at hn
        exact ⟨(kS.2.1 n).1 hn.1, fun m hm => not_contains hn.2 m ((kT.2.1 m).2 hm)⟩
      rcases List.mem_append.1 hs with hs | hs
      · rcases List.mem_append.1 hs with hs | hs
        · rcases List.mem_append.1 hs with hs | hs
          · rcases List.mem_append.1 hs with hs | hs
            · rcases List.mem_append.1 hs with hs | hs
              · obtain ⟨n, hn, hm⟩ := List.mem_flatMap.1 hs
                exact .created n (mc n hn).1 (mc n hn).2 (.inl hm)
              · obtain ⟨n, hn, l, hl, hm⟩ := mem_of_mapM hcr hs
                exact .created n (mc n hn).1 (mc n hn).2 (.inr (.inl ⟨l, hl, hm⟩))
            · obtain ⟨n, hn, hm⟩ := List.mem_flatMap.1 hs
              exact .created n (mc n hn).1 (mc n hn).2 (.inr (.inr hm))
          · obtain ⟨p, hp, l, hl, hm⟩ := mem_of_mapM hmu hs
            simp only [ODict.intersection, List.mem_filterMap, Option.map_eq_some_iff] at hp
            obtain ⟨x, hx, y, hy, rfl⟩ := hp
            have := ODict.get_some_mem hy
            exact .changed x y ((kS.2.1 x).1 hx) ((kT.2.1 y).1 this.1) this.2.symm l hl hm
        · obtain ⟨n, hn, hm⟩ := List.mem_flatMap.1 hs
          exact .released n (md n hn).1 (md n hn).2 hm
      · split at hs
        · rename_i ho
          rcases List.mem_append.1 hs with hs | hs
          · obtain ⟨n, hn, hm⟩ := List.mem_flatMap.1 hs
            exact .removed n (md n hn).1 (md n hn).2 ho (.inl hm)
          · obtain ⟨n, hn, hm⟩ := List.mem_flatMap.1 hs
            exact .removed n (md n hn).1 (md n hn).2 ho (.inr hm)
        · simp at hs

/-- The origins of a statement of a namespace's script. -/
inductive NsOrigin (d : Dialect) (o : MutatorOptions) (a b : Namespace) (s : Stmt) : Prop where
  | enumCreate (e : EnumType) (he : e ∈ b.enums.difference a.enums) (h : s ∈ e.createStmt)
  | structCreate (e : StructType) (he : e ∈ b.structs.difference a.structs) (h : s ∈ e.createStmt d)
  | enumSoft (p : EnumType × Table) (hp : p ∈ softPairs a b) (h : s ∈ p.1.softDropStmt)
  | tableCreate (tb : Table) (he : tb ∈ b.tables.difference a.tables) (l : List Stmt) (hl : tb.createStmt d = .ok l)
      (h : s ∈ l)
  | tableConstraints (tb : Table) (he : tb ∈ b.tables.difference a.tables) (h : s ∈ tb.addConstraintsStmt d)
  | enumMigrate (p : EnumType × Table) (hp : p ∈ softPairs a b) (h : s ∈ migrateEnum d p.1 p.2)
  | enumMutate (x y : EnumType) (hp : (x, y) ∈ a.enums.intersection b.enums) (l : List Stmt)
      (hl : mutateEnum x y = .ok l) (h : s ∈ l)
  | structMutate (x y : StructType) (hp : (x, y) ∈ a.structs.intersection b.structs) (l : List Stmt)
      (hl : mutateStruct d x y = .ok l) (h : s ∈ l)
  | tableMutate (x y : Table) (hp : (x, y) ∈ a.tables.intersection b.tables) (l : List Stmt)
      (hl : mutateTable d x y = .ok l) (h : s ∈ l)
  | tableDrop (tb : Table) (ho : o.allowDropTable = true) (he : tb ∈ a.tables.difference b.tables) (h : s ∈ tb.dropStmt)
  | structDrop (e : StructType) (ho : o.allowDropStruct = true) (he : e ∈ a.structs.difference b.structs)
      (h : s ∈ e.dropStmt)
  | enumDrop (e : EnumType) (ho : o.allowDropEnum = true) (he : e ∈ a.enums.difference b.enums)
      (h : (s ∈ e.dropStmt ∧ ∀ tb, (e, tb) ∉ softPairs a b) ∨ (s ∈ e.hardDropStmt ∧ ∃ tb, (e, tb) ∈ softPairs a b))

theorem nsOrigin {a b : Namespace} {stmts : List Stmt} (h : mutateNamespace d o a b = .ok stmts) {s : Stmt}
    (hs : s ∈ stmts) : NsOrigin d o a b s := by
  unfold mutateNamespace at h
  simp only [bind, Except.bind] at h
  split at h
  · cases h
  · split at h
    · cases h
    · rename_i cr hcr
      split at h
      · cases h
      · rename_i em hem
        split at h
        · cases h
        · rename_i sm hsm
          split at h
          · cases h
          · rename_i tm htm
            simp only [pure, Except.pure, Except.ok.injEq] at h
            subst h
            simp only [List.mem_append] at hs
            rcases hs with ((((((((((hs | hs) | hs) | hs) | hs) | hs) | hs) | hs) | hs) | hs) | hs) | hs
            · obtain ⟨n, hn, hm⟩ := List.mem_flatMap.1 hs; exact .enumCreate n hn hm
            · obtain ⟨n, hn, hm⟩ := List.mem_flatMap.1 hs; exact .structCreate n hn hm
            · obtain ⟨n, hn, hm⟩ := List.mem_flatMap.1 hs; exact .enumSoft n hn hm
            · obtain ⟨n, hn, l, hl, hm⟩ := mem_of_mapM hcr hs; exact .tableCreate n hn l hl hm
            · obtain ⟨n, hn, hm⟩ := List.mem_flatMap.1 hs; exact .tableConstraints n hn hm
            · obtain ⟨n, hn, hm⟩ := List.mem_flatMap.1 hs; exact .enumMigrate n hn hm
            · obtain ⟨n, hn, l, hl, hm⟩ := mem_of_mapM hem hs; exact .enumMutate n.1 n.2 hn l hl hm
            · obtain ⟨n, hn, l, hl, hm⟩ := mem_of_mapM hsm hs; exact .structMutate n.1 n.2 hn l hl hm
            · obtain ⟨n, hn, l, hl, hm⟩ := mem_of_mapM htm hs; exact .tableMutate n.1 n.2 hn l hl hm
            · split at hs
              · rename_i ho
                obtain ⟨n, hn, hm⟩ := List.mem_flatMap.1 hs; exact .tableDrop n ho hn hm
              · simp at hs
            · split at hs
              · rename_i ho
                obtain ⟨n, hn, hm⟩ := List.mem_flatMap.1 hs; exact .structDrop n ho hn hm
              · simp at hs
            · split at hs
              · rename_i ho
                obtain ⟨n, hn, hm⟩ := List.mem_flatMap.1 hs
                refine .enumDrop n ho hn ?_
                split at hm
                · rename_i hc
                  right
                  refine ⟨hm, ?_⟩
                  have : n ∈ (softPairs a b).map Prod.fst := by simpa using hc
                  obtain ⟨p, hp, rfl⟩ := List.mem_map.1 this
                  exact ⟨p.2, hp⟩
                · rename_i hc
                  left
                  refine ⟨hm, fun tb htb => hc ?_⟩
                  have : n ∈ (softPairs a b).map Prod.fst := List.mem_map.2 ⟨_, htb, rfl⟩
                  simpa using this
              · simp at hs

/-- The origins of a statement of a table's script. -/
inductive TabOrigin (d : Dialect) (a b : Table) (s : Stmt) : Prop where
  | defaults (h : s ∈ a.alterStmt d (mssqlDefaults a b))
  | rename (p : Column × Column) (hp : p ∈ migratedPairs d a b) (r : Action) (hr : p.1.softDropStmt d = .ok r)
      (h : s ∈ a.alterStmt d [r])
  | add (acts : List Action) (hacts : ∀ x ∈ acts, ∃ n spec, x = .addColumn n spec) (h : s ∈ a.alterStmt d acts)
  | migrate (p : Column × Column) (hp : p ∈ migratedPairs d a b) (l : List Stmt)
      (hl : migrateColumn d a p.1 b p.2 = .ok l) (h : s ∈ l)
  | alter (acts : List Action) (ha : alterActions a b d = .ok acts) (h : s ∈ a.alterStmt d acts)
  | comment (h : (∃ x, s = .commentTable b.name x) ∨ ∃ c x, s = .commentColumn b.name c x)

theorem createStmt_addColumn {c : Column} {x : Action} (h : c.createStmt d = .ok x) : ∃ n spec, x = .addColumn n spec := by
  unfold Column.createStmt at h
  simp only [bind, Except.bind] at h
  split at h
  · cases h
  · cases h; exact ⟨_, _, rfl⟩

theorem mem_mapM' {α β : Type} {f : α → Except Err β} : ∀ {l : List α} {r : List β},
    l.mapM f = .ok r → ∀ {s : β}, s ∈ r → ∃ a ∈ l, f a = .ok s := by
  intro l
  induction l with
  | nil => intro r h s hs; simp [pure, Except.pure] at h; subst h; simp at hs
  | cons a l ih =>
    intro r h s hs
    rw [List.mapM_cons] at h
    cases ha : f a with
    | error e => simp [ha, bind, Except.bind] at h
    | ok x =>
      cases hl : l.mapM f with
      | error e => simp [ha, hl, bind, Except.bind] at h
      | ok xs =>
        simp [ha, hl, bind, Except.bind, pure, Except.pure] at h
        subst h
        rcases List.mem_cons.1 hs with rfl | hs
        · exact ⟨a, by simp, ha⟩
        · obtain ⟨b, hb, hy⟩ := ih hl hs
          exact ⟨b, by simp [hb], hy⟩

theorem wrapColumn_ok' {α : Type} {q : QId} {x : Except Err α} {y : α} (h : wrapColumn q x = .ok y) : x = .ok y := by
  unfold wrapColumn at h
  split at h
  · cases h
  · exact h

theorem baseOrigin {a b : Table} {stmts : List Stmt} (h : mutateTableBase d a b = .ok stmts) {s : Stmt}
    (hs : s ∈ stmts) : TabOrigin d a b s := by
  unfold mutateTableBase at h
  simp only [bind, Except.bind] at h
  split at h
  · cases h
  · split at h
    · cases h
    · rename_i rn hrn
      split at h
      · cases h
      · rename_i am ham
        split at h
        · cases h
        · rename_i an han
          split at h
          · cases h
          · rename_i mg hmg
            split at h
            · cases h
            · rename_i al hal
              simp only [pure, Except.pure, Except.ok.injEq] at h
              subst h
              simp only [List.mem_append] at hs
              rcases hs with ((hs | hs) | hs) | hs
              · obtain ⟨r, hr, hm⟩ := List.mem_flatMap.1 hs
                obtain ⟨p, hp, hk⟩ := mem_mapM' (wrapColumn_ok' hrn) hr
                exact .rename p hp r hk hm
              · split at hs
                · simp at hs
                · refine .add _ ?_ hs
                  intro x hx
                  rcases List.mem_append.1 hx with hx | hx
                  · obtain ⟨p, _, hk⟩ := mem_mapM' (wrapColumn_ok' ham) hx
                    exact createStmt_addColumn hk
                  · obtain ⟨p, _, hk⟩ := mem_mapM' (wrapColumn_ok' han) hx
                    exact createStmt_addColumn hk
              · obtain ⟨p, hp, l, hl, hm⟩ := mem_of_mapM (wrapColumn_ok' hmg) hs
                exact .migrate p hp l hl hm
              · split at hs
                · simp at hs
                · exact .alter _ hal hs

theorem tabOrigin {a b : Table} {stmts : List Stmt} (h : mutateTable d a b = .ok stmts) {s : Stmt}
    (hs : s ∈ stmts) : TabOrigin d a b s := by
  unfold mutateTable at h
  simp only [bind, Except.bind] at h
  split at h
  · cases h
  · rename_i base hb
    split at h
    · simp only [pure, Except.pure, Except.ok.injEq] at h
      subst h
      rcases List.mem_append.1 hs with hs | hs
      · split at hs
        · simp at hs
        · exact .defaults hs
      · exact baseOrigin hb hs
    · simp only [pure, Except.pure, Except.ok.injEq] at h
      subst h
      rcases List.mem_append.1 hs with hs | hs
      · exact baseOrigin hb hs
      · refine .comment (.inl ?_)
        split at hs
        · exact ⟨_, List.mem_singleton.1 hs⟩
        · simp at hs
        · exact ⟨_, List.mem_singleton.1 hs⟩
        · split at hs
          · exact ⟨_, List.mem_singleton.1 hs⟩
          · simp at hs
    · simp only [pure, Except.pure, Except.ok.injEq] at h
      subst h
      have cc : ∀ {x y : Option Text} {mk : Option Text → Stmt}, s ∈ commentChange x y mk → ∃ z, s = mk z := by
        intro x y mk hm
        unfold commentChange at hm
        split at hm <;> split at hm
        all_goals first | exact ⟨_, List.mem_singleton.1 hm⟩ | simp at hm
      simp only [List.mem_append] at hs
      rcases hs with (hs | hs) | hs
      · exact baseOrigin hb hs
      · obtain ⟨c, _, hm⟩ := List.mem_flatMap.1 hs
        obtain ⟨z, e⟩ := cc hm
        exact .comment (.inr ⟨_, _, e⟩)
      · obtain ⟨z, e⟩ := cc hs
        exact .comment (.inl ⟨_, e⟩)
    · simp only [pure, Except.pure, Except.ok.injEq] at h
      subst h
      exact baseOrigin hb hs

theorem mem_alterStmt {a : Table} {acts : List Action} {s : Stmt} (h : s ∈ a.alterStmt d acts) :
    ∃ l, s = .alterTable a.name l ∧ ∀ x ∈ l, x ∈ acts := by
  unfold Table.alterStmt at h
  split at h
  · obtain ⟨x, hx, rfl⟩ := List.mem_map.1 h
    exact ⟨[x], rfl, by simpa using hx⟩
  · exact ⟨acts, List.mem_singleton.1 h, fun x hx => hx⟩

end PySqlSync
