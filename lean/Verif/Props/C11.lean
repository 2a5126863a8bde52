/-
C11 — Unsupported changes are refused, not ignored.
-/
import Verif.Props.C03
import Verif.Props.C06
import Verif.Lemmas.Rows
import Verif.Spec.Agree

set_option autoImplicit false

namespace PySqlSync
open Spec

namespace C11

variable {d : Dialect} {o : MutatorOptions} {topo : List (Text × List Text) → Except Err (List Text)}

theorem mapM_all {α β : Type} {f : α → Except Err β} : ∀ {l : List α} {r : List β},
    l.mapM f = .ok r → ∀ a ∈ l, ∃ y ∈ r, f a = .ok y := by
  intro l
  induction l with
  | nil => intro r _ a ha; cases ha
  | cons x l ih =>
    intro r h a ha
    rw [List.mapM_cons] at h
    cases hx : f x with
    | error e => simp [hx, bind, Except.bind] at h
    | ok y =>
      cases hl : l.mapM f with
      | error e => simp [hx, hl, bind, Except.bind] at h
      | ok ys =>
        simp [hx, hl, bind, Except.bind, pure, Except.pure] at h
        subst h
        rcases List.mem_cons.1 ha with rfl | ha
        · exact ⟨y, List.mem_cons_self, hx⟩
        · obtain ⟨z, hz, e⟩ := ih hl a ha
          exact ⟨z, List.mem_cons_of_mem _ hz, e⟩

theorem mapM_nil {α β : Type} {f : α → Except Err (List β)} {l : List α} {r : List (List β)}
    (h : l.mapM f = .ok r) (hr : r.flatten = []) : ∀ a ∈ l, f a = .ok [] := by
  intro a ha
  obtain ⟨y, hy, e⟩ := mapM_all h a ha
  rw [e, List.flatten_eq_nil_iff.1 hr y hy]

/-- A script for catalogs contains a script for each pair of namespaces of the same name. -/
theorem catalog_namespace (ht : Sorts topo) {S T : Catalog} (hS : Distinct S.namespaces) (hT : Distinct T.namespaces)
    {stmts : List Stmt} (h : mutateCatalog topo d o S T = .ok stmts) {m n : Namespace} (hm : m ∈ S.namespaces.items)
    (hn : n ∈ T.namespaces.items) (e : m.name = n.name) :
    ∃ l, mutateNamespace d o m n = .ok l ∧ ∀ s ∈ l, s ∈ stmts := by
  obtain ⟨S', T', h1, h2, h3⟩ := mutateCatalog_sorted h
  have kS := sort_mem ht hS h1
  have kT := sort_mem ht hT h2
  unfold mutateSorted at h3
  simp only [bind, Except.bind] at h3
  split at h3
  · cases h3
  · split at h3
    · cases h3
    · rename_i cr hcr mu hmu
      simp only [pure, Except.pure, Except.ok.injEq] at h3
      subst h3
      have hp : (m, n) ∈ S'.namespaces.intersection T'.namespaces :=
        (ODict.mem_intersection kT.1).2 ⟨(kS.2.1 m).2 hm, (kT.2.1 n).2 hn, e⟩
      obtain ⟨y, hy, hk⟩ := mapM_all hmu _ hp
      refine ⟨y, hk, fun s hs => ?_⟩
      have : s ∈ mu.flatten := List.mem_flatten.2 ⟨y, hy, hs⟩
      simp [this]

theorem namespace_parts {m n : Namespace} {l : List Stmt} (h : mutateNamespace d o m n = .ok l) :
    (∀ p ∈ m.enums.intersection n.enums, ∃ x, mutateEnum p.1 p.2 = .ok x ∧ ∀ s ∈ x, s ∈ l)
    ∧ (∀ p ∈ m.structs.intersection n.structs, ∃ x, mutateStruct d p.1 p.2 = .ok x ∧ ∀ s ∈ x, s ∈ l)
    ∧ (∀ p ∈ m.tables.intersection n.tables, ∃ x, mutateTable d p.1 p.2 = .ok x ∧ ∀ s ∈ x, s ∈ l)
    ∧ (∀ e ∈ n.enums.difference m.enums, ∀ s ∈ PySqlSync.EnumType.createStmt e, s ∈ l)
    ∧ (∀ e ∈ n.structs.difference m.structs, ∀ s ∈ PySqlSync.StructType.createStmt d e, s ∈ l)
    ∧ (∀ tb ∈ n.tables.difference m.tables, ∃ x, tb.createStmt d = .ok x ∧ ∀ s ∈ x, s ∈ l)
    ∧ (o.allowDropEnum = true → ∀ e ∈ m.enums.difference n.enums, ∃ q, Stmt.dropType q ∈ l)
    ∧ (o.allowDropStruct = true → ∀ e ∈ m.structs.difference n.structs, Stmt.dropType e.name ∈ l)
    ∧ (o.allowDropTable = true → ∀ tb ∈ m.tables.difference n.tables, Stmt.dropTable tb.name ∈ l) := by
  unfold mutateNamespace at h
  simp only [bind, Except.bind] at h
  split at h
  · cases h
  · split at h
    · cases h
    · rename_i cr hcr
      split at h
      · cases h
      · rename_i em hem
        split at h
        · cases h
        · rename_i sm hsm
          split at h
          · cases h
          · rename_i tm htm
            simp only [pure, Except.pure, Except.ok.injEq] at h
            subst h
            refine ⟨?_, ?_, ?_, ?_, ?_, ?_, ?_, ?_, ?_⟩
            · intro p hp
              obtain ⟨y, hy, e⟩ := mapM_all hem p hp
              refine ⟨y, e, fun s hs => ?_⟩
              have : s ∈ em.flatten := List.mem_flatten.2 ⟨y, hy, hs⟩
              simp [this]
            · intro p hp
              obtain ⟨y, hy, e⟩ := mapM_all hsm p hp
              refine ⟨y, e, fun s hs => ?_⟩
              have : s ∈ sm.flatten := List.mem_flatten.2 ⟨y, hy, hs⟩
              simp [this]
            · intro p hp
              obtain ⟨y, hy, e⟩ := mapM_all htm p hp
              refine ⟨y, e, fun s hs => ?_⟩
              have : s ∈ tm.flatten := List.mem_flatten.2 ⟨y, hy, hs⟩
              simp [this]
            · intro e he s hs
              have := List.mem_flatMap.2 ⟨e, he, hs⟩
              simp [this]
            · intro e he s hs
              have := List.mem_flatMap.2 ⟨e, he, hs⟩
              simp [this]
            · intro p hp
              obtain ⟨y, hy, e⟩ := mapM_all hcr p hp
              refine ⟨y, e, fun s hs => ?_⟩
              have : s ∈ cr.flatten := List.mem_flatten.2 ⟨y, hy, hs⟩
              simp [this]
            · intro ho e he
              rw [if_pos ho]
              by_cases hc : ((softPairs m n).map Prod.fst).contains e = true
              · refine ⟨e.name.rename (deletedName e.name.localId), List.mem_append_right _ ?_⟩
                refine List.mem_flatMap.2 ⟨e, he, ?_⟩
                rw [if_pos hc]
                exact List.mem_singleton.2 rfl
              · refine ⟨e.name, List.mem_append_right _ ?_⟩
                refine List.mem_flatMap.2 ⟨e, he, ?_⟩
                rw [if_neg hc]
                exact List.mem_singleton.2 rfl
            · intro ho e he
              have : Stmt.dropType e.name ∈ (m.structs.difference n.structs).flatMap PySqlSync.StructType.dropStmt :=
                List.mem_flatMap.2 ⟨e, he, List.mem_singleton.2 rfl⟩
              simp [ho, this]
            · intro ho e he
              have : Stmt.dropTable e.name ∈ (m.tables.difference n.tables).flatMap Table.dropStmt :=
                List.mem_flatMap.2 ⟨e, he, List.mem_singleton.2 rfl⟩
              simp [ho, this]

theorem mem_pair {α : Type} [Named α] {x y : ODict α} (hy : Distinct y) {a b : α} (ha : a ∈ x.items) (hb : b ∈ y.items)
    (e : key a = key b) : (a, b) ∈ x.intersection y := (ODict.mem_intersection hy).2 ⟨ha, hb, e⟩

theorem table_constraints {a b : Table} {l : List Stmt} (h : mutateTable d a b = .ok l) :
    ∀ p ∈ a.constraints.intersection b.constraints, p.1 = p.2 := by
  obtain ⟨base, hb⟩ : ∃ base, mutateTableBase d a b = .ok base := by
    unfold mutateTable at h
    cases hb : mutateTableBase d a b with
    | error e => simp [hb, bind, Except.bind] at h
    | ok base => exact ⟨base, rfl⟩
  obtain ⟨rn, am, an, mg, al, hrn, ham, han, hmg, hal, hst⟩ := table_parts hb
  unfold alterActions at hal
  simp only [bind, Except.bind] at hal
  split at hal
  · cases hal
  · split at hal
    · cases hal
    · rename_i hany
      intro p hp
      apply Classical.byContradiction
      intro hne
      apply hany
      rw [List.any_eq_true]
      exact ⟨p, hp, by simpa using hne⟩

/-- Nothing is emitted for a column only if nothing is to be changed; on SQL Server the default is dealt with
    elsewhere. -/
theorem column_silent {s u : Column} (h : mutateColumn d s u = .ok []) :
    s.ty = u.ty ∧ s.nullable = u.nullable ∧ s.identity = u.identity ∧ (d ≠ .mssql → s.default = u.default) := by
  unfold mutateColumn at h
  split at h
  · simp only [bind, Except.bind] at h
    split at h
    · split at h
      · cases h
      · cases h
    · rename_i hne
      simp only [Bool.or_eq_true, decide_eq_true_eq, not_or, ne_eq, Decidable.not_not] at hne
      exact ⟨hne.1.1.1, hne.1.1.2, hne.2, fun _ => hne.1.2⟩
  · dsimp only at h
    generalize e1 : (if s.ty ≠ u.ty then some u.ty else none) = x1 at h
    generalize e2 : (if s.default ≠ u.default then some (u.default.map (defaultExpr Dialect.oracle u.ty)) else none) = x2
      at h
    generalize e3 : (if s.nullable ≠ u.nullable then some u.nullable else none) = x3 at h
    generalize e4 : (if s.identity ≠ u.identity then some u.identity else none) = x4 at h
    split at h
    · cases h
    · rename_i hne
      simp only [Bool.or_eq_true, not_or, Bool.not_eq_true, Option.isSome_eq_false_iff, Option.isNone_iff_eq_none] at hne
      obtain ⟨⟨⟨h1, h2⟩, h3⟩, h4⟩ := hne
      refine ⟨?_, ?_, ?_, fun _ => ?_⟩
      · apply Classical.byContradiction; intro hc; rw [if_pos hc, h1] at e1; cases e1
      · apply Classical.byContradiction; intro hc; rw [if_pos hc, h3] at e3; cases e3
      · apply Classical.byContradiction; intro hc; rw [if_pos hc, h4] at e4; cases e4
      · apply Classical.byContradiction; intro hc; rw [if_pos hc, h2] at e2; cases e2
  · split at h
    · cases h
    · split at h
      · cases h
      · rename_i h1 h2
        simp only [Bool.or_eq_true, decide_eq_true_eq, not_or, Decidable.not_not] at h1 h2
        exact ⟨h2.1, h2.2, h1, fun hd => absurd rfl hd⟩
  · split at h
    · rename_i e; subst e; exact ⟨rfl, rfl, rfl, fun _ => rfl⟩
    · simp only [Except.ok.injEq, List.append_eq_nil_iff] at h
      obtain ⟨⟨⟨h1, h2⟩, h3⟩, h4⟩ := h
      refine ⟨?_, ?_, ?_, fun _ => ?_⟩
      · apply Classical.byContradiction; intro hc; rw [if_pos hc] at h1; cases h1
      · cases hs : s.nullable <;> cases hu : u.nullable <;> simp [hs, hu] at h2 ⊢
      · cases hs : s.identity <;> cases hu : u.identity <;> simp [hs, hu] at h4 ⊢
      · cases hs : s.default <;> cases hu : u.default <;> simp [hs, hu] at h3 ⊢
        exact h3

theorem alterStmt_nil {tb : Table} {l : List Action} (h : tb.alterStmt d l = []) : l = [] := by
  unfold Table.alterStmt at h
  split at h
  · exact List.map_eq_nil_iff.1 h
  · cases h

theorem ifAlter_nil {tb : Table} {l : List Action} (h : (if l = [] then [] else tb.alterStmt d l) = []) : l = [] := by
  by_cases e : l = []
  · exact e
  · rw [if_neg e] at h; exact alterStmt_nil h

/-- Two dictionaries of which neither has a name the other lacks. -/
theorem agree_of {α : Type} [Named α] {R : α → α → Prop} {x y : ODict α} (hy : Distinct y)
    (h1 : x.difference y = []) (h2 : y.difference x = []) (h3 : ∀ p ∈ x.intersection y, R p.1 p.2) (k) :
    OptRel R (x.get k) (y.get k) := by
  cases ex : x.get k with
  | none =>
    cases ey : y.get k with
    | none => trivial
    | some b =>
      have hb := ODict.get_some_mem ey
      have : b ∈ y.difference x := ODict.mem_difference.2 ⟨hb.1, fun hc => by
        rw [ODict.get_none_iff] at ex
        exact ex (hb.2 ▸ hc)⟩
      rw [h2] at this; cases this
  | some a =>
    have ha := ODict.get_some_mem ex
    cases ey : y.get k with
    | none =>
      have : a ∈ x.difference y := ODict.mem_difference.2 ⟨ha.1, fun hc => by
        rw [ODict.get_none_iff] at ey
        exact ey (ha.2 ▸ hc)⟩
      rw [h1] at this; cases this
    | some b =>
      have hb := ODict.get_some_mem ey
      exact h3 (a, b) (mem_pair hy ha.1 hb.1 (ha.2.trans hb.2.symm))

theorem table_silent' {a b : Table} (dc : Distinct b.columns) (dk : Distinct b.constraints) (h : mutateTable d a b = .ok []) :
    AgreeTable a b := by
  have hcons := table_constraints h
  obtain ⟨hb, hdef⟩ : mutateTableBase d a b = .ok [] ∧ (d = .mssql → mssqlDefaults a b = []) := by
    unfold mutateTable at h
    cases hb : mutateTableBase d a b with
    | error e => simp [hb, bind, Except.bind] at h
    | ok base =>
      simp only [hb, bind, Except.bind] at h
      split at h
      · simp only [pure, Except.pure, Except.ok.injEq, List.append_eq_nil_iff] at h
        exact ⟨by rw [h.2], fun _ => ifAlter_nil h.1⟩
      · simp only [pure, Except.pure, Except.ok.injEq, List.append_eq_nil_iff] at h
        exact ⟨by rw [h.1], fun e => by cases e⟩
      · simp only [pure, Except.pure, Except.ok.injEq, List.append_eq_nil_iff] at h
        exact ⟨by rw [h.1.1], fun e => by cases e⟩
      · rename_i h1 _ _
        simp only [pure, Except.pure, Except.ok.injEq] at h
        exact ⟨by rw [h], fun e => absurd e h1⟩
  obtain ⟨rn, am, an, mg, al, hrn, ham, han, hmg, hal, hst⟩ := table_parts hb
  have hst := hst.symm
  obtain ⟨h123, h4⟩ := List.append_eq_nil_iff.1 hst
  obtain ⟨h12, _⟩ := List.append_eq_nil_iff.1 h123
  obtain ⟨h1, h2⟩ := List.append_eq_nil_iff.1 h12
  have h2 := List.append_eq_nil_iff.1 (ifAlter_nil h2)
  have h4 := ifAlter_nil h4
  subst h4
  have hadd : b.columns.difference a.columns = [] := by
    apply List.eq_nil_iff_forall_not_mem.2
    intro c hc
    obtain ⟨y, hy, _⟩ := mapM_all han c hc
    rw [h2.2] at hy; cases hy
  unfold alterActions at hal
  simp only [bind, Except.bind] at hal
  split at hal
  · cases hal
  · rename_i ch hch
    split at hal
    · cases hal
    · simp only [pure, Except.pure, Except.ok.injEq, List.append_eq_nil_iff, List.map_eq_nil_iff] at hal
      obtain ⟨⟨⟨⟨_, k1⟩, k2⟩, k3⟩, k4⟩ := hal
      have hcol := mapM_nil (wrapColumn_ok' hch) k1
      constructor
      · refine agree_of dc k2 hadd ?_
        intro p hp
        obtain ⟨e1, e2, e3, e4⟩ := column_silent (hcol p hp)
        refine ⟨e1, e2, ?_, e3⟩
        by_cases hd : d = .mssql
        · have := hdef hd
          unfold mssqlDefaults at this
          have := List.flatMap_eq_nil_iff.1 this p hp
          unfold mssqlDefault at this
          by_cases e : p.1.default = p.2.default
          · exact e
          · rw [if_neg e] at this
            have := List.append_eq_nil_iff.1 this
            cases hs : p.1.default <;> cases hu : p.2.default <;> simp [hs, hu] at this ⊢
        · exact e4 hd
      · intro n
        cases ea : a.constraints.get n with
        | none =>
          cases eb : b.constraints.get n with
          | none => rfl
          | some y =>
            have hy := ODict.get_some_mem eb
            have hm : y ∈ b.constraints.difference a.constraints := ODict.mem_difference.2 ⟨hy.1, fun hc => by
              rw [ODict.get_none_iff] at ea; exact ea (hy.2 ▸ hc)⟩
            have := List.filterMap_eq_nil_iff.1 k4 y hm
            rw [Option.map_eq_none_iff] at this
            simp [this]
        | some x =>
          have hx := ODict.get_some_mem ea
          cases eb : b.constraints.get n with
          | none =>
            have hm : x ∈ a.constraints.difference b.constraints := ODict.mem_difference.2 ⟨hx.1, fun hc => by
              rw [ODict.get_none_iff] at eb; exact eb (hx.2 ▸ hc)⟩
            have := List.filterMap_eq_nil_iff.1 k3 x hm
            rw [Option.map_eq_none_iff] at this
            simp [this]
          | some y =>
            have hy := ODict.get_some_mem eb
            have e : x = y := hcons (x, y) (mem_pair dk hx.1 hy.1 (hx.2.trans hy.2.symm))
            rw [e]

theorem table_silent {a b : Table} (_ : TableWF d a) (wb : TableWF d b) (h : mutateTable d a b = .ok []) :
    AgreeTable a b := table_silent' wb.columns wb.constraints h

theorem enum_silent {a b : EnumType} (h : mutateEnum a b = .ok []) : AgreeEnum a b := by
  unfold mutateEnum at h
  simp only [bind, Except.bind] at h
  split at h
  · cases h
  · split at h
    · cases h
    · rename_i hr
      simp only [pure, Except.pure, Except.ok.injEq, List.map_eq_nil_iff] at h
      simp only [ne_eq, Decidable.not_not] at hr
      intro v
      constructor
      · intro hv
        have := List.filter_eq_nil_iff.1 hr v hv
        simpa using this
      · intro hv
        have := List.filter_eq_nil_iff.1 h v hv
        simpa using this

theorem struct_silent {a b : StructType} (hb : Distinct b.members)
    (h : mutateStruct d a b = .ok []) : AgreeStruct a b := by
  unfold mutateStruct at h
  simp only [bind, Except.bind] at h
  split at h
  · cases h
  · simp only [pure, Except.pure, Except.ok.injEq, List.append_eq_nil_iff] at h
    have hact : structActions a b = [] := by
      by_cases e : structActions a b = []
      · exact e
      · rw [if_neg e] at h; cases h.1
    unfold structActions at hact
    simp only [List.append_eq_nil_iff, List.map_eq_nil_iff, List.filterMap_eq_nil_iff] at hact
    obtain ⟨⟨h1, h2⟩, h3⟩ := hact
    intro n
    have := agree_of (R := Eq) hb h1 h3 (by
      intro p hp
      have := h2 p hp
      apply Classical.byContradiction
      intro hne
      rw [if_pos hne] at this; cases this) n
    revert this
    generalize a.members.get n = x
    generalize b.members.get n = y
    intro this
    match x, y, this with
    | none, none, _ => rfl
    | some _, some _, e => exact congrArg some e

theorem namespace_silent {m n : Namespace} (wm : NsWF d m) (wn : NsWF d n)
    (h : mutateNamespace d {} m n = .ok []) : AgreeNs m n := by
  obtain ⟨p1, p2, p3, p4, p5, p6, p7, p8, p9⟩ := namespace_parts h
  have nil : ∀ {x : List Stmt}, (∀ s ∈ x, s ∈ ([] : List Stmt)) → x = [] := fun h =>
    List.eq_nil_iff_forall_not_mem.2 (fun s hs => by cases h s hs)
  constructor
  · refine agree_of wn.enums ?_ ?_ ?_
    · apply List.eq_nil_iff_forall_not_mem.2
      intro e he
      obtain ⟨q, hq⟩ := p7 rfl e he
      cases hq
    · apply List.eq_nil_iff_forall_not_mem.2
      intro e he
      cases p4 e he _ (List.mem_singleton.2 rfl)
    · intro p hp
      obtain ⟨x, hx, hl⟩ := p1 p hp
      rw [nil hl] at hx
      exact enum_silent hx
  · refine agree_of wn.structs ?_ ?_ ?_
    · apply List.eq_nil_iff_forall_not_mem.2
      intro e he
      cases p8 rfl e he
    · apply List.eq_nil_iff_forall_not_mem.2
      intro e he
      cases p5 e he _ List.mem_cons_self
    · intro p hp
      obtain ⟨x, hx, hl⟩ := p2 p hp
      rw [nil hl] at hx
      obtain ⟨h1, h2, _⟩ := (ODict.mem_intersection wn.structs).1 hp
      exact struct_silent (wn.members _ h2) hx
  · refine agree_of wn.tables ?_ ?_ ?_
    · apply List.eq_nil_iff_forall_not_mem.2
      intro e he
      cases p9 rfl e he
    · apply List.eq_nil_iff_forall_not_mem.2
      intro tb he
      obtain ⟨x, hx, hl⟩ := p6 tb he
      rw [nil hl] at hx
      unfold Table.createStmt at hx
      simp only [bind, Except.bind] at hx
      split at hx
      · cases hx
      · cases hx
    · intro p hp
      obtain ⟨x, hx, hl⟩ := p3 p hp
      rw [nil hl] at hx
      obtain ⟨h1, h2, _⟩ := (ODict.mem_intersection wn.tables).1 hp
      exact table_silent (wm.wf _ h1) (wn.wf _ h2) hx

end C11

open C11

variable {d : Dialect} {o : MutatorOptions} {topo : List (Text × List Text) → Except Err (List Text)}

/-- **C11.**  A label missing from the new version of an enumeration type is refused. -/
theorem C11_removed_value_refused (ht : Sorts topo) {S T : Catalog} (wS : CatWF d S) (wT : CatWF d T)
    {m n : Namespace} (hm : m ∈ S.namespaces.items) (hn : n ∈ T.namespaces.items) (e : m.name = n.name)
    {x y : EnumType} (hx : x ∈ m.enums.items) (hy : y ∈ n.enums.items) (exy : x.name = y.name)
    {v : Text} (hv : v ∈ x.values) (hv' : v ∉ y.values) : ∀ stmts, mutateCatalog topo d o S T ≠ .ok stmts := by
  intro stmts h
  obtain ⟨l, hl, _⟩ := catalog_namespace ht wS.names wT.names h hm hn e
  obtain ⟨z, hz, _⟩ := (namespace_parts hl).1 _ (mem_pair (wT.wf n hn).enums hx hy (congrArg QId.localId exy))
  unfold mutateEnum at hz
  simp only [bind, Except.bind] at hz
  split at hz
  · cases hz
  · split at hz
    · cases hz
    · rename_i hr
      simp only [ne_eq, Decidable.not_not] at hr
      have := List.filter_eq_nil_iff.1 hr v hv
      exact hv' (by simpa using this)

/-- **C11.**  A constraint whose definition changes under the same name is refused. -/
theorem C11_constraint_change_refused (ht : Sorts topo) {S T : Catalog} (wS : CatWF d S) (wT : CatWF d T)
    {m n : Namespace} (hm : m ∈ S.namespaces.items) (hn : n ∈ T.namespaces.items) (e : m.name = n.name)
    {x y : Table} (hx : x ∈ m.tables.items) (hy : y ∈ n.tables.items) (exy : x.name = y.name)
    {c c' : Constraint} (hc : c ∈ x.constraints.items) (hc' : c' ∈ y.constraints.items) (en : c.name = c'.name)
    (hne : c ≠ c') : ∀ stmts, mutateCatalog topo d o S T ≠ .ok stmts := by
  intro stmts h
  obtain ⟨l, hl, _⟩ := catalog_namespace ht wS.names wT.names h hm hn e
  obtain ⟨z, hz, _⟩ := (namespace_parts hl).2.2.1 _ (mem_pair (wT.wf n hn).tables hx hy (congrArg QId.localId exy))
  exact hne (table_constraints hz _ (mem_pair ((wT.wf n hn).wf y hy).constraints hc hc' en))

/-- **C11.**  SQL Server cannot change the identity property of a column: refused. -/
theorem C11_mssql_identity_refused (ht : Sorts topo) {S T : Catalog} (wS : CatWF .mssql S) (wT : CatWF .mssql T)
    {m n : Namespace} (hm : m ∈ S.namespaces.items) (hn : n ∈ T.namespaces.items) (e : m.name = n.name)
    {x y : Table} (hx : x ∈ m.tables.items) (hy : y ∈ n.tables.items) (exy : x.name = y.name)
    {c c' : Column} (hc : c ∈ x.columns.items) (hc' : c' ∈ y.columns.items) (en : c.name = c'.name)
    (hne : c.identity ≠ c'.identity) : ∀ stmts, mutateCatalog topo .mssql o S T ≠ .ok stmts := by
  intro stmts h
  obtain ⟨l, hl, _⟩ := catalog_namespace ht wS.names wT.names h hm hn e
  obtain ⟨z, hz, _⟩ := (namespace_parts hl).2.2.1 _ (mem_pair (wT.wf n hn).tables hx hy (congrArg QId.localId exy))
  obtain ⟨base, hb⟩ : ∃ base, mutateTableBase .mssql x y = .ok base := by
    unfold mutateTable at hz
    cases hb : mutateTableBase .mssql x y with
    | error e => simp [hb, bind, Except.bind] at hz
    | ok base => exact ⟨base, rfl⟩
  obtain ⟨rn, am, an, mg, al, hrn, ham, han, hmg, hal, hst⟩ := table_parts hb
  unfold alterActions at hal
  simp only [bind, Except.bind] at hal
  split at hal
  · cases hal
  · rename_i ch hch
    obtain ⟨w, _, hw⟩ := mapM_all (wrapColumn_ok' hch) _ (mem_pair ((wT.wf n hn).wf y hy).columns hc hc' en)
    simp only [mutateColumn, ne_eq, hne, not_false_eq_true, if_true] at hw
    cases hw

/-- **C11.**  If nothing is emitted (with all permissions) the two states agree on all schemas, types, labels, members,
    tables, columns and constraints.  But not on the primary key (`C11_primary_key_change_ignored`). -/
theorem C11_silence_means_agreement (ht : Sorts topo) {S T : Catalog} (wS : CatWF d S) (wT : CatWF d T)
    (h : mutateCatalog topo d {} S T = .ok []) : AgreeCat S T := by
  have both : ∀ k x y, S.namespaces.get k = some x → T.namespaces.get k = some y → AgreeNs x y := by
    intro k x y hx hy
    have hx := ODict.get_some_mem hx
    have hy := ODict.get_some_mem hy
    obtain ⟨l, hl, hsub⟩ := catalog_namespace ht wS.names wT.names h hx.1 hy.1 (hx.2.trans hy.2.symm)
    have : l = [] := List.eq_nil_iff_forall_not_mem.2 (fun s hs => by cases hsub s hs)
    subst this
    exact namespace_silent (wS.wf x hx.1) (wT.wf y hy.1) hl
  refine ⟨?_, both []⟩
  intro k hk
  obtain ⟨S', T', h1, h2, h3⟩ := mutateCatalog_sorted h
  have kS := sort_mem ht wS.names h1
  have kT := sort_mem ht wT.names h2
  unfold mutateSorted at h3
  simp only [bind, Except.bind] at h3
  split at h3
  · cases h3
  · split at h3
    · cases h3
    · simp only [pure, Except.pure, Except.ok.injEq, List.append_eq_nil_iff, if_true] at h3
      obtain ⟨⟨⟨⟨⟨c1, _⟩, _⟩, _⟩, _⟩, _, c2⟩ := h3
      cases ex : S.namespaces.get k with
      | none =>
        cases ey : T.namespaces.get k with
        | none => trivial
        | some y =>
          have hy := ODict.get_some_mem ey
          have hm : y ∈ T'.namespaces.difference S'.namespaces := ODict.mem_difference.2
            ⟨(kT.2.1 y).2 hy.1, fun hc => by
              obtain ⟨z, hz, e⟩ := List.mem_map.1 hc
              rw [ODict.get_none_iff] at ex
              exact ex (List.mem_map.2 ⟨z, (kS.2.1 z).1 hz, e.trans hy.2⟩)⟩
          have := List.flatMap_eq_nil_iff.1 c1 y hm
          unfold Namespace.createSchemaStmt at this
          rw [if_neg (fun e : y.name = [] => hk (hy.2.symm.trans e))] at this
          split at this <;> cases this
      | some x =>
        have hx := ODict.get_some_mem ex
        cases ey : T.namespaces.get k with
        | none =>
          have hm : x ∈ S'.namespaces.difference T'.namespaces := ODict.mem_difference.2
            ⟨(kS.2.1 x).2 hx.1, fun hc => by
              obtain ⟨z, hz, e⟩ := List.mem_map.1 hc
              rw [ODict.get_none_iff] at ey
              exact ey (List.mem_map.2 ⟨z, (kT.2.1 z).1 hz, e.trans hx.2⟩)⟩
          have := List.flatMap_eq_nil_iff.1 c2 x hm
          unfold Namespace.dropSchemaStmt at this
          rw [if_neg (fun e : x.name = [] => hk (hx.2.symm.trans e))] at this
          split at this <;> cases this
        | some y => exact both k x y ex ey

/-- What is missing: a changed primary key is neither applied nor refused. -/
theorem C11_primary_key_change_ignored (d : Dialect) : ∃ S T : Table, S.primaryKey ≠ T.primaryKey
    ∧ TableWF d S ∧ TableWF d T ∧ mutateTable d S T = .ok [] := by
  refine ⟨Example.status1, { Example.status1 with primaryKey := [t "value"] }, by decide, ?_, ?_, ?_⟩
  · exact tableWFB_ok (by cases d <;> decide +kernel)
  · exact tableWFB_ok (by cases d <;> decide +kernel)
  · refine C06_primary_key_change_ignored d _ _ ?_ ?_ ?_
    · exact (tableWFB_ok (d := d) (tb := Example.status1) (by cases d <;> decide +kernel)).columns
    · exact (tableWFB_ok (d := d) (tb := Example.status1) (by cases d <;> decide +kernel)).constraints
    · intro e c hc
      subst e
      simp only [Example.status1, List.mem_cons, List.not_mem_nil, or_false] at hc
      rcases hc with rfl | rfl <;> exact ⟨_, rfl⟩

namespace C11.Example
open PySqlSync.Example

/-- Going back from the target of the example to its source would remove a label. -/
example : ∀ stmts, mutateCatalog PySqlSync.Example.topo .postgresql {} target source ≠ .ok stmts :=
  C11_removed_value_refused topo_sorts target_wf source_wf (m := shop1) (n := shop0) (by decide +kernel)
    (by decide +kernel) rfl (x := ⟨q "shop" "kind", [t "a", t "b"]⟩) (y := ⟨q "shop" "kind", [t "a"]⟩)
    (by decide +kernel) (by decide +kernel) rfl (v := t "b") (by decide) (by decide)

def one (tb : Table) : Catalog := ⟨⟨[{ name := t "shop", tables := ⟨[tb]⟩ }]⟩⟩

/-- The unique constraint of a table is extended under its name. -/
example : ∀ stmts, mutateCatalog PySqlSync.Example.topo .oracle {} (one status1)
    (one { status1 with constraints := ⟨[.unique (t "uq_status") [t "value", t "id"]]⟩ }) ≠ .ok stmts :=
  C11_constraint_change_refused topo_sorts (catWFB_ok (by decide +kernel)) (catWFB_ok (by decide +kernel))
    (List.mem_singleton.2 rfl) (List.mem_singleton.2 rfl) rfl (List.mem_singleton.2 rfl) (List.mem_singleton.2 rfl) rfl
    (List.mem_singleton.2 rfl) (List.mem_singleton.2 rfl) rfl (by decide)

/-- An identity column becomes an ordinary one. -/
example : ∀ stmts, mutateCatalog PySqlSync.Example.topo .mssql {} (one status1)
    (one { status1 with columns := ⟨[col "id" int8 false, col "value" Example.text false]⟩ }) ≠ .ok stmts :=
  C11_mssql_identity_refused topo_sorts (catWFB_ok (by decide +kernel)) (catWFB_ok (by decide +kernel))
    (List.mem_singleton.2 rfl) (List.mem_singleton.2 rfl) rfl (List.mem_singleton.2 rfl) (List.mem_singleton.2 rfl) rfl
    (c := key0 "id") (c' := col "id" int8 false) List.mem_cons_self List.mem_cons_self rfl (by decide)

end C11.Example
end PySqlSync
