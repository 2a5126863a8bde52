/-
C04 — Drop permissions are honoured.
-/
import Verif.Props.C03

set_option autoImplicit false

namespace PySqlSync
open Spec

variable {topo : List (Text × List Text) → Except Err (List Text)} {d : Dialect} {o : MutatorOptions}

/-- A schema of the source that the target has, too. -/
def SharedNs (S T : Catalog) (n : Namespace) : Prop :=
  n ∈ S.namespaces.items ∧ ∃ m ∈ T.namespaces.items, m.name = n.name

/-- A schema of the source that the target does not have. -/
def RemovedNs (S T : Catalog) (n : Namespace) : Prop :=
  n ∈ S.namespaces.items ∧ ∀ m ∈ T.namespaces.items, m.name ≠ n.name

/-- Why something is dropped. -/
inductive DropReason (o : MutatorOptions) (S T : Catalog) : Stmt → Prop where
  | table (n : Namespace) (hn : SharedNs S T n) (ho : o.allowDropTable = true) (tb : Table)
      (h : tb ∈ n.tables.items) : DropReason o S T (.dropTable tb.name)
  | struct (n : Namespace) (hn : SharedNs S T n) (ho : o.allowDropStruct = true) (s : StructType)
      (h : s ∈ n.structs.items) : DropReason o S T (.dropType s.name)
  | enum (n : Namespace) (hn : SharedNs S T n) (ho : o.allowDropEnum = true) (e : EnumType)
      (h : e ∈ n.enums.items) : DropReason o S T (.dropType e.name)
  | enumMoved (n : Namespace) (hn : SharedNs S T n) (ho : o.allowDropEnum = true) (e : EnumType)
      (h : e ∈ n.enums.items) : DropReason o S T (.dropType (e.name.rename (deletedName e.name.localId)))
  | nsTable (n : Namespace) (hn : RemovedNs S T n) (ho : o.allowDropNamespace = true) (tb : Table)
      (h : tb ∈ n.tables.items) : DropReason o S T (.dropTable tb.name)
  | nsStruct (n : Namespace) (hn : RemovedNs S T n) (ho : o.allowDropNamespace = true) (s : StructType)
      (h : s ∈ n.structs.items) : DropReason o S T (.dropType s.name)
  | nsEnum (n : Namespace) (hn : RemovedNs S T n) (ho : o.allowDropNamespace = true) (e : EnumType)
      (h : e ∈ n.enums.items) : DropReason o S T (.dropType e.name)
  | schema (n : Namespace) (hn : RemovedNs S T n) (ho : o.allowDropNamespace = true) (cascade : Bool) :
      DropReason o S T (.dropSchema n.name cascade)

/-- Statements that drop a table, a type or a schema. -/
def IsDrop : Stmt → Prop
  | .dropTable _ => True
  | .dropType _ => True
  | .dropSchema _ _ => True
  | _ => False

/-- Whatever is dropped belongs to the source and may be dropped. -/
theorem C04_every_drop_is_permitted (ht : Sorts topo) {S T : Catalog} (hS : Distinct S.namespaces)
    (hT : Distinct T.namespaces) {stmts : List Stmt} (h : mutateCatalog topo d o S T = .ok stmts) {s : Stmt}
    (hs : s ∈ stmts) (hd : IsDrop s) : DropReason o S T s := by
  cases origin ht hS hT h hs with
  | created n' _ _ h' =>
    rcases h' with h' | ⟨l, hl, h'⟩ | h'
    · obtain ⟨b, rfl⟩ := createSchema_mem h'; exact absurd hd id
    · rcases createObjects_mem hl h' with ⟨e, _, he⟩ | ⟨e, _, he⟩ | ⟨tb, _, x, hx, he⟩
      · rw [List.mem_singleton.1 (show s ∈ [_] from he)] at hd; exact absurd hd id
      · rcases structCreate_mem he with ⟨_, rfl⟩ | ⟨_, rfl⟩ | ⟨_, _, rfl⟩ <;> exact absurd hd id
      · rcases table_create_mem hx he with ⟨_, _, _, _, rfl⟩ | ⟨_, rfl⟩ | ⟨_, _, rfl⟩ | ⟨_, _, rfl⟩ <;> exact absurd hd id
    · obtain ⟨tb, _, h'⟩ := List.mem_flatMap.1 h'
      obtain ⟨l, rfl, _⟩ := addConstraints_mem h'; exact absurd hd id
  | changed a' b' ha' hb' hn' l hl hs' =>
    have hsh : SharedNs S T a' := ⟨ha', b', hb', hn'.symm⟩
    cases nsOrigin hl hs' with
    | enumCreate e _ he => rw [List.mem_singleton.1 (show s ∈ [_] from he)] at hd; exact absurd hd id
    | structCreate e _ he => rcases structCreate_mem he with ⟨_, rfl⟩ | ⟨_, rfl⟩ | ⟨_, _, rfl⟩ <;> exact absurd hd id
    | enumSoft p _ he => rw [List.mem_singleton.1 (show s ∈ [_] from he)] at hd; exact absurd hd id
    | tableCreate tb _ x hx he =>
      rcases table_create_mem hx he with ⟨_, _, _, _, rfl⟩ | ⟨_, rfl⟩ | ⟨_, _, rfl⟩ | ⟨_, _, rfl⟩ <;> exact absurd hd id
    | tableConstraints tb _ he => obtain ⟨l, rfl, _⟩ := addConstraints_mem he; exact absurd hd id
    | enumMigrate p _ he => rw [List.mem_singleton.1 (show s ∈ [_] from he)] at hd; exact absurd hd id
    | enumMutate x y _ l hl he => obtain ⟨v, rfl⟩ := mutateEnum_mem hl he; exact absurd hd id
    | structMutate x y _ l hl he => rcases mutateStruct_mem hl he with ⟨_, rfl⟩ | ⟨_, rfl⟩ <;> exact absurd hd id
    | tableMutate x y _ l hl he =>
      cases tabOrigin hl he with
      | defaults h => obtain ⟨_, rfl, _⟩ := mem_alterStmt h; exact absurd hd id
      | rename p _ r _ h => obtain ⟨_, rfl, _⟩ := mem_alterStmt h; exact absurd hd id
      | add acts _ h => obtain ⟨_, rfl, _⟩ := mem_alterStmt h; exact absurd hd id
      | migrate p _ l hl h =>
        obtain ⟨r, _, h⟩ := migrateColumn_mem hl h
        rcases h with ⟨_, _, rfl⟩ | ⟨_, rfl⟩ | ⟨_, _, rfl⟩ <;> exact absurd hd id
      | alter acts _ h => obtain ⟨_, rfl, _⟩ := mem_alterStmt h; exact absurd hd id
      | comment h => rcases h with ⟨_, rfl⟩ | ⟨_, _, rfl⟩ <;> exact absurd hd id
    | tableDrop tb ho htb he =>
      rw [List.mem_singleton.1 (show s ∈ [_] from he)]
      exact .table a' hsh ho tb (mem_diff htb).1
    | structDrop e ho he' he =>
      rw [List.mem_singleton.1 (show s ∈ [_] from he)]
      exact .struct a' hsh ho e (mem_diff he').1
    | enumDrop e ho he' he =>
      rcases he with ⟨he, _⟩ | ⟨he, _⟩
      · rw [List.mem_singleton.1 (show s ∈ [_] from he)]
        exact .enum a' hsh ho e (mem_diff he').1
      · rw [List.mem_singleton.1 (show s ∈ [_] from he)]
        exact .enumMoved a' hsh ho e (mem_diff he').1
  | released n' _ _ h' =>
    obtain ⟨tb, _, h'⟩ := List.mem_flatMap.1 h'
    obtain ⟨l, rfl, _⟩ := dropConstraints_mem h'; exact absurd hd id
  | removed n' hn' hT' ho h' =>
    rcases h' with h' | h'
    · rcases dropObjects_mem h' with ⟨tb, htb, rfl⟩ | ⟨e, he, rfl⟩ | ⟨e, he, rfl⟩
      · exact .nsTable n' ⟨hn', hT'⟩ ho tb htb
      · exact .nsStruct n' ⟨hn', hT'⟩ ho e he
      · exact .nsEnum n' ⟨hn', hT'⟩ ho e he
    · obtain ⟨b, rfl⟩ := dropSchema_mem h'; exact .schema n' ⟨hn', hT'⟩ ho b

/-- Objects of a removed namespace and of a shared one have different keys. -/
theorem scope_ne {S T : Catalog} {n m : Namespace} (hn : SharedNs S T n) (hm : RemovedNs S T m) : n.name ≠ m.name := by
  obtain ⟨k, hk, e⟩ := hn.2
  intro e'
  exact hm.2 k hk (e.trans e')

/-- `allow_drop_table=False`: no table of a schema that both have is dropped. -/
theorem C04_no_table_dropped (ht : Sorts topo) {S T : Catalog} (wS : CatWF d S) (wT : CatWF d T)
    (ho : o.allowDropTable = false) {stmts : List Stmt} (h : mutateCatalog topo d o S T = .ok stmts)
    {n : Namespace} (hn : SharedNs S T n) {tb : Table} (htb : tb ∈ n.tables.items) (q : QId)
    (hq : q.key = tb.name.key) : Stmt.dropTable q ∉ stmts := by
  intro hs
  have hk : q.key.1 = n.name := by rw [hq]; exact (wS.wf n hn.1).tableScope tb htb
  have := C04_every_drop_is_permitted ht wS.names wT.names h hs trivial
  generalize hst : Stmt.dropTable q = st at this
  cases this with
  | table n' hn' ho' => rw [ho] at ho'; cases ho'
  | nsTable n' hn' _ tb' htb' =>
    cases hst
    exact scope_ne hn hn' (hk.symm.trans ((wS.wf n' hn'.1).tableScope tb' htb'))
  | _ => cases hst

/-- `allow_drop_struct=False`: no composite type of a schema that both have is dropped.
    (`hp`: type names are not prefixed names, which occur only on engines that have no such types.) -/
theorem C04_no_struct_dropped (ht : Sorts topo) {S T : Catalog} (wS : CatWF d S) (wT : CatWF d T)
    (hp : ∀ n ∈ S.namespaces.items, ∀ e ∈ n.enums.items, ∀ x, (e.name.rename x).key = (e.name.key.1, x))
    (ho : o.allowDropStruct = false) {stmts : List Stmt} (h : mutateCatalog topo d o S T = .ok stmts)
    {n : Namespace} (hn : SharedNs S T n) {s : StructType} (hs' : s ∈ n.structs.items) (q : QId)
    (hq : q.key = s.name.key) : Stmt.dropType q ∉ stmts := by
  intro hs
  have w := wS.wf n hn.1
  have hk : q.key.1 = n.name := by rw [hq]; exact w.structScope s hs'
  have := C04_every_drop_is_permitted ht wS.names wT.names h hs trivial
  generalize hst : Stmt.dropType q = st at this
  cases this with
  | struct n' hn' ho' => rw [ho] at ho'; cases ho'
  | enum n' hn' _ e he =>
    cases hst
    have e1 : n = n' := eq_of_key wS.names hn.1 hn'.1 (hk.symm.trans ((wS.wf n' hn'.1).enumScope e he))
    subst e1
    exact w.enumStruct e he s hs' (congrArg Prod.snd hq)
  | enumMoved n' hn' _ e he =>
    cases hst
    rw [hp n' hn'.1 e he] at hq hk
    exact w.structNames s hs' _ (congrArg Prod.snd hq).symm
  | nsStruct n' hn' _ s' hs'' =>
    cases hst
    exact scope_ne hn hn' (hk.symm.trans ((wS.wf n' hn'.1).structScope s' hs''))
  | nsEnum n' hn' _ e he =>
    cases hst
    exact scope_ne hn hn' (hk.symm.trans ((wS.wf n' hn'.1).enumScope e he))
  | _ => cases hst

/-- `allow_drop_enum=False`: no enumeration type of a schema that both have is dropped, neither under its name nor
    under the name it is given while a table takes its place. -/
theorem C04_no_enum_dropped (ht : Sorts topo) {S T : Catalog} (wS : CatWF d S) (wT : CatWF d T)
    (hp : ∀ n ∈ S.namespaces.items, ∀ e ∈ n.enums.items, ∀ x, (e.name.rename x).key = (e.name.key.1, x))
    (ho : o.allowDropEnum = false) {stmts : List Stmt} (h : mutateCatalog topo d o S T = .ok stmts)
    {n : Namespace} (hn : SharedNs S T n) {e : EnumType} (he : e ∈ n.enums.items) (q : QId)
    (hq : q.key = e.name.key ∨ q.key = (e.name.rename (deletedName e.name.localId)).key) :
    Stmt.dropType q ∉ stmts := by
  intro hs
  have w := wS.wf n hn.1
  have hk : q.key.1 = n.name := by
    rcases hq with hq | hq
    · rw [hq]; exact w.enumScope e he
    · rw [hq, hp n hn.1 e he]; exact w.enumScope e he
  have := C04_every_drop_is_permitted ht wS.names wT.names h hs trivial
  generalize hst : Stmt.dropType q = st at this
  cases this with
  | enum n' hn' ho' => rw [ho] at ho'; cases ho'
  | enumMoved n' hn' ho' => rw [ho] at ho'; cases ho'
  | struct n' hn' _ s hs' =>
    cases hst
    have e1 : n = n' := eq_of_key wS.names hn.1 hn'.1 (hk.symm.trans ((wS.wf n' hn'.1).structScope s hs'))
    subst e1
    rcases hq with hq | hq
    · exact w.enumStruct e he s hs' (congrArg Prod.snd hq).symm
    · rw [hp n hn.1 e he] at hq
      exact w.structNames s hs' _ (congrArg Prod.snd hq)
  | nsStruct n' hn' _ s' hs'' =>
    cases hst
    exact scope_ne hn hn' (hk.symm.trans ((wS.wf n' hn'.1).structScope s' hs''))
  | nsEnum n' hn' _ e he =>
    cases hst
    exact scope_ne hn hn' (hk.symm.trans ((wS.wf n' hn'.1).enumScope e he))
  | _ => cases hst

/-- `allow_drop_namespace=False`: no schema is dropped, and no table of a schema that the target lacks. -/
theorem C04_no_schema_dropped (ht : Sorts topo) {S T : Catalog} (wS : CatWF d S) (wT : CatWF d T)
    (ho : o.allowDropNamespace = false) {stmts : List Stmt} (h : mutateCatalog topo d o S T = .ok stmts) :
    (∀ n cascade, Stmt.dropSchema n cascade ∉ stmts)
    ∧ ∀ n, RemovedNs S T n → ∀ tb ∈ n.tables.items, ∀ q, q.key = tb.name.key → Stmt.dropTable q ∉ stmts := by
  constructor
  · intro n c hs
    have := C04_every_drop_is_permitted ht wS.names wT.names h hs trivial
    generalize hst : Stmt.dropSchema n c = st at this
    cases this with
    | schema n' hn' ho' => rw [ho] at ho'; cases ho'
    | _ => cases hst
  · intro n hn tb htb q hq hs
    have hk : q.key.1 = n.name := by rw [hq]; exact (wS.wf n hn.1).tableScope tb htb
    have := C04_every_drop_is_permitted ht wS.names wT.names h hs trivial
    generalize hst : Stmt.dropTable q = st at this
    cases this with
    | nsTable n' hn' ho' => rw [ho] at ho'; cases ho'
    | table n' hn' _ tb' htb' =>
      cases hst
      exact scope_ne hn' hn (((wS.wf n' hn'.1).tableScope tb' htb').symm.trans hk)
    | _ => cases hst

/-- ... nor any type of such a schema. -/
theorem C04_no_type_of_removed_schema_dropped (ht : Sorts topo) {S T : Catalog} (wS : CatWF d S) (wT : CatWF d T)
    (hp : ∀ n ∈ S.namespaces.items, ∀ e ∈ n.enums.items, ∀ x, (e.name.rename x).key = (e.name.key.1, x))
    (ho : o.allowDropNamespace = false) {stmts : List Stmt} (h : mutateCatalog topo d o S T = .ok stmts)
    {n : Namespace} (hn : RemovedNs S T n) (q : QId) (hq : q.key.1 = n.name) : Stmt.dropType q ∉ stmts := by
  intro hs
  have := C04_every_drop_is_permitted ht wS.names wT.names h hs trivial
  generalize hst : Stmt.dropType q = st at this
  cases this with
  | nsStruct n' hn' ho' => rw [ho] at ho'; cases ho'
  | nsEnum n' hn' ho' => rw [ho] at ho'; cases ho'
  | struct n' hn' _ s hs' =>
    cases hst
    exact scope_ne hn' hn (((wS.wf n' hn'.1).structScope s hs').symm.trans hq)
  | enum n' hn' _ e he =>
    cases hst
    exact scope_ne hn' hn (((wS.wf n' hn'.1).enumScope e he).symm.trans hq)
  | enumMoved n' hn' _ e he =>
    cases hst
    rw [hp n' hn'.1 e he] at hq
    exact scope_ne hn' hn (((wS.wf n' hn'.1).enumScope e he).symm.trans hq)
  | _ => cases hst

/-- The constraints of a schema that must not be dropped are dropped nevertheless: the permission does not cover them. -/
theorem C04_constraints_of_kept_schema_dropped_anyway :
    (mutateCatalog Example.topo .postgresql { allowDropNamespace := false } ⟨⟨[Example.shop0, Example.legacy0]⟩⟩
      ⟨⟨[Example.shop0]⟩⟩).toOption = some [.alterTable (Example.q "legacy" "old") [.dropConstraint (t "fk_old")]] := by
  decide +kernel

/-- In the example with nothing permitted, the script has 17 statements (instead of 21) and drops nothing. -/
example : ∃ stmts, mutateCatalog Example.topo .postgresql ⟨false, false, false, false⟩ Example.source Example.target
      = .ok stmts ∧ stmts.length = 17 ∧ ∀ s ∈ stmts, ¬ IsDrop s := by
  cases h : mutateCatalog Example.topo .postgresql ⟨false, false, false, false⟩ Example.source Example.target with
  | error e =>
    have : (mutateCatalog Example.topo .postgresql ⟨false, false, false, false⟩ Example.source
      Example.target).toOption.isSome = true := by decide +kernel
    rw [h] at this; cases this
  | ok stmts =>
    refine ⟨stmts, rfl, ?_, ?_⟩
    · have : (mutateCatalog Example.topo .postgresql ⟨false, false, false, false⟩ Example.source
        Example.target).toOption.map List.length = some 17 := by decide +kernel
      rw [h] at this
      simpa [Except.toOption] using this
    · intro s hs hd
      cases C04_every_drop_is_permitted Example.topo_sorts Example.source_wf.names Example.target_wf.names h hs hd with
      | table _ _ ho => cases ho
      | struct _ _ ho => cases ho
      | enum _ _ ho => cases ho
      | enumMoved _ _ ho => cases ho
      | nsTable _ _ ho => cases ho
      | nsStruct _ _ ho => cases ho
      | nsEnum _ _ ho => cases ho
      | schema _ _ ho => cases ho

end PySqlSync
