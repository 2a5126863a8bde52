/-
Helper lemmas: the comments after the script of a namespace and of a catalog.
-/
import Verif.Lemmas.Remarks

set_option autoImplicit false

namespace PySqlSync.Rem
open Spec

variable {d : Dialect} {o : MutatorOptions} {topo : List (Text × List Text) → Except Err (List Text)}

/-! ### Blocks -/

/-- Whenever the comments of the object satisfy `A`, they satisfy `B` after the statements. -/
def Block (d : Dialect) (k : Key) (A B : Remarks → Prop) (l : List Stmt) : Prop := ∀ c, A (c k) → B (remarks d c l k)

theorem Block.after {k : Key} {A B : Remarks → Prop} {l s : List Stmt} (h : Block d k A B l) (hs : ∀ x ∈ s, Quiet d k x) :
    Block d k A B (l ++ s) := by
  intro c hc
  rw [remarks_append, quiet_list hs]
  exact h c hc

theorem Block.before {k : Key} {A B : Remarks → Prop} {l p : List Stmt} (h : Block d k A B l) (hp : ∀ x ∈ p, Quiet d k x) :
    Block d k A B (p ++ l) := by
  intro c hc
  rw [remarks_append]
  exact h _ (by rw [quiet_list hp]; exact hc)

theorem Block.anyway {k : Key} {B : Remarks → Prop} {l : List Stmt} (h : Block d k (fun _ => True) B l) (p : List Stmt) :
    Block d k (fun _ => True) B (p ++ l) := by
  intro c _
  rw [remarks_append]
  exact h _ trivial

/-- One block among those of a list. -/
theorem split_mapM {α : Type} {key : α → Text} {f : α → Except Err (List Stmt)} : ∀ {l : List α} {r : List (List Stmt)},
    l.mapM f = .ok r → (l.map key).Nodup → ∀ {x : α}, x ∈ l → ∃ p lx s, f x = .ok lx ∧ r.flatten = p ++ (lx ++ s) ∧
      ∀ st ∈ p ++ s, ∃ y ∈ l, key y ≠ key x ∧ ∃ ly, f y = .ok ly ∧ st ∈ ly
  | [], _, _, _, _, hx => by cases hx
  | a :: l, r, h, hn, x, hx => by
    obtain ⟨y, ys, hy, hys, rfl⟩ := Conv.mapM_cons_ok.1 h
    simp only [List.map_cons, List.nodup_cons] at hn
    rcases List.mem_cons.mp hx with rfl | hx
    · refine ⟨[], y, ys.flatten, hy, by simp, ?_⟩
      intro st hst
      obtain ⟨z, hz, lz, hlz, hm⟩ := mem_of_mapM hys (List.nil_append _ ▸ hst)
      refine ⟨z, List.mem_cons_of_mem _ hz, ?_, lz, hlz, hm⟩
      intro e
      exact hn.1 (e ▸ List.mem_map_of_mem hz)
    · obtain ⟨p, lx, s, h1, h2, h3⟩ := split_mapM hys hn.2 hx
      refine ⟨y ++ p, lx, s, h1, by simp [h2], ?_⟩
      intro st hst
      rw [List.append_assoc] at hst
      rcases List.mem_append.mp hst with hst | hst
      · refine ⟨a, List.mem_cons_self .., ?_, y, hy, hst⟩
        intro e
        exact hn.1 (e ▸ List.mem_map_of_mem hx)
      · obtain ⟨z, hz, hk, hr⟩ := h3 st hst
        exact ⟨z, List.mem_cons_of_mem _ hz, hk, hr⟩

/-! ### Creation of a table -/

theorem find_specs : ∀ {l : List Column} {r : List (Text × ColSpec)},
    l.mapM (fun c => do return (c.name, ← c.dataSpec d)) = .ok r → (l.map Column.name).Nodup → ∀ {u : Column}, u ∈ l →
    ∃ s, u.dataSpec d = .ok s ∧ r.find? (fun p => p.1 = u.name) = some (u.name, s)
  | [], _, _, _, _, hu => by cases hu
  | a :: l, r, h, hn, u, hu => by
    obtain ⟨y, ys, hy, hys, rfl⟩ := Conv.mapM_cons_ok.1 h
    simp only [List.map_cons, List.nodup_cons] at hn
    simp only [Conv.bind_ok, Conv.pure_ok] at hy
    obtain ⟨s, hs, rfl⟩ := hy
    rcases List.mem_cons.mp hu with rfl | hu
    · exact ⟨s, hs, by simp⟩
    · obtain ⟨s', h1, h2⟩ := find_specs hys hn.2 hu
      refine ⟨s', h1, ?_⟩
      rw [List.find?_cons]
      have : a.name ≠ u.name := fun e => hn.1 (e ▸ List.mem_map_of_mem hu)
      simp only [this, decide_false]
      exact h2

theorem quiet_rows {k : Key} {q : QId} {c : List Text} {v} : Quiet d k (.insertRows q c v) := fun _ => rfl

theorem create_block (hd : d = .postgresql ∨ d = .mysql) {tb : Table} (w : TableWF d tb) {l : List Stmt}
    (h : tb.createStmt d = .ok l) : Block d tb.name.key (fun _ => True) (Described d tb) l := by
  unfold Table.createStmt at h
  simp only [Conv.bind_ok, Conv.pure_ok] at h
  obtain ⟨cols, hcols, rfl⟩ := h
  have hw : (tb.columns.items.map Column.name).Nodup := w.columns
  have hrows : ∀ s ∈ (match tb.enumValues with
      | some vs => [Stmt.insertRows tb.name (tb.valueColumns.map Column.name) vs]
      | none => []), Quiet d tb.name.key s := by
    intro s hs
    split at hs
    · rw [List.mem_singleton.mp hs]; exact quiet_rows
    · cases hs
  rw [← List.cons_append]
  refine Block.after ?_ hrows
  intro c _
  rcases hd with rfl | rfl
  · dsimp only
    have hE : ∀ l, l = Stmt.createTable tb.name cols (tb.keyName .postgresql) tb.primaryKey (tb.createComment .postgresql) ::
        (commentChange none tb.description (Stmt.commentTable tb.name) ++ tb.columns.items.flatMap (fun u =>
          commentChange ((fun _ => none) u) u.description (Stmt.commentColumn tb.name u.name))) → Described .postgresql tb (remarks .postgresql c l tb.name.key) := ?_
    · apply hE
      refine congrArg (List.cons _) (congr (congrArg HAppend.hAppend ?_) ?_)
      · cases tb.description <;> rfl
      · refine congrArg (fun f => List.flatMap f tb.columns.items) ?_
        funext u
        cases u.description <;> rfl
    intro l hl
    rw [hl]
    rw [← List.singleton_append, remarks_append, remarks_append]
    have hc : ∀ x : Text × List Text, (remarks .postgresql c [Stmt.createTable tb.name cols x.1 x.2 (tb.createComment .postgresql)] tb.name.key) = noRemarks := by
      intro x
      have e : tb.createComment .postgresql = none := by
        unfold Table.createComment; cases tb.description <;> rfl
      simp only [remarks, List.foldl, remark, upd_same, e, stored, noRemarks]
      congr 1
      funext n
      cases hf : cols.find? (fun p => p.1 = n) with
      | none => rfl
      | some p =>
        obtain ⟨u, _, hu⟩ := Conv.mapM_back hcols _ (List.mem_of_find?_eq_some hf)
        simp only [Conv.bind_ok, Conv.pure_ok] at hu
        obtain ⟨s, hs, rfl⟩ := hu
        have := comment_eq (.inl rfl) (dataSpec_comment hs)
        simp [specRemark] at this
        simp [this]
    have h2 := change_table (d := .postgresql) (q := tb.name) none tb.description
    have h3 := change_columns (d := .postgresql) (q := tb.name) (fun _ => none) tb.columns.items
    have hid : ∀ x : Option Text, x.map (keptText .postgresql) = x := fun x => by cases x <;> rfl
    have hc0 := hc (tb.keyName .postgresql, tb.primaryKey)
    refine ⟨?_, ?_⟩
    · have := (h3 (remarks .postgresql (remarks .postgresql c [Stmt.createTable tb.name cols (tb.keyName .postgresql) tb.primaryKey (tb.createComment .postgresql)]) (commentChange none tb.description (Stmt.commentTable tb.name))) hw).1
      rw [this, (h2 _).2, hid, hc0]
      split
      · next e => rw [← e]; rfl
      · rfl
    · intro u hu
      have := (h3 (remarks .postgresql (remarks .postgresql c [Stmt.createTable tb.name cols (tb.keyName .postgresql) tb.primaryKey (tb.createComment .postgresql)]) (commentChange none tb.description (Stmt.commentTable tb.name))) hw).2.2 u hu
      rw [this, hid, (h2 _).1, hc0]
      split
      · next e => rw [← e]; rfl
      · rfl
  · dsimp only
    simp only [remarks, List.foldl, remark]
    refine ⟨?_, ?_⟩
    · rw [upd_same]
      show stored (tb.createComment .mysql) = _
      unfold Table.createComment
      cases hdesc : tb.description with
      | none => rfl
      | some s =>
        dsimp only
        have : keptText .mysql s = firstLine s := rfl
        simp only [Option.map_some, this]
        split
        · next e => rw [e]; rfl
        · rfl
    · intro u hu
      rw [upd_same]
      obtain ⟨s, hs, hf⟩ := find_specs hcols hw hu
      dsimp only
      rw [hf]
      have := comment_eq (.inr rfl) (dataSpec_comment hs)
      simp only [Option.bind_some, this]
      rfl

/-! ### Statements about other objects -/

theorem quiet_actions {k : Key} {q : QId} {acts : List Action} (h : ∀ a ∈ acts, ∀ m, ¬ On a m) : Quiet d k (.alterTable q acts) := by
  intro c
  simp only [remark]
  by_cases e : k = q.key
  · subst e
    rw [upd_same]
    have ho := fold_own (d := d) acts (c q.key)
    have hc : (acts.foldl (remarkAction d) (c q.key)).cols = (c q.key).cols := by
      funext m
      exact fold_gives (fun a ha hon => absurd hon (h a ha m)) _ (.inl rfl)
    cases hr : acts.foldl (remarkAction d) (c q.key)
    cases hr' : c q.key
    rw [hr, hr'] at ho hc
    dsimp only at ho hc
    subst ho
    subst hc
    rfl
  · exact upd_ne _ _ e

theorem quiet_addConstraints {k : Key} {tb : Table} {s : Stmt} (hs : s ∈ tb.addConstraintsStmt d) : Quiet d k s := by
  obtain ⟨l, rfl, hl⟩ := addConstraints_mem hs
  refine quiet_actions fun a ha m => ?_
  obtain ⟨n, c, rfl⟩ := hl a ha
  exact id

theorem quiet_dropConstraints {k : Key} {tb : Table} {s : Stmt} (hs : s ∈ tb.dropConstraintsStmt) : Quiet d k s := by
  obtain ⟨l, rfl, hl⟩ := dropConstraints_mem hs
  refine quiet_actions fun a ha m => ?_
  obtain ⟨n, rfl⟩ := hl a ha
  exact id

theorem quiet_create {k : Key} {tb : Table} {l : List Stmt} (h : tb.createStmt d = .ok l) (hk : tb.name.key ≠ k) {s : Stmt}
    (hs : s ∈ l) : Quiet d k s := by
  rcases table_create_mem h hs with ⟨_, _, _, _, rfl⟩ | ⟨_, rfl⟩ | ⟨_, _, rfl⟩ | ⟨_, _, rfl⟩
  all_goals refine quiet_of_subject rfl fun k' e => ?_
  all_goals simp only [subject, Option.some.injEq, reduceCtorEq] at e
  all_goals exact e ▸ hk

theorem quiet_enumCreate {k : Key} {e : EnumType} (hk : e.name.key ≠ k) {s : Stmt} (hs : s ∈ e.createStmt) : Quiet d k s := by
  rw [List.mem_singleton.1 (show s ∈ [_] from hs)]
  exact quiet_of_subject rfl fun k' e => by simp only [subject, Option.some.injEq] at e; exact e ▸ hk

theorem quiet_structCreate {k : Key} {e : StructType} (hk : e.name.key ≠ k) {s : Stmt} (hs : s ∈ e.createStmt d) : Quiet d k s := by
  rcases structCreate_mem hs with ⟨_, rfl⟩ | ⟨_, rfl⟩ | ⟨_, _, rfl⟩
  all_goals refine quiet_of_subject rfl fun k' e => ?_
  all_goals simp only [subject, Option.some.injEq] at e
  all_goals exact e ▸ hk

theorem quiet_dropTable {k : Key} {q : QId} (hk : q.key ≠ k) : Quiet d k (.dropTable q) :=
  quiet_of_subject rfl fun k' e => by simp only [subject, Option.some.injEq] at e; exact e ▸ hk

theorem quiet_dropType {k : Key} {q : QId} (hk : q.key ≠ k) : Quiet d k (.dropType q) :=
  quiet_of_subject rfl fun k' e => by simp only [subject, Option.some.injEq] at e; exact e ▸ hk

theorem quiet_mutateEnum {k : Key} {a b : EnumType} {l : List Stmt} (h : mutateEnum a b = .ok l) {s : Stmt} (hs : s ∈ l) : Quiet d k s := by
  obtain ⟨v, rfl⟩ := mutateEnum_mem h hs
  exact fun _ => rfl

theorem mutateStruct_name {a b : StructType} {l : List Stmt} (h : mutateStruct d a b = .ok l) : a.name = b.name := by
  unfold mutateStruct at h
  simp only [Conv.bind_ok] at h
  obtain ⟨_, h, _⟩ := h
  exact identity_ok h

theorem quiet_mutateStruct {k : Key} {a b : StructType} {l : List Stmt} (h : mutateStruct d a b = .ok l) (hk : b.name.key ≠ k) {s : Stmt}
    (hs : s ∈ l) : Quiet d k s := by
  have hn := mutateStruct_name h
  rcases mutateStruct_mem h hs with ⟨_, rfl⟩ | ⟨_, rfl⟩
  all_goals refine quiet_of_subject rfl fun k' e => ?_
  all_goals simp only [subject, Option.some.injEq] at e
  · exact e ▸ hn ▸ hk
  · exact e ▸ hk

theorem quiet_migrateEnum {k : Key} {e : EnumType} {tb : Table} {s : Stmt} (hs : s ∈ migrateEnum d e tb) : Quiet d k s := by
  rw [List.mem_singleton.1 (show s ∈ [_] from hs)]
  exact fun _ => rfl

theorem quiet_mutateTable {k : Key} {a b : Table} {l : List Stmt} (h : mutateTable d a b = .ok l) (hk : b.name.key ≠ k) {s : Stmt}
    (hs : s ∈ l) : Quiet d k s := by
  have hn := mutateTable_name h
  have halt : ∀ acts, s ∈ a.alterStmt d acts → Quiet d k s := by
    intro acts hm
    obtain ⟨_, rfl, _⟩ := mem_alterStmt hm
    exact quiet_of_subject rfl fun k' e => by simp only [subject, Option.some.injEq] at e; exact e ▸ hn ▸ hk
  cases tabOrigin h hs with
  | defaults h => exact halt _ h
  | rename p _ r _ h => exact halt _ h
  | add acts _ h => exact halt _ h
  | alter acts _ h => exact halt _ h
  | comment h =>
    rcases h with ⟨_, rfl⟩ | ⟨_, _, rfl⟩
    all_goals refine quiet_of_subject rfl fun k' e => ?_
    all_goals simp only [subject, Option.some.injEq] at e
    all_goals exact e ▸ hk
  | migrate p _ l hl h =>
    obtain ⟨r, _, h⟩ := migrateColumn_mem hl h
    rcases h with ⟨_, _, rfl⟩ | ⟨_, rfl⟩ | ⟨_, _, rfl⟩
    all_goals exact fun _ => rfl

theorem rename_scope (q : QId) (x : Text) : (q.rename x).key.1 = q.key.1 := by
  cases q <;> rfl

/-- The script of another namespace. -/
theorem quiet_namespace {a b : Namespace} (wa : NsWF d a) (wb : NsWF d b) {l : List Stmt} (h : mutateNamespace d o a b = .ok l)
    (hab : a.name = b.name) {k : Key} (hk : k.1 ≠ b.name) {s : Stmt} (hs : s ∈ l) : Quiet d k s := by
  have hB : ∀ q : QId, q.key.1 = b.name → q.key ≠ k := fun q hq e => hk (by rw [← e]; exact hq)
  have hA : ∀ q : QId, q.key.1 = a.name → q.key ≠ k := fun q hq e => hk (by rw [← e, ← hab]; exact hq)
  cases nsOrigin h hs with
  | enumCreate e he h => exact quiet_enumCreate (hB _ (wb.enumScope e (mem_diff he).1)) h
  | structCreate e he h => exact quiet_structCreate (hB _ (wb.structScope e (mem_diff he).1)) h
  | enumSoft p hp h =>
    rw [List.mem_singleton.1 (show s ∈ [_] from h)]
    simp only [softPairs, List.mem_flatMap, List.mem_map, List.mem_filter] at hp
    obtain ⟨e, he, tb, _, rfl⟩ := hp
    have hs := wa.enumScope e (mem_diff he).1
    refine quiet_rename (Ne.symm (hA _ hs)) ?_
    intro e'
    exact hk (by rw [e', ← hab]; exact hs)
  | tableCreate tb he l hl h => exact quiet_create hl (hB _ (wb.tableScope tb (mem_diff he).1)) h
  | tableConstraints tb _ h => exact quiet_addConstraints h
  | enumMigrate p _ h => exact quiet_migrateEnum h
  | enumMutate x y _ l hl h => exact quiet_mutateEnum hl h
  | structMutate x y hp l hl h => exact quiet_mutateStruct hl (hB _ (wb.structScope y (mem_inter hp).2.1)) h
  | tableMutate x y hp l hl h => exact quiet_mutateTable hl (hB _ (wb.tableScope y (mem_inter hp).2.1)) h
  | tableDrop tb _ he h =>
    rw [List.mem_singleton.1 (show s ∈ [_] from h)]
    exact quiet_dropTable (hA _ (wa.tableScope tb (mem_diff he).1))
  | structDrop e _ he h =>
    rw [List.mem_singleton.1 (show s ∈ [_] from h)]
    exact quiet_dropType (hA _ (wa.structScope e (mem_diff he).1))
  | enumDrop e _ he h =>
    have hs := wa.enumScope e (mem_diff he).1
    rcases h with ⟨h, _⟩ | ⟨h, _⟩
    · rw [List.mem_singleton.1 (show s ∈ [_] from h)]
      exact quiet_dropType (hA _ hs)
    · rw [List.mem_singleton.1 (show s ∈ [_] from h)]
      exact quiet_dropType (hA _ ((rename_scope _ _).trans hs))

/-- Creation of another namespace. -/
theorem quiet_objects {n : Namespace} (w : NsWF d n) {l : List Stmt} (h : n.createObjectsStmt d = .ok l) {k : Key} (hk : k.1 ≠ n.name)
    {s : Stmt} (hs : s ∈ l) : Quiet d k s := by
  have hB : ∀ q : QId, q.key.1 = n.name → q.key ≠ k := fun q hq e => hk (by rw [← e]; exact hq)
  rcases createObjects_mem h hs with ⟨e, he, h⟩ | ⟨e, he, h⟩ | ⟨tb, htb, x, hx, h⟩
  · exact quiet_enumCreate (hB _ (w.enumScope e he)) h
  · exact quiet_structCreate (hB _ (w.structScope e he)) h
  · exact quiet_create hx (hB _ (w.tableScope tb htb)) h

theorem quiet_dropObjects {n : Namespace} (w : NsWF d n) {k : Key} (hk : k.1 ≠ n.name) {s : Stmt} (hs : s ∈ n.dropObjectsStmt) :
    Quiet d k s := by
  have hB : ∀ q : QId, q.key.1 = n.name → q.key ≠ k := fun q hq e => hk (by rw [← e]; exact hq)
  rcases dropObjects_mem hs with ⟨tb, h, rfl⟩ | ⟨e, h, rfl⟩ | ⟨e, h, rfl⟩
  · exact quiet_dropTable (hB _ (w.tableScope tb h))
  · exact quiet_dropType (hB _ (w.structScope e h))
  · exact quiet_dropType (hB _ (w.enumScope e h))

theorem quiet_createSchema {n : Namespace} {k : Key} {s : Stmt} (hs : s ∈ n.createSchemaStmt d) : Quiet d k s := by
  obtain ⟨b, rfl⟩ := createSchema_mem hs
  exact fun _ => rfl

theorem quiet_dropSchema {n : Namespace} {k : Key} (hk : k.1 ≠ n.name) {s : Stmt} (hs : s ∈ n.dropSchemaStmt d) : Quiet d k s := by
  obtain ⟨b, rfl⟩ := dropSchema_mem hs
  intro c
  simp [remark, hk]

/-! ### Namespaces -/

theorem key_ne_of_local {q q' : QId} (h : q.localId ≠ q'.localId) : q.key ≠ q'.key := fun e => h (congrArg Prod.snd e)

theorem mutateNamespace_inv {a b : Namespace} {l : List Stmt} (h : mutateNamespace d o a b = .ok l) :
    ∃ r em sm tm, (b.tables.difference a.tables).mapM (fun tb => tb.createStmt d) = .ok r ∧
      (a.enums.intersection b.enums).mapM (fun p => mutateEnum p.1 p.2) = .ok em ∧
      (a.structs.intersection b.structs).mapM (fun p => mutateStruct d p.1 p.2) = .ok sm ∧
      (a.tables.intersection b.tables).mapM (fun p => mutateTable d p.1 p.2) = .ok tm ∧
      l = (b.enums.difference a.enums).flatMap EnumType.createStmt ++ (b.structs.difference a.structs).flatMap (StructType.createStmt d)
        ++ (softPairs a b).flatMap (fun p => p.1.softDropStmt) ++ r.flatten ++ (b.tables.difference a.tables).flatMap (Table.addConstraintsStmt d)
        ++ (softPairs a b).flatMap (fun p => migrateEnum d p.1 p.2) ++ em.flatten ++ sm.flatten ++ tm.flatten
        ++ (if o.allowDropTable then (a.tables.difference b.tables).flatMap Table.dropStmt else [])
        ++ (if o.allowDropStruct then (a.structs.difference b.structs).flatMap StructType.dropStmt else [])
        ++ (if o.allowDropEnum then (a.enums.difference b.enums).flatMap (fun e =>
          if ((softPairs a b).map Prod.fst).contains e then e.hardDropStmt else e.dropStmt) else []) := by
  unfold mutateNamespace at h
  simp only [bind, Except.bind] at h
  split at h
  · cases h
  · split at h
    · cases h
    · rename_i cr hcr
      split at h
      · cases h
      · rename_i em hem
        split at h
        · cases h
        · rename_i sm hsm
          split at h
          · cases h
          · rename_i tm htm
            simp only [pure, Except.pure, Except.ok.injEq] at h
            exact ⟨cr, em, sm, tm, hcr, hem, hsm, htm, h.symm⟩

/-- A new namespace. -/
theorem objects_block (hd : d = .postgresql ∨ d = .mysql) {n : Namespace} (w : NsWF d n) {l : List Stmt}
    (h : n.createObjectsStmt d = .ok l) {tb : Table} (htb : tb ∈ n.tables.items) :
    Block d tb.name.key (fun _ => True) (Described d tb) l := by
  unfold Namespace.createObjectsStmt at h
  simp only [Conv.bind_ok, Conv.pure_ok] at h
  obtain ⟨r, hr, rfl⟩ := h
  obtain ⟨p, lx, s, h1, h2, h3⟩ := split_mapM (key := key) hr w.tables htb
  refine Block.anyway ?_ _
  rw [h2]
  refine Block.anyway (Block.after (create_block hd (w.wf tb htb) h1) ?_) _
  intro x hx
  obtain ⟨y, hy, hk, ly, hly, hm⟩ := h3 x (List.mem_append_right _ hx)
  exact quiet_create hly (key_ne_of_local hk) hm

/-- A table that is new in a namespace. -/
theorem created_block (hd : d = .postgresql ∨ d = .mysql) {a b : Namespace} (wb : NsWF d b) (hk : KindsKept a b)
    {l : List Stmt} (h : mutateNamespace d o a b = .ok l) {tb : Table} (htb : tb ∈ b.tables.items)
    (hnew : ∀ x ∈ a.tables.items, x.name.localId ≠ tb.name.localId) :
    Block d tb.name.key (fun _ => True) (Described d tb) l := by
  have hdiff : tb ∈ b.tables.difference a.tables := by
    refine (ODict.mem_difference).mpr ⟨htb, ?_⟩
    intro hm
    obtain ⟨x, hx, e⟩ := List.mem_map.mp hm
    exact hnew x hx e
  obtain ⟨r, em, sm, tm, hr, hem, hsm, htm, rfl⟩ := mutateNamespace_inv h
  obtain ⟨p, lx, s, h1, h2, h3⟩ := split_mapM (key := key) hr (ODict.difference_nodup wb.tables _) hdiff
  refine Block.after (Block.after (Block.after (Block.after (Block.after (Block.after (Block.after (Block.after
    (Block.anyway (l := r.flatten) ?_ _) ?_) ?_) ?_) ?_) ?_) ?_) ?_) ?_
  · rw [h2]
    refine Block.anyway (Block.after (create_block hd (wb.wf tb htb) h1) ?_) _
    intro x hx
    obtain ⟨y, hy, hky, ly, hly, hm⟩ := h3 x (List.mem_append_right _ hx)
    exact quiet_create hly (key_ne_of_local hky) hm
  all_goals intro x hx
  · obtain ⟨y, _, hm⟩ := List.mem_flatMap.1 hx
    exact quiet_addConstraints hm
  · obtain ⟨y, _, hm⟩ := List.mem_flatMap.1 hx
    exact quiet_migrateEnum hm
  · obtain ⟨y, _, ly, hly, hm⟩ := mem_of_mapM hem hx
    exact quiet_mutateEnum hly hm
  · obtain ⟨y, hy, ly, hly, hm⟩ := mem_of_mapM hsm hx
    exact quiet_mutateStruct hly (key_ne_of_local (wb.structTable y.2 (mem_inter hy).2.1 tb htb)) hm
  · obtain ⟨y, hy, ly, hly, hm⟩ := mem_of_mapM htm hx
    have hi := mem_inter hy
    exact quiet_mutateTable hly (key_ne_of_local (fun e => hnew y.1 hi.1 (hi.2.2.trans e))) hm
  · split at hx
    · obtain ⟨y, hy, hm⟩ := List.mem_flatMap.1 hx
      rw [List.mem_singleton.1 (show x ∈ [_] from hm)]
      exact quiet_dropTable (key_ne_of_local ((mem_diff hy).2 tb htb))
    · cases hx
  · split at hx
    · obtain ⟨y, hy, hm⟩ := List.mem_flatMap.1 hx
      rw [List.mem_singleton.1 (show x ∈ [_] from hm)]
      exact quiet_dropType (key_ne_of_local (Ne.symm (hk.structs tb htb y (mem_diff hy).1)))
    · cases hx
  · split at hx
    · obtain ⟨e, he, hm⟩ := List.mem_flatMap.1 hx
      split at hm
      · next hc =>
        rw [List.mem_singleton.1 (show x ∈ [_] from hm)]
        have hm' : e ∈ (softPairs a b).map Prod.fst := by simpa using hc
        obtain ⟨p, hp, rfl⟩ := List.mem_map.1 hm'
        simp only [softPairs, List.mem_flatMap, List.mem_map, List.mem_filter] at hp
        obtain ⟨e, he', tb', ⟨htb', hname⟩, rfl⟩ := hp
        have hname : e.name = tb'.name := by simpa using hname
        have := (hk.enums tb' (mem_diff htb').1 e (mem_diff he').1 (by rw [hname])).2
        refine quiet_dropType ?_
        rw [this]
        intro e'
        have := congrArg Prod.snd e'
        exact wb.tableNames tb htb _ this.symm
      · next hc =>
        rw [List.mem_singleton.1 (show x ∈ [_] from hm)]
        refine quiet_dropType (key_ne_of_local ?_)
        intro e'
        have hname := (hk.enums tb htb e (mem_diff he).1 e').1
        refine hc ?_
        have : e ∈ (softPairs a b).map Prod.fst := by
          refine List.mem_map.2 ⟨(e, tb), ?_, rfl⟩
          simp only [softPairs, List.mem_flatMap, List.mem_map, List.mem_filter]
          exact ⟨e, he, tb, ⟨hdiff, by simpa using hname⟩, rfl⟩
        simpa using this
    · cases hx

/-- A table in both versions of a namespace. -/
theorem changed_block (hd : d = .postgresql ∨ d = .mysql) {a b : Namespace} (wa : NsWF d a) (wb : NsWF d b) (hk : KindsKept a b)
    {l : List Stmt} (h : mutateNamespace d o a b = .ok l) {st tb : Table} (hst : st ∈ a.tables.items) (htb : tb ∈ b.tables.items)
    (hname : st.name.localId = tb.name.localId) :
    Block d tb.name.key (Described d st) (Left d st tb) l := by
  have hint : (st, tb) ∈ a.tables.intersection b.tables := mem_inter_intro wb.tables hst htb hname
  obtain ⟨r, em, sm, tm, hr, hem, hsm, htm, rfl⟩ := mutateNamespace_inv h
  obtain ⟨p, lx, s, h1, h2, h3⟩ := split_mapM (key := fun p => key p.1) htm (ODict.intersection_nodup wa.tables _) hint
  have hbl : Block d tb.name.key (Described d st) (Left d st tb) lx := by
    intro c hc
    rw [← mutateTable_name h1] at hc
    exact mutateTable_left hd (wa.wf st hst) (wb.wf tb htb) h1 c hc
  have hqe : ∀ e ∈ a.enums.items, e.name.key ≠ tb.name.key := fun e he => key_ne_of_local (hname ▸ wa.enumTable e he st hst)
  refine Block.after (Block.after (Block.after (Block.before (l := tm.flatten) ?_ ?_) ?_) ?_) ?_
  · rw [h2]
    refine Block.before (Block.after hbl ?_) ?_
    all_goals
      intro x hx
      have hx : x ∈ p ++ s := by first | exact List.mem_append_right _ hx | exact List.mem_append_left _ hx
      obtain ⟨y, hy, hky, ly, hly, hm⟩ := h3 x hx
      have hi := mem_inter hy
      refine quiet_mutateTable hly (key_ne_of_local ?_) hm
      intro e
      exact hky (hi.2.2.trans (e.trans hname.symm))
  · intro x hx
    simp only [List.mem_append] at hx
    rcases hx with ((((((hx | hx) | hx) | hx) | hx) | hx) | hx) | hx
    · obtain ⟨y, hy, hm⟩ := List.mem_flatMap.1 hx
      exact quiet_enumCreate (key_ne_of_local (wb.enumTable y (mem_diff hy).1 tb htb)) hm
    · obtain ⟨y, hy, hm⟩ := List.mem_flatMap.1 hx
      exact quiet_structCreate (key_ne_of_local (wb.structTable y (mem_diff hy).1 tb htb)) hm
    · obtain ⟨y, hy, hm⟩ := List.mem_flatMap.1 hx
      rw [List.mem_singleton.1 (show x ∈ [_] from hm)]
      simp only [softPairs, List.mem_flatMap, List.mem_map, List.mem_filter] at hy
      obtain ⟨e, he, tb', _, rfl⟩ := hy
      refine quiet_rename (Ne.symm (hqe e (mem_diff he).1)) ?_
      intro e'
      exact wb.tableNames tb htb _ (congrArg Prod.snd e')
    · obtain ⟨y, hy, ly, hly, hm⟩ := mem_of_mapM hr hx
      exact quiet_create hly (key_ne_of_local (fun e => (mem_diff hy).2 st hst (e.trans hname.symm))) hm
    · obtain ⟨y, _, hm⟩ := List.mem_flatMap.1 hx
      exact quiet_addConstraints hm
    · obtain ⟨y, _, hm⟩ := List.mem_flatMap.1 hx
      exact quiet_migrateEnum hm
    · obtain ⟨y, _, ly, hly, hm⟩ := mem_of_mapM hem hx
      exact quiet_mutateEnum hly hm
    · obtain ⟨y, hy, ly, hly, hm⟩ := mem_of_mapM hsm hx
      exact quiet_mutateStruct hly (key_ne_of_local (wb.structTable y.2 (mem_inter hy).2.1 tb htb)) hm
  · intro x hx
    split at hx
    · obtain ⟨y, hy, hm⟩ := List.mem_flatMap.1 hx
      rw [List.mem_singleton.1 (show x ∈ [_] from hm)]
      exact quiet_dropTable (key_ne_of_local ((mem_diff hy).2 tb htb))
    · cases hx
  · intro x hx
    split at hx
    · obtain ⟨y, hy, hm⟩ := List.mem_flatMap.1 hx
      rw [List.mem_singleton.1 (show x ∈ [_] from hm)]
      exact quiet_dropType (key_ne_of_local (Ne.symm (hk.structs tb htb y (mem_diff hy).1)))
    · cases hx
  · intro x hx
    split at hx
    · obtain ⟨e, he, hm⟩ := List.mem_flatMap.1 hx
      split at hm
      · next hc =>
        rw [List.mem_singleton.1 (show x ∈ [_] from hm)]
        have hm' : e ∈ (softPairs a b).map Prod.fst := by simpa using hc
        obtain ⟨p, hp, rfl⟩ := List.mem_map.1 hm'
        simp only [softPairs, List.mem_flatMap, List.mem_map, List.mem_filter] at hp
        obtain ⟨e, he', tb', ⟨htb', hname'⟩, rfl⟩ := hp
        have hname' : e.name = tb'.name := by simpa using hname'
        have := (hk.enums tb' (mem_diff htb').1 e (mem_diff he').1 (by rw [hname'])).2
        refine quiet_dropType ?_
        rw [this]
        intro e'
        have := congrArg Prod.snd e'
        exact wb.tableNames tb htb _ this.symm
      · rw [List.mem_singleton.1 (show x ∈ [_] from hm)]
        exact quiet_dropType (hqe e (mem_diff he).1)
    · cases hx

/-! ### Catalogs -/

theorem mutateSorted_inv {S T : Catalog} {l : List Stmt} (h : mutateSorted d o S T = .ok l) :
    ∃ cr mu, (T.namespaces.difference S.namespaces).mapM (Namespace.createObjectsStmt d) = .ok cr ∧
      (S.namespaces.intersection T.namespaces).mapM (fun p => mutateNamespace d o p.1 p.2) = .ok mu ∧
      l = (T.namespaces.difference S.namespaces).flatMap (Namespace.createSchemaStmt d) ++ cr.flatten
        ++ (T.namespaces.difference S.namespaces).flatMap (Namespace.addConstraintsStmt d) ++ mu.flatten
        ++ (S.namespaces.difference T.namespaces).flatMap Namespace.dropConstraintsStmt
        ++ (if o.allowDropNamespace then (S.namespaces.difference T.namespaces).flatMap Namespace.dropObjectsStmt
            ++ (S.namespaces.difference T.namespaces).flatMap (Namespace.dropSchemaStmt d) else []) := by
  unfold mutateSorted at h
  simp only [bind, Except.bind] at h
  split at h
  · cases h
  · rename_i cr hcr
    split at h
    · cases h
    · rename_i mu hmu
      simp only [pure, Except.pure, Except.ok.injEq] at h
      exact ⟨cr, mu, hcr, hmu, h.symm⟩

/-- What comes after the changes. -/
theorem quiet_end {S T : Catalog} (wS : CatWF d S) (wT : CatWF d T) {b : Namespace} (hb : b ∈ T.namespaces.items) {tb : Table}
    (htb : tb ∈ b.tables.items) {s : Stmt}
    (hs : s ∈ (S.namespaces.difference T.namespaces).flatMap Namespace.dropConstraintsStmt ∨
      s ∈ (if o.allowDropNamespace then (S.namespaces.difference T.namespaces).flatMap Namespace.dropObjectsStmt
            ++ (S.namespaces.difference T.namespaces).flatMap (Namespace.dropSchemaStmt d) else [])) : Quiet d tb.name.key s := by
  have hk : ∀ n ∈ S.namespaces.difference T.namespaces, tb.name.key.1 ≠ n.name := by
    intro n hn e
    rw [(wT.wf b hb).tableScope tb htb] at e
    exact (mem_diff hn).2 b hb e.symm
  rcases hs with hs | hs
  · obtain ⟨n, hn, hm⟩ := List.mem_flatMap.1 hs
    obtain ⟨x, _, hm⟩ := List.mem_flatMap.1 hm
    exact quiet_dropConstraints hm
  · split at hs
    · rcases List.mem_append.1 hs with hs | hs
      · obtain ⟨n, hn, hm⟩ := List.mem_flatMap.1 hs
        exact quiet_dropObjects (wS.wf n (mem_diff hn).1) (hk n hn) hm
      · obtain ⟨n, hn, hm⟩ := List.mem_flatMap.1 hs
        exact quiet_dropSchema (hk n hn) hm
    · cases hs

theorem catalog_block (hd : d = .postgresql ∨ d = .mysql) {S T : Catalog} (wS : CatWF d S) (wT : CatWF d T) {l : List Stmt}
    (h : mutateSorted d o S T = .ok l)
    (hk : ∀ a ∈ S.namespaces.items, ∀ b ∈ T.namespaces.items, a.name = b.name → KindsKept a b)
    (c : Key → Remarks) (hc : ∀ a, IsTable S a → Described d a (c a.name.key)) {tb : Table} (htb : IsTable T tb) :
    (∃ st, IsTable S st ∧ st.name.key = tb.name.key ∧ Left d st tb (remarks d c l tb.name.key)) ∨
    ((∀ st, IsTable S st → st.name.key ≠ tb.name.key) ∧ Described d tb (remarks d c l tb.name.key)) := by
  obtain ⟨b, hb, htb⟩ := htb
  have wb := wT.wf b hb
  have hscope := wb.tableScope tb htb
  obtain ⟨cr, mu, hcr, hmu, rfl⟩ := mutateSorted_inv h
  have hmus : ∀ s ∈ mu.flatten, (∀ a ∈ S.namespaces.items, a.name ≠ b.name) → Quiet d tb.name.key s := by
    intro s hs hne
    obtain ⟨p, hp, ly, hly, hm⟩ := mem_of_mapM hmu hs
    have hi := mem_inter hp
    refine quiet_namespace (wS.wf _ hi.1) (wT.wf _ hi.2.1) hly hi.2.2 ?_ hm
    rw [hscope]
    intro e
    exact hne p.1 hi.1 (hi.2.2.trans e.symm)
  by_cases hex : ∃ a ∈ S.namespaces.items, a.name = b.name
  · obtain ⟨a, ha, hab⟩ := hex
    have wa := wS.wf a ha
    have hint := mem_inter_intro wT.names ha hb hab
    obtain ⟨p, lx, s, h1, h2, h3⟩ := split_mapM (key := fun p => key p.1) hmu (ODict.intersection_nodup wS.names _) hint
    have hquiet : ∀ x ∈ p ++ s, Quiet d tb.name.key x := by
      intro x hx
      obtain ⟨y, hy, hky, ly, hly, hm⟩ := h3 x hx
      have hi := mem_inter hy
      refine quiet_namespace (wS.wf _ hi.1) (wT.wf _ hi.2.1) hly hi.2.2 ?_ hm
      rw [hscope]
      intro e
      exact hky (hi.2.2.trans (e.symm.trans hab.symm))
    have hfirst : ∀ x ∈ (T.namespaces.difference S.namespaces).flatMap (Namespace.createSchemaStmt d) ++ cr.flatten
        ++ (T.namespaces.difference S.namespaces).flatMap (Namespace.addConstraintsStmt d), Quiet d tb.name.key x := by
      intro x hx
      rcases List.mem_append.1 hx with hx | hx
      · rcases List.mem_append.1 hx with hx | hx
        · obtain ⟨n, _, hm⟩ := List.mem_flatMap.1 hx
          exact quiet_createSchema hm
        · obtain ⟨n, hn, ly, hly, hm⟩ := mem_of_mapM hcr hx
          refine quiet_objects (wT.wf n (mem_diff hn).1) hly ?_ hm
          rw [hscope]
          intro e
          exact (mem_diff hn).2 a ha (e.symm.trans hab.symm)
      · obtain ⟨n, _, hm⟩ := List.mem_flatMap.1 hx
        obtain ⟨y, _, hm⟩ := List.mem_flatMap.1 hm
        exact quiet_addConstraints hm
    have hlast := fun s => quiet_end (o := o) (s := s) wS wT hb htb
    by_cases hold : ∃ st ∈ a.tables.items, st.name.localId = tb.name.localId
    · obtain ⟨st, hst, hname⟩ := hold
      have hkey : st.name.key = tb.name.key := by
        refine Prod.ext ?_ hname
        rw [wa.tableScope st hst, wb.tableScope tb htb, hab]
      have hblk := changed_block hd wa wb (hk a ha b hb hab) h1 hst htb hname
      have : Block d tb.name.key (Described d st) (Left d st tb) (((((T.namespaces.difference S.namespaces).flatMap (Namespace.createSchemaStmt d) ++ cr.flatten
          ++ (T.namespaces.difference S.namespaces).flatMap (Namespace.addConstraintsStmt d)) ++ mu.flatten)
          ++ (S.namespaces.difference T.namespaces).flatMap Namespace.dropConstraintsStmt)
          ++ (if o.allowDropNamespace then (S.namespaces.difference T.namespaces).flatMap Namespace.dropObjectsStmt
            ++ (S.namespaces.difference T.namespaces).flatMap (Namespace.dropSchemaStmt d) else [])) := by
        refine Block.after (Block.after (Block.before ?_ hfirst) (fun x hx => hlast x (.inl hx))) (fun x hx => hlast x (.inr hx))
        rw [h2]
        exact Block.before (Block.after hblk (fun x hx => hquiet x (List.mem_append_right _ hx))) (fun x hx => hquiet x (List.mem_append_left _ hx))
      exact .inl ⟨st, ⟨a, ha, hst⟩, hkey, this c (hkey ▸ hc st ⟨a, ha, hst⟩)⟩
    · have hblk := created_block hd wb (hk a ha b hb hab) h1 htb (fun x hx e => hold ⟨x, hx, e⟩)
      have : Block d tb.name.key (fun _ => True) (Described d tb) (((((T.namespaces.difference S.namespaces).flatMap (Namespace.createSchemaStmt d) ++ cr.flatten
          ++ (T.namespaces.difference S.namespaces).flatMap (Namespace.addConstraintsStmt d)) ++ mu.flatten)
          ++ (S.namespaces.difference T.namespaces).flatMap Namespace.dropConstraintsStmt)
          ++ (if o.allowDropNamespace then (S.namespaces.difference T.namespaces).flatMap Namespace.dropObjectsStmt
            ++ (S.namespaces.difference T.namespaces).flatMap (Namespace.dropSchemaStmt d) else [])) := by
        refine Block.after (Block.after (Block.before ?_ hfirst) (fun x hx => hlast x (.inl hx))) (fun x hx => hlast x (.inr hx))
        rw [h2]
        exact Block.before (Block.after hblk (fun x hx => hquiet x (List.mem_append_right _ hx))) (fun x hx => hquiet x (List.mem_append_left _ hx))
      refine .inr ⟨?_, this c trivial⟩
      rintro x ⟨n, hn, hx⟩ e
      have e1 := congrArg Prod.fst e
      rw [(wS.wf n hn).tableScope x hx, hscope] at e1
      have := eq_of_key wS.names hn ha (e1.trans hab.symm)
      subst this
      exact hold ⟨x, hx, congrArg Prod.snd e⟩
  · have hne : ∀ a ∈ S.namespaces.items, a.name ≠ b.name := fun a ha e => hex ⟨a, ha, e⟩
    have hdiff : b ∈ T.namespaces.difference S.namespaces := by
      refine (ODict.mem_difference).mpr ⟨hb, ?_⟩
      intro hm
      obtain ⟨x, hx, e⟩ := List.mem_map.mp hm
      exact hex ⟨x, hx, e⟩
    obtain ⟨p, lx, s, h1, h2, h3⟩ := split_mapM (key := key) hcr (ODict.difference_nodup wT.names _) hdiff
    have hlast := fun s => quiet_end (o := o) (s := s) wS wT hb htb
    have : Block d tb.name.key (fun _ => True) (Described d tb) ((((((T.namespaces.difference S.namespaces).flatMap (Namespace.createSchemaStmt d) ++ cr.flatten)
        ++ (T.namespaces.difference S.namespaces).flatMap (Namespace.addConstraintsStmt d)) ++ mu.flatten)
        ++ (S.namespaces.difference T.namespaces).flatMap Namespace.dropConstraintsStmt)
        ++ (if o.allowDropNamespace then (S.namespaces.difference T.namespaces).flatMap Namespace.dropObjectsStmt
          ++ (S.namespaces.difference T.namespaces).flatMap (Namespace.dropSchemaStmt d) else [])) := by
      refine Block.after (Block.after (Block.after (Block.after (Block.anyway ?_ _) ?_) (fun x hx => hmus x hx hne))
        (fun x hx => hlast x (.inl hx))) (fun x hx => hlast x (.inr hx))
      · rw [h2]
        refine Block.anyway (Block.after (objects_block hd wb h1 htb) ?_) _
        intro x hx
        obtain ⟨y, hy, hky, ly, hly, hm⟩ := h3 x (List.mem_append_right _ hx)
        refine quiet_objects (wT.wf y (mem_diff hy).1) hly ?_ hm
        rw [hscope]
        exact Ne.symm hky
      · intro x hx
        obtain ⟨n, _, hm⟩ := List.mem_flatMap.1 hx
        obtain ⟨y, _, hm⟩ := List.mem_flatMap.1 hm
        exact quiet_addConstraints hm
    refine .inr ⟨?_, this c trivial⟩
    rintro x ⟨n, hn, hx⟩ e
    have e1 := congrArg Prod.fst e
    rw [(wS.wf n hn).tableScope x hx, hscope] at e1
    exact hex ⟨n, hn, e1⟩

end PySqlSync.Rem
