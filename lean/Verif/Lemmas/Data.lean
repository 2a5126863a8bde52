/-
Helper lemmas: what a script does to the values in a column.
-/
import Verif.Spec.Keep
import Verif.Props.C10
import Verif.Lemmas.RemarksCat

set_option autoImplicit false

namespace PySqlSync.Dat
open Spec

variable {R : RowEngine} {d : Dialect} {o : MutatorOptions}

/-- The value under a name is the same, or converted to the type (if any). -/
abbrev W (R : RowEngine) (ty : Option SqlType) (m : Text) : Row → Row → Prop :=
  fun r r' => r' m = r m ∨ ∃ u, ty = some u ∧ R.cast u (r m) = some (r' m)

/-- Conversion to the type (if any) settles. -/
abbrev Settled (R : RowEngine) (ty : Option SqlType) : Prop := ∀ u, ty = some u → Settles R u

theorem w_trans {ty : Option SqlType} {m : Text} (hs : Settled R ty) {x y z : Row} (h1 : W R ty m x y) (h2 : W R ty m y z) : W R ty m x z := by
  rcases h1 with h1 | ⟨u, hu, h1⟩
  · rcases h2 with h2 | ⟨u, hu, h2⟩
    · exact .inl (h2.trans h1)
    · exact .inr ⟨u, hu, by rw [← h1]; exact h2⟩
  · rcases h2 with h2 | ⟨u', hu', h2⟩
    · exact .inr ⟨u, hu, by rw [h2]; exact h1⟩
    · rw [hu] at hu'
      cases hu'
      rw [hs u hu _ _ h1] at h2
      exact .inr ⟨u, hu, by rw [← Option.some.inj h2]; exact h1⟩

/-- After one conversion. -/
theorem w_cast_w {ty : SqlType} {m : Text} (hs : Settles R ty) {x y z u : Row} (h1 : W R (some ty) m x y) (h2 : R.cast ty (y m) = some (z m))
    (h3 : W R (some ty) m z u) : R.cast ty (x m) = some (u m) := by
  have e : R.cast ty (x m) = some (z m) := by
    rcases h1 with h1 | ⟨w, hw, h1⟩
    · rw [← h1]; exact h2
    · cases hw
      rw [hs _ _ h1] at h2
      rw [← Option.some.inj h2]; exact h1
  rcases h3 with h3 | ⟨w, hw, h3⟩
  · rw [h3]; exact e
  · cases hw
    rw [hs _ _ h2] at h3
    rw [← Option.some.inj h3]; exact e

/-! ### Rows -/

theorem each_append_left {P : Row → Row → Prop} {a b c : List Row} (h : Each P (a ++ b) c) :
    ∃ x y, c = x ++ y ∧ Each P a x ∧ y.length = b.length := by
  refine ⟨c.take a.length, c.drop a.length, (List.take_append_drop _ _).symm, ⟨?_, ?_⟩, ?_⟩
  · rw [List.length_take, h.1, List.length_append]; omega
  · intro i r r' hr hr'
    have hi : i < a.length := (List.getElem?_eq_some_iff.1 hr).1
    rw [List.getElem?_take] at hr'
    simp only [hi, if_true] at hr'
    exact h.2 i r r' (by rw [List.getElem?_append_left hi]; exact hr) hr'
  · rw [List.length_drop, h.1, List.length_append]; omega

/-- As `Survives`, with a bound on what may be added. -/
def Sv (grow : Bool) (P : Row → Row → Prop) (before after : List Row) : Prop :=
  ∃ kept added, after = kept ++ added ∧ Each P before kept ∧ (grow = false → added = [])

theorem sv_of_each {grow : Bool} {P : Row → Row → Prop} {a b : List Row} (h : Each P a b) : Sv grow P a b :=
  ⟨b, [], by simp, h, fun _ => rfl⟩

theorem sv_trans {grow : Bool} {P Q S : Row → Row → Prop} (h : ∀ x y z, P x y → Q y z → S x z) {a b c : List Row}
    (h1 : Sv grow P a b) (h2 : Sv grow Q b c) : Sv grow S a c := by
  obtain ⟨k1, e1, rfl, hk1, g1⟩ := h1
  obtain ⟨k2, e2, rfl, hk2, g2⟩ := h2
  obtain ⟨x, y, rfl, hx, hy⟩ := each_append_left hk2
  refine ⟨x, y ++ e2, by simp, each_trans h hk1 hx, fun g => ?_⟩
  rw [g2 g]
  have := g1 g
  subst this
  simpa using hy

theorem sv_mono {grow : Bool} {P Q : Row → Row → Prop} (h : ∀ x y, P x y → Q x y) {a b : List Row} (h1 : Sv grow P a b) : Sv grow Q a b := by
  obtain ⟨k1, e1, e, hk1, g1⟩ := h1
  exact ⟨k1, e1, e, each_mono h hk1, g1⟩

theorem sv_refl {grow : Bool} {P : Row → Row → Prop} (h : ∀ r, P r r) (a : List Row) : Sv grow P a a := sv_of_each (each_refl h a)

/-! ### Statements -/

/-- The action converts the values to the type. -/
def CastsTo (a : Action) (m : Text) (ty : Option SqlType) : Prop := ∃ u, ty = some u ∧ C10.Casts a m u

/-- A statement that leaves the values of a column in place, up to conversion to the type. -/
def Spares (grow : Bool) (k : Key) (m : Text) (ty : Option SqlType) : Stmt → Prop
  | .createTable q _ _ _ _ => q.key ≠ k
  | .dropTable q => q.key ≠ k
  | .dropSchema n _ => n ≠ k.1
  | .alterTable q acts => q.key ≠ k ∨ ∀ a ∈ acts, ¬ About a m ∨ CastsTo a m ty
  | .insertRows q _ _ => q.key ≠ k
  | .insertLabels q _ _ => grow = true ∨ q.key ≠ k
  | .insertDistinct q _ _ => grow = true ∨ q.key ≠ k
  | .updateKeys q tgt _ _ => q.key ≠ k ∨ tgt ≠ m
  | _ => True

theorem w_refl {ty : Option SqlType} {m : Text} (r : Row) : W R ty m r r := .inl rfl

theorem action_w {ty : Option SqlType} {m : Text} {a : Action} (h : ¬ About a m ∨ CastsTo a m ty) {rows rows' : List Row}
    (hr : rowAction R rows a = some rows') : Each (W R ty m) rows rows' := by
  rcases h with h | h
  · exact each_mono (fun _ _ => .inl) (rowAction_keeps hr h)
  · obtain ⟨u, hu, h⟩ := h
    refine each_mono ?_ (C10.casts_each hr h)
    rintro x y ⟨v, hv, rfl⟩
    exact .inr ⟨u, hu, by rw [updR_eq]; exact hv⟩

theorem actions_w {ty : Option SqlType} {m : Text} (hs : Settled R ty) : ∀ {acts : List Action} {rows rows' : List Row},
    (∀ a ∈ acts, ¬ About a m ∨ CastsTo a m ty) → rowActions R rows acts = some rows' → Each (W R ty m) rows rows'
  | [], rows, rows', _, hr => by cases hr; exact each_refl w_refl rows
  | a :: acts, rows, rows', h, hr => by
    simp only [rowActions, Option.bind_eq_some_iff] at hr
    obtain ⟨r1, h1, h2⟩ := hr
    exact each_trans (P := W R ty m) (Q := W R ty m) (S := W R ty m) (fun _ _ _ => w_trans hs) (action_w (h a List.mem_cons_self) h1)
      (actions_w hs (fun b hb => h b (List.mem_cons_of_mem _ hb)) h2)

theorem insertAll_prefix {ig : Bool} : ∀ {vs : List Val} {rows rows' : List Row}, insertAll R ig rows vs = some rows' →
    ∃ ext, rows' = rows ++ ext
  | [], rows, rows', h => by cases h; exact ⟨[], by simp⟩
  | v :: vs, rows, rows', h => by
    rw [insertAll] at h
    split at h
    · split at h
      · exact insertAll_prefix h
      · cases h
    · obtain ⟨ext, e⟩ := insertAll_prefix h
      exact ⟨_, by rw [e, List.append_assoc]⟩

theorem foldl_snoc {α : Type} (g : List Row → α → Row) : ∀ (l : List α) (acc : List Row),
    ∃ ext, l.foldl (fun acc x => acc ++ [g acc x]) acc = acc ++ ext
  | [], acc => ⟨[], by simp⟩
  | x :: l, acc => by
    obtain ⟨e', h⟩ := foldl_snoc g l (acc ++ [g acc x])
    exact ⟨[g acc x] ++ e', by rw [List.foldl_cons, h, List.append_assoc]⟩

theorem insertRows_prefix {D D' : Data} {q : QId} {c rows : List Text} (hr : rowStep R D (.insertRows q c rows) = some D') :
    ∃ ext, D' = upd D q.key (D q.key ++ ext) := by
  cases hr
  exact Exists.imp (fun ext e => congrArg (upd D q.key) e) (foldl_snoc _ rows (D q.key))

theorem step_w {grow : Bool} {k : Key} {ty : Option SqlType} {m : Text} (hs : Settled R ty) {s : Stmt} (h : Spares grow k m ty s) {D D' : Data}
    (hr : rowStep R D s = some D') : Sv grow (W R ty m) (D k) (D' k) := by
  have same : D' k = D k → Sv grow (W R ty m) (D k) (D' k) := fun e => e ▸ sv_refl w_refl _
  have appends : ∀ (q : QId) (ext : List Row), (grow = true ∨ q.key ≠ k) → D' = upd D q.key (D q.key ++ ext) → Sv grow (W R ty m) (D k) (D' k) := by
    intro q ext hg e
    subst e
    by_cases hk : k = q.key
    · subst hk
      rw [updR_eq]
      refine ⟨_, ext, rfl, each_refl w_refl _, fun g => ?_⟩
      rcases hg with hg | hg
      · rw [hg] at g; cases g
      · exact absurd rfl hg
    · exact same (updR_ne hk)
  cases s with
  | createTable q c n p x => cases hr; exact same (updR_ne (Ne.symm h))
  | dropTable q => cases hr; exact same (updR_ne (Ne.symm h))
  | dropSchema n c => cases hr; exact same (if_neg (Ne.symm h))
  | alterTable q acts =>
    simp only [rowStep, Option.map_eq_some_iff] at hr
    obtain ⟨rows, h1, rfl⟩ := hr
    by_cases hk : k = q.key
    · subst hk
      rw [updR_eq]
      exact sv_of_each (actions_w hs (h.resolve_left (fun e => e rfl)) h1)
    · exact same (updR_ne hk)
  | insertRows q c rows =>
    obtain ⟨ext, e⟩ := insertRows_prefix hr
    exact appends q ext (.inr h) e
  | insertLabels q ls ig =>
    simp only [rowStep, Option.map_eq_some_iff] at hr
    obtain ⟨rows, h1, h2⟩ := hr
    obtain ⟨ext, e⟩ := insertAll_prefix h1
    rw [e] at h2
    exact appends q ext h h2.symm
  | insertDistinct q c data =>
    simp only [rowStep] at hr
    split at hr
    · cases hr
    · rw [Option.map_eq_some_iff] at hr
      obtain ⟨rows, h1, h2⟩ := hr
      obtain ⟨ext, e⟩ := insertAll_prefix h1
      rw [e] at h2
      exact appends q ext h h2.symm
  | updateKeys data tgt src q =>
    cases hr
    by_cases hk : k = data.key
    · subst hk
      rw [updR_eq]
      refine sv_of_each (each_map fun r _ => .inl ?_)
      have hm := h.resolve_left (fun e => e rfl)
      cases findLabel (D q.key) (r src) with
      | none => rfl
      | some l => exact updR_ne (Ne.symm hm)
    · exact same (updR_ne hk)
  | _ => cases hr; exact sv_refl w_refl _

theorem run_w {grow : Bool} {k : Key} {ty : Option SqlType} {m : Text} (hs : Settled R ty) : ∀ {l : List Stmt} {D D' : Data},
    (∀ s ∈ l, Spares grow k m ty s) → rowRun R D l = some D' → Sv grow (W R ty m) (D k) (D' k)
  | [], D, D', _, hr => by cases hr; exact sv_refl w_refl _
  | s :: l, D, D', h, hr => by
    simp only [rowRun, Option.bind_eq_some_iff] at hr
    obtain ⟨D1, h1, h2⟩ := hr
    exact sv_trans (P := W R ty m) (Q := W R ty m) (S := W R ty m) (fun _ _ _ => w_trans hs) (step_w hs (h s List.mem_cons_self) h1)
      (run_w hs (fun b hb => h b (List.mem_cons_of_mem _ hb)) h2)

/-! ### Statements of a script -/

/-- The labels of no converted column go to the table. -/
def Unfed (d : Dialect) (x y : Table) (k : Key) : Prop :=
  d = .mysql → ∀ s ∈ x.columns.items, ∀ u ∈ y.columns.items, s.name = u.name → Converted d s u →
    ∀ nm r, Constraint.foreign nm [u.name] r ∈ y.constraints.items → r.table.key ≠ k

theorem migrate_spares {grow : Bool} {k : Key} {m : Text} {ty : Option SqlType} {x y : Table} {p : Column × Column} (hp : p ∈ migratedPairs d x y)
    (hg : grow = true ∨ Unfed d x y k) (hk : x.name.key ≠ k ∨ p.2.name ≠ m) {l : List Stmt} (hl : migrateColumn d x p.1 y p.2 = .ok l) {s : Stmt}
    (hs : s ∈ l) : Spares grow k m ty s := by
  obtain ⟨h1, h2, h3, h4⟩ := C10.migrated_spec hp
  unfold migrateColumn at hl
  split at hl
  · simp only [Conv.bind_ok, Conv.pure_ok] at hl
    obtain ⟨r, hr, rfl⟩ := hl
    rw [List.mem_singleton.1 hs]
    exact hk
  · simp only [Conv.bind_ok, Conv.pure_ok] at hl
    obtain ⟨r, hr, rfl⟩ := hl
    obtain ⟨nm, hc⟩ := C10.getConstraint_ok hr
    have hr : grow = true ∨ r.table.key ≠ k := hg.imp id fun h => h rfl _ h1 _ h2 h3 h4 _ _ hc
    rcases List.mem_append.1 hs with hs | hs
    · split at hs
      · rw [List.mem_singleton.1 hs]; exact hr
      · rw [List.mem_singleton.1 hs]; exact hr
      · cases hs
    · rw [List.mem_singleton.1 hs]
      exact hk
  · cases hl; cases hs

theorem table_other {grow : Bool} {k : Key} {m : Text} {ty : Option SqlType} {x y : Table} {l : List Stmt} (h : mutateTable d x y = .ok l)
    (hk : x.name.key ≠ k) (hg : grow = true ∨ Unfed d x y k) {s : Stmt} (hs : s ∈ l) : Spares grow k m ty s := by
  have halt : ∀ acts, s ∈ x.alterStmt d acts → Spares grow k m ty s := by
    intro acts hm
    obtain ⟨_, rfl, _⟩ := mem_alterStmt hm
    exact .inl hk
  cases tabOrigin h hs with
  | defaults h => exact halt _ h
  | rename p _ r _ h => exact halt _ h
  | add acts _ h => exact halt _ h
  | alter acts _ h => exact halt _ h
  | comment h => rcases h with ⟨_, rfl⟩ | ⟨_, _, rfl⟩ <;> trivial
  | migrate p hp l hl h => exact migrate_spares hp hg (.inl hk) hl h

theorem table_own {grow : Bool} {a b : Table} {l : List Stmt} (h : mutateTable d a b = .ok l) (wa : TableWF d a) (wb : TableWF d b)
    {c c' : Column} (ha : c ∈ a.columns.items) (hb : c' ∈ b.columns.items) (hn : c.name = c'.name) (hc : ¬ Converted d c c') {ty : Option SqlType}
    (hty : ty = some c'.ty ∨ c = c')
    (hg : grow = true ∨ Unfed d a b a.name.key) {s : Stmt} (hs : s ∈ l) : Spares grow a.name.key c.name ty s := by
  have halt : ∀ acts, (∀ x ∈ acts, ¬ About x c.name ∨ CastsTo x c.name ty) → s ∈ a.alterStmt d acts →
      Spares grow a.name.key c.name ty s := by
    intro acts hx hm
    obtain ⟨l, rfl, hl⟩ := mem_alterStmt hm
    exact .inr fun x hx' => hx x (hl x hx')
  have hmig : ∀ p ∈ migratedPairs d a b, p.1.name ≠ c.name := by
    intro p hp e
    obtain ⟨p1, p2, p3, p4⟩ := C10.migrated_spec hp
    have e1 : p.1 = c := eq_of_key wa.columns p1 ha e
    have e2 : p.2 = c' := eq_of_key wb.columns p2 hb (p3.symm.trans (e.trans hn))
    rw [e1, e2] at p4
    exact hc p4
  obtain ⟨pre, base, post, hbase, rfl, hpost, hpre⟩ := C10.mutateTable_base h
  rcases List.mem_append.1 hs with hs | hs
  · rcases List.mem_append.1 hs with hs | hs
    · rcases hpre with rfl | ⟨_, rfl⟩
      · cases hs
      · exact halt _ (fun x hx => .inl (C10.mssqlDefaults_about hx _)) hs
    · obtain ⟨rn, am, an, mg, al, hrn, ham, han, hmg, hal, rfl⟩ := table_parts hbase
      simp only [List.mem_append] at hs
      rcases hs with ((hs | hs) | hs) | hs
      · obtain ⟨x, hx, hs⟩ := List.mem_flatMap.1 hs
        refine halt [x] (fun x' hx' => .inl ?_) hs
        rw [List.mem_singleton.1 hx']
        obtain ⟨p, hp', hk⟩ := mem_mapM' hrn hx
        obtain ⟨sp, rfl⟩ := softDrop_ok hk
        rintro (e | e)
        · exact hmig p hp' e
        · exact wa.names c ha _ e.symm
      · split at hs
        · cases hs
        · refine halt _ (fun x hx => .inl ?_) hs
          rcases List.mem_append.1 hx with hx | hx
          · obtain ⟨p, hp', hk⟩ := mem_mapM' ham hx
            obtain ⟨sp, _, rfl⟩ := createStmt_ok hk
            exact fun e => hmig p hp' ((C10.migrated_spec hp').2.2.1.trans e)
          · obtain ⟨c0, hc0, hk⟩ := mem_mapM' han hx
            obtain ⟨sp, _, rfl⟩ := createStmt_ok hk
            exact fun e => (mem_diff hc0).2 c ha e
      · obtain ⟨p, hp, l, hl, hm⟩ := mem_of_mapM hmg hs
        exact migrate_spares hp hg (.inr (fun e => hmig p hp ((C10.migrated_spec hp).2.2.1.trans e))) hl hm
      · split at hs
        · cases hs
        · refine halt _ (fun x hx => ?_) hs
          rcases C10.alterActions_about hal wa wb hb x hx with h | ⟨h, s, hs, e1, e2⟩
          · exact .inl (hn ▸ h)
          · rcases hty with hty | hty
            · exact .inr ⟨_, hty, hn ▸ h⟩
            · exact absurd (eq_of_key wa.columns hs ha (e1.trans hn.symm)) (hty ▸ e2)
  · rcases hpost s hs with ⟨_, _, rfl⟩ | ⟨_, _, _, rfl⟩ <;> trivial

theorem create_spares {grow : Bool} {k : Key} {m : Text} {ty : Option SqlType} {tb : Table} {l : List Stmt} (h : tb.createStmt d = .ok l)
    (hk : tb.name.key ≠ k) {s : Stmt} (hs : s ∈ l) : Spares grow k m ty s := by
  rcases table_create_mem h hs with ⟨_, _, _, _, rfl⟩ | ⟨_, rfl⟩ | ⟨_, _, rfl⟩ | ⟨_, _, rfl⟩
  · exact hk
  · trivial
  · trivial
  · exact hk

theorem addConstraints_spares {grow : Bool} {k : Key} {m : Text} {ty : Option SqlType} {tb : Table} {s : Stmt} (hs : s ∈ tb.addConstraintsStmt d) :
    Spares grow k m ty s := by
  obtain ⟨l, rfl, hl⟩ := addConstraints_mem hs
  refine .inr fun x hx => .inl ?_
  obtain ⟨n, c, rfl⟩ := hl x hx
  exact id

theorem dropConstraints_spares {grow : Bool} {k : Key} {m : Text} {ty : Option SqlType} {tb : Table} {s : Stmt} (hs : s ∈ tb.dropConstraintsStmt) :
    Spares grow k m ty s := by
  obtain ⟨l, rfl, hl⟩ := dropConstraints_mem hs
  refine .inr fun x hx => .inl ?_
  obtain ⟨n, rfl⟩ := hl x hx
  exact id

theorem structCreate_spares {grow : Bool} {k : Key} {m : Text} {ty : Option SqlType} {e : StructType} {s : Stmt} (hs : s ∈ e.createStmt d) :
    Spares grow k m ty s := by
  rcases structCreate_mem hs with ⟨_, rfl⟩ | ⟨_, rfl⟩ | ⟨_, _, rfl⟩ <;> trivial

/-- The statements of a namespace, apart from those that alter the table with the key. -/
theorem namespace_spares {grow : Bool} {k : Key} {m : Text} {ty : Option SqlType} {a b : Namespace} {l : List Stmt} (h : mutateNamespace d o a b = .ok l)
    (hcreate : ∀ tb ∈ b.tables.difference a.tables, tb.name.key ≠ k) (hdrop : ∀ tb ∈ a.tables.difference b.tables, tb.name.key ≠ k)
    (hmut : ∀ x y, (x, y) ∈ a.tables.intersection b.tables → ∀ l, mutateTable d x y = .ok l → ∀ s ∈ l, Spares grow k m ty s)
    {s : Stmt} (hs : s ∈ l) : Spares grow k m ty s := by
  cases nsOrigin h hs with
  | enumCreate e he h => rw [List.mem_singleton.1 (show s ∈ [_] from h)]; trivial
  | structCreate e he h => exact structCreate_spares h
  | enumSoft p hp h => rw [List.mem_singleton.1 (show s ∈ [_] from h)]; trivial
  | tableCreate tb he l hl h => exact create_spares hl (hcreate tb he) h
  | tableConstraints tb _ h => exact addConstraints_spares h
  | enumMigrate p hp h =>
    rw [List.mem_singleton.1 (show s ∈ [_] from h)]
    simp only [softPairs, List.mem_flatMap, List.mem_map, List.mem_filter] at hp
    obtain ⟨e, he, tb, ⟨htb, _⟩, rfl⟩ := hp
    exact .inr (hcreate tb htb)
  | enumMutate x y _ l hl h => obtain ⟨v, rfl⟩ := mutateEnum_mem hl h; trivial
  | structMutate x y hp l hl h => rcases mutateStruct_mem hl h with ⟨_, rfl⟩ | ⟨_, rfl⟩ <;> trivial
  | tableMutate x y hp l hl h => exact hmut x y hp l hl s h
  | tableDrop tb _ he h =>
    rw [List.mem_singleton.1 (show s ∈ [_] from h)]
    exact hdrop tb he
  | structDrop e _ he h => rw [List.mem_singleton.1 (show s ∈ [_] from h)]; trivial
  | enumDrop e _ he h =>
    rcases h with ⟨h, _⟩ | ⟨h, _⟩ <;> (rw [List.mem_singleton.1 (show s ∈ [_] from h)]; trivial)

/-- The statements of a catalog. -/
theorem catalog_spares {topo : List (Text × List Text) → Except Err (List Text)} (ht : Sorts topo) {S T : Catalog} (wS : CatWF d S) (wT : CatWF d T)
    {grow : Bool} {k : Key} {m : Text} {ty : Option SqlType} {stmts : List Stmt} (h : mutateCatalog topo d o S T = .ok stmts)
    (hS : ∀ n ∈ S.namespaces.items, n.name = k.1 → ∃ n' ∈ T.namespaces.items, n'.name = n.name)
    (hcreate : ∀ b, IsTable T b → b.name.key = k → ∃ a, IsTable S a ∧ a.name.key = k)
    (hdrop : ∀ a, IsTable S a → a.name.key = k → ∃ b, IsTable T b ∧ b.name.key = k)
    (hmut : ∀ x y, IsTable S x → IsTable T y → x.name.key = y.name.key → ∀ l, mutateTable d x y = .ok l → ∀ s ∈ l, Spares grow k m ty s)
    {s : Stmt} (hs : s ∈ stmts) : Spares grow k m ty s := by
  cases origin ht wS.names wT.names h hs with
  | created n hT hS' h =>
    rcases h with h | ⟨l, hl, h⟩ | h
    · obtain ⟨b, rfl⟩ := createSchema_mem h; trivial
    · rcases createObjects_mem hl h with ⟨e, he, h⟩ | ⟨e, he, h⟩ | ⟨tb, htb, x, hx, h⟩
      · rw [List.mem_singleton.1 (show s ∈ [_] from h)]; trivial
      · exact structCreate_spares h
      · refine create_spares hx ?_ h
        intro e
        obtain ⟨a, ⟨n', hn', ha⟩, hk⟩ := hcreate tb ⟨n, hT, htb⟩ e
        exact hS' n' hn' (by rw [← (wS.wf n' hn').tableScope a ha, ← (wT.wf n hT).tableScope tb htb, hk, e])
    · obtain ⟨tb, _, h⟩ := List.mem_flatMap.1 h
      exact addConstraints_spares h
  | changed a b ha hb hn l hl hs =>
    refine namespace_spares hl ?_ ?_ ?_ hs
    · intro tb htb e
      obtain ⟨x, ⟨n', hn', hx⟩, hk⟩ := hcreate tb ⟨b, hb, (mem_diff htb).1⟩ e
      have hsc := (wS.wf n' hn').tableScope x hx
      have : n' = a := eq_of_key wS.names hn' ha (by
        show n'.name = a.name
        rw [← hsc, hn, ← (wT.wf b hb).tableScope tb (mem_diff htb).1, hk, e])
      subst this
      exact (mem_diff htb).2 x hx (congrArg Prod.snd (e.trans hk.symm))
    · intro tb htb e
      obtain ⟨x, ⟨n', hn', hx⟩, hk⟩ := hdrop tb ⟨a, ha, (mem_diff htb).1⟩ e
      have hsc := (wT.wf n' hn').tableScope x hx
      have : n' = b := eq_of_key wT.names hn' hb (by
        show n'.name = b.name
        rw [← hsc, ← hn, ← (wS.wf a ha).tableScope tb (mem_diff htb).1, hk, e])
      subst this
      exact (mem_diff htb).2 x hx (congrArg Prod.snd (e.trans hk.symm))
    · intro x y hp l hl s hs
      have hi := mem_inter hp
      refine hmut x y ⟨a, ha, hi.1⟩ ⟨b, hb, hi.2.1⟩ ?_ l hl s hs
      exact Prod.ext ((wS.wf a ha).tableScope x hi.1 |>.trans (hn.trans ((wT.wf b hb).tableScope y hi.2.1).symm)) hi.2.2
  | released n hS' hT h =>
    obtain ⟨tb, _, h⟩ := List.mem_flatMap.1 h
    exact dropConstraints_spares h
  | removed n hn hT _ h =>
    rcases h with h | h
    · rcases dropObjects_mem h with ⟨tb, htb, rfl⟩ | ⟨e, _, rfl⟩ | ⟨e, _, rfl⟩
      · intro e
        obtain ⟨n', hn', he⟩ := hS n hn (by rw [← (wS.wf n hn).tableScope tb htb, e])
        exact hT n' hn' he
      · trivial
      · trivial
    · obtain ⟨b, rfl⟩ := dropSchema_mem h
      intro e
      obtain ⟨n', hn', he⟩ := hS n hn e
      exact hT n' hn' he

end PySqlSync.Dat

namespace PySqlSync.Dat
open Spec

variable {R : RowEngine} {d : Dialect} {o : MutatorOptions} {topo : List (Text × List Text) → Except Err (List Text)}

/-- A common table's own block of statements in the script of a namespace. -/
theorem namespace_around {a b : Namespace} (wa : NsWF d a) (wb : NsWF d b) {l : List Stmt} (h : mutateNamespace d o a b = .ok l)
    {x y : Table} (hx : x ∈ a.tables.items) (hy : y ∈ b.tables.items) (hxy : x.name.localId = y.name.localId) :
    ∃ P lx Q, l = P ++ (lx ++ Q) ∧ mutateTable d x y = .ok lx
      ∧ (∀ s ∈ P ++ Q, ∀ grow m ty, (grow = true ∨ ∀ x' ∈ a.tables.items, ∀ y' ∈ b.tables.items, x'.name.localId = y'.name.localId → Unfed d x' y' x.name.key) →
          Spares grow x.name.key m ty s)
      ∧ ∃ P1 P2 r, P = P1 ++ P2 ∧ (b.tables.difference a.tables).mapM (fun tb => tb.createStmt d) = .ok r
        ∧ P1 = (b.enums.difference a.enums).flatMap EnumType.createStmt ++ (b.structs.difference a.structs).flatMap (StructType.createStmt d)
          ++ (softPairs a b).flatMap (fun p => p.1.softDropStmt) ++ r.flatten ++ (b.tables.difference a.tables).flatMap (Table.addConstraintsStmt d)
          ++ (softPairs a b).flatMap (fun p => migrateEnum d p.1 p.2)
        ∧ ∀ s ∈ P2 ++ (lx ++ Q), ∀ tb ∈ b.tables.difference a.tables, ∀ m ty, Spares true tb.name.key m ty s := by
  have hint : (x, y) ∈ a.tables.intersection b.tables := Rem.mem_inter_intro wb.tables hx hy hxy
  obtain ⟨r, em, sm, tm, hr, hem, hsm, htm, rfl⟩ := Rem.mutateNamespace_inv h
  obtain ⟨p, lx, s, h1, h2, h3⟩ := Rem.split_mapM (key := fun p => key p.1) htm (ODict.intersection_nodup wa.tables _) hint
  have hname := Rem.mutateTable_name h1
  have hcr : ∀ tb ∈ b.tables.difference a.tables, tb.name.key ≠ x.name.key := by
    intro tb htb e
    exact (mem_diff htb).2 x hx (congrArg Prod.snd e)
  refine ⟨(b.enums.difference a.enums).flatMap EnumType.createStmt ++ (b.structs.difference a.structs).flatMap (StructType.createStmt d)
        ++ (softPairs a b).flatMap (fun p => p.1.softDropStmt) ++ r.flatten ++ (b.tables.difference a.tables).flatMap (Table.addConstraintsStmt d)
        ++ (softPairs a b).flatMap (fun p => migrateEnum d p.1 p.2) ++ em.flatten ++ sm.flatten ++ p, lx, s ++ ((if o.allowDropTable then (a.tables.difference b.tables).flatMap Table.dropStmt else [])
        ++ (if o.allowDropStruct then (a.structs.difference b.structs).flatMap StructType.dropStmt else [])
        ++ (if o.allowDropEnum then (a.enums.difference b.enums).flatMap (fun e =>
          if ((softPairs a b).map Prod.fst).contains e then e.hardDropStmt else e.dropStmt) else [])), ?_, h1, ?_, (b.enums.difference a.enums).flatMap EnumType.createStmt ++ (b.structs.difference a.structs).flatMap (StructType.createStmt d)
        ++ (softPairs a b).flatMap (fun p => p.1.softDropStmt) ++ r.flatten ++ (b.tables.difference a.tables).flatMap (Table.addConstraintsStmt d)
        ++ (softPairs a b).flatMap (fun p => migrateEnum d p.1 p.2),
    em.flatten ++ sm.flatten ++ p, r, ?_, hr, rfl, ?_⟩
  · rw [h2]; simp only [List.append_assoc]
  · intro st hst grow m ty hg
    have other : ∀ st ∈ p ++ s, Spares grow x.name.key m ty st := by
      intro st hst
      obtain ⟨z, hz, hkz, lz, hlz, hm⟩ := h3 st hst
      have hi := mem_inter (x := z.1) (y := z.2) hz
      refine table_other hlz (fun e => hkz (show z.1.name.key.2 = x.name.key.2 from congrArg Prod.snd e)) (hg.imp id fun h => h z.1 hi.1 z.2 hi.2.1 hi.2.2) hm
    simp only [List.mem_append] at hst
    rcases hst with ((((((((hs | hs) | hs) | hs) | hs) | hs) | hs) | hs) | hs) | (hs | ((hs | hs) | hs))
    · obtain ⟨e, _, hs⟩ := List.mem_flatMap.1 hs
      rw [List.mem_singleton.1 (show st ∈ [_] from hs)]; trivial
    · obtain ⟨e, _, hs⟩ := List.mem_flatMap.1 hs
      exact structCreate_spares hs
    · obtain ⟨e, _, hs⟩ := List.mem_flatMap.1 hs
      rw [List.mem_singleton.1 (show st ∈ [_] from hs)]; trivial
    · obtain ⟨tb, htb, l, hl, hs⟩ := mem_of_mapM hr hs
      exact create_spares hl (hcr tb htb) hs
    · obtain ⟨tb, _, hs⟩ := List.mem_flatMap.1 hs
      exact addConstraints_spares hs
    · obtain ⟨q, hq, hs⟩ := List.mem_flatMap.1 hs
      rw [List.mem_singleton.1 (show st ∈ [_] from hs)]
      simp only [softPairs, List.mem_flatMap, List.mem_map, List.mem_filter] at hq
      obtain ⟨e, he, tb, ⟨htb, _⟩, rfl⟩ := hq
      exact .inr (hcr tb htb)
    · obtain ⟨e, _, l, hl, hs⟩ := mem_of_mapM hem hs
      obtain ⟨v, rfl⟩ := mutateEnum_mem hl hs; trivial
    · obtain ⟨e, _, l, hl, hs⟩ := mem_of_mapM hsm hs
      rcases mutateStruct_mem hl hs with ⟨_, rfl⟩ | ⟨_, rfl⟩ <;> trivial
    · exact other st (List.mem_append_left _ hs)
    · exact other st (List.mem_append_right _ hs)
    · split at hs
      · obtain ⟨tb, htb, hs⟩ := List.mem_flatMap.1 hs
        rw [List.mem_singleton.1 (show st ∈ [_] from hs)]
        intro e
        exact (mem_diff htb).2 y hy (congrArg Prod.snd (e.trans (congrArg QId.key hname)))
      · cases hs
    · split at hs
      · obtain ⟨tb, htb, hs⟩ := List.mem_flatMap.1 hs
        rw [List.mem_singleton.1 (show st ∈ [_] from hs)]; trivial
      · cases hs
    · split at hs
      · obtain ⟨tb, htb, hs⟩ := List.mem_flatMap.1 hs
        split at hs <;> (rw [List.mem_singleton.1 (show st ∈ [_] from hs)]; trivial)
      · cases hs
  · simp only [List.append_assoc]
  · intro st hst tb htb m ty
    have other : ∀ st ∈ tm.flatten, Spares true tb.name.key m ty st := by
      intro st hst
      obtain ⟨z, hz, lz, hlz, hm⟩ := mem_of_mapM htm hst
      have hi := mem_inter (x := z.1) (y := z.2) hz
      exact table_other hlz (fun e => (mem_diff htb).2 z.1 hi.1 (congrArg Prod.snd e.symm)) (.inl rfl) hm
    rw [h2] at other
    simp only [List.mem_append] at hst
    rcases hst with ((hs | hs) | hs) | (hs | (hs | ((hs | hs) | hs)))
    · obtain ⟨e, _, l, hl, hs⟩ := mem_of_mapM hem hs
      obtain ⟨v, rfl⟩ := mutateEnum_mem hl hs; trivial
    · obtain ⟨e, _, l, hl, hs⟩ := mem_of_mapM hsm hs
      rcases mutateStruct_mem hl hs with ⟨_, rfl⟩ | ⟨_, rfl⟩ <;> trivial
    · exact other st (List.mem_append_left _ hs)
    · exact other st (List.mem_append_right _ (List.mem_append_left _ hs))
    · exact other st (List.mem_append_right _ (List.mem_append_right _ hs))
    · split at hs
      · obtain ⟨tb', htb', hs⟩ := List.mem_flatMap.1 hs
        rw [List.mem_singleton.1 (show st ∈ [_] from hs)]
        intro e
        exact (mem_diff htb).2 tb' (mem_diff htb').1 (congrArg Prod.snd e.symm)
      · cases hs
    · split at hs
      · obtain ⟨tb, htb, hs⟩ := List.mem_flatMap.1 hs
        rw [List.mem_singleton.1 (show st ∈ [_] from hs)]; trivial
      · cases hs
    · split at hs
      · obtain ⟨tb, htb, hs⟩ := List.mem_flatMap.1 hs
        split at hs <;> (rw [List.mem_singleton.1 (show st ∈ [_] from hs)]; trivial)
      · cases hs

/-- The script of another namespace. -/
theorem namespace_other {a b : Namespace} (wa : NsWF d a) (wb : NsWF d b) {l : List Stmt} (h : mutateNamespace d o a b = .ok l)
    (hab : a.name = b.name) {k : Key} (hk : k.1 ≠ b.name) {grow : Bool} {m : Text} {ty : Option SqlType}
    (hg : grow = true ∨ ∀ x' ∈ a.tables.items, ∀ y' ∈ b.tables.items, x'.name.localId = y'.name.localId → Unfed d x' y' k)
    {s : Stmt} (hs : s ∈ l) : Spares grow k m ty s := by
  refine namespace_spares h ?_ ?_ ?_ hs
  · intro tb htb e
    exact hk (by rw [← e]; exact wb.tableScope tb (mem_diff htb).1)
  · intro tb htb e
    exact hk (by rw [← e, ← hab]; exact wa.tableScope tb (mem_diff htb).1)
  · intro x y hp l hl s hs
    have hi := mem_inter hp
    refine table_other hl ?_ (hg.imp id fun h => h x hi.1 y hi.2.1 hi.2.2) hs
    intro e
    exact hk (by rw [← e, ← hab]; exact wa.tableScope x hi.1)

/-- A common namespace's own block of statements in the script of a catalog. -/
theorem catalog_around (ht : Sorts topo) {S T : Catalog} (wS : CatWF d S) (wT : CatWF d T) {stmts : List Stmt}
    (h : mutateCatalog topo d o S T = .ok stmts) {a b : Namespace} (ha : a ∈ S.namespaces.items) (hb : b ∈ T.namespaces.items)
    (hab : a.name = b.name) :
    ∃ P l Q, stmts = P ++ (l ++ Q) ∧ mutateNamespace d o a b = .ok l
      ∧ ∀ s ∈ P ++ Q, ∀ k : Key, k.1 = b.name → ∀ grow m ty,
        (grow = true ∨ ∀ x y, IsTable S x → IsTable T y → x.name.key = y.name.key → Unfed d x y k) → Spares grow k m ty s := by
  obtain ⟨S', T', h1, h2, h3⟩ := mutateCatalog_sorted h
  have kS := sort_mem ht wS.names h1
  have kT := sort_mem ht wT.names h2
  have ha' := (kS.2.1 a).2 ha
  have hb' := (kT.2.1 b).2 hb
  have wS' : ∀ n ∈ S'.namespaces.items, n ∈ S.namespaces.items := fun n hn => (kS.2.1 n).1 hn
  have wT' : ∀ n ∈ T'.namespaces.items, n ∈ T.namespaces.items := fun n hn => (kT.2.1 n).1 hn
  have dS : Distinct S'.namespaces := (wf_sort ht wS h1).names
  have dT : Distinct T'.namespaces := (wf_sort ht wT h2).names
  obtain ⟨cr, mu, hcr, hmu, rfl⟩ := Rem.mutateSorted_inv h3
  have hint := Rem.mem_inter_intro dT ha' hb' hab
  obtain ⟨p, lx, s, e1, e2, e3⟩ := Rem.split_mapM (key := fun p => key p.1) hmu (ODict.intersection_nodup dS _) hint
  refine ⟨(T'.namespaces.difference S'.namespaces).flatMap (Namespace.createSchemaStmt d) ++ cr.flatten
      ++ (T'.namespaces.difference S'.namespaces).flatMap (Namespace.addConstraintsStmt d) ++ p, lx, s ++ ((S'.namespaces.difference T'.namespaces).flatMap Namespace.dropConstraintsStmt
      ++ (if o.allowDropNamespace then (S'.namespaces.difference T'.namespaces).flatMap Namespace.dropObjectsStmt
          ++ (S'.namespaces.difference T'.namespaces).flatMap (Namespace.dropSchemaStmt d) else [])), ?_, e1, ?_⟩
  · rw [e2]; simp only [List.append_assoc]
  · intro st hst k hk grow m ty hg
    have other : ∀ st ∈ p ++ s, Spares grow k m ty st := by
      intro st hst
      obtain ⟨z, hz, hkz, lz, hlz, hm⟩ := e3 st hst
      have hi := mem_inter (x := z.1) (y := z.2) hz
      have hz1 := wS' _ hi.1
      have hz2 := wT' _ hi.2.1
      refine namespace_other (wS.wf _ hz1) (wT.wf _ hz2) hlz hi.2.2 ?_ (hg.imp id fun h => ?_) hm
      · intro e
        exact hkz (hi.2.2.trans (e.symm.trans (hk.trans hab.symm)))
      · intro x' hx' y' hy' hxy
        refine h x' y' ⟨_, hz1, hx'⟩ ⟨_, hz2, hy'⟩ ?_
        exact Prod.ext ((wS.wf _ hz1).tableScope x' hx' |>.trans (hi.2.2.trans ((wT.wf _ hz2).tableScope y' hy').symm)) hxy
    simp only [List.mem_append] at hst
    rcases hst with (((hs | hs) | hs) | hs) | (hs | (hs | hs))
    · obtain ⟨n, _, hs⟩ := List.mem_flatMap.1 hs
      obtain ⟨b, rfl⟩ := createSchema_mem hs; trivial
    · obtain ⟨n, hn, l, hl, hs⟩ := mem_of_mapM hcr hs
      have hn' := wT' n (mem_diff hn).1
      rcases createObjects_mem hl hs with ⟨e, he, h⟩ | ⟨e, he, h⟩ | ⟨tb, htb, x, hx, h⟩
      · rw [List.mem_singleton.1 (show st ∈ [_] from h)]; trivial
      · exact structCreate_spares h
      · refine create_spares hx ?_ h
        intro e
        refine (mem_diff hn).2 a ha' ?_
        show n.name = a.name
        rw [← (wT.wf n hn').tableScope tb htb, e, hk, hab]
    · obtain ⟨n, _, hs⟩ := List.mem_flatMap.1 hs
      obtain ⟨tb, _, hs⟩ := List.mem_flatMap.1 hs
      exact addConstraints_spares hs
    · exact other st (List.mem_append_left _ hs)
    · exact other st (List.mem_append_right _ hs)
    · obtain ⟨n, _, hs⟩ := List.mem_flatMap.1 hs
      obtain ⟨tb, _, hs⟩ := List.mem_flatMap.1 hs
      exact dropConstraints_spares hs
    · split at hs
      · rcases List.mem_append.1 hs with hs | hs
        · obtain ⟨n, hn, hs⟩ := List.mem_flatMap.1 hs
          rcases dropObjects_mem hs with ⟨tb, htb, rfl⟩ | ⟨e, _, rfl⟩ | ⟨e, _, rfl⟩
          · intro e
            refine (mem_diff hn).2 b hb' ?_
            show n.name = b.name
            rw [← (wS.wf n (wS' n (mem_diff hn).1)).tableScope tb htb, e, hk]
          · trivial
          · trivial
        · obtain ⟨n, hn, hs⟩ := List.mem_flatMap.1 hs
          obtain ⟨c, rfl⟩ := dropSchema_mem hs
          intro e
          exact (mem_diff hn).2 b hb' (e.trans hk)
      · cases hs

end PySqlSync.Dat
