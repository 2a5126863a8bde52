/-
C06 — Table alteration is exact.
-/
import Verif.Lemmas.Db
import Verif.Lemmas.Exec
import Verif.Examples.Shop

set_option autoImplicit false

namespace PySqlSync
open Spec

theorem srcCols_id (d : Dialect) (S : Table) : srcCols d id S = tabCols d S := by
  funext n
  simp only [srcCols, tabCols]
  cases S.columns.get n <;> rfl

/-- In a consistent database that has the source table, the script emitted for a pair of tables is accepted statement
    by statement, the database is consistent after each of them, and in the end the table is exactly the target table
    and all else is as before, if the two tables are within `TableSafe`.  (`C06_exact_criterion`: and only then.) -/
theorem C06_alter_table_safe (d : Dialect) (condCols : Text → List Text) {S T : Table} {db : Db}
    (v : Valid db) (wS : TableWF d S) (wT : TableWF d T) (safe : TableSafe d (engine d condCols) S T)
    (h0 : db.objs S.name.key = some (.table (Spec.Table.state d (engine d condCols) S)))
    (hT : (Spec.Table.state d (engine d condCols) T).Fits db.kinds)
    {stmts : List Stmt} (h : mutateTable d S T = .ok stmts) :
    Runs (engine d condCols) db stmts
      { db with objs := upd db.objs S.name.key (some (.table (Spec.Table.state d (engine d condCols) T))) } := by
  have eS := state_eq d (engine d condCols) S wS.columns
  have eT := state_eq d (engine d condCols) T wT.columns
  refine run_mutateTable (σ := id) v
    { wfS := wS, wfT := wT, safe := safe, fitS := ?_, fitT := ?_, hσ := fun _ _ _ _ _ _ => rfl, hE := ?_ } ?_ h
  · rw [srcCols_id, ← eS]; exact v.fits _ _ h0
  · rw [← eT]; exact hT
  · intro e; rw [e]; rfl
  · rw [srcCols_id, ← eS]; exact h0

/-- Hence the columns, the primary key and the constraints of the table are those of the target. -/
theorem C06_columns_and_constraints (d : Dialect) (condCols : Text → List Text) {S T : Table} {db db' : Db}
    (v : Valid db) (wS : TableWF d S) (wT : TableWF d T) (safe : TableSafe d (engine d condCols) S T)
    (h0 : db.objs S.name.key = some (.table (Spec.Table.state d (engine d condCols) S)))
    (hT : (Spec.Table.state d (engine d condCols) T).Fits db.kinds)
    {stmts : List Stmt} (h : mutateTable d S T = .ok stmts) (hr : Runs (engine d condCols) db stmts db') :
    ∃ ts, db'.objs S.name.key = some (.table ts)
      ∧ (∀ n, ts.cols n = (T.columns.get n).map (Spec.Column.state d))
      ∧ ts.pk = T.primaryKey
      ∧ (∀ n, ts.cons n = (T.constraints.get n).bind (Spec.Constraint.state (engine d condCols)))
      ∧ (∀ k, k ≠ S.name.key → db'.objs k = db.objs k) ∧ db'.schemas = db.schemas := by
  have := C06_alter_table_safe d condCols v wS wT safe h0 hT h
  have e := (runs_exec hr).symm.trans (runs_exec this)
  cases e
  refine ⟨Spec.Table.state d (engine d condCols) T, by simp [upd], fun _ => rfl, rfl, fun _ => rfl, ?_, rfl⟩
  intro k hk
  simp [upd, hk]

/-- For two tables that differ in the primary key only, nothing is emitted. -/
theorem C06_primary_key_change_ignored (d : Dialect) (S : Table) (pk : List Text) (hc : Distinct S.columns)
    (hk : Distinct S.constraints)
    (hlen : d = .mysql → ∀ c ∈ S.columns.items, ∃ x, c.comment d = .ok x) :
    mutateTable d S { S with primaryKey := pk } = .ok [] := by
  have hcol : ∀ p ∈ S.columns.intersection S.columns, p.1 = p.2 := by
    intro p hp
    obtain ⟨h1, h2, h3⟩ := (ODict.mem_intersection hc).1 hp
    have e1 := ODict.get_eq_of_mem hc h1
    have e2 := ODict.get_eq_of_mem hc h2
    rw [h3, e2] at e1
    exact (Option.some.inj e1).symm
  have hcon : ∀ p ∈ S.constraints.intersection S.constraints, p.1 = p.2 := by
    intro p hp
    obtain ⟨h1, h2, h3⟩ := (ODict.mem_intersection hk).1 hp
    have e1 := ODict.get_eq_of_mem hk h1
    have e2 := ODict.get_eq_of_mem hk h2
    rw [h3, e2] at e1
    exact (Option.some.inj e1).symm
  have hdiff : ∀ {α : Type} [Named α] (D : ODict α), D.difference D = [] := by
    intro α _ D
    apply List.eq_nil_iff_forall_not_mem.2
    intro a ha
    obtain ⟨h1, h2⟩ := ODict.mem_difference.1 ha
    exact h2 (List.mem_map_of_mem h1)
  have hmig : migratedPairs d S { S with primaryKey := pk } = [] := by
    unfold migratedPairs
    rw [List.filter_eq_nil_iff]
    intro p hp
    simp [isColumnMigrated, hcol p hp]
  have hmut : ∀ p ∈ S.columns.intersection S.columns, mutateColumn d p.1 p.2 = .ok [] := by
    intro p hp
    have e := hcol p hp
    have hm : p.2 ∈ S.columns.items := ((ODict.mem_intersection hc).1 hp).2.1
    cases d with
    | mysql =>
      obtain ⟨x, hx⟩ := hlen rfl _ hm
      simp [mutateColumn, e, hx, bind, Except.bind, pure, Except.pure]
    | _ => simp [mutateColumn, e]
  have hmapM : (S.columns.intersection S.columns).mapM (fun p => mutateColumn d p.1 p.2)
      = .ok ((S.columns.intersection S.columns).map (fun _ => [])) := by
    generalize S.columns.intersection S.columns = l at hmut
    induction l with
    | nil => rfl
    | cons p l ih =>
      rw [List.mapM_cons, hmut p (List.mem_cons_self ..), ih (fun q hq => hmut q (List.mem_cons_of_mem _ hq))]
      rfl
  have hfl : ((S.columns.intersection S.columns).map (fun _ => ([] : List Action))).flatten = [] := by
    rw [List.flatten_eq_nil_iff]
    intro l hl
    obtain ⟨_, _, rfl⟩ := List.mem_map.1 hl
    rfl
  have hany : (S.constraints.intersection S.constraints).any (fun p => p.1 ≠ p.2) = false := by
    rw [List.any_eq_false]
    intro p hp
    simp [hcon p hp]
  have halt : alterActions S { S with primaryKey := pk } d = .ok [] := by
    unfold alterActions
    simp only [hmig, List.map_nil, hmapM, wrapColumn, bind, Except.bind, hfl, hdiff, hany, pure, Except.pure,
      List.filterMap_nil, List.append_nil, Bool.false_eq_true, if_false]
  have hbase : mutateTableBase d S { S with primaryKey := pk } = .ok [] := by
    unfold mutateTableBase
    simp [checkIdentity, hmig, halt, hdiff, wrapColumn, bind, Except.bind, pure, Except.pure]
  have hchg : ∀ (x : Option Text) (mk : Option Text → Stmt), commentChange x x mk = [] := by
    intro x mk; cases x <;> simp [commentChange]
  unfold mutateTable
  rw [hbase]
  cases d with
  | mssql =>
    have : mssqlDefaults S { S with primaryKey := pk } = [] := by
      simp only [mssqlDefaults, List.flatMap_eq_nil_iff]
      intro p hp
      simp [mssqlDefault, hcol p hp]
    simp [bind, Except.bind, pure, Except.pure, this]
  | mysql =>
    simp only [bind, Except.bind, pure, Except.pure, List.nil_append]
    have : Table.shortDescription { S with primaryKey := pk } = S.shortDescription := rfl
    rw [this]
    cases S.shortDescription <;> simp
  | postgresql =>
    simp only [bind, Except.bind, pure, Except.pure, List.nil_append, hchg, List.append_nil]
    congr 1
    rw [List.flatMap_eq_nil_iff]
    intro c hcm
    rw [show S.columns.get c.name = some c from ODict.get_eq_of_mem hc hcm]
    simp [hchg]
  | _ => rfl

/-- The hypotheses of `C06_alter_table_safe` are met by a change of a column's type and of the sets of
    columns and constraints, in the database described by the example. -/
example : Runs Example.E (Spec.Catalog.db .postgresql Example.E Example.source)
    ((mutateTable .postgresql Example.customer0 Example.customer1).toOption.getD [])
    { (Spec.Catalog.db .postgresql Example.E Example.source) with
      objs := upd (Spec.Catalog.db .postgresql Example.E Example.source).objs (t "shop", t "customer")
        (some (.table (Spec.Table.state .postgresql Example.E Example.customer1))) } := by
  have safe : TableSafe .postgresql Example.E Example.customer0 Example.customer1 := tableSafeB_ok (by decide +kernel)
  have v : Valid (Spec.Catalog.db .postgresql Example.E Example.source) := catValidB_ok (by decide +kernel)
  refine C06_alter_table_safe .postgresql _ v (tableWFB_ok (by decide +kernel)) (tableWFB_ok (by decide +kernel))
    safe rfl ?_ (Example.ok_of_toOption rfl)
  exact tableFitsB_ok (by decide +kernel)

end PySqlSync
